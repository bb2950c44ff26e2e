import Verif.Cc.HybridKemLemmas
import Verif.Cc.HybridKeyManagers
import Verif.Cc.SigManages
import Verif.Proto.GenHybridLemmas

/-!
# What each key manager for hybrid encryption keys does, in terms of the keys
-/

namespace Tink.Cc
open Spec Cpp Props

/-- The primitive encrypts as the key says. -/
def EncryptsAs (lib : HybSsl) (a : Cpp.HybridEncrypt) (v : HybPub) : Prop :=
  ∀ seed pt info ct, a.encrypt seed pt info = .ok ct ↔ v.Encrypts lib seed info pt ct

/-- The primitive decrypts as the key says. -/
def DecryptsAs (lib : HybSsl) (a : Cpp.HybridDecrypt) (s : HybPriv) : Prop :=
  ∀ ct info pt, a.decrypt ct info = .ok pt ↔ s.Decrypts lib info ct pt

/-- The functions of a key type manager for public keys, in terms of the keys. -/
structure DescribesEncrypt {K : Type} (lib : HybSsl) (m : PublicKeyTypeManager K Cpp.HybridEncrypt)
    (R : K → HybPub → Prop) : Prop where
  sound : ∀ k a, m.validateKey k = .ok () → m.create k = .ok a → ∃ v, R k v ∧ v.Ok lib ∧ EncryptsAs lib a v
  complete : ∀ k v, R k v → v.Ok lib → m.validateKey k = .ok () ∧ ∃ a, m.create k = .ok a
  unique : ∀ k v v', R k v → R k v' → v = v'
  serialize : ∀ k v, R k v → v.size < 2 ^ 31 - 1000 →
    ∃ b, m.serializeKey k = .ok b ∧ b.length ≤ v.size + 300
  parse : ∀ k b, m.serializeKey k = .ok b → m.parseKey b = .ok k
  url : m.keyType.length ≤ 100
  material : m.keyMaterialType = KeyMaterialType.ASYMMETRIC_PUBLIC

/-- The functions of a key type manager for private keys, in terms of the keys. -/
structure DescribesDecrypt {K F : Type} (lib : HybSsl) (seed : Seed) (m : KeyTypeManager K F Cpp.HybridDecrypt)
    (R : K → HybPriv → Prop) (A : F → HybPriv → Prop) : Prop where
  sound : ∀ k a, m.validateKey k = .ok () → m.create k = .ok a → ∃ s, R k s ∧ s.Ok ∧ DecryptsAs lib a s
  complete : ∀ k s, R k s → s.Ok → ∃ a, m.create k = .ok a
  checked : ∀ k s, R k s → (m.validateKey k = .ok () ↔ s.publicPart.Checked)
  relates : ∀ k, m.validateKey k = .ok () → ∃ s, R k s
  unique : ∀ k s s', R k s → R k s' → s = s'
  made : ∀ f k, m.validateKeyFormat f = .ok () → m.createKey seed f = .ok k →
    ∃ s, A f s ∧ s.publicPart.Checked ∧ R k s
  makes : ∀ f s, A f s → s.publicPart.Checked → m.validateKeyFormat f = .ok () ∧
    ∃ k, m.createKey seed f = .ok k ∧ R k s
  serialize : ∀ k s, R k s → s.size < 2 ^ 31 - 1000 →
    ∃ b, m.serializeKey k = .ok b ∧ b.length ≤ s.size + 400
  parse : ∀ k b, m.serializeKey k = .ok b → m.parseKey b = .ok k
  url : m.keyType.length ≤ 100
  material : m.keyMaterialType = KeyMaterialType.ASYMMETRIC_PRIVATE

/-- An acceptable key passes the checks. -/
theorem hybChecked_of_ok {s : HybPriv} (h : s.Ok) : s.publicPart.Checked := by
  cases s with
  | ecies p x y d =>
    refine ⟨?_, h.1, h.2.1⟩
    rcases h.2.2.2.1 with ⟨⟨g, hg⟩, -⟩ | ⟨hc, -⟩
    · intro hu
      rw [hu] at hg
      generalize hz : EllipticCurveType.UNKNOWN_CURVE = z at hg
      cases hg <;> exact absurd hz (by decide)
    · rw [hc]; decide
  | hpke =>
    obtain ⟨h1, h2, h3, -⟩ := h
    exact ⟨by rw [h1]; decide, by rw [h2]; decide, h3⟩

theorem hybSize_publicPart (s : HybPriv) : s.publicPart.size ≤ s.size := Nat.le_add_right _ _

/-! ## Sizes of messages -/

theorem length_keyTemplate (t : KeyTemplate) (h : 4 * t.typeUrl.length + t.value.length < 2 ^ 31) :
    (encodeFields t.fields).length ≤ 4 * t.typeUrl.length + t.value.length + 60 := by
  unfold KeyTemplate.fields
  rw [length_encodeFields_append, length_encodeFields_append]
  have h1 := length_strField (num := 1) (s := t.typeUrl) (by decide) (by omega)
  have h2 := length_bytesField (num := 2) (b := t.value) (by decide) (by omega)
  have h3 := length_enumField (num := 3) (e := t.outputPrefixType) (by decide)
  omega

theorem length_eciesParams {q : EciesAeadHkdfParams} {p : EciesParams} (hm : EciesParams.InMessage q p)
    (h : p.size < 2 ^ 31) : (encodeFields q.fields).length ≤ p.size + 200 := by
  cases hm with
  | @mk kem dem t hk hd ht =>
    have h : kem.hkdfSalt.length + 4 * t.typeUrl.length + t.value.length < 2 ^ 31 := h
    show (encodeFields q.fields).length ≤ kem.hkdfSalt.length + 4 * t.typeUrl.length + t.value.length + 200
    have hk' : (encodeFields kem.fields).length ≤ kem.hkdfSalt.length + 60 := by
      unfold EciesHkdfKemParams.fields
      rw [length_encodeFields_append, length_encodeFields_append]
      have h1 := length_enumField (num := 1) (e := kem.curveType) (by decide)
      have h2 := length_enumField (num := 2) (e := kem.hkdfHashType) (by decide)
      have h3 := length_bytesField (num := 11) (b := kem.hkdfSalt) (by decide) (by omega)
      omega
    have hd' : (encodeFields dem.fields).length ≤ 4 * t.typeUrl.length + t.value.length + 80 := by
      unfold EciesAeadDemParams.fields
      have h1 := length_optField (num := 2) (o := dem.aeadDem) (f := KeyTemplate.fields)
        (m := 4 * t.typeUrl.length + t.value.length + 60) (by decide) (by omega) (fun t' ht' => by
          rw [ht] at ht'
          cases ht'
          exact length_keyTemplate t (by omega))
      omega
    unfold EciesAeadHkdfParams.fields
    rw [length_encodeFields_append, length_encodeFields_append]
    have h1 := length_optField (num := 1) (o := q.kemParams) (f := EciesHkdfKemParams.fields)
      (m := kem.hkdfSalt.length + 60) (by decide) (by omega) (fun x hx => by
        rw [hk] at hx; cases hx; exact hk')
    have h2 := length_optField (num := 2) (o := q.demParams) (f := EciesAeadDemParams.fields)
      (m := 4 * t.typeUrl.length + t.value.length + 80) (by decide) (by omega) (fun x hx => by
        rw [hd] at hx; cases hx; exact hd')
    have h3 := length_enumField (num := 3) (e := q.ecPointFormat) (by decide)
    omega

theorem length_eciesPublic {k : EciesAeadHkdfPublicKey} {v : HybPub} (hk : HybPub.OfEcies k v)
    (h : v.size < 2 ^ 31) : (encodeFields k.fields).length ≤ v.size + 300 := by
  cases hk with
  | @mk q p hv hq hm =>
    have h : p.size + k.x.length + k.y.length < 2 ^ 31 := h
    show (encodeFields k.fields).length ≤ p.size + k.x.length + k.y.length + 300
    unfold EciesAeadHkdfPublicKey.fields
    rw [length_encodeFields_append, length_encodeFields_append, length_encodeFields_append]
    have h1 := length_uint32Field (num := 1) (n := k.version) (by decide)
    have h2 := length_optField (num := 2) (o := k.params) (f := EciesAeadHkdfParams.fields) (m := p.size + 200)
      (by decide) (by omega) (fun x hx => by
        rw [hq] at hx; cases hx; exact length_eciesParams hm (by omega))
    have h3 := length_bytesField (num := 3) (b := k.x) (by decide) (by omega)
    have h4 := length_bytesField (num := 4) (b := k.y) (by decide) (by omega)
    omega

theorem length_hpkeParams (p : HpkeParams) : (encodeFields p.fields).length ≤ 60 := by
  unfold HpkeParams.fields
  rw [length_encodeFields_append, length_encodeFields_append]
  have h1 := length_enumField (num := 1) (e := p.kem) (by decide)
  have h2 := length_enumField (num := 2) (e := p.kdf) (by decide)
  have h3 := length_enumField (num := 3) (e := p.aead) (by decide)
  omega

theorem length_hpkePublic (k : HpkePublicKey) (h : k.publicKey.length < 2 ^ 31) :
    (encodeFields k.fields).length ≤ k.publicKey.length + 300 := by
  unfold HpkePublicKey.fields
  rw [length_encodeFields_append, length_encodeFields_append]
  have h1 := length_uint32Field (num := 1) (n := k.version) (by decide)
  have h2 := length_optField (num := 2) (o := k.params) (f := HpkeParams.fields) (m := 60) (by decide)
    (by decide) fun p _ => length_hpkeParams p
  have h3 := length_bytesField (num := 3) (b := k.publicKey) (by decide) (by omega)
  omega

/-! ## ECIES -/

section
variable {lib : HybSsl}

theorem order_lt (g : EcGroup) : curveOrder g < 256 ^ g.fieldSize := by cases g <;> decide

/-- The checks of the parameters. -/
theorem eciesParams_iff {q : EciesAeadHkdfParams} :
    EciesAeadHkdfPublicKeyManager.validateParams q = .ok () ↔ ∃ p, EciesParams.InMessage q p ∧
      p.curve ≠ EllipticCurveType.UNKNOWN_CURVE ∧ p.hash ≠ HashType.UNKNOWN_HASH ∧
      p.format ≠ EcPointFormat.UNKNOWN_FORMAT := by
  unfold EciesAeadHkdfPublicKeyManager.validateParams
  rw [ite_invalid', ite_invalid', ite_invalid', ite_invalid', ite_invalid']
  constructor
  · rintro ⟨h1, h2, h3, h4, h5, -⟩
    cases hk : q.kemParams with
    | none => simp [hk] at h1
    | some kem =>
      cases hd : q.demParams with
      | none => simp [hd] at h3
      | some dem =>
        have e : q.getDemParams = dem := by simp [EciesAeadHkdfParams.getDemParams, hd]
        have e' : q.getKemParams = kem := by simp [EciesAeadHkdfParams.getKemParams, hk]
        rw [e] at h4
        rw [e'] at h2
        simp only [Bool.or_eq_true, decide_eq_true_eq, not_or] at h2
        cases ht : dem.aeadDem with
        | none => simp [ht] at h4
        | some t => exact ⟨_, .mk hk hd ht, h2.1, h2.2, h5⟩
  · rintro ⟨p, hm, h1, h2, h3⟩
    cases hm with
    | mk hk hd ht =>
      refine ⟨by simp [hk], ?_, by simp [hd], by simp [EciesAeadHkdfParams.getDemParams, hd, ht], h3, rfl⟩
      simp only [Bool.or_eq_true, decide_eq_true_eq, not_or]
      rw [EciesAeadHkdfParams.getKemParams, hk]
      exact ⟨h1, h2⟩

theorem inMessage_unique {q : EciesAeadHkdfParams} {p p' : EciesParams} (h : EciesParams.InMessage q p)
    (h' : EciesParams.InMessage q p') : p = p' := by
  cases h with
  | mk h1 h2 h3 =>
    cases h' with
    | mk g1 g2 g3 =>
      rw [h1] at g1; cases g1
      rw [h2] at g2; cases g2
      rw [h3] at g3; cases g3
      rfl

theorem eciesPublicKey_iff {k : EciesAeadHkdfPublicKey} :
    EciesAeadHkdfPublicKeyManager.validateKey k = .ok () ↔ ∃ v, HybPub.OfEcies k v ∧ v.Checked := by
  unfold EciesAeadHkdfPublicKeyManager.validateKey
  rw [then_invalid, version_iff, ite_invalid', eciesParams_iff]
  constructor
  · rintro ⟨hv, hn, p, hm, hc⟩
    cases hq : k.params with
    | none => simp [hq] at hn
    | some q =>
      have e : k.getParams = q := by simp [EciesAeadHkdfPublicKey.getParams, hq]
      rw [e] at hm
      exact ⟨_, .mk hv hq hm, hc⟩
  · rintro ⟨v, hk, hc⟩
    cases hk with
    | mk hv hq hm =>
      refine ⟨hv, by simp [hq], _, ?_, hc⟩
      rw [EciesAeadHkdfPublicKey.getParams, hq]
      exact hm

theorem eciesPublic_unique {k : EciesAeadHkdfPublicKey} {v v' : HybPub} (h : HybPub.OfEcies k v)
    (h' : HybPub.OfEcies k v') : v = v' := by
  cases h with
  | mk hv hq hm =>
    cases h' with
    | mk hv' hq' hm' =>
      rw [hq] at hq'
      cases hq'
      rw [inMessage_unique hm hm']

theorem publicFor_iff {p : EciesParams} {x y : Bytes} : EciesParams.PublicFor lib p.curve x y ↔
    x ≠ [] ∧ (p.curve = EllipticCurveType.CURVE25519 ∧ y = [] ∨
      p.curve ≠ EllipticCurveType.CURVE25519 ∧ y ≠ []) ∧ ∃ kem, SenderIs lib p.curve x y kem := by
  constructor
  · intro h
    cases h with
    | nist hg hx hy hp => exact ⟨hx, .inr ⟨not_nist hg, hy⟩, _, .nist hg hp⟩
    | x25519 hc hx hy =>
      exact ⟨(by intro h; rw [h] at hx; cases hx), .inl ⟨hc, hy⟩, _, .x25519 hc hx hy⟩
  · rintro ⟨hx, hy, kem, hk⟩
    cases hk with
    | nist hg hp =>
      rcases hy with ⟨hc, -⟩ | ⟨-, hy⟩
      · exact absurd hc (not_nist hg)
      · exact .nist hg hx hy hp
    | x25519 hc hlen hy => exact .x25519 hc hlen hy

theorem eciesEncryptValidate_iff {k : EciesAeadHkdfPublicKey} {p : EciesParams} {x y : Bytes}
    (hk : HybPub.OfEcies k (.ecies p x y)) : eciesEncryptValidate k = .ok () ↔
      x ≠ [] ∧ (p.curve = EllipticCurveType.CURVE25519 ∧ y = [] ∨
        p.curve ≠ EllipticCurveType.CURVE25519 ∧ y ≠ []) := by
  cases hk with
  | @mk q p hv hq hm =>
    have e : k.getParams = q := by simp [EciesAeadHkdfPublicKey.getParams, hq]
    have hr := reads hm
    have hkem : q.kemParams.isSome = true := by cases hm with | mk h => simp [h]
    unfold eciesEncryptValidate
    rw [ite_invalid', hq, e, hkem, hr.curve]
    simp only [Option.isNone_some, Bool.or_false, List.isEmpty_iff, Bool.true_and, decide_eq_true_eq]
    refine and_congr Iff.rfl ?_
    by_cases hc : p.curve = EllipticCurveType.CURVE25519
    · rw [if_pos hc, ite_invalid']
      simp [hc]
    · rw [if_neg hc, ite_invalid']
      simp [hc]

theorem ecies_params {k : EciesAeadHkdfPublicKey} {p : EciesParams} {x y : Bytes}
    (hk : HybPub.OfEcies k (.ecies p x y)) : Reads k.getParams p ∧ k.x = x ∧ k.y = y := by
  cases hk with
  | @mk q p hv hq hm =>
    have e : k.getParams = q := by simp [EciesAeadHkdfPublicKey.getParams, hq]
    rw [e]
    exact ⟨reads hm, rfl, rfl⟩

theorem eciesEncryptParts_iff {k : EciesAeadHkdfPublicKey} {p : EciesParams} {x y : Bytes}
    (hk : HybPub.OfEcies k (.ecies p x y)) {kem : SenderKem} {q : DemKeyParams} :
    (eciesEncryptParts lib k = .ok (kem, q) → EciesParams.PublicFor lib p.curve x y ∧
      SenderIs lib p.curve x y kem ∧ ∃ dem, Dem.AskedFor p.demType p.demFormat dem ∧ DemIs q dem) ∧
    (EciesParams.PublicFor lib p.curve x y → (∃ dem, Dem.AskedFor p.demType p.demFormat dem) →
      ∃ parts, eciesEncryptParts lib k = .ok parts) := by
  obtain ⟨hr, hx, hy⟩ := ecies_params hk
  unfold eciesEncryptParts
  rw [hr.curve, hx, hy]
  constructor
  · intro h
    obtain ⟨_, h1, h⟩ := sbind_ok.1 h
    obtain ⟨kem', h2, h⟩ := sbind_ok.1 h
    obtain ⟨q', h3, h⟩ := sbind_ok.1 h
    cases h
    have h1 := (eciesEncryptValidate_iff hk).1 h1
    have h2 := senderKemNew_iff.1 h2
    obtain ⟨dem, g1, g2⟩ := dem_sound h3
    rw [hr.demType, hr.demFormat] at g1
    exact ⟨publicFor_iff.2 ⟨h1.1, h1.2, _, h2⟩, h2, dem, g1, g2⟩
  · rintro hp ⟨dem, hd⟩
    obtain ⟨h1, h2, kem, h3⟩ := publicFor_iff.1 hp
    rw [← hr.demType, ← hr.demFormat] at hd
    obtain ⟨q, g1, -⟩ := dem_complete hd
    exact ⟨(kem, q), sbind_ok.2 ⟨(), (eciesEncryptValidate_iff hk).2 ⟨h1, h2⟩, sbind_ok.2 ⟨kem,
      senderKemNew_iff.2 h3, sbind_ok.2 ⟨q, g1, rfl⟩⟩⟩⟩

theorem ecies_describesEncrypt (hl : LawfulHyb lib) :
    DescribesEncrypt lib (EciesAeadHkdfPublicKeyManager.keyTypeManager lib) HybPub.OfEcies where
  sound k a h1 h2 := by
    obtain ⟨v, hk, hc⟩ := eciesPublicKey_iff.1 h1
    obtain ⟨⟨kem, q⟩, h3, h2⟩ := sbind_ok.1 (show eciesEncryptNew lib k = .ok a from h2)
    cases h2
    have hk' := hk
    cases hk with
    | @mk _ p hv hq hm =>
      obtain ⟨hr, -, -⟩ := ecies_params hk'
      obtain ⟨g1, g2, dem, g3, g4⟩ := (eciesEncryptParts_iff hk').1 h3
      exact ⟨_, hk', ⟨hc.2.1, hc.2.2, g1, dem, g3⟩, fun seed pt info ct =>
        runStatus_ok.trans (eciesEncrypt_iff hl hr g2 g4 g3)⟩
  complete k v hk h := by
    have hk' := hk
    cases hk with
    | mk hv hq hm =>
      obtain ⟨h1, h2, h3, h4⟩ := h
      refine ⟨eciesPublicKey_iff.2 ⟨_, hk', ?_, h1, h2⟩, ?_⟩
      · cases h3 with
        | nist hg => generalize EciesParams.curve _ = c at hg ⊢; cases hg <;> decide
        | x25519 hc => rw [hc]; decide
      · obtain ⟨parts, g⟩ := (eciesEncryptParts_iff hk' (kem := .x25519 []) (q := ⟨.aesGcm, 0, 0, 0, 0, 0⟩)).2 h3 h4
        exact ⟨_, sbind_ok.2 ⟨parts, g, rfl⟩⟩
  unique k v v' h1 h2 := eciesPublic_unique h1 h2
  serialize k v h1 h2 := by
    have hb := length_eciesPublic h1 (by omega)
    exact ⟨_, serializeFields_of_length (by omega), hb⟩
  parse k b h := EciesAeadHkdfPublicKey.fromString_serializeToString h
  url := by show (ps! "type.googleapis.com/google.crypto.tink.EciesAeadHkdfPublicKey").length ≤ 100; decide
  material := rfl

theorem hybNewEcKey_iff (hl : LawfulHyb lib) {seed : Seed} {c : EnumVal} {k : HybEcKey} :
    hybNewEcKey lib seed c = .ok k ↔ HybPriv.NewKey lib seed c k.pubX k.pubY k.priv := by
  obtain ⟨kx, ky, kd⟩ := k
  unfold hybNewEcKey
  by_cases hc : c = EllipticCurveType.CURVE25519
  · subst hc
    rw [if_pos rfl]
    constructor
    · intro h; cases h; exact .x25519
    · intro h
      generalize hz : EllipticCurveType.CURVE25519 = z at h
      cases h with
      | nist hg => exact absurd hz.symm (not_nist hg)
      | x25519 => rfl
  · rw [if_neg hc]
    have eq : ∀ g, Curve c g → (do
        let g ← ecGroupFromCurveType c
        let d := lib.ecGenerate seed g
        let x ← bignumToString (lib.ecPublic g d).1 g.fieldSize
        let y ← bignumToString (lib.ecPublic g d).2 g.fieldSize
        let priv ← bignumToString d g.fieldSize
        return ({ pubX := x, pubY := y, priv } : HybEcKey)) = .ok
          { pubX := digitsBE g.fieldSize (lib.ecPublic g (lib.ecGenerate seed g)).1
            pubY := digitsBE g.fieldSize (lib.ecPublic g (lib.ecGenerate seed g)).2
            priv := digitsBE g.fieldSize (lib.ecGenerate seed g) } := by
      intro g hg
      have h1 := hl.generate seed g
      obtain ⟨h3, h4⟩ := hl.point _ _ _ (hl.onCurve _ _ h1)
      rw [ecGroup_iff.2 hg]
      dsimp only [bind, Except.bind]
      rw [bignum_ok h3, bignum_ok h4, bignum_ok (Nat.lt_trans h1.2 (order_lt g))]
      rfl
    constructor
    · intro h
      obtain ⟨g, hg, -⟩ := sbind_ok.1 h
      have hg := ecGroup_iff.1 hg
      rw [eq g hg] at h
      cases h
      exact .nist hg rfl
    · intro h
      cases h with
      | nist hg hp =>
        rw [eq _ hg, hp]
      | x25519 => exact absurd rfl hc

/-- What `AskedFor` says about a format. -/
inductive AsksEcies (lib : HybSsl) (seed : Seed) (f : EciesAeadHkdfKeyFormat) : HybPriv → Prop
  | mk {q p x y d} : f.params = some q → EciesParams.InMessage q p → HybPriv.NewKey lib seed p.curve x y d →
    AsksEcies lib seed f (.ecies p x y d)

theorem eciesPrivateKey_iff {k : EciesAeadHkdfPrivateKey} :
    EciesAeadHkdfPrivateKeyManager.validateKey k = .ok () ↔ ∃ s, HybPriv.OfEcies k s ∧ s.publicPart.Checked := by
  unfold EciesAeadHkdfPrivateKeyManager.validateKey
  rw [then_invalid, version_iff, ite_invalid', eciesPublicKey_iff]
  constructor
  · rintro ⟨hv, hn, v, hk, hc⟩
    cases hp : k.publicKey with
    | none => simp [hp] at hn
    | some pub =>
      have e : k.getPublicKey = pub := by simp [EciesAeadHkdfPrivateKey.getPublicKey, hp]
      rw [e] at hk
      have hk' := hk
      cases hk with
      | mk => exact ⟨_, .mk hv hp hk', hc⟩
  · rintro ⟨s, hk, hc⟩
    cases hk with
    | mk hv hp hk =>
      refine ⟨hv, by simp [hp], _, ?_, hc⟩
      rw [EciesAeadHkdfPrivateKey.getPublicKey, hp]
      exact hk

theorem eciesPrivate_unique {k : EciesAeadHkdfPrivateKey} {s s' : HybPriv} (h : HybPriv.OfEcies k s)
    (h' : HybPriv.OfEcies k s') : s = s' := by
  cases h with
  | mk hv hq hm =>
    cases h' with
    | mk hv' hq' hm' =>
      rw [hq] at hq'
      cases hq'
      cases eciesPublic_unique hm hm'
      rfl

/-- What is in the message. -/
theorem eciesPrivate_parts {k : EciesAeadHkdfPrivateKey} {p : EciesParams} {x y d : Bytes}
    (hk : HybPriv.OfEcies k (.ecies p x y d)) : k.publicKey.isSome = true ∧ k.getPublicKey.params.isSome = true ∧
      k.getPublicKey.getParams.kemParams.isSome = true ∧ Reads k.getPublicKey.getParams p ∧
      k.getPublicKey.x = x ∧ k.getPublicKey.y = y ∧ k.keyValue = d := by
  cases hk with
  | @mk pub p x y hv hp hk =>
    have e : k.getPublicKey = pub := by simp [EciesAeadHkdfPrivateKey.getPublicKey, hp]
    rw [e]
    obtain ⟨h1, h2, h3⟩ := ecies_params hk
    refine ⟨by simp [hp], ?_, ?_, h1, h2, h3, rfl⟩
    · cases hk with
      | mk _ hq _ => simp [hq]
    · cases hk with
      | mk _ hq hm =>
        rw [EciesAeadHkdfPublicKey.getParams, hq]
        cases hm with
        | mk h => simp [h]

theorem eciesDecryptValidate_iff {k : EciesAeadHkdfPrivateKey} {p : EciesParams} {x y d : Bytes}
    (hk : HybPriv.OfEcies k (.ecies p x y d)) : eciesDecryptValidate k = .ok () ↔
      x ≠ [] ∧ d ≠ [] ∧ (p.curve = EllipticCurveType.CURVE25519 ∧ y = [] ∨
        p.curve ≠ EllipticCurveType.CURVE25519 ∧ y ≠ []) := by
  obtain ⟨h1, h2, h3, hr, hx, hy, hd⟩ := eciesPrivate_parts hk
  unfold eciesDecryptValidate
  rw [ite_invalid', h3, hr.curve, hx, hy, hd]
  have h1' : k.publicKey.isNone = false := by cases h : k.publicKey <;> simp_all
  have h2' : k.getPublicKey.params.isNone = false := by cases h : k.getPublicKey.params <;> simp_all
  rw [h1', h2']
  simp only [Bool.false_or, Bool.or_eq_true, List.isEmpty_iff, Bool.true_and, decide_eq_true_eq, not_or, and_assoc]
  refine and_congr Iff.rfl (and_congr Iff.rfl ?_)
  by_cases hc : p.curve = EllipticCurveType.CURVE25519
  · rw [if_pos hc, ite_invalid']
    simp [hc]
  · rw [if_neg hc, ite_invalid']
    simp [hc]

theorem recipientFor_iff {p : EciesParams} {x y d : Bytes} :
    (x ≠ [] ∧ (((∃ g, Curve p.curve g) ∧ y ≠ [] ∧ d ≠ []) ∨
      (p.curve = EllipticCurveType.CURVE25519 ∧ y = [] ∧ d.length = 32))) ↔
    (x ≠ [] ∧ d ≠ [] ∧ (p.curve = EllipticCurveType.CURVE25519 ∧ y = [] ∨
        p.curve ≠ EllipticCurveType.CURVE25519 ∧ y ≠ [])) ∧ ∃ kem, RecipientIs p.curve d kem := by
  constructor
  · rintro ⟨hx, ⟨⟨g, hg⟩, hy, hd⟩ | ⟨hc, hy, hd⟩⟩
    · exact ⟨⟨hx, hd, .inr ⟨not_nist hg, hy⟩⟩, _, .nist hg hd⟩
    · exact ⟨⟨hx, (by intro h; rw [h] at hd; cases hd), .inl ⟨hc, hy⟩⟩, _, .x25519 hc hd⟩
  · rintro ⟨⟨hx, hd, hy⟩, kem, hk⟩
    refine ⟨hx, ?_⟩
    cases hk with
    | nist hg =>
      rcases hy with ⟨hc, -⟩ | ⟨-, hy⟩
      · exact absurd hc (not_nist hg)
      · exact .inl ⟨⟨_, hg⟩, hy, hd⟩
    | x25519 hc hlen =>
      rcases hy with ⟨-, hy⟩ | ⟨hn, -⟩
      · exact .inr ⟨hc, hy, hlen⟩
      · exact absurd hc hn

theorem ecies_describesDecrypt (hl : LawfulHyb lib) (seed : Seed) :
    DescribesDecrypt lib seed (EciesAeadHkdfPrivateKeyManager.keyTypeManager lib) HybPriv.OfEcies
      (AsksEcies lib seed) where
  sound k a h1 h2 := by
    obtain ⟨s, hk, hc⟩ := eciesPrivateKey_iff.1 h1
    cases s with
    | hpke => cases hk
    | ecies p x y d =>
      obtain ⟨-, -, -, hr, hx, hy, hd⟩ := eciesPrivate_parts hk
      obtain ⟨⟨kem, q⟩, h3, h2⟩ := sbind_ok.1 (show eciesDecryptNew lib k = .ok a from h2)
      cases h2
      unfold eciesDecryptParts at h3
      rw [hr.curve, hd] at h3
      obtain ⟨_, g1, h3⟩ := sbind_ok.1 h3
      obtain ⟨kem', g2, h3⟩ := sbind_ok.1 h3
      obtain ⟨q', g3, h3⟩ := sbind_ok.1 h3
      cases h3
      have g1 := (eciesDecryptValidate_iff hk).1 g1
      have g2 := recipientKemNew_iff.1 g2
      obtain ⟨dem, d1, d2⟩ := dem_sound g3
      rw [hr.demType, hr.demFormat] at d1
      obtain ⟨k1, k2⟩ := recipientFor_iff.2 ⟨g1, _, g2⟩
      exact ⟨_, hk, ⟨hc.2.1, hc.2.2, k1, k2, dem, d1⟩, fun ct info pt =>
        runStatus_ok.trans (eciesDecrypt_iff hl hr g2 d2 d1)⟩
  complete k s hk h := by
    cases s with
    | hpke => cases hk
    | ecies p x y d =>
      obtain ⟨-, -, -, hr, hx, hy, hd⟩ := eciesPrivate_parts hk
      obtain ⟨h1, h2, h3, h4, dem, h5⟩ := h
      obtain ⟨k1, kem, k2⟩ := recipientFor_iff.1 ⟨h3, h4⟩
      rw [← hr.demType, ← hr.demFormat] at h5
      obtain ⟨q, g1, -⟩ := dem_complete h5
      show ∃ a, eciesDecryptNew lib k = .ok a
      refine ⟨_, sbind_ok.2 ⟨(kem, q), ?_, rfl⟩⟩
      unfold eciesDecryptParts
      rw [hr.curve, hd]
      exact sbind_ok.2 ⟨(), (eciesDecryptValidate_iff hk).2 k1, sbind_ok.2 ⟨kem,
        recipientKemNew_iff.2 k2, sbind_ok.2 ⟨q, g1, rfl⟩⟩⟩
  checked k s hk := by
    refine eciesPrivateKey_iff.trans ⟨?_, fun h => ⟨s, hk, h⟩⟩
    rintro ⟨s', hk', h⟩
    rw [eciesPrivate_unique hk hk']
    exact h
  relates k h := by
    obtain ⟨s, hk, -⟩ := eciesPrivateKey_iff.1 h
    exact ⟨s, hk⟩
  unique k s s' h1 h2 := eciesPrivate_unique h1 h2
  made f k h1 h2 := by
    have h1 : EciesAeadHkdfPrivateKeyManager.validateKeyFormat f = .ok () := h1
    unfold EciesAeadHkdfPrivateKeyManager.validateKeyFormat at h1
    rw [ite_invalid', eciesParams_iff] at h1
    obtain ⟨hn, p, hm, hc⟩ := h1
    cases hq : f.params with
    | none => simp [hq] at hn
    | some q =>
      have e : f.getParams = q := by simp [EciesAeadHkdfKeyFormat.getParams, hq]
      have h2 : EciesAeadHkdfPrivateKeyManager.createKey lib seed f = .ok k := h2
      unfold EciesAeadHkdfPrivateKeyManager.createKey at h2
      rw [e] at h2 hm
      obtain ⟨k', h3, h2⟩ := sbind_ok.1 h2
      cases h2
      rw [(reads hm).curve] at h3
      exact ⟨_, .mk hq hm ((hybNewEcKey_iff hl).1 h3), hc, .mk rfl rfl (.mk rfl rfl hm)⟩
  makes f s h1 h2 := by
    cases h1 with
    | @mk q p x y d hq hm hnew =>
      have e : f.getParams = q := by simp [EciesAeadHkdfKeyFormat.getParams, hq]
      constructor
      · show EciesAeadHkdfPrivateKeyManager.validateKeyFormat f = .ok ()
        unfold EciesAeadHkdfPrivateKeyManager.validateKeyFormat
        rw [ite_invalid', eciesParams_iff, e]
        exact ⟨by simp [hq], p, hm, h2⟩
      · show ∃ k, EciesAeadHkdfPrivateKeyManager.createKey lib seed f = .ok k ∧ _
        unfold EciesAeadHkdfPrivateKeyManager.createKey
        rw [e, (reads hm).curve]
        have h3 := (hybNewEcKey_iff hl (k := ⟨x, y, d⟩)).2 hnew
        refine ⟨_, sbind_ok.2 ⟨_, h3, rfl⟩, ?_⟩
        exact .mk rfl rfl (.mk rfl rfl hm)
  serialize k s h1 h2 := by
    cases h1 with
    | @mk pub p x y hv hp hk =>
      have h2 : (HybPub.ecies p x y).size + k.keyValue.length < 2 ^ 31 - 1000 := h2
      have hb : (encodeFields k.fields).length ≤ (HybPub.ecies p x y).size + k.keyValue.length + 400 := by
        unfold EciesAeadHkdfPrivateKey.fields
        rw [length_encodeFields_append, length_encodeFields_append]
        have h3 := length_uint32Field (num := 1) (n := k.version) (by decide)
        have h4 := length_optField (num := 2) (o := k.publicKey) (f := EciesAeadHkdfPublicKey.fields)
          (m := (HybPub.ecies p x y).size + 300) (by decide) (by omega) (by
            intro p' hp'
            rw [hp] at hp'
            cases hp'
            exact length_eciesPublic hk (by omega))
        have h5 := length_bytesField (num := 3) (b := k.keyValue) (by decide) (by omega)
        omega
      exact ⟨_, serializeFields_of_length (by omega), hb⟩
  parse k b h := EciesAeadHkdfPrivateKey.fromString_serializeToString h
  url := by show (ps! "type.googleapis.com/google.crypto.tink.EciesAeadHkdfPrivateKey").length ≤ 100; decide
  material := rfl

/-! ## HPKE -/

theorem hpkeCheck_iff {p : HpkeParams} : HpkePublicKeyManager.validateParams p = .ok () ↔
    p.kem ≠ HpkeKem.KEM_UNKNOWN ∧ p.kdf ≠ HpkeKdf.KDF_UNKNOWN ∧ p.aead ≠ HpkeAead.AEAD_UNKNOWN := by
  unfold HpkePublicKeyManager.validateParams
  rw [ite_invalid', ite_invalid', ite_invalid']
  simp only [and_true, ne_eq]

theorem hpkePublicKey_iff {k : HpkePublicKey} :
    HpkePublicKeyManager.validateKey k = .ok () ↔ ∃ v, HybPub.OfHpke k v ∧ v.Checked := by
  unfold HpkePublicKeyManager.validateKey
  rw [then_invalid, version_iff, ite_invalid', hpkeCheck_iff]
  constructor
  · rintro ⟨hv, hn, hc⟩
    cases hq : k.params with
    | none => simp [hq] at hn
    | some q =>
      have e : k.getParams = q := by simp [HpkePublicKey.getParams, hq]
      rw [e] at hc
      exact ⟨_, .mk hv hq, hc⟩
  · rintro ⟨v, hk, hc⟩
    cases hk with
    | mk hv hq =>
      refine ⟨hv, by simp [hq], ?_⟩
      rw [HpkePublicKey.getParams, hq]
      exact hc

theorem hpkePublic_unique {k : HpkePublicKey} {v v' : HybPub} (h : HybPub.OfHpke k v)
    (h' : HybPub.OfHpke k v') : v = v' := by
  cases h with
  | mk hv hq =>
    cases h' with
    | mk hv' hq' =>
      rw [hq] at hq'
      cases hq'
      rfl

theorem hpke_params {k : HpkePublicKey} {kem kdf aead : EnumVal} {b : Bytes}
    (hk : HybPub.OfHpke k (.hpke kem kdf aead b)) : k.params.isNone = false ∧ k.getParams.kem = kem ∧
      k.getParams.kdf = kdf ∧ k.getParams.aead = aead ∧ k.publicKey = b := by
  cases hk with
  | mk hv hq =>
    rw [HpkePublicKey.getParams, hq]
    exact ⟨rfl, rfl, rfl, rfl, rfl⟩

theorem hpkeEncryptNew_iff {k : HpkePublicKey} {kem kdf aead : EnumVal} {b : Bytes}
    (hk : HybPub.OfHpke k (.hpke kem kdf aead b)) {a : Cpp.HybridEncrypt} :
    hpkeEncryptNew lib k = .ok a ↔ (HybPub.hpke kem kdf aead b).Ok lib ∧ a = { encrypt := hpkeEncrypt lib k } := by
  obtain ⟨h1, h2, h3, h4, h5⟩ := hpke_params hk
  unfold hpkeEncryptNew
  rw [h1, h2, h3, h4, h5, ite_invalid_any, ite_invalid_any, ite_invalid_any, ite_invalid_any, ite_invalid_any,
    Decidable.not_not, Decidable.not_not, List.isEmpty_iff]
  constructor
  · rintro ⟨g1, -, g2, g3, g4, g5⟩
    cases g5
    exact ⟨⟨g2, g3, g4, g1⟩, rfl⟩
  · rintro ⟨⟨g2, g3, g4, g1⟩, rfl⟩
    exact ⟨g1, by decide, g2, g3, g4, rfl⟩

theorem hpke_describesEncrypt (lib : HybSsl) :
    DescribesEncrypt lib (HpkePublicKeyManager.keyTypeManager lib) HybPub.OfHpke where
  sound k a h1 h2 := by
    obtain ⟨v, hk, hc⟩ := hpkePublicKey_iff.1 h1
    cases v with
    | ecies => cases hk
    | hpke kem kdf aead b =>
      obtain ⟨g1, rfl⟩ := (hpkeEncryptNew_iff hk).1 (show hpkeEncryptNew lib k = .ok a from h2)
      obtain ⟨-, k1, k2, k3, k4⟩ := hpke_params hk
      obtain ⟨rfl, rfl, g2, g3⟩ := g1
      exact ⟨_, hk, ⟨rfl, rfl, g2, g3⟩, fun seed pt info ct => hpkeEncrypt_iff k1 k2 k3 k4 g3⟩
  complete k v hk h := by
    cases v with
    | ecies => cases hk
    | hpke kem kdf aead b =>
      refine ⟨hpkePublicKey_iff.2 ⟨_, hk, ?_⟩, _, (hpkeEncryptNew_iff hk).2 ⟨h, rfl⟩⟩
      exact ⟨by rw [h.1]; decide, by rw [h.2.1]; decide, h.2.2.1⟩
  unique k v v' h1 h2 := hpkePublic_unique h1 h2
  serialize k v h1 h2 := by
    cases h1 with
    | mk hv hq =>
      have h2 : k.publicKey.length < 2 ^ 31 - 1000 := h2
      have hb := length_hpkePublic k (by omega)
      exact ⟨_, serializeFields_of_length (by omega), hb⟩
  parse k b h := HpkePublicKey.fromString_serializeToString h
  url := by show (ps! "type.googleapis.com/google.crypto.tink.HpkePublicKey").length ≤ 100; decide
  material := rfl

theorem hpkePrivateKey_iff {k : HpkePrivateKey} :
    HpkePrivateKeyManager.validateKey k = .ok () ↔ ∃ s, HybPriv.OfHpke k s ∧ s.publicPart.Checked := by
  unfold HpkePrivateKeyManager.validateKey
  rw [then_invalid, version_iff, ite_invalid', hpkePublicKey_iff]
  constructor
  · rintro ⟨hv, hn, v, hk, hc⟩
    cases hp : k.publicKey with
    | none => simp [hp] at hn
    | some pub =>
      have e : k.getPublicKey = pub := by simp [HpkePrivateKey.getPublicKey, hp]
      rw [e] at hk
      have hk' := hk
      cases hk with
      | mk => exact ⟨_, .mk hv hp hk', hc⟩
  · rintro ⟨s, hk, hc⟩
    cases hk with
    | mk hv hp hk =>
      refine ⟨hv, by simp [hp], _, ?_, hc⟩
      rw [HpkePrivateKey.getPublicKey, hp]
      exact hk

theorem hpkePrivate_unique {k : HpkePrivateKey} {s s' : HybPriv} (h : HybPriv.OfHpke k s)
    (h' : HybPriv.OfHpke k s') : s = s' := by
  cases h with
  | mk hv hq hm =>
    cases h' with
    | mk hv' hq' hm' =>
      rw [hq] at hq'
      cases hq'
      cases hpkePublic_unique hm hm'
      rfl

theorem hpkeDecryptNew_iff {k : HpkePrivateKey} {kem kdf aead : EnumVal} {pub priv : Bytes}
    (hk : HybPriv.OfHpke k (.hpke kem kdf aead pub priv)) {a : Cpp.HybridDecrypt} :
    hpkeDecryptNew lib k = .ok a ↔ (HybPriv.hpke kem kdf aead pub priv).Ok ∧
      a = { decrypt := hpkeDecrypt lib k.getPublicKey.getParams priv } := by
  cases hk with
  | @mk q kem kdf aead pub hv hp hk =>
    have e : k.getPublicKey = q := by simp [HpkePrivateKey.getPublicKey, hp]
    obtain ⟨h1, h2, h3, h4, h5⟩ := hpke_params hk
    unfold hpkeDecryptNew
    rw [e, h1, h2, h3, h4, hp, ite_invalid_any, ite_invalid_any, ite_invalid_any, ite_invalid_any, ite_invalid_any,
      ite_invalid_any, Decidable.not_not, Decidable.not_not, List.isEmpty_iff]
    constructor
    · rintro ⟨g1, -, -, g2, g3, g4, g5⟩
      cases g5
      exact ⟨⟨g2, g3, g4, g1⟩, rfl⟩
    · rintro ⟨⟨g2, g3, g4, g1⟩, rfl⟩
      exact ⟨g1, by simp, by decide, g2, g3, g4, rfl⟩

/-- What `AskedFor` says about a format. -/
inductive AsksHpke (lib : HybSsl) (seed : Seed) (f : HpkeKeyFormat) : HybPriv → Prop
  | mk {q pub priv} : f.params = some q → HybPriv.NewHpkeKey lib seed q.kem pub priv →
    AsksHpke lib seed f (.hpke q.kem q.kdf q.aead pub priv)

theorem kemCurve_unique {kem : EnumVal} {g g' : EcGroup} (h : HybPriv.KemCurve kem g)
    (h' : HybPriv.KemCurve kem g') : g = g' := by
  generalize hz : kem = z at h'
  cases h <;> cases h' <;> first | rfl | exact absurd hz (by decide)

theorem generateEcKey_iff (hl : LawfulHyb lib) {seed : Seed} {c kem : EnumVal} {g : EcGroup} (hg : Curve c g)
    (hk : HybPriv.KemCurve kem g) {pub priv : Bytes} :
    HpkePrivateKeyManager.generateEcKey lib seed c = .ok (pub, priv) ↔
      HybPriv.NewHpkeKey lib seed kem pub priv := by
  have h1 := hl.generate seed g
  have h2 := hl.onCurve _ _ h1
  obtain ⟨h3, h4⟩ := hl.point _ _ _ h2
  have n1 := (hybNewEcKey_iff hl (seed := seed) (k := ⟨_, _, _⟩)).2 (.nist hg rfl)
  unfold HpkePrivateKeyManager.generateEcKey
  rw [n1]
  dsimp only [bind, Except.bind]
  have n2 : hybEcPoint lib c (digitsBE g.fieldSize (lib.ecPublic g (lib.ecGenerate seed g)).1)
      (digitsBE g.fieldSize (lib.ecPublic g (lib.ecGenerate seed g)).2) =
        .ok (lib.ecPublic g (lib.ecGenerate seed g)) := by
    refine hybEcPoint_iff.2 ⟨g, hg, ?_⟩
    rw [fromBytesBE_digits _ _ h3, fromBytesBE_digits _ _ h4]
    exact ⟨h2, rfl⟩
  rw [n2]
  dsimp only
  constructor
  · intro h
    obtain ⟨b, hb, h⟩ := sbind_ok.1 h
    cases h
    exact .nist hk ((pointEncode_iff hl hg h2).1 hb)
  · intro h
    cases h with
    | nist hk' hb =>
      cases kemCurve_unique hk hk'
      exact sbind_ok.2 ⟨pub, (pointEncode_iff hl hg h2).2 hb, rfl⟩
    | x25519 =>
      generalize hz : HpkeKem.DHKEM_X25519_HKDF_SHA256 = z at hk
      cases hk <;> exact absurd hz (by decide)

theorem hpkeGenerate_iff (hl : LawfulHyb lib) {seed : Seed} {kem : EnumVal} {r : Bytes × Bytes} :
    HpkePrivateKeyManager.generateKey lib seed kem = .ok r ↔ HybPriv.NewHpkeKey lib seed kem r.1 r.2 := by
  obtain ⟨pub, priv⟩ := r
  unfold HpkePrivateKeyManager.generateKey
  split
  · rename_i h
    subst h
    constructor
    · intro h; cases h; exact .x25519
    · intro h
      generalize hz : HpkeKem.DHKEM_X25519_HKDF_SHA256 = z at h
      cases h with
      | x25519 => rfl
      | nist hk => cases hk <;> exact absurd hz (by decide)
  split
  · rename_i h; subst h; exact generateEcKey_iff hl .p256 .p256
  split
  · rename_i h; subst h; exact generateEcKey_iff hl .p384 .p384
  split
  · rename_i h; subst h; exact generateEcKey_iff hl .p521 .p521
  rename_i h1 h2 h3 h4
  constructor
  · intro h; cases h
  · intro h
    cases h with
    | x25519 => exact absurd rfl h1
    | nist hk =>
      cases hk
      · exact absurd rfl h2
      · exact absurd rfl h3
      · exact absurd rfl h4

theorem hpke_describesDecrypt (hl : LawfulHyb lib) (seed : Seed) :
    DescribesDecrypt lib seed (HpkePrivateKeyManager.keyTypeManager lib) HybPriv.OfHpke (AsksHpke lib seed) where
  sound k a h1 h2 := by
    obtain ⟨s, hk, hc⟩ := hpkePrivateKey_iff.1 h1
    cases s with
    | ecies => cases hk
    | hpke kem kdf aead pub priv =>
      obtain ⟨g1, rfl⟩ := (hpkeDecryptNew_iff hk).1 (show hpkeDecryptNew lib k = .ok a from h2)
      refine ⟨_, hk, g1, fun ct info pt => ?_⟩
      cases hk with
      | @mk q kem kdf aead pub hv hp hk =>
        have e : k.getPublicKey = q := by simp [HpkePrivateKey.getPublicKey, hp]
        obtain ⟨-, k1, k2, k3, k4⟩ := hpke_params hk
        obtain ⟨rfl, rfl, g2, g3⟩ := g1
        rw [← e] at k1 k2 k3
        exact hpkeDecrypt_iff hl k1 k2 k3
  complete k s hk h := by
    cases s with
    | ecies => cases hk
    | hpke kem kdf aead pub priv => exact ⟨_, (hpkeDecryptNew_iff hk).2 ⟨h, rfl⟩⟩
  checked k s hk := by
    refine hpkePrivateKey_iff.trans ⟨?_, fun h => ⟨s, hk, h⟩⟩
    rintro ⟨s', hk', h⟩
    rw [hpkePrivate_unique hk hk']
    exact h
  relates k h := by
    obtain ⟨s, hk, -⟩ := hpkePrivateKey_iff.1 h
    exact ⟨s, hk⟩
  unique k s s' h1 h2 := hpkePrivate_unique h1 h2
  made f k h1 h2 := by
    have h1 : HpkePrivateKeyManager.validateKeyFormat f = .ok () := h1
    unfold HpkePrivateKeyManager.validateKeyFormat at h1
    rw [ite_invalid', hpkeCheck_iff] at h1
    obtain ⟨hn, hc⟩ := h1
    cases hq : f.params with
    | none => simp [hq] at hn
    | some q =>
      have e : f.getParams = q := by simp [HpkeKeyFormat.getParams, hq]
      have h2 : HpkePrivateKeyManager.createKey lib seed f = .ok k := h2
      unfold HpkePrivateKeyManager.createKey at h2
      rw [e] at h2 hc
      obtain ⟨r, h3, h2⟩ := sbind_ok.1 h2
      cases h2
      exact ⟨_, .mk hq ((hpkeGenerate_iff hl).1 h3), hc, .mk rfl rfl (.mk rfl rfl)⟩
  makes f s h1 h2 := by
    cases h1 with
    | @mk q pub priv hq hnew =>
      have e : f.getParams = q := by simp [HpkeKeyFormat.getParams, hq]
      constructor
      · show HpkePrivateKeyManager.validateKeyFormat f = .ok ()
        unfold HpkePrivateKeyManager.validateKeyFormat
        rw [ite_invalid', hpkeCheck_iff, e]
        exact ⟨by simp [hq], h2⟩
      · show ∃ k, HpkePrivateKeyManager.createKey lib seed f = .ok k ∧ _
        unfold HpkePrivateKeyManager.createKey
        rw [e]
        refine ⟨_, sbind_ok.2 ⟨(pub, priv), (hpkeGenerate_iff hl).2 hnew, rfl⟩, ?_⟩
        exact .mk rfl rfl (.mk rfl rfl)
  serialize k s h1 h2 := by
    cases h1 with
    | @mk q kem kdf aead b hv hp hk =>
      have h2 : b.length + k.privateKey.length < 2 ^ 31 - 1000 := h2
      obtain ⟨-, -, -, -, hpk⟩ := hpke_params hk
      have hb : (encodeFields k.fields).length ≤ b.length + k.privateKey.length + 400 := by
        unfold HpkePrivateKey.fields
        rw [length_encodeFields_append, length_encodeFields_append]
        have h3 := length_uint32Field (num := 1) (n := k.version) (by decide)
        have h4 := length_optField (num := 2) (o := k.publicKey) (f := HpkePublicKey.fields)
          (m := b.length + 300) (by decide) (by omega) (by
            intro p' hp'
            rw [hp] at hp'
            cases hp'
            rw [← hpk] at h2 ⊢
            exact length_hpkePublic q (by omega))
        have h5 := length_bytesField (num := 3) (b := k.privateKey) (by decide) (by omega)
        omega
      exact ⟨_, serializeFields_of_length (by omega), hb⟩
  parse k b h := HpkePrivateKey.fromString_serializeToString h
  url := by show (ps! "type.googleapis.com/google.crypto.tink.HpkePrivateKey").length ≤ 100; decide
  material := rfl

end

end Tink.Cc
