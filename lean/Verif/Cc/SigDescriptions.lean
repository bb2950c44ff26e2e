import Verif.Cc.SigLemmas
import Verif.Cc.Descriptions
import Verif.Proto.GenSignatureLemmas

/-!
# What each key manager for signature keys does, in terms of the keys
-/

namespace Tink.Cc
open Spec Cpp Props

/-- The functions of a key type manager for public keys, in terms of the keys. -/
structure DescribesVerify {K : Type} (lib : SigSsl) (m : PublicKeyTypeManager K Cpp.PublicKeyVerify)
    (R : K → PubKey → Prop) : Prop where
  sound : ∀ k a, m.validateKey k = .ok () → m.create k = .ok a → ∃ v, R k v ∧ v.Ok lib ∧ VerifiesAs lib a v
  complete : ∀ k v, R k v → v.Ok lib → m.validateKey k = .ok () ∧ ∃ a, m.create k = .ok a
  unique : ∀ k v v', R k v → R k v' → v = v'
  serialize : ∀ k v, R k v → v.size < 2 ^ 31 - 1000 →
    ∃ b, m.serializeKey k = .ok b ∧ b.length ≤ v.size + 200
  parse : ∀ k b, m.serializeKey k = .ok b → m.parseKey b = .ok k
  url : m.keyType.length ≤ 100
  material : m.keyMaterialType = KeyMaterialType.ASYMMETRIC_PUBLIC

/-- The functions of a key type manager for private keys, in terms of the keys. -/
structure DescribesSign {K F : Type} (lib : SigSsl) (seed : Seed) (m : KeyTypeManager K F Cpp.PublicKeySign)
    (R : K → SigKey → Prop) (A : F → SigKey → Prop) : Prop where
  sound : ∀ k a, m.validateKey k = .ok () → m.create k = .ok a → ∃ s, R k s ∧ s.Ok lib ∧ SignsAs lib a s
  complete : ∀ k s, R k s → s.Ok lib → ∃ a, m.create k = .ok a
  checked : ∀ k s, R k s → (m.validateKey k = .ok () ↔ s.Checked)
  relates : ∀ k, m.validateKey k = .ok () → ∃ s, R k s
  unique : ∀ k s s', R k s → R k s' → s = s'
  made : ∀ f k, m.validateKeyFormat f = .ok () → m.createKey seed f = .ok k →
    ∃ s, A f s ∧ s.publicPart.Ok lib ∧ R k s
  makes : ∀ f s, A f s → s.publicPart.Ok lib → m.validateKeyFormat f = .ok () ∧
    ∃ k, m.createKey seed f = .ok k ∧ R k s
  serialize : ∀ k s, R k s → s.size < 2 ^ 31 - 1000 →
    ∃ b, m.serializeKey k = .ok b ∧ b.length ≤ s.size + 400
  parse : ∀ k b, m.serializeKey k = .ok b → m.parseKey b = .ok k
  url : m.keyType.length ≤ 100
  material : m.keyMaterialType = KeyMaterialType.ASYMMETRIC_PRIVATE

/-- An acceptable key passes the checks. -/
theorem checked_of_ok {lib : SigSsl} {s : SigKey} (h : s.Ok lib) : s.Checked := by
  cases s with
  | ecdsa => exact ⟨h.1.1, h.1.2.1⟩
  | ed25519 => exact ⟨h.1, h.2⟩
  | rsaPkcs1 => exact h.1
  | rsaPss => exact h.1

theorem size_publicPart (s : SigKey) : s.publicPart.size ≤ s.size := by
  cases s <;> simp only [SigKey.publicPart, PubKey.size, SigKey.size, SigKey.size.rsaSize] <;> omega

/-! ## Sizes of messages -/

theorem length_ecdsaParams (p : EcdsaParams) : (encodeFields p.fields).length ≤ 60 := by
  unfold EcdsaParams.fields
  rw [length_encodeFields_append, length_encodeFields_append]
  have h1 := length_enumField (num := 1) (e := p.hashType) (by decide)
  have h2 := length_enumField (num := 2) (e := p.curve) (by decide)
  have h3 := length_enumField (num := 3) (e := p.encoding) (by decide)
  omega

theorem length_pkcs1Params (p : RsaSsaPkcs1Params) : (encodeFields p.fields).length ≤ 60 := by
  unfold RsaSsaPkcs1Params.fields
  have h1 := length_enumField (num := 1) (e := p.hashType) (by decide)
  omega

theorem length_pssParams (p : RsaSsaPssParams) : (encodeFields p.fields).length ≤ 60 := by
  unfold RsaSsaPssParams.fields
  rw [length_encodeFields_append, length_encodeFields_append]
  have h1 := length_enumField (num := 1) (e := p.sigHash) (by decide)
  have h2 := length_enumField (num := 2) (e := p.mgf1Hash) (by decide)
  have h3 := length_enumField (num := 3) (e := p.saltLength) (by decide)
  omega

theorem length_ecdsaPublic (k : EcdsaPublicKey) (h : k.x.length + k.y.length < 2 ^ 31) :
    (encodeFields k.fields).length ≤ k.x.length + k.y.length + 200 := by
  unfold EcdsaPublicKey.fields
  rw [length_encodeFields_append, length_encodeFields_append, length_encodeFields_append]
  have h1 := length_uint32Field (num := 1) (n := k.version) (by decide)
  have h2 := length_optField (num := 2) (o := k.params) (f := EcdsaParams.fields) (m := 60) (by decide)
    (by decide) fun p _ => length_ecdsaParams p
  have h3 := length_bytesField (num := 3) (b := k.x) (by decide) (by omega)
  have h4 := length_bytesField (num := 4) (b := k.y) (by decide) (by omega)
  omega

theorem length_ed25519Public (k : Ed25519PublicKey) (h : k.keyValue.length < 2 ^ 31) :
    (encodeFields k.fields).length ≤ k.keyValue.length + 200 := by
  unfold Ed25519PublicKey.fields
  rw [length_encodeFields_append]
  have h1 := length_uint32Field (num := 1) (n := k.version) (by decide)
  have h2 := length_bytesField (num := 2) (b := k.keyValue) (by decide) (by omega)
  omega

theorem length_pkcs1Public (k : RsaSsaPkcs1PublicKey) (h : k.n.length + k.e.length < 2 ^ 31) :
    (encodeFields k.fields).length ≤ k.n.length + k.e.length + 200 := by
  unfold RsaSsaPkcs1PublicKey.fields
  rw [length_encodeFields_append, length_encodeFields_append, length_encodeFields_append]
  have h1 := length_uint32Field (num := 1) (n := k.version) (by decide)
  have h2 := length_optField (num := 2) (o := k.params) (f := RsaSsaPkcs1Params.fields) (m := 60) (by decide)
    (by decide) fun p _ => length_pkcs1Params p
  have h3 := length_bytesField (num := 3) (b := k.n) (by decide) (by omega)
  have h4 := length_bytesField (num := 4) (b := k.e) (by decide) (by omega)
  omega

theorem length_pssPublic (k : RsaSsaPssPublicKey) (h : k.n.length + k.e.length < 2 ^ 31) :
    (encodeFields k.fields).length ≤ k.n.length + k.e.length + 200 := by
  unfold RsaSsaPssPublicKey.fields
  rw [length_encodeFields_append, length_encodeFields_append, length_encodeFields_append]
  have h1 := length_uint32Field (num := 1) (n := k.version) (by decide)
  have h2 := length_optField (num := 2) (o := k.params) (f := RsaSsaPssParams.fields) (m := 60) (by decide)
    (by decide) fun p _ => length_pssParams p
  have h3 := length_bytesField (num := 3) (b := k.n) (by decide) (by omega)
  have h4 := length_bytesField (num := 4) (b := k.e) (by decide) (by omega)
  omega

/-! ## ECDSA -/

theorem ecdsaVerifyKey_iff {k : EcdsaPublicKey} : EcdsaVerifyKeyManager.validateKey k = .ok () ↔
    k.version = 0 ∧ ∃ g, Curve k.getParams.curve g ∧ HashFor g k.getParams.hashType ∧
      (k.getParams.encoding = EcdsaSignatureEncoding.DER ∨
        k.getParams.encoding = EcdsaSignatureEncoding.IEEE_P1363) := by
  unfold EcdsaVerifyKeyManager.validateKey
  rw [then_invalid, version_iff, ecdsaParams_iff]

theorem ecdsa_describesVerify {lib : SigSsl} (hl : LawfulSigSsl lib) :
    DescribesVerify lib (EcdsaVerifyKeyManager.keyTypeManager lib) PubKey.OfEcdsa where
  sound k a h1 h2 := by
    obtain ⟨hv, g, hc, hh, he⟩ := ecdsaVerifyKey_iff.1 h1
    obtain ⟨g1, g2⟩ := (ecdsaVerifyNew_iff hl (x := k.x) (y := k.y) hc hh he).1 a h2
    exact ⟨_, .mk hv hc, g1, g2⟩
  complete k v h1 h2 := by
    cases h1 with
    | mk hv hc =>
      exact ⟨ecdsaVerifyKey_iff.2 ⟨hv, _, hc, h2.1, h2.2.1⟩,
        (ecdsaVerifyNew_iff hl (x := k.x) (y := k.y) hc h2.1 h2.2.1).2 h2⟩
  unique k v v' h1 h2 := by
    cases h1 with
    | mk hv hc =>
      cases h2 with
      | mk hv' hc' => rw [curve_unique hc hc']
  serialize k v h1 h2 := by
    cases h1 with
    | mk hv hc =>
      have h2 : k.x.length + k.y.length < 2 ^ 31 - 1000 := h2
      have hb := length_ecdsaPublic k (by omega)
      exact ⟨_, serializeFields_of_length (by omega), hb⟩
  parse k b h := EcdsaPublicKey.fromString_serializeToString h
  url := by show (ps! "type.googleapis.com/google.crypto.tink.EcdsaPublicKey").length ≤ 100; decide
  material := rfl

theorem newEcKey_eq {lib : SigSsl} (hl : LawfulSigSsl lib) {seed : Seed} {c : EnumVal} {g : EcGroup}
    (hc : Curve c g) : newEcKey lib seed c = .ok
      { curve := c, pubX := digitsBE g.fieldSize (lib.ecPublic g (lib.ecGenerate seed g)).1
        pubY := digitsBE g.fieldSize (lib.ecPublic g (lib.ecGenerate seed g)).2
        priv := digitsBE g.fieldSize (lib.ecGenerate seed g) } := by
  obtain ⟨h1, h2⟩ := hl.generate seed g
  obtain ⟨h3, h4⟩ := hl.point _ _ _ (hl.onCurve _ _ h1)
  unfold newEcKey bignumToString
  rw [ecGroup_iff.2 hc]
  dsimp only [bind, Except.bind]
  rw [if_pos h3, if_pos h4, if_pos h2]
  rfl

/-- What `AskedFor` says about a format. -/
inductive AsksEcdsa (lib : SigSsl) (seed : Seed) (f : EcdsaKeyFormat) : SigKey → Prop
  | mk {g x y} : Curve f.getParams.curve g → lib.ecPublic g (lib.ecGenerate seed g) = (x, y) →
    AsksEcdsa lib seed f
      (.ecdsa g (digitsBE g.fieldSize x) (digitsBE g.fieldSize y) (digitsBE g.fieldSize (lib.ecGenerate seed g))
        f.getParams.hashType f.getParams.encoding)

theorem ecdsa_describesSign {lib : SigSsl} (hl : LawfulSigSsl lib) (seed : Seed) :
    DescribesSign lib seed (EcdsaSignKeyManager.keyTypeManager lib) SigKey.OfEcdsa (AsksEcdsa lib seed) where
  sound k a h1 h2 := by
    obtain ⟨hv, h1⟩ := then_invalid.1 h1
    obtain ⟨hv', g, hc, hh, he⟩ := ecdsaVerifyKey_iff.1 h1
    obtain ⟨g1, g2⟩ := (ecdsaSignNew_iff hl (x := k.getPublicKey.x) (y := k.getPublicKey.y) (d := k.keyValue)
      hc hh he).1 a h2
    exact ⟨_, .mk (version_iff.1 hv) (.mk hv' hc), g1, g2⟩
  complete k s h1 h2 := by
    cases h1 with
    | mk hv hp =>
      cases hp with
      | mk hv' hc => exact (ecdsaSignNew_iff hl (d := k.keyValue) hc h2.1.1 h2.1.2.1).2 h2
  checked k s h1 := by
    cases h1 with
    | mk hv hp =>
      cases hp with
      | mk hv' hc =>
        refine then_invalid.trans ?_
        rw [version_iff, ecdsaVerifyKey_iff]
        constructor
        · rintro ⟨-, -, g', hc', h⟩
          rw [← curve_unique hc hc'] at h
          exact h
        · intro h
          exact ⟨hv, hv', _, hc, h⟩
  relates k h1 := by
    obtain ⟨hv, h1⟩ := then_invalid.1 h1
    obtain ⟨hv', g, hc, -⟩ := ecdsaVerifyKey_iff.1 h1
    exact ⟨_, .mk (version_iff.1 hv) (.mk hv' hc)⟩
  unique k s s' h1 h2 := by
    cases h1 with
    | mk hv hp =>
      cases h2 with
      | mk hv' hp' =>
        cases (ecdsa_describesVerify hl).unique _ _ _ hp hp'
        rfl
  made f k h1 h2 := by
    have h1 : EcdsaSignKeyManager.validateKeyFormat f = .ok () := h1
    unfold EcdsaSignKeyManager.validateKeyFormat at h1
    rw [ite_invalid', ecdsaParams_iff] at h1
    obtain ⟨-, g, hc, hh, he⟩ := h1
    have h2 : EcdsaSignKeyManager.createKey lib seed f = .ok k := h2
    unfold EcdsaSignKeyManager.createKey at h2
    rw [newEcKey_eq hl hc] at h2
    have h2 := (Except.ok.inj h2).symm
    obtain ⟨a1, a2⟩ := hl.generate seed g
    have ap := hl.onCurve _ _ a1
    obtain ⟨a3, a4⟩ := hl.point _ _ _ ap
    refine ⟨_, .mk hc rfl, ⟨hh, he, ?_⟩, ?_⟩
    · rw [fromBytesBE_digits _ _ a3, fromBytesBE_digits _ _ a4]
      exact ap
    · subst h2
      exact .mk rfl (.mk rfl hc)
  makes f s h1 h2 := by
    cases h1 with
    | @mk g x y hc hp =>
      constructor
      · show EcdsaSignKeyManager.validateKeyFormat f = .ok ()
        unfold EcdsaSignKeyManager.validateKeyFormat
        rw [ite_invalid', ecdsaParams_iff]
        refine ⟨?_, g, hc, h2.1, h2.2.1⟩
        intro hn
        have hf : f.getParams = {} := by
          unfold EcdsaKeyFormat.getParams
          rw [Option.isNone_iff_eq_none.1 hn]
          rfl
        rw [hf] at hc
        generalize hz : ({} : EcdsaParams).curve = z at hc
        cases hc <;> exact absurd hz (by decide)
      · show ∃ k, EcdsaSignKeyManager.createKey lib seed f = .ok k ∧ _
        unfold EcdsaSignKeyManager.createKey
        rw [newEcKey_eq hl hc, hp]
        exact ⟨_, rfl, .mk rfl (.mk rfl hc)⟩
  serialize k s h1 h2 := by
    cases h1 with
    | mk hv hp =>
      cases hp with
      | mk hv' hc =>
        have h2 : k.getPublicKey.x.length + k.getPublicKey.y.length + k.keyValue.length < 2 ^ 31 - 1000 := h2
        have hb : (encodeFields k.fields).length ≤
            k.getPublicKey.x.length + k.getPublicKey.y.length + k.keyValue.length + 400 := by
          unfold EcdsaPrivateKey.fields
          rw [length_encodeFields_append, length_encodeFields_append]
          have h3 := length_uint32Field (num := 1) (n := k.version) (by decide)
          have h4 := length_optField (num := 2) (o := k.publicKey) (f := EcdsaPublicKey.fields)
            (m := k.getPublicKey.x.length + k.getPublicKey.y.length + 200) (by decide) (by omega) (by
              intro p hp
              have : k.getPublicKey = p := by unfold EcdsaPrivateKey.getPublicKey; rw [hp]; rfl
              rw [this] at h2 ⊢
              exact length_ecdsaPublic p (by omega))
          have h5 := length_bytesField (num := 3) (b := k.keyValue) (by decide) (by omega)
          omega
        exact ⟨_, serializeFields_of_length (by omega), hb⟩
  parse k b h := EcdsaPrivateKey.fromString_serializeToString h
  url := by show (ps! "type.googleapis.com/google.crypto.tink.EcdsaPrivateKey").length ≤ 100; decide
  material := rfl

/-! ## Ed25519 -/

theorem ed25519VerifyKey_iff {k : Ed25519PublicKey} : Ed25519VerifyKeyManager.validateKey k = .ok () ↔
    k.version = 0 ∧ k.keyValue.length = 32 := by
  unfold Ed25519VerifyKeyManager.validateKey
  rw [then_invalid, version_iff, ite_invalid', Decidable.not_not]
  simp only [and_true]

theorem ed25519_describesVerify (lib : SigSsl) :
    DescribesVerify lib (Ed25519VerifyKeyManager.keyTypeManager lib) PubKey.OfEd25519 where
  sound k a h1 h2 := by
    obtain ⟨hv, -⟩ := ed25519VerifyKey_iff.1 h1
    obtain ⟨g1, g2⟩ := ed25519VerifyNew_iff.1 a h2
    exact ⟨_, .mk hv, g1, g2⟩
  complete k v h1 h2 := by
    cases h1 with
    | mk hv => exact ⟨ed25519VerifyKey_iff.2 ⟨hv, h2⟩, ed25519VerifyNew_iff.2 h2⟩
  unique k v v' h1 h2 := by
    cases h1
    cases h2
    rfl
  serialize k v h1 h2 := by
    cases h1 with
    | mk hv =>
      have h2 : k.keyValue.length < 2 ^ 31 - 1000 := h2
      have hb := length_ed25519Public k (by omega)
      exact ⟨_, serializeFields_of_length (by omega), hb⟩
  parse k b h := Ed25519PublicKey.fromString_serializeToString h
  url := by show (ps! "type.googleapis.com/google.crypto.tink.Ed25519PublicKey").length ≤ 100; decide
  material := rfl

/-- What `AskedFor` says about a format. -/
inductive AsksEd25519 (lib : SigSsl) (seed : Seed) (f : Ed25519KeyFormat) : SigKey → Prop
  | mk : AsksEd25519 lib seed f (.ed25519 (lib.ed25519Public (lib.random seed 0 32)) (lib.random seed 0 32))

theorem ed25519SignKey_iff {k : Ed25519PrivateKey} : Ed25519SignKeyManager.validateKey k = .ok () ↔
    k.version = 0 ∧ k.keyValue.length = 32 ∧ k.getPublicKey.version = 0 ∧
      k.getPublicKey.keyValue.length = 32 := by
  unfold Ed25519SignKeyManager.validateKey
  rw [then_invalid, version_iff, ite_invalid', Decidable.not_not, ed25519VerifyKey_iff]

theorem ed25519_describesSign {lib : SigSsl} (hl : LawfulSigSsl lib) (seed : Seed) :
    DescribesSign lib seed (Ed25519SignKeyManager.keyTypeManager lib) SigKey.OfEd25519
      (AsksEd25519 lib seed) where
  sound k a h1 h2 := by
    obtain ⟨hv, hk, hv', hp⟩ := ed25519SignKey_iff.1 h1
    obtain ⟨a', g1, g2⟩ := ed25519SignNew_iff (lib := lib) hp hk
    have h2 : ed25519SignNew lib (k.keyValue ++ k.getPublicKey.keyValue) = .ok a := h2
    rw [g1] at h2
    cases h2
    exact ⟨_, .mk hv (.mk hv'), ⟨hp, hk⟩, g2⟩
  complete k s h1 h2 := by
    cases h1 with
    | mk hv hp =>
      cases hp with
      | mk hv' =>
        obtain ⟨a', g1, g2⟩ := ed25519SignNew_iff (lib := lib) h2.1 h2.2
        exact ⟨a', g1⟩
  checked k s h1 := by
    cases h1 with
    | mk hv hp =>
      cases hp with
      | mk hv' =>
        refine ed25519SignKey_iff.trans ⟨fun ⟨_, h1, _, h2⟩ => ⟨h2, h1⟩, fun ⟨h1, h2⟩ => ⟨hv, h2, hv', h1⟩⟩
  relates k h1 := by
    obtain ⟨hv, hk, hv', hp⟩ := ed25519SignKey_iff.1 h1
    exact ⟨_, .mk hv (.mk hv')⟩
  unique k s s' h1 h2 := by
    cases h1 with
    | mk hv hp =>
      cases h2 with
      | mk hv' hp' =>
        cases hp
        cases hp'
        rfl
  made f k h1 h2 := by
    cases h2
    exact ⟨_, .mk, hl.ed25519Public _ (hl.random _ _ _), .mk rfl (.mk rfl)⟩
  makes f s h1 h2 := by
    cases h1
    exact ⟨rfl, _, rfl, .mk rfl (.mk rfl)⟩
  serialize k s h1 h2 := by
    cases h1 with
    | mk hv hp =>
      cases hp with
      | mk hv' =>
        have h2 : k.getPublicKey.keyValue.length + k.keyValue.length < 2 ^ 31 - 1000 := h2
        have hb : (encodeFields k.fields).length ≤ k.getPublicKey.keyValue.length + k.keyValue.length + 400 := by
          unfold Ed25519PrivateKey.fields
          rw [length_encodeFields_append, length_encodeFields_append]
          have h3 := length_uint32Field (num := 1) (n := k.version) (by decide)
          have h4 := length_optField (num := 3) (o := k.publicKey) (f := Ed25519PublicKey.fields)
            (m := k.getPublicKey.keyValue.length + 200) (by decide) (by omega) (by
              intro p hp
              have : k.getPublicKey = p := by unfold Ed25519PrivateKey.getPublicKey; rw [hp]; rfl
              rw [this] at h2 ⊢
              exact length_ed25519Public p (by omega))
          have h5 := length_bytesField (num := 2) (b := k.keyValue) (by decide) (by omega)
          omega
        exact ⟨_, serializeFields_of_length (by omega), hb⟩
  parse k b h := Ed25519PrivateKey.fromString_serializeToString h
  url := by show (ps! "type.googleapis.com/google.crypto.tink.Ed25519PrivateKey").length ≤ 100; decide
  material := rfl

/-! ## RSA -/

theorem newRsaKeyPair_iff {lib : SigSsl} {seed : Seed} {bits : Int} {e : Nat} {k : RsaKey} :
    newRsaKeyPair lib seed bits e = .ok k ↔ (e % 2 = 1 ∧ 65536 < e ∧ e < 2 ^ 32) ∧
      ∃ r, lib.rsaGenerate seed bits e = some r ∧ k = SigKey.rsaKey r := by
  unfold newRsaKeyPair
  rw [sbind_ok]
  constructor
  · rintro ⟨_, h1, h2⟩
    refine ⟨exponentBn_iff.1 h1, ?_⟩
    cases h : lib.rsaGenerate seed bits e with
    | none => rw [h] at h2; exact absurd h2 internal_ne
    | some r =>
      rw [h] at h2
      simp only [bnString_eq, bind, Except.bind] at h2
      exact ⟨r, rfl, (Except.ok.inj h2).symm⟩
  · rintro ⟨h1, r, h2, rfl⟩
    refine ⟨(), exponentBn_iff.2 h1, ?_⟩
    rw [h2]
    simp only [bnString_eq, bind, Except.bind]
    rfl

/-- The size of the generated modulus. -/
theorem generate_bits {lib : SigSsl} (hl : LawfulSigSsl lib) {seed : Seed} {x : UInt32} {e : Nat} {r : RsaNumbers}
    (h : lib.rsaGenerate seed (toInt x) e = some r) : 2048 ≤ bitLength r.n ↔ 2048 ≤ x.toNat := by
  obtain ⟨-, h1, h2, -⟩ := hl.rsaGenerate _ _ _ _ h
  unfold toInt at h1 h2
  have := x.toNat_lt
  split at h1
  · rw [if_pos (by assumption)] at h2
    constructor
    · intro g; omega
    · intro g; exact h2 (by omega)
  · omega

theorem rsaOk_generate {lib : SigSsl} (hl : LawfulSigSsl lib) {seed : Seed} {x : UInt32} {e : Bytes} {r : RsaNumbers}
    (h : lib.rsaGenerate seed (toInt x) (fromBytesBE e) = some r) :
    RsaOk (SigKey.rsaKey r).n (SigKey.rsaKey r).e ↔
      2048 ≤ x.toNat ∧ fromBytesBE e % 2 = 1 ∧ 65536 < fromBytesBE e ∧ fromBytesBE e < 2 ^ 32 := by
  have he : r.e = fromBytesBE e := (hl.rsaGenerate _ _ _ _ h).1
  unfold RsaOk
  show 2048 ≤ bitLength (fromBytesBE (SigKey.bytesOf r.n)) ∧ fromBytesBE (SigKey.bytesOf r.e) % 2 = 1 ∧
    65536 < fromBytesBE (SigKey.bytesOf r.e) ∧ fromBytesBE (SigKey.bytesOf r.e) < 2 ^ 32 ↔ _
  rw [fromBytesBE_bytesOf, fromBytesBE_bytesOf, he, generate_bits hl h]

theorem tested_iff {lib : SigSsl} {s : Cpp.PublicKeySign} {v : Cpp.PublicKeyVerify} {k : SigKey}
    (hs : SignsAs lib s k) (hv : VerifiesAs lib v k.publicPart)
    (hk : ∀ data sig, k.signature lib lib.testSeed data = some sig → k.publicPart.Valid lib data sig) {a} :
    tested lib (.ok s) (.ok v) = .ok a ↔
      (∃ sig, k.signature lib lib.testSeed testMessage = some sig) ∧ a = s := by
  unfold tested signAndVerify
  dsimp only [bind, Except.bind]
  cases h : s.sign lib.testSeed testMessage with
  | error e =>
    dsimp only
    constructor
    · intro g; exact absurd g internal_ne
    · rintro ⟨⟨sig, hsig⟩, -⟩
      rw [(hs _ _ _).2 hsig] at h
      cases h
  | ok sig =>
    have h1 := (hs _ _ _).1 h
    have h2 := (hv _ _).2 (hk _ _ h1)
    dsimp only
    rw [h2]
    constructor
    · intro g; exact ⟨⟨sig, h1⟩, (Except.ok.inj g).symm⟩
    · rintro ⟨-, rfl⟩; rfl

/-! ## RSA-SSA-PKCS1 -/

theorem pkcs1VerifyKey_iff {k : RsaSsaPkcs1PublicKey} : RsaSsaPkcs1VerifyKeyManager.validateKey k = .ok () ↔
    k.version = 0 ∧ RsaOk k.n k.e ∧ SafeHash k.getParams.hashType := by
  unfold RsaSsaPkcs1VerifyKeyManager.validateKey RsaOk
  rw [then_invalid, then_invalid, then_invalid, version_iff, modulus_iff, exponent_iff, pkcs1Params_iff]
  simp only [and_assoc]

theorem pkcs1_describesVerify (lib : SigSsl) :
    DescribesVerify lib (RsaSsaPkcs1VerifyKeyManager.keyTypeManager lib) PubKey.OfRsaPkcs1 where
  sound k a h1 h2 := by
    obtain ⟨hv, hr, hh⟩ := pkcs1VerifyKey_iff.1 h1
    obtain ⟨a', g1, g2⟩ := pkcs1VerifyNew_iff (lib := lib) hr hh
    have h2 : rsaPkcs1VerifyNew lib k.n k.e k.getParams.hashType = .ok a := h2
    rw [g1] at h2
    cases h2
    exact ⟨_, .mk hv, ⟨hr, hh⟩, g2⟩
  complete k v h1 h2 := by
    cases h1 with
    | mk hv =>
      obtain ⟨a', g1, g2⟩ := pkcs1VerifyNew_iff (lib := lib) h2.1 h2.2
      exact ⟨pkcs1VerifyKey_iff.2 ⟨hv, h2.1, h2.2⟩, a', g1⟩
  unique k v v' h1 h2 := by
    cases h1
    cases h2
    rfl
  serialize k v h1 h2 := by
    cases h1 with
    | mk hv =>
      have h2 : k.n.length + k.e.length < 2 ^ 31 - 1000 := h2
      have hb := length_pkcs1Public k (by omega)
      exact ⟨_, serializeFields_of_length (by omega), hb⟩
  parse k b h := RsaSsaPkcs1PublicKey.fromString_serializeToString h
  url := by show (ps! "type.googleapis.com/google.crypto.tink.RsaSsaPkcs1PublicKey").length ≤ 100; decide
  material := rfl

/-- What `AskedFor` says about a format. -/
inductive AsksPkcs1 (lib : SigSsl) (seed : Seed) (f : RsaSsaPkcs1KeyFormat) : SigKey → Prop
  | mk {k} : lib.rsaGenerate seed (toInt f.modulusSizeInBits) (fromBytesBE f.publicExponent) = some k →
    AsksPkcs1 lib seed f (.rsaPkcs1 (SigKey.rsaKey k) f.getParams.hashType)

theorem pkcs1SignKey_iff {k : RsaSsaPkcs1PrivateKey} : RsaSsaPkcs1SignKeyManager.validateKey k = .ok () ↔
    k.version = 0 ∧ k.getPublicKey.version = 0 ∧ RsaOk k.getPublicKey.n k.getPublicKey.e ∧
      SafeHash k.getPublicKey.getParams.hashType := by
  unfold RsaSsaPkcs1SignKeyManager.validateKey
  rw [then_invalid, version_iff, pkcs1VerifyKey_iff]

theorem pkcs1Create_iff {lib : SigSsl} (hl : LawfulSigSsl lib) {k : RsaSsaPkcs1PrivateKey} {K : RsaKey} {hash : EnumVal}
    (hK : RsaSsaPkcs1SignKeyManager.toSubtle k = K) (hh : k.getPublicKey.getParams.hashType = hash)
    (hp : (PubKey.rsaPkcs1 K.n K.e hash).Ok lib) :
    (∀ a, RsaSsaPkcs1SignKeyManager.create lib k = .ok a → (SigKey.rsaPkcs1 K hash).Ok lib ∧
      SignsAs lib a (.rsaPkcs1 K hash)) ∧
    ((SigKey.rsaPkcs1 K hash).Ok lib → ∃ a, RsaSsaPkcs1SignKeyManager.create lib k = .ok a) := by
  subst hK hh
  obtain ⟨v, g1, g2⟩ := pkcs1VerifyNew_iff (lib := lib) hp.1 hp.2
  have g3 := pkcs1SignNew_iff (lib := lib) hp.1 hp.2
  have g1 : RsaSsaPkcs1VerifyKeyManager.create lib k.getPublicKey = .ok v := g1
  unfold RsaSsaPkcs1SignKeyManager.create
  dsimp only
  rw [g1]
  constructor
  · intro a h
    cases hs : rsaPkcs1SignNew lib (RsaSsaPkcs1SignKeyManager.toSubtle k) k.getPublicKey.getParams.hashType with
    | error e => rw [hs] at h; cases h
    | ok s =>
      rw [hs] at h
      obtain ⟨c1, c2, c3⟩ := g3.1 s hs
      obtain ⟨c4, rfl⟩ := (tested_iff (k := .rsaPkcs1 _ _) c3 g2 fun _ _ h => hl.rsa _ _ _ _ c1 h).1 h
      exact ⟨⟨hp, c1, c2, c4⟩, c3⟩
  · rintro ⟨-, c1, c2, c3⟩
    obtain ⟨s, hs⟩ := g3.2 c1 c2
    rw [hs]
    exact ⟨s, (tested_iff (k := .rsaPkcs1 _ _) (g3.1 s hs).2.2 g2 fun _ _ h => hl.rsa _ _ _ _ c1 h).2
      ⟨c3, rfl⟩⟩

theorem length_pkcs1Private (k : RsaSsaPkcs1PrivateKey) (h2 : k.getPublicKey.n.length + k.getPublicKey.e.length + k.d.length +
    k.p.length + k.q.length + k.dp.length + k.dq.length + k.crt.length < 2 ^ 31) :
    (encodeFields k.fields).length ≤ k.getPublicKey.n.length + k.getPublicKey.e.length +
      k.d.length + k.p.length + k.q.length + k.dp.length + k.dq.length + k.crt.length + 400 := by
  unfold RsaSsaPkcs1PrivateKey.fields
  simp only [length_encodeFields_append]
  have l1 := length_uint32Field (num := 1) (n := k.version) (by decide)
  have l2 := length_optField (num := 2) (o := k.publicKey) (f := RsaSsaPkcs1PublicKey.fields)
    (m := k.getPublicKey.n.length + k.getPublicKey.e.length + 200) (by decide) (by omega) (by
      intro p hp
      have : k.getPublicKey = p := by unfold RsaSsaPkcs1PrivateKey.getPublicKey; rw [hp]; rfl
      rw [this] at h2 ⊢
      exact length_pkcs1Public p (by omega))
  have l3 := length_bytesField (num := 3) (b := k.d) (by decide) (by omega)
  have l4 := length_bytesField (num := 4) (b := k.p) (by decide) (by omega)
  have l5 := length_bytesField (num := 5) (b := k.q) (by decide) (by omega)
  have l6 := length_bytesField (num := 6) (b := k.dp) (by decide) (by omega)
  have l7 := length_bytesField (num := 7) (b := k.dq) (by decide) (by omega)
  have l8 := length_bytesField (num := 8) (b := k.crt) (by decide) (by omega)
  omega

theorem pkcs1Format_iff {f : RsaSsaPkcs1KeyFormat} : RsaSsaPkcs1SignKeyManager.validateKeyFormat f = .ok () ↔
    2048 ≤ f.modulusSizeInBits.toNat ∧ (fromBytesBE f.publicExponent % 2 = 1 ∧
      65536 < fromBytesBE f.publicExponent ∧ fromBytesBE f.publicExponent < 2 ^ 32) ∧ SafeHash f.getParams.hashType := by
  unfold RsaSsaPkcs1SignKeyManager.validateKeyFormat
  rw [then_invalid, then_invalid, modulus_iff, exponent_iff, pkcs1Params_iff]

/-- The message with a new key. -/
def pkcs1Message (f : RsaSsaPkcs1KeyFormat) (r : RsaNumbers) : RsaSsaPkcs1PrivateKey where
  version := 0
  publicKey := some { version := 0, n := (SigKey.rsaKey r).n, e := (SigKey.rsaKey r).e,
                      params := some f.getParams }
  d := (SigKey.rsaKey r).d
  p := (SigKey.rsaKey r).p
  q := (SigKey.rsaKey r).q
  dp := (SigKey.rsaKey r).dp
  dq := (SigKey.rsaKey r).dq
  crt := (SigKey.rsaKey r).crt

theorem pkcs1Message_of (f : RsaSsaPkcs1KeyFormat) (r : RsaNumbers) :
    SigKey.OfRsaPkcs1 (pkcs1Message f r) (.rsaPkcs1 (SigKey.rsaKey r) f.getParams.hashType) :=
  SigKey.OfRsaPkcs1.mk (k := pkcs1Message f r) (n := (SigKey.rsaKey r).n) (e := (SigKey.rsaKey r).e)
    (hash := f.getParams.hashType) rfl
    (PubKey.OfRsaPkcs1.mk (k := (pkcs1Message f r).getPublicKey) rfl)

theorem pkcs1CreateKey_iff {lib : SigSsl} {seed : Seed} {f : RsaSsaPkcs1KeyFormat} {k : RsaSsaPkcs1PrivateKey} :
    RsaSsaPkcs1SignKeyManager.createKey lib seed f = .ok k ↔
      (fromBytesBE f.publicExponent % 2 = 1 ∧
        65536 < fromBytesBE f.publicExponent ∧ fromBytesBE f.publicExponent < 2 ^ 32) ∧
      ∃ r, lib.rsaGenerate seed (toInt f.modulusSizeInBits) (fromBytesBE f.publicExponent) = some r ∧
        k = pkcs1Message f r := by
  unfold RsaSsaPkcs1SignKeyManager.createKey
  rw [sbind_ok]
  constructor
  · rintro ⟨k', g1, g2⟩
    obtain ⟨he, r, hr, rfl⟩ := newRsaKeyPair_iff.1 g1
    exact ⟨he, r, hr, (Except.ok.inj g2).symm⟩
  · rintro ⟨he, r, hr, rfl⟩
    exact ⟨_, newRsaKeyPair_iff.2 ⟨he, r, hr, rfl⟩, rfl⟩

theorem pkcs1Private_size {k : RsaSsaPkcs1PrivateKey} {s : SigKey} (h : SigKey.OfRsaPkcs1 k s) :
    s.size = SigKey.size.rsaSize (RsaSsaPkcs1SignKeyManager.toSubtle k) := by
  cases h with
  | mk hv hp =>
    cases hp with
    | mk hv' => rfl

theorem pkcs1Private_serialize {k : RsaSsaPkcs1PrivateKey} {s : SigKey} (hk : SigKey.OfRsaPkcs1 k s)
    (h : s.size < 2 ^ 31 - 1000) : ∃ b, k.serializeToString = .ok b ∧ b.length ≤ s.size + 400 := by
  rw [pkcs1Private_size hk] at h ⊢
  simp only [SigKey.size.rsaSize, RsaSsaPkcs1SignKeyManager.toSubtle] at h ⊢
  have hb := length_pkcs1Private k (by omega)
  exact ⟨encodeFields k.fields, serializeFields_of_length (by omega), hb⟩

theorem pkcs1_serializeKey (lib : SigSsl) : (RsaSsaPkcs1SignKeyManager.keyTypeManager lib).serializeKey =
    RsaSsaPkcs1PrivateKey.serializeToString := by
  simp only [RsaSsaPkcs1SignKeyManager.keyTypeManager]

theorem pkcs1_describesSign {lib : SigSsl} (hl : LawfulSigSsl lib) (seed : Seed) :
    DescribesSign lib seed (RsaSsaPkcs1SignKeyManager.keyTypeManager lib) SigKey.OfRsaPkcs1
      (AsksPkcs1 lib seed) where
  sound k a h1 h2 := by
    obtain ⟨hv, hv', hp⟩ := pkcs1SignKey_iff.1 h1
    obtain ⟨g1, g2⟩ := (pkcs1Create_iff hl rfl rfl hp).1 a h2
    exact ⟨_, .mk hv (.mk hv'), g1, g2⟩
  complete k s h1 h2 := by
    cases h1 with
    | mk hv hp =>
      cases hp with
      | mk hv' => exact (pkcs1Create_iff hl rfl rfl h2.1).2 h2
  checked k s h1 := by
    cases h1 with
    | mk hv hp =>
      cases hp with
      | mk hv' => exact pkcs1SignKey_iff.trans ⟨fun h => h.2.2, fun h => ⟨hv, hv', h⟩⟩
  relates k h1 := by
    obtain ⟨hv, hv', hp⟩ := pkcs1SignKey_iff.1 h1
    exact ⟨_, .mk hv (.mk hv')⟩
  unique k s s' h1 h2 := by
    cases h1 with
    | mk hv hp =>
      cases h2 with
      | mk hv' hp' =>
        cases hp
        cases hp'
        rfl
  made f k h1 h2 := by
    obtain ⟨m1, m2, m3⟩ := pkcs1Format_iff.1 h1
    obtain ⟨he, r, hr, rfl⟩ := pkcs1CreateKey_iff.1 h2
    exact ⟨_, .mk hr, ⟨(rsaOk_generate hl hr).2 ⟨m1, m2⟩, m3⟩, pkcs1Message_of f r⟩
  makes f s h1 h2 := by
    cases h1 with
    | @mk r hr =>
      obtain ⟨m1, m2⟩ := (rsaOk_generate hl hr).1 h2.1
      exact ⟨pkcs1Format_iff.2 ⟨m1, m2, h2.2⟩, _, pkcs1CreateKey_iff.2 ⟨m2, r, hr, rfl⟩, pkcs1Message_of f r⟩
  serialize k s h1 h2 := by
    rw [pkcs1_serializeKey]
    exact pkcs1Private_serialize h1 h2
  parse k b h := by
    rw [pkcs1_serializeKey] at h
    exact RsaSsaPkcs1PrivateKey.fromString_serializeToString h
  url := by show (ps! "type.googleapis.com/google.crypto.tink.RsaSsaPkcs1PrivateKey").length ≤ 100; decide
  material := rfl

/-! ## RSA-SSA-PSS -/

theorem pssVerifyKey_iff {k : RsaSsaPssPublicKey} : RsaSsaPssVerifyKeyManager.validateKey k = .ok () ↔
    k.version = 0 ∧ RsaOk k.n k.e ∧ SafeHash k.getParams.sigHash ∧ k.getParams.mgf1Hash = k.getParams.sigHash ∧
      0 ≤ toInt k.getParams.saltLength := by
  unfold RsaSsaPssVerifyKeyManager.validateKey RsaOk
  rw [then_invalid, then_invalid, then_invalid, version_iff, modulus_iff, exponent_iff, pssParams_iff]
  simp only [and_assoc]

theorem pss_describesVerify {lib : SigSsl} (hl : LawfulSigSsl lib) :
    DescribesVerify lib (RsaSsaPssVerifyKeyManager.keyTypeManager lib) PubKey.OfRsaPss where
  sound k a h1 h2 := by
    obtain ⟨hv, hr, hh, hm, hs⟩ := pssVerifyKey_iff.1 h1
    obtain ⟨a', g1, g2⟩ := pssVerifyNew_iff hl (salt := toInt k.getParams.saltLength) hr hh hm
    have h2 : rsaPssVerifyNew lib k.n k.e k.getParams.sigHash k.getParams.mgf1Hash
      (toInt k.getParams.saltLength) = .ok a := h2
    rw [g1] at h2
    cases h2
    exact ⟨_, .mk hv, ⟨hr, hh, hm, hs⟩, g2⟩
  complete k v h1 h2 := by
    cases h1 with
    | mk hv =>
      obtain ⟨a', g1, g2⟩ := pssVerifyNew_iff hl (salt := toInt k.getParams.saltLength) h2.1 h2.2.1 h2.2.2.1
      exact ⟨pssVerifyKey_iff.2 ⟨hv, h2⟩, a', g1⟩
  unique k v v' h1 h2 := by
    cases h1
    cases h2
    rfl
  serialize k v h1 h2 := by
    cases h1 with
    | mk hv =>
      have h2 : k.n.length + k.e.length < 2 ^ 31 - 1000 := h2
      have hb := length_pssPublic k (by omega)
      exact ⟨_, serializeFields_of_length (by omega), hb⟩
  parse k b h := RsaSsaPssPublicKey.fromString_serializeToString h
  url := by show (ps! "type.googleapis.com/google.crypto.tink.RsaSsaPssPublicKey").length ≤ 100; decide
  material := rfl

/-- What `AskedFor` says about a format. -/
inductive AsksPss (lib : SigSsl) (seed : Seed) (f : RsaSsaPssKeyFormat) : SigKey → Prop
  | mk {k} : lib.rsaGenerate seed (toInt f.modulusSizeInBits) (fromBytesBE f.publicExponent) = some k →
    AsksPss lib seed f (.rsaPss (SigKey.rsaKey k) f.getParams.sigHash f.getParams.mgf1Hash
      (toInt f.getParams.saltLength))

theorem pssSignKey_iff {k : RsaSsaPssPrivateKey} : RsaSsaPssSignKeyManager.validateKey k = .ok () ↔
    k.version = 0 ∧ k.getPublicKey.version = 0 ∧ RsaOk k.getPublicKey.n k.getPublicKey.e ∧
      SafeHash k.getPublicKey.getParams.sigHash ∧
      k.getPublicKey.getParams.mgf1Hash = k.getPublicKey.getParams.sigHash ∧
      0 ≤ toInt k.getPublicKey.getParams.saltLength := by
  unfold RsaSsaPssSignKeyManager.validateKey
  rw [then_invalid, version_iff, pssVerifyKey_iff]

theorem pssCreate_iff {lib : SigSsl} (hl : LawfulSigSsl lib) {k : RsaSsaPssPrivateKey} {K : RsaKey}
    {h1 h2 : EnumVal} {salt : Int}
    (hK : RsaSsaPssSignKeyManager.toSubtle k = K) (hh1 : k.getPublicKey.getParams.sigHash = h1)
    (hh2 : k.getPublicKey.getParams.mgf1Hash = h2) (hs : toInt k.getPublicKey.getParams.saltLength = salt)
    (hp : (PubKey.rsaPss K.n K.e h1 h2 salt).Ok lib) :
    (∀ a, RsaSsaPssSignKeyManager.create lib k = .ok a → (SigKey.rsaPss K h1 h2 salt).Ok lib ∧
      SignsAs lib a (.rsaPss K h1 h2 salt)) ∧
    ((SigKey.rsaPss K h1 h2 salt).Ok lib → ∃ a, RsaSsaPssSignKeyManager.create lib k = .ok a) := by
  obtain ⟨v, g1, g2⟩ := pssVerifyNew_iff hl (salt := salt) hp.1 hp.2.1 hp.2.2.1
  have g3 := pssSignNew_iff (lib := lib) (salt := salt) hp.1 hp.2.1 hp.2.2.1
  have hv : ∀ data sig, lib.rsaCheckKey K.numbers = true →
      (SigKey.rsaPss K h1 h2 salt).signature lib lib.testSeed data = some sig →
      (PubKey.rsaPss K.n K.e h1 h2 salt).Valid lib data sig := by
    intro data sig hc h
    obtain ⟨em, e1, e2⟩ := Option.bind_eq_some_iff.1 h
    cases hp.2.2.1
    exact ⟨em, hl.rsaRaw _ _ _ hc e2, hl.pss _ _ _ _ _ _ e1⟩
  subst hK hh1 hh2 hs
  have g1 : RsaSsaPssVerifyKeyManager.create lib k.getPublicKey = .ok v := g1
  unfold RsaSsaPssSignKeyManager.create
  dsimp only
  rw [g1]
  constructor
  · intro a h
    cases hs : rsaPssSignNew lib (RsaSsaPssSignKeyManager.toSubtle k) k.getPublicKey.getParams.sigHash
        k.getPublicKey.getParams.mgf1Hash (toInt k.getPublicKey.getParams.saltLength) with
    | error e => rw [hs] at h; cases h
    | ok s =>
      rw [hs] at h
      obtain ⟨c1, c2, c3⟩ := g3.1 s hs
      obtain ⟨c4, rfl⟩ := (tested_iff (k := .rsaPss _ _ _ _) c3 g2 fun _ _ h => hv _ _ c1 h).1 h
      exact ⟨⟨hp, c1, c2, c4⟩, c3⟩
  · rintro ⟨-, c1, c2, c3⟩
    obtain ⟨s, hs⟩ := g3.2 c1 c2
    rw [hs]
    exact ⟨s, (tested_iff (k := .rsaPss _ _ _ _) (g3.1 s hs).2.2 g2 fun _ _ h => hv _ _ c1 h).2
      ⟨c3, rfl⟩⟩

theorem length_pssPrivate (k : RsaSsaPssPrivateKey) (h2 : k.getPublicKey.n.length + k.getPublicKey.e.length + k.d.length +
    k.p.length + k.q.length + k.dp.length + k.dq.length + k.crt.length < 2 ^ 31) :
    (encodeFields k.fields).length ≤ k.getPublicKey.n.length + k.getPublicKey.e.length +
      k.d.length + k.p.length + k.q.length + k.dp.length + k.dq.length + k.crt.length + 400 := by
  unfold RsaSsaPssPrivateKey.fields
  simp only [length_encodeFields_append]
  have l1 := length_uint32Field (num := 1) (n := k.version) (by decide)
  have l2 := length_optField (num := 2) (o := k.publicKey) (f := RsaSsaPssPublicKey.fields)
    (m := k.getPublicKey.n.length + k.getPublicKey.e.length + 200) (by decide) (by omega) (by
      intro p hp
      have : k.getPublicKey = p := by unfold RsaSsaPssPrivateKey.getPublicKey; rw [hp]; rfl
      rw [this] at h2 ⊢
      exact length_pssPublic p (by omega))
  have l3 := length_bytesField (num := 3) (b := k.d) (by decide) (by omega)
  have l4 := length_bytesField (num := 4) (b := k.p) (by decide) (by omega)
  have l5 := length_bytesField (num := 5) (b := k.q) (by decide) (by omega)
  have l6 := length_bytesField (num := 6) (b := k.dp) (by decide) (by omega)
  have l7 := length_bytesField (num := 7) (b := k.dq) (by decide) (by omega)
  have l8 := length_bytesField (num := 8) (b := k.crt) (by decide) (by omega)
  omega

theorem pssFormat_iff {f : RsaSsaPssKeyFormat} : RsaSsaPssSignKeyManager.validateKeyFormat f = .ok () ↔
    2048 ≤ f.modulusSizeInBits.toNat ∧ (fromBytesBE f.publicExponent % 2 = 1 ∧
      65536 < fromBytesBE f.publicExponent ∧ fromBytesBE f.publicExponent < 2 ^ 32) ∧ SafeHash f.getParams.sigHash ∧
      f.getParams.mgf1Hash = f.getParams.sigHash ∧ 0 ≤ toInt f.getParams.saltLength := by
  unfold RsaSsaPssSignKeyManager.validateKeyFormat
  rw [then_invalid, then_invalid, modulus_iff, exponent_iff, pssParams_iff]

/-- The message with a new key. -/
def pssMessage (f : RsaSsaPssKeyFormat) (r : RsaNumbers) : RsaSsaPssPrivateKey where
  version := 0
  publicKey := some { version := 0, n := (SigKey.rsaKey r).n, e := (SigKey.rsaKey r).e,
                      params := some f.getParams }
  d := (SigKey.rsaKey r).d
  p := (SigKey.rsaKey r).p
  q := (SigKey.rsaKey r).q
  dp := (SigKey.rsaKey r).dp
  dq := (SigKey.rsaKey r).dq
  crt := (SigKey.rsaKey r).crt

theorem pssMessage_of (f : RsaSsaPssKeyFormat) (r : RsaNumbers) :
    SigKey.OfRsaPss (pssMessage f r) (.rsaPss (SigKey.rsaKey r) f.getParams.sigHash f.getParams.mgf1Hash
      (toInt f.getParams.saltLength)) :=
  SigKey.OfRsaPss.mk (k := pssMessage f r) (n := (SigKey.rsaKey r).n) (e := (SigKey.rsaKey r).e)
    (sigHash := f.getParams.sigHash) (mgf1Hash := f.getParams.mgf1Hash)
    (salt := toInt f.getParams.saltLength) rfl
    (PubKey.OfRsaPss.mk (k := (pssMessage f r).getPublicKey) rfl)

theorem pssCreateKey_iff {lib : SigSsl} {seed : Seed} {f : RsaSsaPssKeyFormat} {k : RsaSsaPssPrivateKey} :
    RsaSsaPssSignKeyManager.createKey lib seed f = .ok k ↔
      (fromBytesBE f.publicExponent % 2 = 1 ∧
        65536 < fromBytesBE f.publicExponent ∧ fromBytesBE f.publicExponent < 2 ^ 32) ∧
      ∃ r, lib.rsaGenerate seed (toInt f.modulusSizeInBits) (fromBytesBE f.publicExponent) = some r ∧
        k = pssMessage f r := by
  unfold RsaSsaPssSignKeyManager.createKey
  rw [sbind_ok]
  constructor
  · rintro ⟨k', g1, g2⟩
    obtain ⟨he, r, hr, rfl⟩ := newRsaKeyPair_iff.1 g1
    exact ⟨he, r, hr, (Except.ok.inj g2).symm⟩
  · rintro ⟨he, r, hr, rfl⟩
    exact ⟨_, newRsaKeyPair_iff.2 ⟨he, r, hr, rfl⟩, rfl⟩

theorem pssPrivate_size {k : RsaSsaPssPrivateKey} {s : SigKey} (h : SigKey.OfRsaPss k s) :
    s.size = SigKey.size.rsaSize (RsaSsaPssSignKeyManager.toSubtle k) := by
  cases h with
  | mk hv hp =>
    cases hp with
    | mk hv' => rfl

theorem pssPrivate_serialize {k : RsaSsaPssPrivateKey} {s : SigKey} (hk : SigKey.OfRsaPss k s)
    (h : s.size < 2 ^ 31 - 1000) : ∃ b, k.serializeToString = .ok b ∧ b.length ≤ s.size + 400 := by
  rw [pssPrivate_size hk] at h ⊢
  simp only [SigKey.size.rsaSize, RsaSsaPssSignKeyManager.toSubtle] at h ⊢
  have hb := length_pssPrivate k (by omega)
  exact ⟨encodeFields k.fields, serializeFields_of_length (by omega), hb⟩

theorem pss_serializeKey (lib : SigSsl) : (RsaSsaPssSignKeyManager.keyTypeManager lib).serializeKey =
    RsaSsaPssPrivateKey.serializeToString := by
  simp only [RsaSsaPssSignKeyManager.keyTypeManager]

theorem pss_describesSign {lib : SigSsl} (hl : LawfulSigSsl lib) (seed : Seed) :
    DescribesSign lib seed (RsaSsaPssSignKeyManager.keyTypeManager lib) SigKey.OfRsaPss
      (AsksPss lib seed) where
  sound k a h1 h2 := by
    obtain ⟨hv, hv', hp⟩ := pssSignKey_iff.1 h1
    obtain ⟨g1, g2⟩ := (pssCreate_iff hl rfl rfl rfl rfl hp).1 a h2
    exact ⟨_, .mk hv (.mk hv'), g1, g2⟩
  complete k s h1 h2 := by
    cases h1 with
    | mk hv hp =>
      cases hp with
      | mk hv' => exact (pssCreate_iff hl rfl rfl rfl rfl h2.1).2 h2
  checked k s h1 := by
    cases h1 with
    | mk hv hp =>
      cases hp with
      | mk hv' => exact pssSignKey_iff.trans ⟨fun h => h.2.2, fun h => ⟨hv, hv', h⟩⟩
  relates k h1 := by
    obtain ⟨hv, hv', hp⟩ := pssSignKey_iff.1 h1
    exact ⟨_, .mk hv (.mk hv')⟩
  unique k s s' h1 h2 := by
    cases h1 with
    | mk hv hp =>
      cases h2 with
      | mk hv' hp' =>
        cases hp
        cases hp'
        rfl
  made f k h1 h2 := by
    obtain ⟨m1, m2, m3⟩ := pssFormat_iff.1 h1
    obtain ⟨he, r, hr, rfl⟩ := pssCreateKey_iff.1 h2
    exact ⟨_, .mk hr, ⟨(rsaOk_generate hl hr).2 ⟨m1, m2⟩, m3⟩, pssMessage_of f r⟩
  makes f s h1 h2 := by
    cases h1 with
    | @mk r hr =>
      obtain ⟨m1, m2⟩ := (rsaOk_generate hl hr).1 h2.1
      exact ⟨pssFormat_iff.2 ⟨m1, m2, h2.2⟩, _, pssCreateKey_iff.2 ⟨m2, r, hr, rfl⟩, pssMessage_of f r⟩
  serialize k s h1 h2 := by
    rw [pss_serializeKey]
    exact pssPrivate_serialize h1 h2
  parse k b h := by
    rw [pss_serializeKey] at h
    exact RsaSsaPssPrivateKey.fromString_serializeToString h
  url := by show (ps! "type.googleapis.com/google.crypto.tink.RsaSsaPssPrivateKey").length ≤ 100; decide
  material := rfl

end Tink.Cc
