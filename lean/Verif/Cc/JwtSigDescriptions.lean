import Verif.Cc.JwtSignatures
import Verif.Cc.SigManages
import Verif.Spec.JwtSignatureKeys

/-!
# What each key manager for JWT signature keys does, in terms of the keys
-/

namespace Tink.Cc
open Spec Cpp Props

/-- The functions of a key type manager for public keys, in terms of the keys. -/
structure DescribesJwtVerify {K : Type} (lib : SigSsl) (m : PublicKeyTypeManager K Cpp.PublicKeyVerify)
    (R : K → JwsInfo → PubKey → Prop) : Prop where
  sound : ∀ k a, m.validateKey k = .ok () → m.create k = .ok a → ∃ i v, R k i v ∧ v.Ok lib ∧ VerifiesAs lib a v
  complete : ∀ k i v, R k i v → v.Ok lib → m.validateKey k = .ok () ∧ ∃ a, m.create k = .ok a
  unique : ∀ k i v i' v', R k i v → R k i' v' → i = i' ∧ v = v'
  serialize : ∀ k i v, R k i v → v.size + i.kidSize < 2 ^ 31 - 1000 →
    ∃ b, m.serializeKey k = .ok b ∧ b.length ≤ v.size + i.kidSize + 200
  parse : ∀ k b, m.serializeKey k = .ok b → m.parseKey b = .ok k
  url : m.keyType.length ≤ 100
  material : m.keyMaterialType = KeyMaterialType.ASYMMETRIC_PUBLIC

/-- The functions of a key type manager for private keys, in terms of the keys. -/
structure DescribesJwtSign {K F : Type} (lib : SigSsl) (seed : Seed) (m : KeyTypeManager K F Cpp.PublicKeySign)
    (R : K → JwsInfo → SigKey → Prop) (A : F → PyStr → SigKey → Prop) : Prop where
  sound : ∀ k a, m.validateKey k = .ok () → m.create k = .ok a → ∃ i s, R k i s ∧ s.Ok lib ∧ SignsAs lib a s
  complete : ∀ k i s, R k i s → s.Ok lib → ∃ a, m.create k = .ok a
  checked : ∀ k i s, R k i s → (m.validateKey k = .ok () ↔ s.Checked)
  relates : ∀ k, m.validateKey k = .ok () → ∃ i s, R k i s
  unique : ∀ k i s i' s', R k i s → R k i' s' → i = i' ∧ s = s'
  made : ∀ f k, m.validateKeyFormat f = .ok () → m.createKey seed f = .ok k →
    ∃ alg s, A f alg s ∧ s.publicPart.Ok lib ∧ R k ⟨alg, none⟩ s
  makes : ∀ f alg s, A f alg s → s.publicPart.Ok lib → m.validateKeyFormat f = .ok () ∧
    ∃ k, m.createKey seed f = .ok k ∧ R k ⟨alg, none⟩ s
  serialize : ∀ k i s, R k i s → s.size + i.kidSize < 2 ^ 31 - 1000 →
    ∃ b, m.serializeKey k = .ok b ∧ b.length ≤ s.size + i.kidSize + 400
  parse : ∀ k b, m.serializeKey k = .ok b → m.parseKey b = .ok k
  url : m.keyType.length ≤ 100
  material : m.keyMaterialType = KeyMaterialType.ASYMMETRIC_PRIVATE

theorem kidSize_eq {α : Type} (o : Option α) (f : α → PStr) (alg : PyStr) (d : α) (hd : f d = []) :
    JwsInfo.kidSize ⟨alg, o.map fun c => (f c).toPy⟩ = 4 * (f (o.getD d)).length := by
  unfold JwsInfo.kidSize
  cases o with
  | none => dsimp only [Option.map_none, Option.getD_none]; rw [hd]; rfl
  | some x => show 4 * ((f x).toPy).length = _; unfold PStr.toPy; rw [List.length_map]; rfl

/-! ## ECDSA -/

theorem _root_.Tink.Spec.JwsEcdsa.curve {a : EnumVal} {alg : PyStr} {g : EcGroup} {hash : EnumVal} (h : JwsEcdsa a alg g hash) :
    ∃ c, RawJwtEcdsaVerifyKeyManager.curveForEcdsaAlgorithm a = .ok c ∧ Curve c g := by
  cases h
  · exact ⟨_, rfl, .p256⟩
  · exact ⟨_, rfl, .p384⟩
  · exact ⟨_, rfl, .p521⟩

theorem _root_.Tink.Spec.JwsEcdsa.hash {a : EnumVal} {alg : PyStr} {g : EcGroup} {hash : EnumVal} (h : JwsEcdsa a alg g hash) :
    RawJwtEcdsaVerifyKeyManager.hashForEcdsaAlgorithm a = .ok hash := by
  cases h <;> rfl

theorem _root_.Tink.Spec.JwsEcdsa.hashFor {a : EnumVal} {alg : PyStr} {g : EcGroup} {hash : EnumVal} (h : JwsEcdsa a alg g hash) :
    HashFor g hash := by
  cases h
  · exact .p256
  · exact .p384
  · exact .p521

theorem _root_.Tink.Spec.JwsEcdsa.unique {a : EnumVal} {alg alg' : PyStr} {g g' : EcGroup} {hash hash' : EnumVal}
    (h : JwsEcdsa a alg g hash) (h' : JwsEcdsa a alg' g' hash') : alg' = alg ∧ g' = g ∧ hash' = hash := by
  cases h <;> cases h' <;> exact ⟨rfl, rfl, rfl⟩

theorem ecdsaAlgorithm_iff {a : EnumVal} :
    RawJwtEcdsaVerifyKeyManager.validateAlgorithm a = .ok () ↔ ∃ alg g hash, JwsEcdsa a alg g hash := by
  unfold RawJwtEcdsaVerifyKeyManager.validateAlgorithm
  constructor
  · intro h
    split at h
    · rename_i g; subst g; exact ⟨_, _, _, .es256⟩
    split at h
    · rename_i g; subst g; exact ⟨_, _, _, .es384⟩
    split at h
    · rename_i g; subst g; exact ⟨_, _, _, .es512⟩
    cases h
  · rintro ⟨_, _, _, h⟩
    cases h <;> rfl

theorem jwtEcdsaVerifyKey_iff {k : JwtEcdsaPublicKey} : RawJwtEcdsaVerifyKeyManager.validateKey k = .ok () ↔
    k.version = 0 ∧ ∃ alg g hash, JwsEcdsa k.algorithm alg g hash := by
  unfold RawJwtEcdsaVerifyKeyManager.validateKey
  rw [then_invalid, version_iff, ecdsaAlgorithm_iff]

theorem jwtEcdsaVerify_create {lib : SigSsl} {k : JwtEcdsaPublicKey} {alg : PyStr} {g : EcGroup} {hash : EnumVal}
    (h : JwsEcdsa k.algorithm alg g hash) : ∃ c, Curve c g ∧ RawJwtEcdsaVerifyKeyManager.create lib k =
      ecdsaVerifyNew lib { curve := c, pubX := k.x, pubY := k.y } hash EcdsaSignatureEncoding.IEEE_P1363 := by
  obtain ⟨c, h1, h2⟩ := h.curve
  refine ⟨c, h2, ?_⟩
  unfold RawJwtEcdsaVerifyKeyManager.create
  rw [h1, h.hash]
  rfl

theorem jwtEcdsaSign_create {lib : SigSsl} {k : JwtEcdsaPrivateKey} {alg : PyStr} {g : EcGroup} {hash : EnumVal}
    (h : JwsEcdsa k.getPublicKey.algorithm alg g hash) : ∃ c, Curve c g ∧ RawJwtEcdsaSignKeyManager.create lib k =
      ecdsaSignNew lib { curve := c, pubX := k.getPublicKey.x, pubY := k.getPublicKey.y, priv := k.keyValue } hash
        EcdsaSignatureEncoding.IEEE_P1363 := by
  obtain ⟨c, h1, h2⟩ := h.curve
  refine ⟨c, h2, ?_⟩
  unfold RawJwtEcdsaSignKeyManager.create
  dsimp only
  rw [h1, h.hash]
  rfl

theorem length_jwtEcdsaPublic (k : JwtEcdsaPublicKey)
    (h : k.x.length + k.y.length + 4 * k.getCustomKid.value.length < 2 ^ 31) :
    (encodeFields k.fields).length ≤ k.x.length + k.y.length + 4 * k.getCustomKid.value.length + 200 := by
  unfold JwtEcdsaPublicKey.fields
  simp only [length_encodeFields_append]
  have h1 := length_uint32Field (num := 1) (n := k.version) (by decide)
  have h2 := length_enumField (num := 2) (e := k.algorithm) (by decide)
  have h3 := length_bytesField (num := 3) (b := k.x) (by decide) (by omega)
  have h4 := length_bytesField (num := 4) (b := k.y) (by decide) (by omega)
  have h5 := length_optField (num := 5) (m := 20 + 4 * k.getCustomKid.value.length)
    (o := k.customKid) (f := JwtEcdsaPublicKey.CustomKid.fields) (by decide) (by omega) (fun x hx => by
      have : k.getCustomKid = x := by unfold JwtEcdsaPublicKey.getCustomKid; rw [hx]; rfl
      rw [this] at h ⊢
      have := length_strField (num := 1) (s := x.value) (by decide) (by omega)
      unfold JwtEcdsaPublicKey.CustomKid.fields
      omega)
  omega

theorem length_jwtEcdsaPrivate (k : JwtEcdsaPrivateKey) (h : k.getPublicKey.x.length + k.getPublicKey.y.length +
      4 * k.getPublicKey.getCustomKid.value.length + k.keyValue.length < 2 ^ 31) :
    (encodeFields k.fields).length ≤ k.getPublicKey.x.length + k.getPublicKey.y.length +
      4 * k.getPublicKey.getCustomKid.value.length + k.keyValue.length + 400 := by
  unfold JwtEcdsaPrivateKey.fields
  simp only [length_encodeFields_append]
  have h3 := length_uint32Field (num := 1) (n := k.version) (by decide)
  have h4 := length_optField (num := 2) (o := k.publicKey) (f := JwtEcdsaPublicKey.fields)
    (m := k.getPublicKey.x.length + k.getPublicKey.y.length + 4 * k.getPublicKey.getCustomKid.value.length + 200)
    (by decide) (by omega) (by
      intro p hp
      have : k.getPublicKey = p := by unfold JwtEcdsaPrivateKey.getPublicKey; rw [hp]; rfl
      rw [this] at h ⊢
      exact length_jwtEcdsaPublic p (by omega))
  have h5 := length_bytesField (num := 3) (b := k.keyValue) (by decide) (by omega)
  omega

theorem jwtEcdsa_describesVerify {lib : SigSsl} (hl : LawfulSigSsl lib) :
    DescribesJwtVerify lib (RawJwtEcdsaVerifyKeyManager.keyTypeManager lib) PubKey.OfJwtEcdsa where
  sound k a h1 h2 := by
    obtain ⟨hv, alg, g, hash, hj⟩ := jwtEcdsaVerifyKey_iff.1 h1
    obtain ⟨c, hc, e⟩ := jwtEcdsaVerify_create (lib := lib) hj
    have h2 : RawJwtEcdsaVerifyKeyManager.create lib k = .ok a := h2
    rw [e] at h2
    obtain ⟨g1, g2⟩ := (ecdsaVerifyNew_iff hl (x := k.x) (y := k.y) hc hj.hashFor (.inr rfl)).1 a h2
    exact ⟨_, _, .mk hv hj, g1, g2⟩
  complete k i v h1 h2 := by
    cases h1 with
    | mk hv hj =>
      obtain ⟨c, hc, e⟩ := jwtEcdsaVerify_create (lib := lib) hj
      refine ⟨jwtEcdsaVerifyKey_iff.2 ⟨hv, _, _, _, hj⟩, ?_⟩
      show ∃ a, RawJwtEcdsaVerifyKeyManager.create lib k = .ok a
      rw [e]
      exact (ecdsaVerifyNew_iff hl (x := k.x) (y := k.y) hc h2.1 h2.2.1).2 h2
  unique k i v i' v' h1 h2 := by
    cases h1 with
    | mk hv hj =>
      cases h2 with
      | mk hv' hj' =>
        obtain ⟨rfl, rfl, rfl⟩ := hj.unique hj'
        exact ⟨rfl, rfl⟩
  serialize k i v h1 h2 := by
    cases h1 with
    | mk hv hj =>
      rw [kidSize_eq (d := {}) (hd := rfl)] at h2 ⊢
      have h2 : k.x.length + k.y.length + 4 * k.getCustomKid.value.length < 2 ^ 31 - 1000 := h2
      have hb := length_jwtEcdsaPublic k (by omega)
      exact ⟨_, serializeFields_of_length (by omega), hb⟩
  parse k b h := JwtEcdsaPublicKey.fromString_serializeToString h
  url := by show (ps! "type.googleapis.com/google.crypto.tink.JwtEcdsaPublicKey").length ≤ 100; decide
  material := rfl

/-- What `JwsAskedFor` says about a format. -/
inductive AsksJwtEcdsa (lib : SigSsl) (seed : Seed) (f : JwtEcdsaKeyFormat) : PyStr → SigKey → Prop
  | mk {alg g hash x y} : JwsEcdsa f.algorithm alg g hash → lib.ecPublic g (lib.ecGenerate seed g) = (x, y) →
    AsksJwtEcdsa lib seed f alg
      (.ecdsa g (digitsBE g.fieldSize x) (digitsBE g.fieldSize y) (digitsBE g.fieldSize (lib.ecGenerate seed g))
        hash EcdsaSignatureEncoding.IEEE_P1363)

theorem jwtEcdsa_createKey {lib : SigSsl} (hl : LawfulSigSsl lib) {seed : Seed} {f : JwtEcdsaKeyFormat} {alg : PyStr}
    {g : EcGroup} {hash : EnumVal} (h : JwsEcdsa f.algorithm alg g hash) :
    RawJwtEcdsaSignKeyManager.createKey lib seed f = .ok
      { version := 0, keyValue := digitsBE g.fieldSize (lib.ecGenerate seed g)
        publicKey := some
          { version := 0, algorithm := f.algorithm
            x := digitsBE g.fieldSize (lib.ecPublic g (lib.ecGenerate seed g)).1
            y := digitsBE g.fieldSize (lib.ecPublic g (lib.ecGenerate seed g)).2 } } := by
  obtain ⟨c, h1, h2⟩ := h.curve
  unfold RawJwtEcdsaSignKeyManager.createKey
  rw [h1]
  dsimp only [bind, Except.bind]
  rw [newEcKey_eq hl h2]
  rfl

theorem jwtEcdsa_describesSign {lib : SigSsl} (hl : LawfulSigSsl lib) (seed : Seed) :
    DescribesJwtSign lib seed (RawJwtEcdsaSignKeyManager.keyTypeManager lib) SigKey.OfJwtEcdsa
      (AsksJwtEcdsa lib seed) where
  sound k a h1 h2 := by
    obtain ⟨hv, h1⟩ := then_invalid.1 h1
    obtain ⟨hv', alg, g, hash, hj⟩ := jwtEcdsaVerifyKey_iff.1 h1
    obtain ⟨c, hc, e⟩ := jwtEcdsaSign_create (lib := lib) hj
    have h2 : RawJwtEcdsaSignKeyManager.create lib k = .ok a := h2
    rw [e] at h2
    obtain ⟨g1, g2⟩ := (ecdsaSignNew_iff hl (x := k.getPublicKey.x) (y := k.getPublicKey.y) (d := k.keyValue)
      hc hj.hashFor (.inr rfl)).1 a h2
    exact ⟨_, _, .mk (version_iff.1 hv) (.mk hv' hj), g1, g2⟩
  complete k i s h1 h2 := by
    cases h1 with
    | mk hv hp =>
      cases hp with
      | mk hv' hj =>
        obtain ⟨c, hc, e⟩ := jwtEcdsaSign_create (lib := lib) hj
        show ∃ a, RawJwtEcdsaSignKeyManager.create lib k = .ok a
        rw [e]
        exact (ecdsaSignNew_iff hl (d := k.keyValue) hc h2.1.1 h2.1.2.1).2 h2
  checked k i s h1 := by
    cases h1 with
    | mk hv hp =>
      cases hp with
      | mk hv' hj =>
        refine then_invalid.trans ?_
        rw [version_iff, jwtEcdsaVerifyKey_iff]
        exact ⟨fun _ => ⟨hj.hashFor, .inr rfl⟩, fun _ => ⟨hv, hv', _, _, _, hj⟩⟩
  relates k h1 := by
    obtain ⟨hv, h1⟩ := then_invalid.1 h1
    obtain ⟨hv', alg, g, hash, hj⟩ := jwtEcdsaVerifyKey_iff.1 h1
    exact ⟨_, _, .mk (version_iff.1 hv) (.mk hv' hj)⟩
  unique k i s i' s' h1 h2 := by
    cases h1 with
    | mk hv hp =>
      cases h2 with
      | mk hv' hp' =>
        obtain ⟨h, e⟩ := (jwtEcdsa_describesVerify hl).unique _ _ _ _ _ hp hp'
        cases e
        exact ⟨h, rfl⟩
  made f k h1 h2 := by
    obtain ⟨alg, g, hash, hj⟩ := ecdsaAlgorithm_iff.1 h1
    have h2 : RawJwtEcdsaSignKeyManager.createKey lib seed f = .ok k := h2
    rw [jwtEcdsa_createKey hl hj] at h2
    have h2 := (Except.ok.inj h2).symm
    obtain ⟨a1, a2⟩ := hl.generate seed g
    have ap := hl.onCurve _ _ a1
    obtain ⟨a3, a4⟩ := hl.point _ _ _ ap
    refine ⟨alg, _, .mk hj rfl, ⟨hj.hashFor, .inr rfl, ?_⟩, ?_⟩
    · rw [fromBytesBE_digits _ _ a3, fromBytesBE_digits _ _ a4]
      exact ap
    · subst h2
      exact .mk rfl (.mk rfl hj)
  makes f alg s h1 h2 := by
    cases h1 with
    | @mk g hash x y hj hp =>
      refine ⟨ecdsaAlgorithm_iff.2 ⟨_, _, _, hj⟩, ?_⟩
      show ∃ k, RawJwtEcdsaSignKeyManager.createKey lib seed f = .ok k ∧ _
      rw [jwtEcdsa_createKey hl hj, hp]
      exact ⟨_, rfl, .mk rfl (.mk rfl hj)⟩
  serialize k i s h1 h2 := by
    cases h1 with
    | mk hv hp =>
      cases hp with
      | mk hv' hj =>
        rw [kidSize_eq (d := {}) (hd := rfl)] at h2 ⊢
        have h2 : k.getPublicKey.x.length + k.getPublicKey.y.length + k.keyValue.length +
          4 * k.getPublicKey.getCustomKid.value.length < 2 ^ 31 - 1000 := h2
        have hb := length_jwtEcdsaPrivate k (by omega)
        refine ⟨_, serializeFields_of_length (by omega), ?_⟩
        show _ ≤ k.getPublicKey.x.length + k.getPublicKey.y.length + k.keyValue.length +
          4 * k.getPublicKey.getCustomKid.value.length + 400
        omega
  parse k b h := JwtEcdsaPrivateKey.fromString_serializeToString h
  url := by show (ps! "type.googleapis.com/google.crypto.tink.JwtEcdsaPrivateKey").length ≤ 100; decide
  material := rfl

/-! ## RSA-SSA-PKCS1 -/

theorem _root_.Tink.Spec.JwsPkcs1.hash {a : EnumVal} {alg : PyStr} {hash : EnumVal} (h : JwsPkcs1 a alg hash) :
    RawJwtRsaSsaPkcs1VerifyKeyManager.hashForPkcs1Algorithm a = .ok hash := by
  cases h <;> rfl

theorem _root_.Tink.Spec.JwsPkcs1.safe {a : EnumVal} {alg : PyStr} {hash : EnumVal} (h : JwsPkcs1 a alg hash) : SafeHash hash := by
  cases h
  · exact .inl rfl
  · exact .inr (.inl rfl)
  · exact .inr (.inr rfl)

theorem _root_.Tink.Spec.JwsPkcs1.unique {a : EnumVal} {alg alg' : PyStr} {hash hash' : EnumVal}
    (h : JwsPkcs1 a alg hash) (h' : JwsPkcs1 a alg' hash') : alg' = alg ∧ hash' = hash := by
  cases h <;> cases h' <;> exact ⟨rfl, rfl⟩

theorem pkcs1Algorithm_iff {a : EnumVal} :
    RawJwtRsaSsaPkcs1VerifyKeyManager.validateAlgorithm a = .ok () ↔ ∃ alg hash, JwsPkcs1 a alg hash := by
  unfold RawJwtRsaSsaPkcs1VerifyKeyManager.validateAlgorithm
  constructor
  · intro h
    split at h
    · rename_i g; subst g; exact ⟨_, _, .rs256⟩
    split at h
    · rename_i g; subst g; exact ⟨_, _, .rs384⟩
    split at h
    · rename_i g; subst g; exact ⟨_, _, .rs512⟩
    cases h
  · rintro ⟨_, _, h⟩
    cases h <;> rfl

theorem jwtPkcs1VerifyKey_iff {k : JwtRsaSsaPkcs1PublicKey} : RawJwtRsaSsaPkcs1VerifyKeyManager.validateKey k = .ok () ↔
    k.version = 0 ∧ RsaOk k.n k.e ∧ ∃ alg hash, JwsPkcs1 k.algorithm alg hash := by
  unfold RawJwtRsaSsaPkcs1VerifyKeyManager.validateKey RsaOk
  rw [then_invalid, then_invalid, then_invalid, version_iff, modulus_iff, exponent_iff, pkcs1Algorithm_iff]
  simp only [and_assoc]

theorem jwtPkcs1SignKey_iff {k : JwtRsaSsaPkcs1PrivateKey} : RawJwtRsaSsaPkcs1SignKeyManager.validateKey k = .ok () ↔
    k.version = 0 ∧ k.getPublicKey.version = 0 ∧ RsaOk k.getPublicKey.n k.getPublicKey.e ∧
      ∃ alg hash, JwsPkcs1 k.getPublicKey.algorithm alg hash := by
  unfold RawJwtRsaSsaPkcs1SignKeyManager.validateKey
  rw [then_invalid, version_iff, jwtPkcs1VerifyKey_iff]

theorem jwtPkcs1Verify_create {lib : SigSsl} {k : JwtRsaSsaPkcs1PublicKey} {alg : PyStr} {hash : EnumVal}
    (h : JwsPkcs1 k.algorithm alg hash) : RawJwtRsaSsaPkcs1VerifyKeyManager.create lib k = rsaPkcs1VerifyNew lib k.n k.e hash := by
  unfold RawJwtRsaSsaPkcs1VerifyKeyManager.create
  rw [h.hash]
  rfl

/-- The same key for signatures without JWT. -/
def plainPkcs1 (k : JwtRsaSsaPkcs1PrivateKey) (hash : EnumVal) : RsaSsaPkcs1PrivateKey where
  publicKey := some { n := k.getPublicKey.n, e := k.getPublicKey.e, params := some { hashType := hash } }
  d := k.d
  p := k.p
  q := k.q
  dp := k.dp
  dq := k.dq
  crt := k.crt

theorem jwtPkcs1Sign_create {lib : SigSsl} {k : JwtRsaSsaPkcs1PrivateKey} {alg : PyStr} {hash : EnumVal}
    (h : JwsPkcs1 k.getPublicKey.algorithm alg hash) :
    RawJwtRsaSsaPkcs1SignKeyManager.create lib k = RsaSsaPkcs1SignKeyManager.create lib (plainPkcs1 k hash) := by
  unfold RawJwtRsaSsaPkcs1SignKeyManager.create
  rw [h.hash, jwtPkcs1Verify_create h]
  skip
  rfl

theorem jwtPkcs1Create_iff {lib : SigSsl} (hl : LawfulSigSsl lib) {k : JwtRsaSsaPkcs1PrivateKey} {alg : PyStr} {hash : EnumVal}
    (h : JwsPkcs1 k.getPublicKey.algorithm alg hash) (hp : RsaOk k.getPublicKey.n k.getPublicKey.e) :
    (∀ a, RawJwtRsaSsaPkcs1SignKeyManager.create lib k = .ok a → (SigKey.rsaPkcs1 (RawJwtRsaSsaPkcs1SignKeyManager.toSubtle k) hash).Ok lib ∧
      SignsAs lib a (.rsaPkcs1 (RawJwtRsaSsaPkcs1SignKeyManager.toSubtle k) hash)) ∧
    ((SigKey.rsaPkcs1 (RawJwtRsaSsaPkcs1SignKeyManager.toSubtle k) hash).Ok lib → ∃ a, RawJwtRsaSsaPkcs1SignKeyManager.create lib k = .ok a) := by
  rw [jwtPkcs1Sign_create (lib := lib) h]
  exact pkcs1Create_iff hl (k := plainPkcs1 k hash) (K := RawJwtRsaSsaPkcs1SignKeyManager.toSubtle k) rfl rfl ⟨hp, h.safe⟩

theorem length_jwtPkcs1Public (k : JwtRsaSsaPkcs1PublicKey)
    (h : k.n.length + k.e.length + 4 * k.getCustomKid.value.length < 2 ^ 31) :
    (encodeFields k.fields).length ≤ k.n.length + k.e.length + 4 * k.getCustomKid.value.length + 200 := by
  unfold JwtRsaSsaPkcs1PublicKey.fields
  simp only [length_encodeFields_append]
  have h1 := length_uint32Field (num := 1) (n := k.version) (by decide)
  have h2 := length_enumField (num := 2) (e := k.algorithm) (by decide)
  have h3 := length_bytesField (num := 3) (b := k.n) (by decide) (by omega)
  have h4 := length_bytesField (num := 4) (b := k.e) (by decide) (by omega)
  have h5 := length_optField (num := 5) (m := 20 + 4 * k.getCustomKid.value.length)
    (o := k.customKid) (f := JwtRsaSsaPkcs1PublicKey.CustomKid.fields) (by decide) (by omega) (fun x hx => by
      have : k.getCustomKid = x := by unfold JwtRsaSsaPkcs1PublicKey.getCustomKid; rw [hx]; rfl
      rw [this] at h ⊢
      have := length_strField (num := 1) (s := x.value) (by decide) (by omega)
      unfold JwtRsaSsaPkcs1PublicKey.CustomKid.fields
      omega)
  omega

theorem length_jwtPkcs1Private (k : JwtRsaSsaPkcs1PrivateKey) (h2 : k.getPublicKey.n.length + k.getPublicKey.e.length +
      4 * k.getPublicKey.getCustomKid.value.length + k.d.length + k.p.length + k.q.length + k.dp.length + k.dq.length +
      k.crt.length < 2 ^ 31) :
    (encodeFields k.fields).length ≤ k.getPublicKey.n.length + k.getPublicKey.e.length +
      4 * k.getPublicKey.getCustomKid.value.length + k.d.length + k.p.length + k.q.length + k.dp.length + k.dq.length +
      k.crt.length + 400 := by
  unfold JwtRsaSsaPkcs1PrivateKey.fields
  simp only [length_encodeFields_append]
  have l1 := length_uint32Field (num := 1) (n := k.version) (by decide)
  have l2 := length_optField (num := 2) (o := k.publicKey) (f := JwtRsaSsaPkcs1PublicKey.fields)
    (m := k.getPublicKey.n.length + k.getPublicKey.e.length + 4 * k.getPublicKey.getCustomKid.value.length + 200)
    (by decide) (by omega) (by
      intro p hp
      have : k.getPublicKey = p := by unfold JwtRsaSsaPkcs1PrivateKey.getPublicKey; rw [hp]; rfl
      rw [this] at h2 ⊢
      exact length_jwtPkcs1Public p (by omega))
  have l3 := length_bytesField (num := 3) (b := k.d) (by decide) (by omega)
  have l4 := length_bytesField (num := 4) (b := k.p) (by decide) (by omega)
  have l5 := length_bytesField (num := 5) (b := k.q) (by decide) (by omega)
  have l6 := length_bytesField (num := 6) (b := k.dp) (by decide) (by omega)
  have l7 := length_bytesField (num := 7) (b := k.dq) (by decide) (by omega)
  have l8 := length_bytesField (num := 8) (b := k.crt) (by decide) (by omega)
  omega

theorem jwtPkcs1_describesVerify {lib : SigSsl}  :
    DescribesJwtVerify lib (RawJwtRsaSsaPkcs1VerifyKeyManager.keyTypeManager lib) PubKey.OfJwtPkcs1 where
  sound k a h1 h2 := by
    obtain ⟨hv, hr, alg, hash, hj⟩ := jwtPkcs1VerifyKey_iff.1 h1
    obtain ⟨a', g1, g2⟩ := pkcs1VerifyNew_iff (lib := lib) hr hj.safe
    have h2 : RawJwtRsaSsaPkcs1VerifyKeyManager.create lib k = .ok a := h2
    rw [jwtPkcs1Verify_create hj, g1] at h2
    cases h2
    exact ⟨_, _, .mk hv hj, ⟨hr, hj.safe⟩, g2⟩
  complete k i v h1 h2 := by
    cases h1 with
    | mk hv hj =>
      obtain ⟨a', g1, g2⟩ := pkcs1VerifyNew_iff (lib := lib) h2.1 hj.safe
      exact ⟨jwtPkcs1VerifyKey_iff.2 ⟨hv, h2.1, _, _, hj⟩, a', (jwtPkcs1Verify_create hj).trans g1⟩
  unique k i v i' v' h1 h2 := by
    cases h1 with
    | mk hv hj =>
      cases h2 with
      | mk hv' hj' =>
        obtain ⟨rfl, rfl⟩ := hj.unique hj'
        exact ⟨rfl, rfl⟩
  serialize k i v h1 h2 := by
    cases h1 with
    | mk hv hj =>
      rw [kidSize_eq (d := {}) (hd := rfl)] at h2 ⊢
      have h2 : k.n.length + k.e.length + 4 * k.getCustomKid.value.length < 2 ^ 31 - 1000 := h2
      have hb := length_jwtPkcs1Public k (by omega)
      exact ⟨_, serializeFields_of_length (by omega), hb⟩
  parse k b h := JwtRsaSsaPkcs1PublicKey.fromString_serializeToString h
  url := by show (ps! "type.googleapis.com/google.crypto.tink.JwtRsaSsaPkcs1PublicKey").length ≤ 100; decide
  material := rfl

/-- What `JwsAskedFor` says about a format. -/
inductive AsksJwtPkcs1 (lib : SigSsl) (seed : Seed) (f : JwtRsaSsaPkcs1KeyFormat) : PyStr → SigKey → Prop
  | mk {alg hash k} : JwsPkcs1 f.algorithm alg hash →
    lib.rsaGenerate seed (toInt f.modulusSizeInBits) (fromBytesBE f.publicExponent) = some k →
    AsksJwtPkcs1 lib seed f alg (.rsaPkcs1 (SigKey.rsaKey k) hash)

theorem jwtPkcs1Format_iff {f : JwtRsaSsaPkcs1KeyFormat} : RawJwtRsaSsaPkcs1SignKeyManager.validateKeyFormat f = .ok () ↔
    2048 ≤ f.modulusSizeInBits.toNat ∧ (fromBytesBE f.publicExponent % 2 = 1 ∧
      65536 < fromBytesBE f.publicExponent ∧ fromBytesBE f.publicExponent < 2 ^ 32) ∧
      ∃ alg hash, JwsPkcs1 f.algorithm alg hash := by
  unfold RawJwtRsaSsaPkcs1SignKeyManager.validateKeyFormat
  rw [then_invalid, then_invalid, modulus_iff, exponent_iff, pkcs1Algorithm_iff]

/-- The message with a new key. -/
def jwtPkcs1Message (f : JwtRsaSsaPkcs1KeyFormat) (r : RsaNumbers) : JwtRsaSsaPkcs1PrivateKey where
  version := 0
  publicKey := some { version := 0, n := (SigKey.rsaKey r).n, e := (SigKey.rsaKey r).e, algorithm := f.algorithm }
  d := (SigKey.rsaKey r).d
  p := (SigKey.rsaKey r).p
  q := (SigKey.rsaKey r).q
  dp := (SigKey.rsaKey r).dp
  dq := (SigKey.rsaKey r).dq
  crt := (SigKey.rsaKey r).crt

theorem jwtPkcs1Message_of {f : JwtRsaSsaPkcs1KeyFormat} {alg : PyStr} {hash : EnumVal}
    (h : JwsPkcs1 f.algorithm alg hash) (r : RsaNumbers) :
    SigKey.OfJwtPkcs1 (jwtPkcs1Message f r) ⟨alg, none⟩ (.rsaPkcs1 (SigKey.rsaKey r) hash) :=
  SigKey.OfJwtPkcs1.mk (k := jwtPkcs1Message f r) (n := (SigKey.rsaKey r).n) (e := (SigKey.rsaKey r).e) rfl
    (PubKey.OfJwtPkcs1.mk (k := (jwtPkcs1Message f r).getPublicKey) rfl h)

theorem jwtPkcs1CreateKey_iff {lib : SigSsl} {seed : Seed} {f : JwtRsaSsaPkcs1KeyFormat} {k : JwtRsaSsaPkcs1PrivateKey} :
    RawJwtRsaSsaPkcs1SignKeyManager.createKey lib seed f = .ok k ↔
      (fromBytesBE f.publicExponent % 2 = 1 ∧
        65536 < fromBytesBE f.publicExponent ∧ fromBytesBE f.publicExponent < 2 ^ 32) ∧
      ∃ r, lib.rsaGenerate seed (toInt f.modulusSizeInBits) (fromBytesBE f.publicExponent) = some r ∧
        k = jwtPkcs1Message f r := by
  unfold RawJwtRsaSsaPkcs1SignKeyManager.createKey
  rw [sbind_ok]
  constructor
  · rintro ⟨k', g1, g2⟩
    obtain ⟨he, r, hr, rfl⟩ := newRsaKeyPair_iff.1 g1
    exact ⟨he, r, hr, (Except.ok.inj g2).symm⟩
  · rintro ⟨he, r, hr, rfl⟩
    exact ⟨_, newRsaKeyPair_iff.2 ⟨he, r, hr, rfl⟩, rfl⟩

theorem jwtPkcs1Private_size {k : JwtRsaSsaPkcs1PrivateKey} {i : JwsInfo} {s : SigKey} (h : SigKey.OfJwtPkcs1 k i s) :
    s.size = SigKey.size.rsaSize (RawJwtRsaSsaPkcs1SignKeyManager.toSubtle k) ∧ i.kidSize = 4 * k.getPublicKey.getCustomKid.value.length := by
  cases h with
  | mk hv hp =>
    cases hp with
    | mk hv' =>
      refine ⟨rfl, ?_⟩
      rw [kidSize_eq (d := {}) (hd := rfl)]
      rfl

theorem jwtPkcs1Private_serialize {k : JwtRsaSsaPkcs1PrivateKey} {i : JwsInfo} {s : SigKey} (hk : SigKey.OfJwtPkcs1 k i s)
    (h : s.size + i.kidSize < 2 ^ 31 - 1000) :
    ∃ b, k.serializeToString = .ok b ∧ b.length ≤ s.size + i.kidSize + 400 := by
  rw [(jwtPkcs1Private_size hk).1, (jwtPkcs1Private_size hk).2] at h ⊢
  simp only [SigKey.size.rsaSize, RawJwtRsaSsaPkcs1SignKeyManager.toSubtle] at h ⊢
  have hb := length_jwtPkcs1Private k (by omega)
  exact ⟨encodeFields k.fields, serializeFields_of_length (by omega), by omega⟩

theorem jwtPkcs1_serializeKey (lib : SigSsl) : (RawJwtRsaSsaPkcs1SignKeyManager.keyTypeManager lib).serializeKey =
    JwtRsaSsaPkcs1PrivateKey.serializeToString := by
  simp only [RawJwtRsaSsaPkcs1SignKeyManager.keyTypeManager]

theorem jwtPkcs1_describesSign {lib : SigSsl} (hl : LawfulSigSsl lib) (seed : Seed) :
    DescribesJwtSign lib seed (RawJwtRsaSsaPkcs1SignKeyManager.keyTypeManager lib) SigKey.OfJwtPkcs1 (AsksJwtPkcs1 lib seed) where
  sound k a h1 h2 := by
    obtain ⟨hv, hv', hp, alg, hash, hj⟩ := jwtPkcs1SignKey_iff.1 h1
    obtain ⟨g1, g2⟩ := (jwtPkcs1Create_iff hl hj hp).1 a h2
    exact ⟨_, _, .mk hv (.mk hv' hj), g1, g2⟩
  complete k i s h1 h2 := by
    cases h1 with
    | mk hv hp =>
      cases hp with
      | mk hv' hj => exact (jwtPkcs1Create_iff hl hj h2.1.1).2 h2
  checked k i s h1 := by
    cases h1 with
    | mk hv hp =>
      cases hp with
      | mk hv' hj =>
        exact jwtPkcs1SignKey_iff.trans ⟨fun h => ⟨h.2.2.1, hj.safe⟩, fun h => ⟨hv, hv', h.1, _, _, hj⟩⟩
  relates k h1 := by
    obtain ⟨hv, hv', hp, alg, hash, hj⟩ := jwtPkcs1SignKey_iff.1 h1
    exact ⟨_, _, .mk hv (.mk hv' hj)⟩
  unique k i s i' s' h1 h2 := by
    cases h1 with
    | mk hv hp =>
      cases h2 with
      | mk hv' hp' =>
        cases hp with
        | mk _ hj =>
          cases hp' with
          | mk _ hj' =>
            obtain ⟨rfl, rfl⟩ := hj.unique hj'
            exact ⟨rfl, rfl⟩
  made f k h1 h2 := by
    obtain ⟨m1, m2, alg, hash, hj⟩ := jwtPkcs1Format_iff.1 h1
    obtain ⟨he, r, hr, rfl⟩ := jwtPkcs1CreateKey_iff.1 h2
    exact ⟨alg, _, .mk hj hr, ⟨(rsaOk_generate hl hr).2 ⟨m1, m2⟩, hj.safe⟩, jwtPkcs1Message_of hj r⟩
  makes f alg s h1 h2 := by
    cases h1 with
    | mk hj hr =>
      obtain ⟨m1, m2⟩ := (rsaOk_generate hl hr).1 h2.1
      exact ⟨jwtPkcs1Format_iff.2 ⟨m1, m2, _, _, hj⟩, _, jwtPkcs1CreateKey_iff.2 ⟨m2, _, hr, rfl⟩, jwtPkcs1Message_of hj _⟩
  serialize k i s h1 h2 := by
    rw [jwtPkcs1_serializeKey]
    exact jwtPkcs1Private_serialize h1 h2
  parse k b h := by
    rw [jwtPkcs1_serializeKey] at h
    exact JwtRsaSsaPkcs1PrivateKey.fromString_serializeToString h
  url := by show (ps! "type.googleapis.com/google.crypto.tink.JwtRsaSsaPkcs1PrivateKey").length ≤ 100; decide
  material := rfl

/-! ## RSA-SSA-PSS -/

theorem _root_.Tink.Spec.JwsPss.hash {a : EnumVal} {alg : PyStr} {hash : EnumVal} {salt : Int} (h : JwsPss a alg hash salt) :
    RawJwtRsaSsaPssVerifyKeyManager.hashForPssAlgorithm a = .ok hash := by
  cases h <;> rfl

theorem _root_.Tink.Spec.JwsPss.safe {a : EnumVal} {alg : PyStr} {hash : EnumVal} {salt : Int} (h : JwsPss a alg hash salt) : SafeHash hash := by
  cases h
  · exact .inl rfl
  · exact .inr (.inl rfl)
  · exact .inr (.inr rfl)

theorem _root_.Tink.Spec.JwsPss.saltLength {a : EnumVal} {alg : PyStr} {hash : EnumVal} {salt : Int} (h : JwsPss a alg hash salt) :
    RawJwtRsaSsaPssVerifyKeyManager.saltLengthForPssAlgorithm a = .ok salt := by
  cases h <;> rfl

theorem _root_.Tink.Spec.JwsPss.salt {a : EnumVal} {alg : PyStr} {hash : EnumVal} {salt : Int} (h : JwsPss a alg hash salt) : 0 ≤ salt := by
  cases h <;> decide

theorem _root_.Tink.Spec.JwsPss.toInt {a : EnumVal} {alg : PyStr} {hash : EnumVal} {salt : Int} (h : JwsPss a alg hash salt) :
    ∃ x, Cpp.toInt x = salt := by
  cases h
  · exact ⟨32, by decide⟩
  · exact ⟨48, by decide⟩
  · exact ⟨64, by decide⟩

theorem _root_.Tink.Spec.JwsPss.unique {a : EnumVal} {alg alg' : PyStr} {hash hash' : EnumVal} {salt salt' : Int}
    (h : JwsPss a alg hash salt) (h' : JwsPss a alg' hash' salt') : alg' = alg ∧ hash' = hash ∧ salt' = salt := by
  cases h <;> cases h' <;> exact ⟨rfl, rfl, rfl⟩

theorem pssAlgorithm_iff {a : EnumVal} :
    RawJwtRsaSsaPssVerifyKeyManager.validateAlgorithm a = .ok () ↔ ∃ alg hash salt, JwsPss a alg hash salt := by
  unfold RawJwtRsaSsaPssVerifyKeyManager.validateAlgorithm
  constructor
  · intro h
    split at h
    · rename_i g; subst g; exact ⟨_, _, _, .ps256⟩
    split at h
    · rename_i g; subst g; exact ⟨_, _, _, .ps384⟩
    split at h
    · rename_i g; subst g; exact ⟨_, _, _, .ps512⟩
    cases h
  · rintro ⟨_, _, _, h⟩
    cases h <;> rfl

theorem jwtPssVerifyKey_iff {k : JwtRsaSsaPssPublicKey} : RawJwtRsaSsaPssVerifyKeyManager.validateKey k = .ok () ↔
    k.version = 0 ∧ RsaOk k.n k.e ∧ ∃ alg hash salt, JwsPss k.algorithm alg hash salt := by
  unfold RawJwtRsaSsaPssVerifyKeyManager.validateKey RsaOk
  rw [then_invalid, then_invalid, then_invalid, version_iff, modulus_iff, exponent_iff, pssAlgorithm_iff]
  simp only [and_assoc]

theorem jwtPssSignKey_iff {k : JwtRsaSsaPssPrivateKey} : RawJwtRsaSsaPssSignKeyManager.validateKey k = .ok () ↔
    k.version = 0 ∧ k.getPublicKey.version = 0 ∧ RsaOk k.getPublicKey.n k.getPublicKey.e ∧
      ∃ alg hash salt, JwsPss k.getPublicKey.algorithm alg hash salt := by
  unfold RawJwtRsaSsaPssSignKeyManager.validateKey
  rw [then_invalid, version_iff, jwtPssVerifyKey_iff]

theorem jwtPssVerify_create {lib : SigSsl} {k : JwtRsaSsaPssPublicKey} {alg : PyStr} {hash : EnumVal} {salt : Int}
    (h : JwsPss k.algorithm alg hash salt) : RawJwtRsaSsaPssVerifyKeyManager.create lib k = rsaPssVerifyNew lib k.n k.e hash hash salt := by
  unfold RawJwtRsaSsaPssVerifyKeyManager.create
  rw [h.hash, h.saltLength]
  rfl

/-- The same key for signatures without JWT. -/
def plainPss (k : JwtRsaSsaPssPrivateKey) (hash : EnumVal) (salt : UInt32) : RsaSsaPssPrivateKey where
  publicKey := some { n := k.getPublicKey.n, e := k.getPublicKey.e, params := some { sigHash := hash, mgf1Hash := hash, saltLength := salt } }
  d := k.d
  p := k.p
  q := k.q
  dp := k.dp
  dq := k.dq
  crt := k.crt

theorem jwtPssSign_create {lib : SigSsl} {k : JwtRsaSsaPssPrivateKey} {alg : PyStr} {hash : EnumVal} {salt : Int} {x : UInt32}
    (h : JwsPss k.getPublicKey.algorithm alg hash salt) (hx : Cpp.toInt x = salt) :
    RawJwtRsaSsaPssSignKeyManager.create lib k = RsaSsaPssSignKeyManager.create lib (plainPss k hash x) := by
  unfold RawJwtRsaSsaPssSignKeyManager.create
  rw [h.hash, h.saltLength, jwtPssVerify_create h]
  subst hx
  rfl

theorem jwtPssCreate_iff {lib : SigSsl} (hl : LawfulSigSsl lib) {k : JwtRsaSsaPssPrivateKey} {alg : PyStr} {hash : EnumVal} {salt : Int}
    (h : JwsPss k.getPublicKey.algorithm alg hash salt) (hp : RsaOk k.getPublicKey.n k.getPublicKey.e) :
    (∀ a, RawJwtRsaSsaPssSignKeyManager.create lib k = .ok a → (SigKey.rsaPss (RawJwtRsaSsaPssSignKeyManager.toSubtle k) hash hash salt).Ok lib ∧
      SignsAs lib a (.rsaPss (RawJwtRsaSsaPssSignKeyManager.toSubtle k) hash hash salt)) ∧
    ((SigKey.rsaPss (RawJwtRsaSsaPssSignKeyManager.toSubtle k) hash hash salt).Ok lib → ∃ a, RawJwtRsaSsaPssSignKeyManager.create lib k = .ok a) := by
  obtain ⟨x, hx⟩ := h.toInt
  rw [jwtPssSign_create (lib := lib) h hx]
  exact pssCreate_iff hl (k := plainPss k hash x) (K := RawJwtRsaSsaPssSignKeyManager.toSubtle k) rfl rfl rfl hx
    ⟨hp, h.safe, rfl, h.salt⟩

theorem length_jwtPssPublic (k : JwtRsaSsaPssPublicKey)
    (h : k.n.length + k.e.length + 4 * k.getCustomKid.value.length < 2 ^ 31) :
    (encodeFields k.fields).length ≤ k.n.length + k.e.length + 4 * k.getCustomKid.value.length + 200 := by
  unfold JwtRsaSsaPssPublicKey.fields
  simp only [length_encodeFields_append]
  have h1 := length_uint32Field (num := 1) (n := k.version) (by decide)
  have h2 := length_enumField (num := 2) (e := k.algorithm) (by decide)
  have h3 := length_bytesField (num := 3) (b := k.n) (by decide) (by omega)
  have h4 := length_bytesField (num := 4) (b := k.e) (by decide) (by omega)
  have h5 := length_optField (num := 5) (m := 20 + 4 * k.getCustomKid.value.length)
    (o := k.customKid) (f := JwtRsaSsaPssPublicKey.CustomKid.fields) (by decide) (by omega) (fun x hx => by
      have : k.getCustomKid = x := by unfold JwtRsaSsaPssPublicKey.getCustomKid; rw [hx]; rfl
      rw [this] at h ⊢
      have := length_strField (num := 1) (s := x.value) (by decide) (by omega)
      unfold JwtRsaSsaPssPublicKey.CustomKid.fields
      omega)
  omega

theorem length_jwtPssPrivate (k : JwtRsaSsaPssPrivateKey) (h2 : k.getPublicKey.n.length + k.getPublicKey.e.length +
      4 * k.getPublicKey.getCustomKid.value.length + k.d.length + k.p.length + k.q.length + k.dp.length + k.dq.length +
      k.crt.length < 2 ^ 31) :
    (encodeFields k.fields).length ≤ k.getPublicKey.n.length + k.getPublicKey.e.length +
      4 * k.getPublicKey.getCustomKid.value.length + k.d.length + k.p.length + k.q.length + k.dp.length + k.dq.length +
      k.crt.length + 400 := by
  unfold JwtRsaSsaPssPrivateKey.fields
  simp only [length_encodeFields_append]
  have l1 := length_uint32Field (num := 1) (n := k.version) (by decide)
  have l2 := length_optField (num := 2) (o := k.publicKey) (f := JwtRsaSsaPssPublicKey.fields)
    (m := k.getPublicKey.n.length + k.getPublicKey.e.length + 4 * k.getPublicKey.getCustomKid.value.length + 200)
    (by decide) (by omega) (by
      intro p hp
      have : k.getPublicKey = p := by unfold JwtRsaSsaPssPrivateKey.getPublicKey; rw [hp]; rfl
      rw [this] at h2 ⊢
      exact length_jwtPssPublic p (by omega))
  have l3 := length_bytesField (num := 3) (b := k.d) (by decide) (by omega)
  have l4 := length_bytesField (num := 4) (b := k.p) (by decide) (by omega)
  have l5 := length_bytesField (num := 5) (b := k.q) (by decide) (by omega)
  have l6 := length_bytesField (num := 6) (b := k.dp) (by decide) (by omega)
  have l7 := length_bytesField (num := 7) (b := k.dq) (by decide) (by omega)
  have l8 := length_bytesField (num := 8) (b := k.crt) (by decide) (by omega)
  omega

theorem jwtPss_describesVerify {lib : SigSsl} (hl : LawfulSigSsl lib) :
    DescribesJwtVerify lib (RawJwtRsaSsaPssVerifyKeyManager.keyTypeManager lib) PubKey.OfJwtPss where
  sound k a h1 h2 := by
    obtain ⟨hv, hr, alg, hash, salt, hj⟩ := jwtPssVerifyKey_iff.1 h1
    obtain ⟨a', g1, g2⟩ := pssVerifyNew_iff hl (salt := salt) hr hj.safe rfl
    have h2 : RawJwtRsaSsaPssVerifyKeyManager.create lib k = .ok a := h2
    rw [jwtPssVerify_create hj, g1] at h2
    cases h2
    exact ⟨_, _, .mk hv hj, ⟨hr, hj.safe, rfl, hj.salt⟩, g2⟩
  complete k i v h1 h2 := by
    cases h1 with
    | mk hv hj =>
      obtain ⟨a', g1, g2⟩ := pssVerifyNew_iff hl (salt := _) h2.1 hj.safe rfl
      exact ⟨jwtPssVerifyKey_iff.2 ⟨hv, h2.1, _, _, _, hj⟩, a', (jwtPssVerify_create hj).trans g1⟩
  unique k i v i' v' h1 h2 := by
    cases h1 with
    | mk hv hj =>
      cases h2 with
      | mk hv' hj' =>
        obtain ⟨rfl, rfl, rfl⟩ := hj.unique hj'
        exact ⟨rfl, rfl⟩
  serialize k i v h1 h2 := by
    cases h1 with
    | mk hv hj =>
      rw [kidSize_eq (d := {}) (hd := rfl)] at h2 ⊢
      have h2 : k.n.length + k.e.length + 4 * k.getCustomKid.value.length < 2 ^ 31 - 1000 := h2
      have hb := length_jwtPssPublic k (by omega)
      exact ⟨_, serializeFields_of_length (by omega), hb⟩
  parse k b h := JwtRsaSsaPssPublicKey.fromString_serializeToString h
  url := by show (ps! "type.googleapis.com/google.crypto.tink.JwtRsaSsaPssPublicKey").length ≤ 100; decide
  material := rfl

/-- What `JwsAskedFor` says about a format. -/
inductive AsksJwtPss (lib : SigSsl) (seed : Seed) (f : JwtRsaSsaPssKeyFormat) : PyStr → SigKey → Prop
  | mk {alg hash salt k} : JwsPss f.algorithm alg hash salt →
    lib.rsaGenerate seed (toInt f.modulusSizeInBits) (fromBytesBE f.publicExponent) = some k →
    AsksJwtPss lib seed f alg (.rsaPss (SigKey.rsaKey k) hash hash salt)

theorem jwtPssFormat_iff {f : JwtRsaSsaPssKeyFormat} : RawJwtRsaSsaPssSignKeyManager.validateKeyFormat f = .ok () ↔
    2048 ≤ f.modulusSizeInBits.toNat ∧ (fromBytesBE f.publicExponent % 2 = 1 ∧
      65536 < fromBytesBE f.publicExponent ∧ fromBytesBE f.publicExponent < 2 ^ 32) ∧
      ∃ alg hash salt, JwsPss f.algorithm alg hash salt := by
  unfold RawJwtRsaSsaPssSignKeyManager.validateKeyFormat
  rw [then_invalid, then_invalid, modulus_iff, exponent_iff, pssAlgorithm_iff]

/-- The message with a new key. -/
def jwtPssMessage (f : JwtRsaSsaPssKeyFormat) (r : RsaNumbers) : JwtRsaSsaPssPrivateKey where
  version := 0
  publicKey := some { version := 0, n := (SigKey.rsaKey r).n, e := (SigKey.rsaKey r).e, algorithm := f.algorithm }
  d := (SigKey.rsaKey r).d
  p := (SigKey.rsaKey r).p
  q := (SigKey.rsaKey r).q
  dp := (SigKey.rsaKey r).dp
  dq := (SigKey.rsaKey r).dq
  crt := (SigKey.rsaKey r).crt

theorem jwtPssMessage_of {f : JwtRsaSsaPssKeyFormat} {alg : PyStr} {hash : EnumVal} {salt : Int}
    (h : JwsPss f.algorithm alg hash salt) (r : RsaNumbers) :
    SigKey.OfJwtPss (jwtPssMessage f r) ⟨alg, none⟩ (.rsaPss (SigKey.rsaKey r) hash hash salt) :=
  SigKey.OfJwtPss.mk (k := jwtPssMessage f r) (n := (SigKey.rsaKey r).n) (e := (SigKey.rsaKey r).e) rfl
    (PubKey.OfJwtPss.mk (k := (jwtPssMessage f r).getPublicKey) rfl h)

theorem jwtPssCreateKey_iff {lib : SigSsl} {seed : Seed} {f : JwtRsaSsaPssKeyFormat} {k : JwtRsaSsaPssPrivateKey} :
    RawJwtRsaSsaPssSignKeyManager.createKey lib seed f = .ok k ↔
      (fromBytesBE f.publicExponent % 2 = 1 ∧
        65536 < fromBytesBE f.publicExponent ∧ fromBytesBE f.publicExponent < 2 ^ 32) ∧
      ∃ r, lib.rsaGenerate seed (toInt f.modulusSizeInBits) (fromBytesBE f.publicExponent) = some r ∧
        k = jwtPssMessage f r := by
  unfold RawJwtRsaSsaPssSignKeyManager.createKey
  rw [sbind_ok]
  constructor
  · rintro ⟨k', g1, g2⟩
    obtain ⟨he, r, hr, rfl⟩ := newRsaKeyPair_iff.1 g1
    exact ⟨he, r, hr, (Except.ok.inj g2).symm⟩
  · rintro ⟨he, r, hr, rfl⟩
    exact ⟨_, newRsaKeyPair_iff.2 ⟨he, r, hr, rfl⟩, rfl⟩

theorem jwtPssPrivate_size {k : JwtRsaSsaPssPrivateKey} {i : JwsInfo} {s : SigKey} (h : SigKey.OfJwtPss k i s) :
    s.size = SigKey.size.rsaSize (RawJwtRsaSsaPssSignKeyManager.toSubtle k) ∧ i.kidSize = 4 * k.getPublicKey.getCustomKid.value.length := by
  cases h with
  | mk hv hp =>
    cases hp with
    | mk hv' =>
      refine ⟨rfl, ?_⟩
      rw [kidSize_eq (d := {}) (hd := rfl)]
      rfl

theorem jwtPssPrivate_serialize {k : JwtRsaSsaPssPrivateKey} {i : JwsInfo} {s : SigKey} (hk : SigKey.OfJwtPss k i s)
    (h : s.size + i.kidSize < 2 ^ 31 - 1000) :
    ∃ b, k.serializeToString = .ok b ∧ b.length ≤ s.size + i.kidSize + 400 := by
  rw [(jwtPssPrivate_size hk).1, (jwtPssPrivate_size hk).2] at h ⊢
  simp only [SigKey.size.rsaSize, RawJwtRsaSsaPssSignKeyManager.toSubtle] at h ⊢
  have hb := length_jwtPssPrivate k (by omega)
  exact ⟨encodeFields k.fields, serializeFields_of_length (by omega), by omega⟩

theorem jwtPss_serializeKey (lib : SigSsl) : (RawJwtRsaSsaPssSignKeyManager.keyTypeManager lib).serializeKey =
    JwtRsaSsaPssPrivateKey.serializeToString := by
  simp only [RawJwtRsaSsaPssSignKeyManager.keyTypeManager]

theorem jwtPss_describesSign {lib : SigSsl} (hl : LawfulSigSsl lib) (seed : Seed) :
    DescribesJwtSign lib seed (RawJwtRsaSsaPssSignKeyManager.keyTypeManager lib) SigKey.OfJwtPss (AsksJwtPss lib seed) where
  sound k a h1 h2 := by
    obtain ⟨hv, hv', hp, alg, hash, salt, hj⟩ := jwtPssSignKey_iff.1 h1
    obtain ⟨g1, g2⟩ := (jwtPssCreate_iff hl hj hp).1 a h2
    exact ⟨_, _, .mk hv (.mk hv' hj), g1, g2⟩
  complete k i s h1 h2 := by
    cases h1 with
    | mk hv hp =>
      cases hp with
      | mk hv' hj => exact (jwtPssCreate_iff hl hj h2.1.1).2 h2
  checked k i s h1 := by
    cases h1 with
    | mk hv hp =>
      cases hp with
      | mk hv' hj =>
        exact jwtPssSignKey_iff.trans ⟨fun h => ⟨h.2.2.1, hj.safe, rfl, hj.salt⟩, fun h => ⟨hv, hv', h.1, _, _, _, hj⟩⟩
  relates k h1 := by
    obtain ⟨hv, hv', hp, alg, hash, salt, hj⟩ := jwtPssSignKey_iff.1 h1
    exact ⟨_, _, .mk hv (.mk hv' hj)⟩
  unique k i s i' s' h1 h2 := by
    cases h1 with
    | mk hv hp =>
      cases h2 with
      | mk hv' hp' =>
        cases hp with
        | mk _ hj =>
          cases hp' with
          | mk _ hj' =>
            obtain ⟨rfl, rfl, rfl⟩ := hj.unique hj'
            exact ⟨rfl, rfl⟩
  made f k h1 h2 := by
    obtain ⟨m1, m2, alg, hash, salt, hj⟩ := jwtPssFormat_iff.1 h1
    obtain ⟨he, r, hr, rfl⟩ := jwtPssCreateKey_iff.1 h2
    exact ⟨alg, _, .mk hj hr, ⟨(rsaOk_generate hl hr).2 ⟨m1, m2⟩, hj.safe, rfl, hj.salt⟩, jwtPssMessage_of hj r⟩
  makes f alg s h1 h2 := by
    cases h1 with
    | mk hj hr =>
      obtain ⟨m1, m2⟩ := (rsaOk_generate hl hr).1 h2.1
      exact ⟨jwtPssFormat_iff.2 ⟨m1, m2, _, _, _, hj⟩, _, jwtPssCreateKey_iff.2 ⟨m2, _, hr, rfl⟩, jwtPssMessage_of hj _⟩
  serialize k i s h1 h2 := by
    rw [jwtPss_serializeKey]
    exact jwtPssPrivate_serialize h1 h2
  parse k b h := by
    rw [jwtPss_serializeKey] at h
    exact JwtRsaSsaPssPrivateKey.fromString_serializeToString h
  url := by show (ps! "type.googleapis.com/google.crypto.tink.JwtRsaSsaPssPrivateKey").length ≤ 100; decide
  material := rfl

end Tink.Cc
