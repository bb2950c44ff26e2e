import Verif.Cc.SigKeyManagers
import Verif.Cc.KeyLemmas
import Verif.Py.BigIntLemmas
import Verif.Spec.SignatureKeys

/-!
# Lemmas about the C++ signatures
-/

namespace Tink.Cc
open Spec Cpp Props

/-! ## Numbers -/

theorem bitLength_lt {n k : Nat} : bitLength n ≤ k ↔ n < 2 ^ k := by
  unfold bitLength
  by_cases h : n = 0
  · subst h
    simp [Nat.pos_of_ne_zero]
  · rw [if_neg h, ← Nat.log2_lt h]
    omega

theorem lt_bnNumBytes (n : Nat) : n < 256 ^ bnNumBytes n := by
  have h : n < 2 ^ bitLength n := bitLength_lt.1 (Nat.le_refl _)
  have e : (256 : Nat) ^ bnNumBytes n = 2 ^ (8 * bnNumBytes n) := by
    rw [show (256 : Nat) = 2 ^ 8 from rfl, ← Nat.pow_mul]
  rw [e]
  refine Nat.lt_of_lt_of_le h (Nat.pow_le_pow_right (by decide) ?_)
  unfold bnNumBytes
  omega

theorem fromBytesBE_bytesOf (n : Nat) : fromBytesBE (SigKey.bytesOf n) = n :=
  fromBytesBE_digits _ _ (lt_bnNumBytes n)

theorem bytesOf_length (n : Nat) : (SigKey.bytesOf n).length = bnNumBytes n := digitsBE_length _ _

theorem bnString_eq (n : Nat) : bnString n = .ok (SigKey.bytesOf n) := if_pos (lt_bnNumBytes n)

theorem bitLength_mono {a b : Nat} (h : a ≤ b) : bitLength a ≤ bitLength b :=
  bitLength_lt.2 (Nat.lt_of_le_of_lt h (bitLength_lt.1 (Nat.le_refl _)))

theorem bnNumBytes_mono {a b : Nat} (h : a ≤ b) : bnNumBytes a ≤ bnNumBytes b := by
  have := bitLength_mono h
  unfold bnNumBytes
  omega

theorem numbers_rsaKey (k : RsaNumbers) : (SigKey.rsaKey k).numbers = k := by
  cases k
  simp only [SigKey.rsaKey, RsaKey.numbers, fromBytesBE_bytesOf]

theorem pow_fieldSize (g : EcGroup) : 256 ^ g.fieldSize ≤ 256 ^ 66 :=
  Nat.pow_le_pow_right (by decide) (by cases g <;> decide)

/-! ## Conditions -/

theorem unimplemented_ne {α : Type} {a : α} : (unimplemented : StatusOr α) ≠ .ok a := by simp [unimplemented]

theorem ite_internal {c : Prop} [Decidable c] {x : StatusOr Unit} :
    (if c then x else internalError) = .ok () ↔ c ∧ x = .ok () := by
  by_cases h : c <;> simp [h, internalError]

theorem ite_else {c : Prop} [Decidable c] :
    ((if c then .ok () else invalidArgument : StatusOr Unit) = .ok ()) ↔ c := by
  by_cases h : c <;> simp [h, invalidArgument]

theorem ecGroup_iff {c : EnumVal} {g : EcGroup} : ecGroupFromCurveType c = .ok g ↔ Curve c g := by
  constructor
  · intro h
    unfold ecGroupFromCurveType at h
    split at h
    · rename_i e; cases h; rw [e]; exact .p256
    split at h
    · rename_i e; cases h; rw [e]; exact .p384
    split at h
    · rename_i e; cases h; rw [e]; exact .p521
    · exact absurd h unimplemented_ne
  · intro h
    cases h <;> rfl

theorem curve_unique {c : EnumVal} {g g' : EcGroup} (h : Curve c g) (h' : Curve c g') : g = g' := by
  rw [← ecGroup_iff] at h h'
  rw [h] at h'
  exact Except.ok.inj h'

theorem safe_iff {h : EnumVal} : isHashTypeSafeForSignature h = .ok () ↔ SafeHash h := by
  unfold isHashTypeSafeForSignature SafeHash
  rw [ite_else]
  simp only [Bool.or_eq_true, decide_eq_true_eq, or_assoc]

theorem evp_of_safe {h : EnumVal} (hs : SafeHash h) : evpHashFromHashType h = .ok h := by
  rcases hs with rfl | rfl | rfl <;> rfl

theorem digest_of_safe {h : EnumVal} (hs : SafeHash h) : ∃ n, Digest h n := by
  rcases hs with rfl | rfl | rfl
  · exact ⟨_, .sha256⟩
  · exact ⟨_, .sha384⟩
  · exact ⟨_, .sha512⟩

theorem safe_of_hashFor {g : EcGroup} {h : EnumVal} (hh : HashFor g h) : SafeHash h := by
  cases hh <;> simp [SafeHash]

theorem modulus_iff {b : Nat} : validateRsaModulusSize b = .ok () ↔ 2048 ≤ b := by
  unfold validateRsaModulusSize
  rw [ite_invalid']
  simp

theorem exponentBn_iff {e : Nat} :
    validateRsaPublicExponentBn e = .ok () ↔ e % 2 = 1 ∧ 65536 < e ∧ e < 2 ^ 32 := by
  unfold validateRsaPublicExponentBn
  rw [ite_invalid', ite_invalid', ite_invalid', gt_iff_lt, Nat.not_lt, bitLength_lt]
  simp only [and_true]
  omega

theorem exponent_iff {e : Bytes} :
    validateRsaPublicExponent e = .ok () ↔
      fromBytesBE e % 2 = 1 ∧ 65536 < fromBytesBE e ∧ fromBytesBE e < 2 ^ 32 := exponentBn_iff

theorem ecdsaParams_iff {p : EcdsaParams} :
    EcdsaVerifyKeyManager.validateParams p = .ok () ↔ ∃ g, Curve p.curve g ∧ HashFor g p.hashType ∧
      (p.encoding = EcdsaSignatureEncoding.DER ∨ p.encoding = EcdsaSignatureEncoding.IEEE_P1363) := by
  unfold EcdsaVerifyKeyManager.validateParams
  rw [ite_invalid']
  have he : (¬ (decide (p.encoding ≠ EcdsaSignatureEncoding.DER) &&
      decide (p.encoding ≠ EcdsaSignatureEncoding.IEEE_P1363)) = true) ↔
      (p.encoding = EcdsaSignatureEncoding.DER ∨ p.encoding = EcdsaSignatureEncoding.IEEE_P1363) := by
    simp only [ne_eq, decide_not, Bool.and_eq_true, Bool.not_eq_true', decide_eq_false_iff_not]
    rw [Decidable.not_and_iff_or_not, Decidable.not_not, Decidable.not_not]
  rw [he]
  constructor
  · rintro ⟨h1, h2⟩
    split at h2
    · rename_i e
      rw [ite_invalid'] at h2
      refine ⟨.p256, by rw [e]; exact .p256, ?_, h1⟩
      rw [Decidable.not_not.1 h2.1]
      exact .p256
    split at h2
    · rename_i e
      rw [ite_invalid'] at h2
      refine ⟨.p384, by rw [e]; exact .p384, ?_, h1⟩
      have := h2.1
      simp only [ne_eq, decide_not, Bool.and_eq_true, Bool.not_eq_true', decide_eq_false_iff_not] at this
      rw [Decidable.not_and_iff_or_not, Decidable.not_not, Decidable.not_not] at this
      rcases this with g | g <;> rw [g]
      · exact .p384
      · exact .p384'
    split at h2
    · rename_i e
      rw [ite_invalid'] at h2
      refine ⟨.p521, by rw [e]; exact .p521, ?_, h1⟩
      rw [Decidable.not_not.1 h2.1]
      exact .p521
    · exact absurd h2 invalid_ne'
  · rintro ⟨g, h1, h2, h3⟩
    refine ⟨h3, ?_⟩
    generalize p.curve = c at h1
    generalize p.hashType = h at h2
    cases h1 <;> cases h2 <;> rfl

theorem pkcs1Params_iff {p : RsaSsaPkcs1Params} :
    RsaSsaPkcs1VerifyKeyManager.validateParams p = .ok () ↔ SafeHash p.hashType := safe_iff

theorem pssParams_iff {p : RsaSsaPssParams} :
    RsaSsaPssVerifyKeyManager.validateParams p = .ok () ↔
      SafeHash p.sigHash ∧ p.mgf1Hash = p.sigHash ∧ 0 ≤ toInt p.saltLength := by
  unfold RsaSsaPssVerifyKeyManager.validateParams
  rw [then_invalid, safe_iff, ite_invalid', ite_invalid', Decidable.not_not, Int.not_lt]
  simp only [and_true]

/-! ## ECDSA -/

section
variable {lib : SigSsl} (hl : LawfulSigSsl lib)
include hl

theorem ecdsaRawSign_iff {g : EcGroup} {d : Nat} {enc : EnumVal} {seed : Seed} {m sig : Bytes}
    (hd : lib.ecScalar g d = true) :
    ecdsaRawSign lib g d enc seed m = .ok sig ↔
      (lib.ecdsaSign seed g d m).map (ecdsaEncode g enc) = some sig := by
  unfold ecdsaRawSign
  obtain ⟨⟨r, s⟩, h⟩ := hl.ecdsaTotal seed g d m hd
  obtain ⟨hr, hs⟩ := hl.ecdsaSize _ _ _ _ _ (hl.ecdsa _ _ _ _ _ hd h)
  have h66 := pow_fieldSize g
  rw [h]
  dsimp only
  rw [hl.derEncode r s (by omega) (by omega), Option.map_some, Option.some.injEq]
  unfold ecdsaEncode
  by_cases he : enc = EcdsaSignatureEncoding.IEEE_P1363
  · rw [if_pos he, if_pos he]
    unfold derToIeee
    rw [hl.derReads r s (by omega) (by omega)]
    unfold bignumToString
    dsimp only
    rw [if_pos hr, if_pos hs]
    exact ⟨Except.ok.inj, fun h => by rw [← h]; rfl⟩
  · rw [if_neg he, if_neg he]
    exact ⟨Except.ok.inj, fun h => by rw [h]⟩

theorem ecdsaVerify_iff {g : EcGroup} {pub : Nat × Nat} {md enc : EnumVal} {sig data : Bytes} :
    ecdsaVerifyVerify lib g pub md enc sig data = .ok () ↔
      ∃ r s, r < 256 ^ g.fieldSize ∧ s < 256 ^ g.fieldSize ∧ sig = ecdsaEncode g enc (r, s) ∧
        lib.ecdsaVerify g pub (lib.digest md data) (r, s) = true := by
  unfold ecdsaVerifyVerify ecdsaEncode
  have h66 := pow_fieldSize g
  dsimp only
  by_cases he : enc = EcdsaSignatureEncoding.IEEE_P1363
  · simp only [if_pos he]
    rw [sbind_ok]
    unfold ecSignatureIeeeToDer
    by_cases hlen : sig.length = g.fieldSize * 2
    · rw [if_neg (by simp [hlen])]
      have l1 : (sig.take g.fieldSize).length = g.fieldSize := by rw [List.length_take]; omega
      have l2 : (sig.drop g.fieldSize).length = g.fieldSize := by rw [List.length_drop]; omega
      have b1 := fromBytesBE_lt (sig.take g.fieldSize)
      have b2 := fromBytesBE_lt (sig.drop g.fieldSize)
      rw [l1] at b1
      rw [l2] at b2
      have hdec : ∀ a, (Except.ok (lib.derEncode (fromBytesBE (sig.take g.fieldSize),
          fromBytesBE (sig.drop g.fieldSize))) : StatusOr Bytes) = .ok a →
          lib.derDecode a = some (fromBytesBE (sig.take g.fieldSize), fromBytesBE (sig.drop g.fieldSize)) := by
        intro a ha
        rw [← Except.ok.inj ha, hl.derEncode _ _ (by omega) (by omega), hl.derReads _ _ (by omega) (by omega)]
      constructor
      · rintro ⟨a, h1, h2⟩
        rw [hdec a h1] at h2
        dsimp only at h2
        rw [ite_else] at h2
        refine ⟨_, _, b1, b2, ?_, h2⟩
        refine (List.take_append_drop g.fieldSize sig).symm.trans ?_
        congr 1
        · exact fromBytesBE_inj (by rw [l1, digitsBE_length]) (by rw [fromBytesBE_digits _ _ b1])
        · exact fromBytesBE_inj (by rw [l2, digitsBE_length]) (by rw [fromBytesBE_digits _ _ b2])
      · rintro ⟨r, s, h1, h2, h3, h4⟩
        refine ⟨_, rfl, ?_⟩
        rw [hdec _ rfl]
        have e1 : fromBytesBE (sig.take g.fieldSize) = r := by
          rw [h3, List.take_left' (digitsBE_length _ _), fromBytesBE_digits _ _ h1]
        have e2 : fromBytesBE (sig.drop g.fieldSize) = s := by
          rw [h3, List.drop_left' (digitsBE_length _ _), fromBytesBE_digits _ _ h2]
        dsimp only
        rw [e1, e2, if_pos h4]
    · rw [if_pos hlen]
      constructor
      · rintro ⟨a, h1, -⟩
        exact absurd h1 invalid_ne'
      · rintro ⟨r, s, -, -, h3, -⟩
        refine absurd ?_ hlen
        rw [h3, List.length_append, digitsBE_length, digitsBE_length]
        omega
  · simp only [if_neg he]
    rw [sbind_ok]
    constructor
    · rintro ⟨a, h1, h2⟩
      cases h1
      cases hd : lib.derDecode sig with
      | none => rw [hd] at h2; exact absurd h2 invalid_ne'
      | some rs =>
        rw [hd] at h2
        dsimp only at h2
        rw [ite_else] at h2
        obtain ⟨r, s⟩ := rs
        obtain ⟨b1, b2⟩ := hl.ecdsaSize _ _ _ _ _ h2
        exact ⟨r, s, b1, b2, hl.derDecode _ _ hd, h2⟩
    · rintro ⟨r, s, h1, h2, h3, h4⟩
      refine ⟨sig, rfl, ?_⟩
      rw [h3, hl.derReads _ _ (by omega) (by omega)]
      dsimp only
      rw [if_pos h4]

end

/-! ## What primitives do -/

/-- A signer makes the signatures of the key. -/
def SignsAs (lib : SigSsl) (a : Cpp.PublicKeySign) (k : SigKey) : Prop :=
  ∀ seed data sig, a.sign seed data = .ok sig ↔ k.signature lib seed data = some sig

/-- A verifier accepts the signatures that are valid for the key. -/
def VerifiesAs (lib : SigSsl) (a : Cpp.PublicKeyVerify) (k : PubKey) : Prop :=
  ∀ sig data, a.verify sig data = .ok () ↔ k.Valid lib data sig

theorem getEcPoint_iff {lib : SigSsl} {c : EnumVal} {x y : Bytes} {p : Nat × Nat} :
    getEcPoint lib c x y = .ok p ↔ ∃ g, Curve c g ∧ lib.ecPoint g (fromBytesBE x) (fromBytesBE y) = true ∧
      p = (fromBytesBE x, fromBytesBE y) := by
  unfold getEcPoint
  rw [sbind_ok]
  constructor
  · rintro ⟨g, h1, h2⟩
    refine ⟨g, ecGroup_iff.1 h1, ?_⟩
    split at h2
    · rename_i h
      exact ⟨h, (Except.ok.inj h2).symm⟩
    · exact absurd h2 internal_ne
  · rintro ⟨g, h1, h2, h3⟩
    refine ⟨g, ecGroup_iff.2 h1, ?_⟩
    rw [if_pos h2, h3]
    rfl

section
variable {lib : SigSsl} (hl : LawfulSigSsl lib)
include hl

theorem ecdsaVerifyNew_iff {c : EnumVal} {x y : Bytes} {hash enc : EnumVal} {g : EcGroup}
    (hc : Curve c g) (hh : HashFor g hash)
    (he : enc = EcdsaSignatureEncoding.DER ∨ enc = EcdsaSignatureEncoding.IEEE_P1363) :
    (∀ a, ecdsaVerifyNew lib { curve := c, pubX := x, pubY := y } hash enc = .ok a →
      (PubKey.ecdsa g x y hash enc).Ok lib ∧ VerifiesAs lib a (.ecdsa g x y hash enc)) ∧
    ((PubKey.ecdsa g x y hash enc).Ok lib →
      ∃ a, ecdsaVerifyNew lib { curve := c, pubX := x, pubY := y } hash enc = .ok a) := by
  have hs := safe_of_hashFor hh
  unfold ecdsaVerifyNew
  constructor
  · intro a h
    obtain ⟨g', h1, h⟩ := sbind_ok.1 h
    cases curve_unique hc (ecGroup_iff.1 h1)
    obtain ⟨p, h2, h⟩ := sbind_ok.1 h
    obtain ⟨g'', h3, h4, rfl⟩ := getEcPoint_iff.1 h2
    cases curve_unique hc h3
    obtain ⟨_, -, h⟩ := sbind_ok.1 h
    obtain ⟨md, h5, h⟩ := sbind_ok.1 h
    rw [evp_of_safe hs] at h5
    cases h5
    cases h
    exact ⟨⟨hh, he, h4⟩, fun sig data => ecdsaVerify_iff hl⟩
  · rintro ⟨-, -, h4⟩
    rw [ecGroup_iff.2 hc, getEcPoint_iff.2 ⟨g, hc, h4, rfl⟩, safe_iff.2 hs, evp_of_safe hs]
    exact ⟨_, rfl⟩

theorem ecdsaSignNew_iff {c : EnumVal} {x y d : Bytes} {hash enc : EnumVal} {g : EcGroup}
    (hc : Curve c g) (hh : HashFor g hash)
    (he : enc = EcdsaSignatureEncoding.DER ∨ enc = EcdsaSignatureEncoding.IEEE_P1363) :
    (∀ a, ecdsaSignNew lib { curve := c, pubX := x, pubY := y, priv := d } hash enc = .ok a →
      (SigKey.ecdsa g x y d hash enc).Ok lib ∧ SignsAs lib a (.ecdsa g x y d hash enc)) ∧
    ((SigKey.ecdsa g x y d hash enc).Ok lib →
      ∃ a, ecdsaSignNew lib { curve := c, pubX := x, pubY := y, priv := d } hash enc = .ok a) := by
  have hs := safe_of_hashFor hh
  unfold ecdsaSignNew ecdsaRawNew
  constructor
  · intro a h
    obtain ⟨_, -, h⟩ := sbind_ok.1 h
    obtain ⟨md, h5, h⟩ := sbind_ok.1 h
    rw [evp_of_safe hs] at h5
    cases h5
    obtain ⟨raw, hraw, h⟩ := sbind_ok.1 h
    obtain ⟨g', h1, h'⟩ := sbind_ok.1 hraw
    cases curve_unique hc (ecGroup_iff.1 h1)
    obtain ⟨p, h2, h'⟩ := sbind_ok.1 h'
    obtain ⟨g'', h3, h4, rfl⟩ := getEcPoint_iff.1 h2
    cases curve_unique hc h3
    dsimp only at h'
    split at h'
    · exact absurd h' invalid_ne'
    · rename_i hsc
      have hsc : lib.ecScalar g (fromBytesBE d) = true := by simpa using hsc
      cases h'
      cases h
      exact ⟨⟨⟨hh, he, h4⟩, hsc⟩, fun seed data sig => ecdsaRawSign_iff hl hsc⟩
  · rintro ⟨⟨-, -, h4⟩, h5⟩
    rw [ecGroup_iff.2 hc, getEcPoint_iff.2 ⟨g, hc, h4, rfl⟩, safe_iff.2 hs, evp_of_safe hs]
    have h5 : lib.ecScalar g (fromBytesBE d) = true := h5
    simp only [bind, Except.bind, pure, Except.pure, h5]
    exact ⟨_, rfl⟩

end

/-! ## Ed25519 -/

theorem ed25519VerifyNew_iff {lib : SigSsl} {pub : Bytes} :
    (∀ a, ed25519VerifyNew lib pub = .ok a →
      (PubKey.ed25519 pub).Ok lib ∧ VerifiesAs lib a (.ed25519 pub)) ∧
    ((PubKey.ed25519 pub).Ok lib → ∃ a, ed25519VerifyNew lib pub = .ok a) := by
  unfold ed25519VerifyNew
  constructor
  · intro a h
    split at h
    · exact absurd h invalid_ne'
    · rename_i hp
      cases h
      have hp : pub.length = 32 := Decidable.not_not.1 hp
      refine ⟨hp, fun sig data => ?_⟩
      rw [ite_invalid', ite_internal, Decidable.not_not]
      simp [PubKey.Valid]
  · intro h
    rw [if_neg (by rw [Decidable.not_not]; exact h)]
    exact ⟨_, rfl⟩

theorem ed25519SignNew_iff {lib : SigSsl} {pub priv : Bytes} (h1 : pub.length = 32) (h2 : priv.length = 32) :
    ∃ a, ed25519SignNew lib (priv ++ pub) = .ok a ∧ SignsAs lib a (.ed25519 pub priv) := by
  unfold ed25519SignNew
  rw [if_neg (by rw [List.length_append]; omega)]
  refine ⟨_, rfl, fun seed data sig => ?_⟩
  dsimp only
  rw [List.take_left' h2]
  simp [SigKey.signature]

/-! ## RSA -/

theorem rsaPublic_iff {n e : Bytes} {p : Nat × Nat} :
    rsaPublicKeyToRsa n e = .ok p ↔ 2048 ≤ bitLength (fromBytesBE n) ∧ p = (fromBytesBE n, fromBytesBE e) := by
  unfold rsaPublicKeyToRsa
  rw [sbind_ok]
  constructor
  · rintro ⟨_, h1, h2⟩
    exact ⟨modulus_iff.1 h1, (Except.ok.inj h2).symm⟩
  · rintro ⟨h1, h2⟩
    exact ⟨(), modulus_iff.2 h1, by rw [h2]; rfl⟩

theorem rsaPrivate_iff {lib : SigSsl} {k : RsaKey} {r : RsaNumbers} :
    rsaPrivateKeyToRsa lib k = .ok r ↔ RsaOk k.n k.e ∧ lib.rsaCheckKey k.numbers = true ∧
      lib.rsaCheckFips k.numbers = true ∧ r = k.numbers := by
  unfold rsaPrivateKeyToRsa RsaOk
  constructor
  · intro h
    obtain ⟨_, h1, h⟩ := sbind_ok.1 h
    obtain ⟨_, h2, h⟩ := sbind_ok.1 h
    split at h
    · exact absurd h invalid_ne'
    · split at h
      · exact absurd h invalid_ne'
      · rename_i g1 g2
        exact ⟨⟨modulus_iff.1 h1, exponent_iff.1 h2⟩, by simpa using g1, by simpa using g2,
          (Except.ok.inj h).symm⟩
  · rintro ⟨⟨h1, h2⟩, h3, h4, rfl⟩
    rw [modulus_iff.2 h1, exponent_iff.2 h2]
    simp only [bind, Except.bind, h3, h4]
    rfl

theorem option_iff {o : Option Bytes} {sig : Bytes} :
    ((match o with | none => internalError | some sig => .ok sig : StatusOr Bytes) = .ok sig) ↔ o = some sig := by
  cases o <;> simp [internalError]

theorem pkcs1VerifyNew_iff {lib : SigSsl} {n e : Bytes} {hash : EnumVal} (h1 : RsaOk n e) (h2 : SafeHash hash) :
    ∃ a, rsaPkcs1VerifyNew lib n e hash = .ok a ∧ VerifiesAs lib a (.rsaPkcs1 n e hash) := by
  unfold rsaPkcs1VerifyNew
  rw [safe_iff.2 h2, evp_of_safe h2, rsaPublic_iff.2 ⟨h1.1, rfl⟩]
  exact ⟨_, rfl, fun sig data => ite_else⟩

theorem pkcs1SignNew_iff {lib : SigSsl} {k : RsaKey} {hash : EnumVal} (h1 : RsaOk k.n k.e) (h2 : SafeHash hash) :
    (∀ a, rsaPkcs1SignNew lib k hash = .ok a → lib.rsaCheckKey k.numbers = true ∧
      lib.rsaCheckFips k.numbers = true ∧ SignsAs lib a (.rsaPkcs1 k hash)) ∧
    (lib.rsaCheckKey k.numbers = true → lib.rsaCheckFips k.numbers = true →
      ∃ a, rsaPkcs1SignNew lib k hash = .ok a) := by
  unfold rsaPkcs1SignNew
  rw [safe_iff.2 h2, evp_of_safe h2, modulus_iff.2 h1.1]
  constructor
  · intro a h
    simp only [bind, Except.bind] at h
    cases h3 : rsaPrivateKeyToRsa lib k with
    | error e => rw [h3] at h; cases h
    | ok r =>
    rw [h3] at h
    have h4 := h
    obtain ⟨-, h5, h6, rfl⟩ := rsaPrivate_iff.1 h3
    cases h4
    exact ⟨h5, h6, fun seed data sig => option_iff⟩
  · intro h3 h4
    rw [rsaPrivate_iff.2 ⟨h1, h3, h4, rfl⟩]
    exact ⟨_, rfl⟩

theorem pssVerify_iff {lib : SigSsl} (hl : LawfulSigSsl lib) {n e sig dig : Bytes} {h1 h2 : EnumVal} {salt : Int} :
    sslRsaSsaPssVerify lib (fromBytesBE n, fromBytesBE e) sig dig h1 h2 salt = .ok () ↔
      ∃ em, lib.rsaPublicDecrypt (fromBytesBE n) (fromBytesBE e) sig = some em ∧
        lib.pssCheck (fromBytesBE n) h1 h2 salt dig em = true := by
  unfold sslRsaSsaPssVerify
  cases h : lib.rsaPublicDecrypt (fromBytesBE n) (fromBytesBE e) sig with
  | none =>
    dsimp only
    simp [invalidArgument]
  | some em =>
    dsimp only
    rw [if_neg (by rw [Decidable.not_not]; exact (hl.rsaRawSize _ _ _ _ h).2), ite_else]
    simp

theorem pssVerifyNew_iff {lib : SigSsl} (hl : LawfulSigSsl lib) {n e : Bytes} {h1 h2 : EnumVal} {salt : Int}
    (g1 : RsaOk n e) (g2 : SafeHash h1) (g3 : h2 = h1) :
    ∃ a, rsaPssVerifyNew lib n e h1 h2 salt = .ok a ∧ VerifiesAs lib a (.rsaPss n e h1 h2 salt) := by
  subst g3
  unfold rsaPssVerifyNew
  rw [safe_iff.2 g2, evp_of_safe g2, rsaPublic_iff.2 ⟨g1.1, rfl⟩]
  exact ⟨_, rfl, fun sig data => pssVerify_iff hl⟩

theorem pssSign_iff {lib : SigSsl} {rsa : RsaNumbers} {seed : Seed} {dig : Bytes} {h1 h2 : EnumVal} {salt : Int}
    {sig : Bytes} :
    (match sslRsaSsaPssSign lib rsa seed dig h1 h2 salt with
      | .error _ => internalError
      | .ok sig => .ok sig : StatusOr Bytes) = .ok sig ↔
      (lib.pssPad seed rsa.n h1 h2 salt dig).bind (lib.rsaPrivateEncrypt rsa) = some sig := by
  unfold sslRsaSsaPssSign
  cases lib.pssPad seed rsa.n h1 h2 salt dig with
  | none => simp [internalError]
  | some em =>
    dsimp only
    rw [Option.bind_some]
    cases lib.rsaPrivateEncrypt rsa em <;> simp [internalError]

theorem pssSignNew_iff {lib : SigSsl} {k : RsaKey} {h1 h2 : EnumVal} {salt : Int}
    (g1 : RsaOk k.n k.e) (g2 : SafeHash h1) (g3 : h2 = h1) :
    (∀ a, rsaPssSignNew lib k h1 h2 salt = .ok a → lib.rsaCheckKey k.numbers = true ∧
      lib.rsaCheckFips k.numbers = true ∧ SignsAs lib a (.rsaPss k h1 h2 salt)) ∧
    (lib.rsaCheckKey k.numbers = true → lib.rsaCheckFips k.numbers = true →
      ∃ a, rsaPssSignNew lib k h1 h2 salt = .ok a) := by
  subst g3
  unfold rsaPssSignNew
  rw [safe_iff.2 g2, evp_of_safe g2]
  constructor
  · intro a h
    simp only [bind, Except.bind] at h
    cases h3 : rsaPrivateKeyToRsa lib k with
    | error e => rw [h3] at h; cases h
    | ok r =>
    rw [h3] at h
    have h4 := h
    obtain ⟨-, h5, h6, rfl⟩ := rsaPrivate_iff.1 h3
    cases h4
    exact ⟨h5, h6, fun seed data sig => pssSign_iff⟩
  · intro h3 h4
    rw [rsaPrivate_iff.2 ⟨g1, h3, h4, rfl⟩]
    exact ⟨_, rfl⟩

/-! ## Signatures of a key are valid -/

theorem signature_valid {lib : SigSsl} (hl : LawfulSigSsl lib) {k : SigKey} (hk : k.Ok lib) (hm : k.Matches lib)
    {seed : Seed} {data sig : Bytes} (h : k.signature lib seed data = some sig) :
    k.publicPart.Valid lib data sig := by
  cases k with
  | ecdsa g x y d hash enc =>
    obtain ⟨rs, h1, h2⟩ := Option.map_eq_some_iff.1 h
    obtain ⟨r, s⟩ := rs
    have h3 := hl.ecdsa _ _ _ _ _ hk.2 h1
    have hm : (fromBytesBE x, fromBytesBE y) = lib.ecPublic g (fromBytesBE d) := hm
    rw [← hm] at h3
    obtain ⟨b1, b2⟩ := hl.ecdsaSize _ _ _ _ _ h3
    exact ⟨r, s, b1, b2, h2.symm, h3⟩
  | ed25519 pub priv =>
    have hm : pub = lib.ed25519Public priv := hm
    cases h
    exact ⟨hl.ed25519Sign _ _ hk.2, by rw [hm]; exact hl.ed25519 _ _ hk.2⟩
  | rsaPkcs1 k hash => exact hl.rsa _ _ _ _ hk.2.1 h
  | rsaPss k h1 h2 salt =>
    obtain ⟨em, g1, g2⟩ := Option.bind_eq_some_iff.1 h
    obtain ⟨⟨-, -, e, -⟩, hc, -⟩ := hk
    cases e
    exact ⟨em, hl.rsaRaw _ _ _ hc g2, hl.pss _ _ _ _ _ _ g1⟩

end Tink.Cc
