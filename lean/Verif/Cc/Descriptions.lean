import Verif.Cc.KeyLemmas
import Verif.Spec.Hkdf

/-!
# What each key manager for symmetric keys does, in terms of the keys
-/

namespace Tink.Cc
open Spec Cpp Props

theorem key_of {B : Type} {v : StatusOr Unit} {c : StatusOr B} {V O : Prop} {p a : B}
    (h1 : v = .ok () ↔ V ∧ O) (h2 : O → c = .ok p) : (v = .ok () ∧ c = .ok a) ↔ V ∧ O ∧ a = p := by
  constructor
  · rintro ⟨g1, g2⟩
    obtain ⟨hV, hO⟩ := h1.1 g1
    rw [h2 hO] at g2
    cases g2
    exact ⟨hV, hO, rfl⟩
  · rintro ⟨hV, hO, rfl⟩
    exact ⟨h1.2 ⟨hV, hO⟩, h2 hO⟩

theorem length_optField {α : Type} {num m : Nat} {o : Option α} {f : α → List Field} (hn : num < 536870912)
    (hm : m < 4294967296) (h : ∀ x, o = some x → (encodeFields (f x)).length ≤ m) :
    (encodeFields (msgField num (o.map f))).length ≤ 20 + m :=
  length_msgField hn hm (by
    intro fs hfs
    cases ho : o with
    | none => rw [ho] at hfs; cases hfs
    | some x => rw [ho] at hfs; cases hfs; exact h x ho)

/-! ## The primitives of keys -/

/-- The AEAD of a key. -/
def aeadPrim (lib : Ssl) : AeadKey → Cpp.Aead
  | .aesGcm key => { encrypt := nonceEncrypt lib .aesGcm 12 key, decrypt := nonceDecrypt lib .aesGcm 12 key }
  | .aesGcmSiv key =>
    { encrypt := nonceEncrypt lib .aesGcmSiv 12 key, decrypt := nonceDecrypt lib .aesGcmSiv 12 key }
  | .aesEax key n => { encrypt := AesEax.encrypt lib key n, decrypt := AesEax.decrypt lib key n }
  | .xChaCha20Poly1305 key =>
    { encrypt := nonceEncrypt lib .xChaCha20Poly1305 24 key
      decrypt := nonceDecrypt lib .xChaCha20Poly1305 24 key }
  | .aesCtrHmac key n hmacKey hash t =>
    { encrypt := etaEncrypt ⟨aesCtrEncrypt lib key n, aesCtrDecrypt lib key n⟩ (hmacPrim lib hmacKey hash t) t
      decrypt := etaDecrypt ⟨aesCtrEncrypt lib key n, aesCtrDecrypt lib key n⟩ (hmacPrim lib hmacKey hash t) t }

/-- The deterministic AEAD of a key. -/
def sivPrim (lib : Ssl) (k : SivKey) : Cpp.DeterministicAead where
  encryptDeterministically := AesSiv.encrypt lib (k.key.take 32) (k.key.drop 32)
  decryptDeterministically := AesSiv.decrypt lib (k.key.take 32) (k.key.drop 32)

/-- The MAC of a key. -/
def macPrim (lib : Ssl) : MacKey → Cpp.Mac
  | .hmac key hash t => hmacPrim lib key hash t
  | .aesCmac key t => { computeMac := cmacCompute lib t key, verifyMac := cmacVerify lib t key }

/-- The PRF of a key. -/
def prfPrim (lib : Ssl) : PrfKey → Cpp.Prf
  | .hmac key hash => prfFromMac (statefulHmac lib hash ((mdSize hash).getD 0) key)
  | .aesCmac key => prfFromMac (statefulCmac lib 16 key)
  | .hkdf key hash salt => { compute := hkdfCompute lib hash ((mdSize hash).getD 0) key salt }

/-! ## AEAD -/

theorem aesGcm_describes {lib : Ssl} (hl : LawfulSsl lib) (seed : Seed) :
    Describes (AesGcmKeyManager.keyTypeManager lib) seed AeadKey.Ok AeadKey.size (aeadPrim lib)
      (fun k => .aesGcm k.keyValue) (fun f => .aesGcm (lib.random seed 0 f.keySize.toNat))
      (fun k => k.version = 0) (fun _ => True) where
  format f := by
    show AesGcmKeyManager.validateKeyFormat f = _ ↔ _
    unfold AesGcmKeyManager.validateKeyFormat
    rw [aesKeySize_iff, true_and]
    exact (random_aesKey hl seed 0 _).symm
  key k hs a := by
    refine key_of ?_ fun h => ?_
    · show AesGcmKeyManager.validateKey k = _ ↔ _
      unfold AesGcmKeyManager.validateKey
      rw [then_invalid, version_iff, aesKey_iff hs]
      rfl
    · show aesGcmNew lib k.keyValue = _
      unfold aesGcmNew
      rw [aesOneShot_ok.2 h]
      rfl
  create f := ⟨_, rfl, rfl, rfl⟩
  serialize k hs := by
    have hs : k.keyValue.length < 2 ^ 31 - 1000 := hs
    have : (encodeFields k.fields).length ≤ k.keyValue.length + 400 := by
      unfold AesGcmKey.fields
      rw [length_encodeFields_append]
      have h1 := length_uint32Field (num := 1) (n := k.version) (by decide)
      have h3 := length_bytesField (num := 3) (b := k.keyValue) (by decide) (by omega)
      omega
    exact ⟨_, serializeFields_of_length (by omega), this⟩
  parse k v h := AesGcmKey.fromString_serializeToString h
  url := by show (ps! "type.googleapis.com/google.crypto.tink.AesGcmKey").length ≤ 100; decide
  symmetric := rfl

theorem aesGcmSiv_describes {lib : Ssl} (hl : LawfulSsl lib) (seed : Seed) :
    Describes (AesGcmSivKeyManager.keyTypeManager lib) seed AeadKey.Ok AeadKey.size (aeadPrim lib)
      (fun k => .aesGcmSiv k.keyValue) (fun f => .aesGcmSiv (lib.random seed 0 f.keySize.toNat))
      (fun k => k.version = 0) (fun _ => True) where
  format f := by
    show AesGcmSivKeyManager.validateKeyFormat f = _ ↔ _
    unfold AesGcmSivKeyManager.validateKeyFormat
    rw [aesKeySize_iff, true_and]
    exact (random_aesKey hl seed 0 _).symm
  key k hs a := by
    refine key_of ?_ fun h => ?_
    · show AesGcmSivKeyManager.validateKey k = _ ↔ _
      unfold AesGcmSivKeyManager.validateKey
      rw [then_invalid, version_iff, aesKey_iff hs]
      rfl
    · show aesGcmSivNew lib k.keyValue = _
      unfold aesGcmSivNew
      rw [aesOneShot_ok.2 h]
      rfl
  create f := ⟨_, rfl, rfl, rfl⟩
  serialize k hs := by
    have hs : k.keyValue.length < 2 ^ 31 - 1000 := hs
    have : (encodeFields k.fields).length ≤ k.keyValue.length + 400 := by
      unfold AesGcmSivKey.fields
      rw [length_encodeFields_append]
      have h1 := length_uint32Field (num := 1) (n := k.version) (by decide)
      have h3 := length_bytesField (num := 3) (b := k.keyValue) (by decide) (by omega)
      omega
    exact ⟨_, serializeFields_of_length (by omega), this⟩
  parse k v h := AesGcmSivKey.fromString_serializeToString h
  url := by show (ps! "type.googleapis.com/google.crypto.tink.AesGcmSivKey").length ≤ 100; decide
  symmetric := rfl

theorem two_sizes {x a b : UInt32} :
    (if x ≠ a && x ≠ b then invalidArgument else .ok ()) = (.ok () : StatusOr Unit) ↔
      x.toNat = a.toNat ∨ x.toNat = b.toNat := by
  rw [UInt32.toNat_inj, UInt32.toNat_inj]
  by_cases h1 : x = a <;> by_cases h2 : x = b <;> simp [h1, h2, invalidArgument]

theorem aesEax_describes {lib : Ssl} (hl : LawfulSsl lib) (seed : Seed) :
    Describes (AesEaxKeyManager.keyTypeManager lib) seed AeadKey.Ok AeadKey.size (aeadPrim lib)
      (fun k => .aesEax k.keyValue k.getParams.ivSize.toNat)
      (fun f => .aesEax (lib.random seed 0 f.keySize.toNat) f.getParams.ivSize.toNat)
      (fun k => k.version = 0) (fun _ => True) where
  format f := by
    show AesEaxKeyManager.validateKeyFormat f = _ ↔ _
    unfold AesEaxKeyManager.validateKeyFormat AesEaxKeyManager.validateKeySize AesEaxKeyManager.validateIvSize
    rw [then_invalid, two_sizes, two_sizes, true_and]
    exact and_congr (random_aesKey hl seed 0 _).symm Iff.rfl
  key k hs a := by
    have hs : k.keyValue.length < 2 ^ 31 := hs
    refine key_of ?_ fun h => ?_
    · show AesEaxKeyManager.validateKey k = _ ↔ _
      unfold AesEaxKeyManager.validateKey AesEaxKeyManager.validateKeySize AesEaxKeyManager.validateIvSize
      rw [then_invalid, then_invalid, version_iff, two_sizes, two_sizes, size32_toNat (by omega)]
      rfl
    · show AesEax.new lib k.keyValue k.getParams.ivSize.toNat = _
      obtain ⟨h1, h2⟩ := h
      unfold AesEax.new
      rw [if_neg (by rcases h1 with h1 | h1 <;> simp [h1]), if_neg (by rcases h2 with h2 | h2 <;> simp [h2])]
      rfl
  create f := ⟨_, rfl, rfl, rfl⟩
  serialize k hs := by
    have hs : k.keyValue.length < 2 ^ 31 - 1000 := hs
    have : (encodeFields k.fields).length ≤ k.keyValue.length + 400 := by
      unfold AesEaxKey.fields
      rw [length_encodeFields_append, length_encodeFields_append]
      have h1 := length_uint32Field (num := 1) (n := k.version) (by decide)
      have h2 := length_optField (num := 2) (o := k.params) (m := 40) (by decide) (by decide)
        (fun q _ => length_eaxParams q)
      have h3 := length_bytesField (num := 3) (b := k.keyValue) (by decide) (by omega)
      omega
    exact ⟨_, serializeFields_of_length (by omega), this⟩
  parse k v h := AesEaxKey.fromString_serializeToString h
  url := by show (ps! "type.googleapis.com/google.crypto.tink.AesEaxKey").length ≤ 100; decide
  symmetric := rfl

theorem xChaCha20Poly1305_describes {lib : Ssl} (hl : LawfulSsl lib) (seed : Seed) :
    Describes (XChaCha20Poly1305KeyManager.keyTypeManager lib) seed AeadKey.Ok AeadKey.size (aeadPrim lib)
      (fun k => .xChaCha20Poly1305 k.keyValue) (fun _ => .xChaCha20Poly1305 (lib.random seed 0 32))
      (fun k => k.version = 0) (fun _ => True) where
  format f := by
    have : (lib.random seed 0 32).length = 32 := hl.random_length seed 0 32
    exact ⟨fun _ => ⟨trivial, this⟩, fun _ => rfl⟩
  key k hs a := by
    refine key_of ?_ fun h => ?_
    · show XChaCha20Poly1305KeyManager.validateKey k = _ ↔ _
      unfold XChaCha20Poly1305KeyManager.validateKey
      rw [then_invalid, version_iff, ite_invalid', Decidable.not_not]
      exact and_congr Iff.rfl ⟨fun h => h.1, fun h => ⟨h, rfl⟩⟩
    · show xChaCha20Poly1305New lib k.keyValue = _
      have h : k.keyValue.length = 32 := h
      unfold xChaCha20Poly1305New createXchacha20OneShotCrypter
      rw [if_neg (by omega)]
      rfl
  create f := ⟨_, rfl, rfl, rfl⟩
  serialize k hs := by
    have hs : k.keyValue.length < 2 ^ 31 - 1000 := hs
    have : (encodeFields k.fields).length ≤ k.keyValue.length + 400 := by
      unfold XChaCha20Poly1305Key.fields
      rw [length_encodeFields_append]
      have h1 := length_uint32Field (num := 1) (n := k.version) (by decide)
      have h3 := length_bytesField (num := 3) (b := k.keyValue) (by decide) (by omega)
      omega
    exact ⟨_, serializeFields_of_length (by omega), this⟩
  parse k v h := XChaCha20Poly1305Key.fromString_serializeToString h
  url := by show (ps! "type.googleapis.com/google.crypto.tink.XChaCha20Poly1305Key").length ≤ 100; decide
  symmetric := rfl

theorem iv_iff {x : UInt32} {y : StatusOr Unit} :
    (if x < 12 || x > 16 then invalidArgument else y) = .ok () ↔ (12 ≤ x.toNat ∧ x.toNat ≤ 16) ∧ y = .ok () := by
  rw [ite_invalid']
  refine and_congr ?_ Iff.rfl
  simp only [gt_iff_lt, UInt32.lt_iff_toNat_lt, Bool.or_eq_true, decide_eq_true_eq, not_or, Nat.not_lt]
  exact Iff.rfl

theorem length_hmacKey {k : HmacKey} (h : k.keyValue.length < 2 ^ 31) :
    (encodeFields k.fields).length ≤ k.keyValue.length + 100 := by
  unfold HmacKey.fields
  rw [length_encodeFields_append, length_encodeFields_append]
  have h1 := length_uint32Field (num := 1) (n := k.version) (by decide)
  have h2 := length_optField (num := 2) (o := k.params) (m := 40) (by decide) (by decide)
    (fun q _ => length_hmacParams q)
  have h3 := length_bytesField (num := 3) (b := k.keyValue) (by decide) (by omega)
  omega

theorem length_aesCtrKey {k : AesCtrKey} (h : k.keyValue.length < 2 ^ 31) :
    (encodeFields k.fields).length ≤ k.keyValue.length + 100 := by
  unfold AesCtrKey.fields
  rw [length_encodeFields_append, length_encodeFields_append]
  have h1 := length_uint32Field (num := 1) (n := k.version) (by decide)
  have h2 := length_optField (num := 2) (o := k.params) (m := 40) (by decide) (by decide)
    (fun q _ => length_aesCtrParams q)
  have h3 := length_bytesField (num := 3) (b := k.keyValue) (by decide) (by omega)
  omega

theorem aesCtrHmac_describes {lib : Ssl} (hl : LawfulSsl lib) (seed : Seed) :
    Describes (AesCtrHmacAeadKeyManager.keyTypeManager lib) seed AeadKey.Ok AeadKey.size (aeadPrim lib)
      (fun k => .aesCtrHmac k.getAesCtrKey.keyValue k.getAesCtrKey.getParams.ivSize.toNat k.getHmacKey.keyValue
        k.getHmacKey.getParams.hash k.getHmacKey.getParams.tagSize.toNat)
      (fun f => .aesCtrHmac (lib.random seed 0 f.getAesCtrKeyFormat.keySize.toNat)
        f.getAesCtrKeyFormat.getParams.ivSize.toNat (lib.random seed 1 f.getHmacKeyFormat.keySize.toNat)
        f.getHmacKeyFormat.getParams.hash f.getHmacKeyFormat.getParams.tagSize.toNat)
      (fun k => k.version = 0 ∧ k.getAesCtrKey.version = 0 ∧ k.getHmacKey.version = 0) (fun _ => True) where
  format f := by
    show AesCtrHmacAeadKeyManager.validateKeyFormat f = _ ↔ _
    unfold AesCtrHmacAeadKeyManager.validateKeyFormat AeadKey.Ok HmacOk
    dsimp only
    rw [then_invalid, aesKeySize_iff, iv_iff, ite_invalid', ite_invalid', random_aesKey hl, hl.random_length,
      true_and, UInt32.lt_iff_toNat_lt, UInt32.lt_iff_toNat_lt, Nat.not_lt, Nat.not_lt]
    have hfm := hmacFormat_iff (f := f.getHmacKeyFormat)
    generalize f.getHmacKeyFormat = g at *
    constructor
    · rintro ⟨h1, ⟨h2, h3⟩, h4, h5, h6⟩
      refine ⟨h1, h2, h3, h4, h5, ?_⟩
      cases hm : HmacKeyManager.maxTagSize g.getParams.hash with
      | none => rw [hm] at h6; exact absurd h6 invalid_ne'
      | some m =>
        rw [hm] at h6
        exact (hfm.1 (ite_invalid'.1 h6).2).2.2
    · rintro ⟨h1, h2, h3, h4, h5, h6⟩
      refine ⟨h1, ⟨h2, h3⟩, h4, h5, ?_⟩
      obtain ⟨n, hn, hle⟩ := h6
      obtain ⟨m, hm, hmn⟩ := maxTagSize_digest hn
      rw [hm]
      refine ite_invalid'.2 ⟨?_, hfm.2 ⟨h4, h5, n, hn, hle⟩⟩
      rw [gt_iff_lt, UInt32.lt_iff_toNat_lt]
      omega
  key k hs a := by
    have hs : k.getAesCtrKey.keyValue.length + k.getHmacKey.keyValue.length < 2 ^ 31 := hs
    refine key_of ?_ fun h => ?_
    · show AesCtrHmacAeadKeyManager.validateKey k = _ ↔ _
      unfold AesCtrHmacAeadKeyManager.validateKey AeadKey.Ok
      dsimp only
      rw [then_invalid, then_invalid, then_invalid, version_iff, version_iff, aesKey_iff (by omega), iv_iff,
        hmacKey_iff]
      constructor
      · rintro ⟨h1, h2, h3, ⟨h4, h5⟩, h6, h7⟩; exact ⟨⟨h1, h2, h6⟩, h3, h4, h5, h7⟩
      · rintro ⟨⟨h1, h2, h6⟩, h3, h4, h5, h7⟩; exact ⟨h1, h2, h3, ⟨h4, h5⟩, h6, h7⟩
    · show AesCtrHmacAeadKeyManager.create lib k = _
      obtain ⟨h1, h2, h3, h4⟩ := h
      have hle := h4
      obtain ⟨-, h10, n, hd, ht⟩ := hle
      have hd64 := digest_le hd
      unfold AesCtrHmacAeadKeyManager.create aesCtrNew HmacKeyManager.create etaNew
      have hsz := size32_toNat (b := k.getAesCtrKey.keyValue) (by omega)
      unfold size32 at hsz
      have c1 : ¬ ((UInt32.ofNat k.getAesCtrKey.keyValue.length ≠ 16 &&
          UInt32.ofNat k.getAesCtrKey.keyValue.length ≠ 32) = true) := by
        rcases h1 with h1 | h1 <;> rw [h1] <;> decide
      rw [if_neg c1, toInt_small (by omega), if_neg (by simp; omega), hmacNew_ok h4]
      have e8 : (k.getHmacKey.getParams.tagSize.toUInt8).toNat = k.getHmacKey.getParams.tagSize.toNat := by
        rw [UInt32.toNat_toUInt8]
        exact Nat.mod_eq_of_lt (by omega)
      simp only [bind, Except.bind]
      rw [if_neg (by rw [UInt8.lt_iff_toNat_lt, e8]; exact Nat.not_lt.2 h10), e8, Int.toNat_natCast]
      rfl
  create f := ⟨_, rfl, ⟨rfl, rfl, rfl⟩, rfl⟩
  serialize k hs := by
    have hs : k.getAesCtrKey.keyValue.length + k.getHmacKey.keyValue.length < 2 ^ 31 - 1000 := hs
    have : (encodeFields k.fields).length ≤ k.getAesCtrKey.keyValue.length + k.getHmacKey.keyValue.length + 400 := by
      unfold AesCtrHmacAeadKey.fields
      rw [length_encodeFields_append, length_encodeFields_append]
      have h1 := length_uint32Field (num := 1) (n := k.version) (by decide)
      have h2 := length_optField (num := 2) (o := k.aesCtrKey) (f := AesCtrKey.fields)
        (m := k.getAesCtrKey.keyValue.length + 100) (by decide) (by omega) (by
          intro q hq
          have e : k.getAesCtrKey = q := by simp [AesCtrHmacAeadKey.getAesCtrKey, hq]
          rw [e]
          exact length_aesCtrKey (by rw [e] at hs; omega))
      have h3 := length_optField (num := 3) (o := k.hmacKey) (f := HmacKey.fields)
        (m := k.getHmacKey.keyValue.length + 100) (by decide) (by omega) (by
          intro q hq
          have e : k.getHmacKey = q := by simp [AesCtrHmacAeadKey.getHmacKey, hq]
          rw [e]
          exact length_hmacKey (by rw [e] at hs; omega))
      omega
    exact ⟨_, serializeFields_of_length (by omega), this⟩
  parse k v h := AesCtrHmacAeadKey.fromString_serializeToString h
  url := by show (ps! "type.googleapis.com/google.crypto.tink.AesCtrHmacAeadKey").length ≤ 100; decide
  symmetric := rfl

/-! ## Deterministic AEAD -/

theorem one_size {x a : UInt32} :
    (if x ≠ a then invalidArgument else .ok ()) = (.ok () : StatusOr Unit) ↔ x.toNat = a.toNat := by
  rw [ite_invalid', Decidable.not_not, UInt32.toNat_inj]
  exact ⟨fun h => h.1, fun h => ⟨h, rfl⟩⟩

theorem aesSiv_describes {lib : Ssl} (hl : LawfulSsl lib) (seed : Seed) :
    Describes (AesSivKeyManager.keyTypeManager lib) seed SivKey.Ok SivKey.size (sivPrim lib)
      (fun k => ⟨k.keyValue⟩) (fun f => ⟨lib.random seed 0 f.keySize.toNat⟩)
      (fun k => k.version = 0) (fun _ => True) where
  format f := by
    show AesSivKeyManager.validateKeyFormat f = _ ↔ _
    unfold AesSivKeyManager.validateKeyFormat AesSivKeyManager.validateKeySize SivKey.Ok
    rw [one_size, true_and, hl.random_length]
    rfl
  key k hs a := by
    have hs : k.keyValue.length < 2 ^ 31 := hs
    refine key_of ?_ fun h => ?_
    · show AesSivKeyManager.validateKey k = _ ↔ _
      unfold AesSivKeyManager.validateKey AesSivKeyManager.validateKeySize
      rw [then_invalid, version_iff, one_size, size32_toNat (by omega)]
      rfl
    · show AesSiv.new lib k.keyValue = _
      have h : k.keyValue.length = 64 := h
      unfold AesSiv.new
      rw [if_neg (by omega), h]
      rfl
  create f := ⟨_, rfl, rfl, rfl⟩
  serialize k hs := by
    have hs : k.keyValue.length < 2 ^ 31 - 1000 := hs
    have : (encodeFields k.fields).length ≤ k.keyValue.length + 400 := by
      unfold AesSivKey.fields
      rw [length_encodeFields_append]
      have h1 := length_uint32Field (num := 1) (n := k.version) (by decide)
      have h3 := length_bytesField (num := 2) (b := k.keyValue) (by decide) (by omega)
      omega
    exact ⟨_, serializeFields_of_length (by omega), this⟩
  parse k v h := AesSivKey.fromString_serializeToString h
  url := by show (ps! "type.googleapis.com/google.crypto.tink.AesSivKey").length ≤ 100; decide
  symmetric := rfl

/-! ## MAC -/

theorem hmac_describes {lib : Ssl} (hl : LawfulSsl lib) (seed : Seed) :
    Describes (HmacKeyManager.keyTypeManager lib) seed MacKey.Ok MacKey.size (macPrim lib)
      (fun k => .hmac k.keyValue k.getParams.hash k.getParams.tagSize.toNat)
      (fun f => .hmac (lib.random seed 0 f.keySize.toNat) f.getParams.hash f.getParams.tagSize.toNat)
      (fun k => k.version = 0) (fun _ => True) where
  format f := by
    show HmacKeyManager.validateKeyFormat f = _ ↔ _
    unfold MacKey.Ok HmacOk
    dsimp only
    rw [hmacFormat_iff, true_and, hl.random_length]
  key k hs a := by
    refine key_of hmacKey_iff fun h => ?_
    exact hmacNew_ok h
  create f := ⟨_, rfl, rfl, rfl⟩
  serialize k hs := by
    have hs : k.keyValue.length < 2 ^ 31 - 1000 := hs
    have := length_hmacKey (k := k) (by omega)
    exact ⟨_, serializeFields_of_length (by omega), by show _ ≤ k.keyValue.length + 400; omega⟩
  parse k v h := HmacKey.fromString_serializeToString h
  url := by show (ps! "type.googleapis.com/google.crypto.tink.HmacKey").length ≤ 100; decide
  symmetric := rfl

theorem cmacParams_iff {p : AesCmacParams} :
    AesCmacKeyManager.validateParams p = .ok () ↔ 10 ≤ p.tagSize.toNat ∧ p.tagSize.toNat ≤ 16 := by
  unfold AesCmacKeyManager.validateParams
  rw [ite_invalid', ite_invalid', gt_iff_lt, UInt32.lt_iff_toNat_lt, UInt32.lt_iff_toNat_lt, Nat.not_lt, Nat.not_lt]
  exact and_congr Iff.rfl ⟨fun h => h.1, fun h => ⟨h, rfl⟩⟩

theorem aesCmac_describes {lib : Ssl} (hl : LawfulSsl lib) (seed : Seed) :
    Describes (AesCmacKeyManager.keyTypeManager lib) seed MacKey.Ok MacKey.size (macPrim lib)
      (fun k => .aesCmac k.keyValue k.getParams.tagSize.toNat)
      (fun f => .aesCmac (lib.random seed 0 f.keySize.toNat) f.getParams.tagSize.toNat)
      (fun k => k.version = 0) (fun _ => True) where
  format f := by
    show AesCmacKeyManager.validateKeyFormat f = _ ↔ _
    unfold AesCmacKeyManager.validateKeyFormat MacKey.Ok
    dsimp only
    rw [ite_invalid', cmacParams_iff, true_and, hl.random_length, Decidable.not_not, ← UInt32.toNat_inj]
    rfl
  key k hs a := by
    refine key_of ?_ fun h => ?_
    · show AesCmacKeyManager.validateKey k = _ ↔ _
      unfold AesCmacKeyManager.validateKey
      rw [then_invalid, version_iff, ite_invalid', cmacParams_iff, Decidable.not_not]
      rfl
    · show cmacNew lib k.keyValue k.getParams.tagSize = _
      obtain ⟨h1, h2, h3⟩ := h
      unfold cmacNew
      rw [if_neg (by simp [h1]), if_neg (by rw [gt_iff_lt, UInt32.lt_iff_toNat_lt]; exact Nat.not_lt.2 h3)]
      rfl
  create f := ⟨_, rfl, rfl, rfl⟩
  serialize k hs := by
    have hs : k.keyValue.length < 2 ^ 31 - 1000 := hs
    have : (encodeFields k.fields).length ≤ k.keyValue.length + 400 := by
      unfold AesCmacKey.fields
      rw [length_encodeFields_append, length_encodeFields_append]
      have h1 := length_uint32Field (num := 1) (n := k.version) (by decide)
      have h2 := length_optField (num := 3) (o := k.params) (m := 40) (by decide) (by decide)
        (fun q _ => length_cmacParams q)
      have h3 := length_bytesField (num := 2) (b := k.keyValue) (by decide) (by omega)
      omega
    exact ⟨_, serializeFields_of_length (by omega), this⟩
  parse k v h := AesCmacKey.fromString_serializeToString h
  url := by show (ps! "type.googleapis.com/google.crypto.tink.AesCmacKey").length ≤ 100; decide
  symmetric := rfl

/-! ## PRF -/

theorem aesCmacPrf_describes {lib : Ssl} (hl : LawfulSsl lib) (seed : Seed) :
    Describes (AesCmacPrfKeyManager.keyTypeManager lib) seed PrfKey.Ok PrfKey.size (prfPrim lib)
      (fun k => .aesCmac k.keyValue) (fun f => .aesCmac (lib.random seed 0 f.keySize.toNat))
      (fun k => k.version = 0) (fun f => f.version = 0) where
  format f := by
    show AesCmacPrfKeyManager.validateKeyFormat f = _ ↔ _
    unfold AesCmacPrfKeyManager.validateKeyFormat PrfKey.Ok
    dsimp only
    rw [then_invalid, version_iff, one_size, hl.random_length]
    rfl
  key k hs a := by
    refine key_of ?_ fun _ => rfl
    show AesCmacPrfKeyManager.validateKey k = _ ↔ _
    unfold AesCmacPrfKeyManager.validateKey
    rw [then_invalid, version_iff, ite_invalid', Decidable.not_not]
    exact and_congr Iff.rfl ⟨fun h => h.1, fun h => ⟨h, rfl⟩⟩
  create f := ⟨_, rfl, rfl, rfl⟩
  serialize k hs := by
    have hs : k.keyValue.length < 2 ^ 31 - 1000 := hs
    have : (encodeFields k.fields).length ≤ k.keyValue.length + 400 := by
      unfold AesCmacPrfKey.fields
      rw [length_encodeFields_append]
      have h1 := length_uint32Field (num := 1) (n := k.version) (by decide)
      have h3 := length_bytesField (num := 2) (b := k.keyValue) (by decide) (by omega)
      omega
    exact ⟨_, serializeFields_of_length (by omega), this⟩
  parse k v h := AesCmacPrfKey.fromString_serializeToString h
  url := by show (ps! "type.googleapis.com/google.crypto.tink.AesCmacPrfKey").length ≤ 100; decide
  symmetric := rfl

theorem hmacPrfParams_iff {p : HmacPrfParams} :
    HmacPrfKeyManager.validateParams p = .ok () ↔ ∃ n, Digest p.hash n := by
  unfold HmacPrfKeyManager.validateParams
  rw [ite_invalid']
  simp only [← mdSize_iff, mdSize]
  by_cases h1 : p.hash = HashType.SHA1
  · simp [h1]
  by_cases h2 : p.hash = HashType.SHA224
  · simp [h2]; exact ⟨_, rfl⟩
  by_cases h3 : p.hash = HashType.SHA256
  · simp [h3]; exact ⟨_, rfl⟩
  by_cases h4 : p.hash = HashType.SHA384
  · simp [h4]; exact ⟨_, rfl⟩
  by_cases h5 : p.hash = HashType.SHA512
  · simp [h5]; exact ⟨_, rfl⟩
  simp [h1, h2, h3, h4, h5]

theorem hmacPrf_describes {lib : Ssl} (hl : LawfulSsl lib) (seed : Seed) :
    Describes (HmacPrfKeyManager.keyTypeManager lib) seed PrfKey.Ok PrfKey.size (prfPrim lib)
      (fun k => .hmac k.keyValue k.getParams.hash)
      (fun f => .hmac (lib.random seed 0 f.keySize.toNat) f.getParams.hash)
      (fun k => k.version = 0) (fun f => f.version = 0) where
  format f := by
    show HmacPrfKeyManager.validateKeyFormat f = _ ↔ _
    unfold HmacPrfKeyManager.validateKeyFormat PrfKey.Ok
    dsimp only
    rw [then_invalid, version_iff, ite_invalid', hmacPrfParams_iff, hl.random_length, UInt32.lt_iff_toNat_lt,
      Nat.not_lt]
    rfl
  key k hs a := by
    refine key_of ?_ fun h => ?_
    · show HmacPrfKeyManager.validateKey k = _ ↔ _
      unfold HmacPrfKeyManager.validateKey
      rw [then_invalid, version_iff, ite_invalid', hmacPrfParams_iff, Nat.not_lt]
      rfl
    · show HmacPrfKeyManager.create lib k = _
      obtain ⟨-, n, hd⟩ := h
      have hm : HmacPrfKeyManager.maxOutputLength k.getParams.hash = some n := mdSize_iff.2 hd
      unfold HmacPrfKeyManager.create
      rw [hm]
      show _ = Except.ok (prfPrim lib (.hmac _ _))
      unfold prfPrim
      dsimp only
      rw [mdSize_iff.2 hd]
      rfl
  create f := ⟨_, rfl, rfl, rfl⟩
  serialize k hs := by
    have hs : k.keyValue.length < 2 ^ 31 - 1000 := hs
    have : (encodeFields k.fields).length ≤ k.keyValue.length + 400 := by
      unfold HmacPrfKey.fields
      rw [length_encodeFields_append, length_encodeFields_append]
      have h1 := length_uint32Field (num := 1) (n := k.version) (by decide)
      have h2 := length_optField (num := 2) (o := k.params) (m := 40) (by decide) (by decide)
        (fun q _ => length_hmacPrfParams q)
      have h3 := length_bytesField (num := 3) (b := k.keyValue) (by decide) (by omega)
      omega
    exact ⟨_, serializeFields_of_length (by omega), this⟩
  parse k v h := HmacPrfKey.fromString_serializeToString h
  url := by show (ps! "type.googleapis.com/google.crypto.tink.HmacPrfKey").length ≤ 100; decide
  symmetric := rfl

theorem hkdfParams_iff {p : HkdfPrfParams} :
    HkdfPrfKeyManager.validateParams p = .ok () ↔ p.hash = HashType.SHA256 ∨ p.hash = HashType.SHA512 := by
  unfold HkdfPrfKeyManager.validateParams
  rw [ite_invalid']
  by_cases h1 : p.hash = HashType.SHA256
  · simp [h1]
  · simp [h1]

theorem hkdfPrf_describes {lib : Ssl} (hl : LawfulSsl lib) (seed : Seed) :
    Describes (HkdfPrfKeyManager.keyTypeManager lib) seed PrfKey.Ok PrfKey.size (prfPrim lib)
      (fun k => .hkdf k.keyValue k.getParams.hash k.getParams.salt)
      (fun f => .hkdf (lib.random seed 0 f.keySize.toNat) f.getParams.hash f.getParams.salt)
      (fun k => k.version = 0) (fun f => f.version = 0) where
  format f := by
    show HkdfPrfKeyManager.validateKeyFormat f = _ ↔ _
    unfold HkdfPrfKeyManager.validateKeyFormat HkdfPrfKeyManager.validateKeySize PrfKey.Ok
    dsimp only
    rw [then_invalid, then_invalid, version_iff, ite_invalid', hkdfParams_iff, hl.random_length]
    refine and_congr Iff.rfl ?_
    by_cases h : f.keySize.toNat < 2 ^ 31
    · rw [toInt_small h]
      constructor
      · rintro ⟨⟨h1, -⟩, h2⟩; exact ⟨by omega, h, h2⟩
      · rintro ⟨h1, -, h2⟩; exact ⟨⟨by omega, rfl⟩, h2⟩
    · have := toInt_large (x := f.keySize) (by omega)
      constructor
      · rintro ⟨⟨h1, -⟩, h2⟩; omega
      · rintro ⟨h1, h3, h2⟩; omega
  key k hs a := by
    have hs : k.keyValue.length + k.getParams.salt.length < 2 ^ 31 := hs
    have hi : sizeToInt k.keyValue.length = k.keyValue.length := by
      unfold sizeToInt
      rw [if_pos (by omega)]
      omega
    refine key_of ?_ fun h => ?_
    · show HkdfPrfKeyManager.validateKey k = _ ↔ _
      unfold HkdfPrfKeyManager.validateKey HkdfPrfKeyManager.validateKeySize
      rw [then_invalid, then_invalid, version_iff, ite_invalid', hkdfParams_iff, hi]
      refine and_congr Iff.rfl ?_
      constructor
      · rintro ⟨⟨h1, -⟩, h2⟩; exact ⟨by omega, by omega, h2⟩
      · rintro ⟨h1, -, h2⟩; exact ⟨⟨by omega, rfl⟩, h2⟩
    · show hkdfNew lib k.getParams.hash k.keyValue k.getParams.salt = _
      obtain ⟨h1, -, h2⟩ := h
      unfold hkdfNew prfPrim
      dsimp only
      rcases h2 with h2 | h2
      · rw [h2, if_neg (by decide), if_neg (by omega)]; rfl
      · rw [h2, if_neg (by decide), if_neg (by omega)]; rfl
  create f := ⟨_, rfl, rfl, rfl⟩
  serialize k hs := by
    have hs : k.keyValue.length + k.getParams.salt.length < 2 ^ 31 - 1000 := hs
    have : (encodeFields k.fields).length ≤ k.keyValue.length + k.getParams.salt.length + 400 := by
      unfold HkdfPrfKey.fields
      rw [length_encodeFields_append, length_encodeFields_append]
      have h1 := length_uint32Field (num := 1) (n := k.version) (by decide)
      have h2 := length_optField (num := 2) (o := k.params) (f := HkdfPrfParams.fields)
        (m := k.getParams.salt.length + 60) (by decide) (by omega) (by
          intro q hq
          have e : k.getParams = q := by simp [HkdfPrfKey.getParams, hq]
          rw [e] at hs ⊢
          unfold HkdfPrfParams.fields
          rw [length_encodeFields_append]
          have g1 := length_enumField (num := 1) (e := q.hash) (by decide)
          have g2 := length_bytesField (num := 2) (b := q.salt) (by decide) (by omega)
          omega)
      have h3 := length_bytesField (num := 3) (b := k.keyValue) (by decide) (by omega)
      omega
    exact ⟨_, serializeFields_of_length (by omega), this⟩
  parse k v h := HkdfPrfKey.fromString_serializeToString h
  url := by show (ps! "type.googleapis.com/google.crypto.tink.HkdfPrfKey").length ≤ 100; decide
  symmetric := rfl

end Tink.Cc
