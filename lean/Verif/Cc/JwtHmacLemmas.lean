import Verif.Cc.JwtHmac
import Verif.Cc.Manages
import Verif.Spec.JwtMacKeys

/-!
# Lemmas about the C++ key manager for JWT MAC keys
-/

namespace Tink.Cc
open Spec Cpp Props

/-- What a `JwtHmacKey` holds. -/
structure TokenSecret where
  algorithm : EnumVal
  key : Bytes
  customKid : Option JwtHmacKey.CustomKid

namespace TokenSecret

def Ok (s : TokenSecret) : Prop := ∃ alg hash n, JwsMac s.algorithm alg hash n ∧ n ≤ s.key.length

def size (s : TokenSecret) : Nat := s.key.length + 4 * (s.customKid.getD {}).value.length

def hash (s : TokenSecret) : EnumVal :=
  if s.algorithm = 1 then HashType.SHA256 else if s.algorithm = 2 then HashType.SHA384 else HashType.SHA512

def digest (s : TokenSecret) : Nat := if s.algorithm = 1 then 32 else if s.algorithm = 2 then 48 else 64

end TokenSecret

def tokenPrim (lib : Ssl) (s : TokenSecret) : Cpp.Mac := hmacPrim lib s.key s.hash s.digest

theorem minimumKeySize_iff {a : EnumVal} {n : Nat} :
    RawJwtHmacKeyManager.minimumKeySize a = .ok n ↔ ∃ alg hash, JwsMac a alg hash n := by
  unfold RawJwtHmacKeyManager.minimumKeySize
  constructor
  · intro h
    split at h
    · rename_i g; subst g; cases h; exact ⟨_, _, .hs256⟩
    split at h
    · rename_i g; subst g; cases h; exact ⟨_, _, .hs384⟩
    split at h
    · rename_i g; subst g; cases h; exact ⟨_, _, .hs512⟩
    cases h
  · rintro ⟨_, _, h⟩
    cases h <;> rfl

theorem minimum_then {a : EnumVal} {m : Nat} :
    (do let min ← RawJwtHmacKeyManager.minimumKeySize a
        if m < min then invalidArgument else .ok ()) = (.ok () : StatusOr Unit) ↔
      ∃ alg hash n, JwsMac a alg hash n ∧ n ≤ m := by
  rw [sbind_ok]
  constructor
  · rintro ⟨n, h1, h2⟩
    obtain ⟨alg, hash, h⟩ := minimumKeySize_iff.1 h1
    rw [ite_invalid', Nat.not_lt] at h2
    exact ⟨alg, hash, n, h, h2.1⟩
  · rintro ⟨alg, hash, n, h, hle⟩
    refine ⟨n, minimumKeySize_iff.2 ⟨_, _, h⟩, ?_⟩
    rw [ite_invalid', Nat.not_lt]
    exact ⟨hle, rfl⟩

theorem jwtHmac_key {lib : Ssl} {k : JwtHmacKey} {a : Cpp.Mac} :
    (RawJwtHmacKeyManager.validateKey k = .ok () ∧ RawJwtHmacKeyManager.create lib k = .ok a) ↔
      k.version = 0 ∧ TokenSecret.Ok ⟨k.algorithm, k.keyValue, k.customKid⟩ ∧
        a = tokenPrim lib ⟨k.algorithm, k.keyValue, k.customKid⟩ := by
  refine key_of ?_ fun h => ?_
  · unfold RawJwtHmacKeyManager.validateKey TokenSecret.Ok
    rw [then_invalid, version_iff, minimum_then]
  · obtain ⟨alg, hash, n, h1, h2⟩ := h
    dsimp only at h1 h2
    unfold RawJwtHmacKeyManager.create tokenPrim TokenSecret.hash TokenSecret.digest
    dsimp only
    generalize k.algorithm = a at h1
    cases h1 with
    | hs256 => exact hmacNew_ok (t := 32) ⟨by omega, by decide, 32, .sha256, by decide⟩
    | hs384 => exact hmacNew_ok (t := 48) ⟨by omega, by decide, 48, .sha384, by decide⟩
    | hs512 => exact hmacNew_ok (t := 64) ⟨by omega, by decide, 64, .sha512, by decide⟩

theorem jwtHmac_describes {lib : Ssl} (hl : LawfulSsl lib) (seed : Seed) :
    Describes (RawJwtHmacKeyManager.keyTypeManager lib) seed TokenSecret.Ok TokenSecret.size (tokenPrim lib)
      (fun k => ⟨k.algorithm, k.keyValue, k.customKid⟩)
      (fun f => ⟨f.algorithm, lib.random seed 0 f.keySize.toNat, none⟩)
      (fun k => k.version = 0) (fun _ => True) where
  format f := by
    show RawJwtHmacKeyManager.validateKeyFormat f = _ ↔ _
    unfold RawJwtHmacKeyManager.validateKeyFormat TokenSecret.Ok
    rw [minimum_then, true_and]
    dsimp only
    rw [hl.random_length]
  key k _ a := jwtHmac_key
  create f := ⟨_, rfl, rfl, rfl⟩
  serialize k hs := by
    have hs : k.keyValue.length + 4 * (k.customKid.getD {}).value.length < 2 ^ 31 - 1000 := hs
    have : (encodeFields k.fields).length ≤
        k.keyValue.length + 4 * (k.customKid.getD {}).value.length + 400 := by
      unfold JwtHmacKey.fields
      rw [length_encodeFields_append, length_encodeFields_append, length_encodeFields_append]
      have h1 := length_uint32Field (num := 1) (n := k.version) (by decide)
      have h2 := length_enumField (num := 2) (e := k.algorithm) (by decide)
      have h3 := length_bytesField (num := 3) (b := k.keyValue) (by decide) (by omega)
      have h4 := length_optField (num := 4) (m := 20 + 4 * (k.customKid.getD {}).value.length)
        (o := k.customKid) (f := JwtHmacKey.CustomKid.fields) (by decide) (by omega) (fun x hx => by
          rw [hx]
          have := length_strField (num := 1) (s := x.value) (by decide) (by rw [hx] at hs; dsimp at hs; omega)
          unfold JwtHmacKey.CustomKid.fields
          dsimp only [Option.getD_some]
          omega)
      omega
    exact ⟨_, serializeFields_of_length (by omega), this⟩
  parse k v h := JwtHmacKey.fromString_serializeToString h
  url := by show (ps! "type.googleapis.com/google.crypto.tink.JwtHmacKey").length ≤ 100; decide
  symmetric := rfl

end Tink.Cc
