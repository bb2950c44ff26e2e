import Verif.Spec.SegmentCrypters
import Verif.Examples.ToyStream

/-!
# Toy cryptography for streaming AEAD keys

For the examples.
-/

namespace Tink.ToySegments
open Spec

/-- `b` as far as it goes, with zeros after it: `n` bytes. -/
def fit (n : Nat) (b : Bytes) : Bytes := (b ++ List.replicate n 0).take n

theorem fit_length (n : Nat) (b : Bytes) : (fit n b).length = n := by simp [fit]

theorem fit_self {n : Nat} {b : Bytes} (h : b.length = n) : fit n b = b := by
  simp [fit, List.take_left' h]

/-- "HKDF": 16 bytes with the associated data and the salt, three times. -/
def hkdf (_ : EnumVal) (_ salt info : Bytes) (n : Nat) : Option Bytes :=
  let block := fit 16 (UInt8.ofNat info.length :: (info ++ salt))
  some (fit n (block ++ block ++ block))

/-- "AES-GCM": the nonce, and four zeros, are the tag. -/
def gcmEncrypt (_ n b : Bytes) : Option Bytes := some (b ++ fit 16 n)

def gcmDecrypt (_ n c : Bytes) : Option Bytes :=
  if 16 ≤ c.length ∧ n.length ≤ 16 ∧ c.drop (c.length - 16) = fit 16 n then
    some (c.take (c.length - 16))
  else none

/-- The size of a digest. -/
def size (h : EnumVal) : Nat :=
  if h = HashType.SHA1 then 20 else if h = HashType.SHA256 then 32
  else if h = HashType.SHA512 then 64 else 0

/-- "HMAC": the data, from byte number 7 on. -/
def hmac (h : EnumVal) (_ d : Bytes) : Option Bytes := some (fit (size h) (d.drop 7))

def hmacVerify (h : EnumVal) (_ t d : Bytes) : Option Bool :=
  some (decide (t = (fit (size h) (d.drop 7)).take t.length))

def lib : SegmentLibrary where
  hkdf := hkdf
  gcmEncrypt _ n b := if n.length ≤ 16 then gcmEncrypt [] n b else none
  gcmDecrypt := gcmDecrypt
  ctrEncrypt _ _ b := some b
  ctrDecrypt _ _ b := some b
  hmac h k d := if size h = 0 then none else hmac h k d
  hmacVerify := hmacVerify
  random seed n := List.replicate n (UInt8.ofNat seed)
  random' seed n := List.replicate n (UInt8.ofNat (seed + 1))

theorem sound : SoundLibrary lib where
  hkdf h ikm salt info n k hk := by
    simp only [lib, hkdf, Option.some.injEq] at hk
    rw [← hk, fit_length]
  random seed n := by simp [lib]
  random' seed n := by simp [lib]
  gcmLength k n b c h := by
    simp only [lib] at h
    split at h
    · simp only [gcmEncrypt, Option.some.injEq] at h
      rw [← h, List.length_append, fit_length]
    · cases h
  ctrSame k n b c h := by
    simp only [lib, Option.some.injEq] at h ⊢
    exact h.symm
  hmacLength h k d t ht := by
    simp only [lib] at ht
    split at ht
    · cases ht
    · simp only [hmac, Option.some.injEq] at ht
      rw [← ht, fit_length]
      rfl

theorem size_ge {h : EnumVal} (hs : size h ≠ 0) : 20 ≤ size h := by
  unfold size at hs ⊢
  repeat' split at hs <;> simp_all

theorem fit_inj {n : Nat} {a b : Bytes} (hl : a.length = b.length) (h : a.length ≤ n)
    (e : fit n a = fit n b) : a = b := by
  have := congrArg (List.take a.length) e
  simp only [fit, List.take_take] at this
  rw [Nat.min_eq_left h, List.take_left, hl, List.take_left] at this
  exact this

theorem lawful : LawfulLibrary lib where
  toSoundLibrary := sound
  gcmSame k n b c h := by
    simp only [lib] at h ⊢
    split at h
    · rename_i hn
      simp only [gcmEncrypt, Option.some.injEq] at h
      subst h
      have hl : (b ++ fit 16 n).length - 16 = b.length := by
        rw [List.length_append, fit_length]; omega
      unfold gcmDecrypt
      rw [hl, List.drop_left, List.take_left,
        if_pos ⟨by rw [List.length_append, fit_length]; omega, hn, rfl⟩]
    · cases h
  gcmLast k n b c h := by
    simp only [lib] at h ⊢
    split at h
    · rename_i hn
      simp only [gcmEncrypt, Option.some.injEq] at h
      subst h
      have hl : (b ++ fit 16 (n ++ [1])).length - 16 = b.length := by
        rw [List.length_append, fit_length]; omega
      unfold gcmDecrypt
      rw [hl, List.drop_left, if_neg]
      rintro ⟨-, -, e⟩
      have := fit_inj (by simp) hn e
      simp at this
    · cases h
  hmacSame h k d t sz ht _ := by
    simp only [lib] at ht ⊢
    split at ht
    · cases ht
    · simp only [hmac, Option.some.injEq] at ht
      subst ht
      simp only [hmacVerify, Option.some.injEq, decide_eq_true_eq, List.length_take, fit_length]
      rcases Nat.le_total sz (size h) with hle | hle
      · rw [Nat.min_eq_left hle]
      · rw [Nat.min_eq_right hle, List.take_of_length_le (by rw [fit_length]; omega),
          List.take_of_length_le (by rw [fit_length]; omega)]
  hmacLast h k n c t sz hn ht hsz := by
    simp only [lib] at ht ⊢
    split at ht
    · cases ht
    · rename_i hs
      have h20 := size_ge hs
      simp only [hmac, Option.some.injEq] at ht
      subst ht
      simp only [hmacVerify, ne_eq, Option.some.injEq, decide_eq_true_eq]
      intro e
      have e4 := congrArg (fun l : Bytes => l[4]?) e
      have hd : ∀ x : UInt8, ((n ++ [x, 0, 0, 0, 0] ++ c).drop 7)[4]? = some x := by
        intro x
        rw [List.getElem?_drop, List.append_assoc, List.getElem?_append_right (by omega), hn]
        rfl
      have hf : ∀ (x : UInt8) (m : Nat), 4 < m → ((fit (size h)
          ((n ++ [x, 0, 0, 0, 0] ++ c).drop 7)).take m)[4]? = some x := by
        intro x m hm
        rw [List.getElem?_take_of_lt hm, fit, List.getElem?_take_of_lt (by omega),
          List.getElem?_append_left (by simp [hn]; omega)]
        exact hd x
      rw [hf 1 sz (by omega), hf 0 _ (by rw [List.length_take, fit_length]; omega)] at e4
      simp at e4

/-- An AES-GCM-HKDF key: plaintext segments of 8 and 32 bytes. -/
def gcmParams : AesGcmHkdf.Params where
  ikm := List.replicate 16 7
  hkdfHash := HashType.SHA256
  derivedKeySize := 16
  ciphertextSegmentSize := 48
  ciphertextOffset := 0

/-- An AES-CTR-HMAC key: plaintext segments of 4 and 28 bytes. -/
def ctrParams : AesCtrHmac.Params where
  ikm := List.replicate 16 7
  hkdfAlgo := HashType.SHA256
  keySize := 16
  ciphertextSegmentSize := 38
  ciphertextOffset := 0
  tagAlgo := HashType.SHA256
  tagSize := 10

/-- Their primitives. -/
def gcm (lib : SegmentLibrary) : NonceBased Nat Segment.State :=
  ⟨AesGcmHkdf.newSegmentEncrypter lib gcmParams, AesGcmHkdf.newSegmentDecrypter lib gcmParams⟩
def ctr (lib : SegmentLibrary) : NonceBased Nat Segment.State :=
  ⟨AesCtrHmac.newSegmentEncrypter lib ctrParams, AesCtrHmac.newSegmentDecrypter lib ctrParams⟩

theorem new_gcm (lib : SegmentLibrary) : AesGcmHkdf.new lib gcmParams = .ok (gcm lib) := rfl
theorem new_ctr (lib : SegmentLibrary) : AesCtrHmac.new lib ctrParams = .ok (ctr lib) := rfl

/-- A destination that takes 5 bytes at a time. -/
def sink : CSink Unit where
  write _ d := ((), .ok (min 5 d.length : Nat))
  close _ := ((), .ok ())

theorem sink_honest : Honest sink := by
  intro s d n h
  simp only [sink, Except.ok.injEq] at h
  omega

/-- The pieces are written, and the stream is closed: the ciphertext. -/
def writeAll (t : CcEncrypting Nat (Unit × Bytes)) : List Bytes → Option Bytes
  | [] =>
    match t.close (recordedSink sink) 100 with
    | some (t', .ok _) => some t'.object.2
    | _ => none
  | b :: bs =>
    match t.write (recordedSink sink) 100 b with
    | some (t', .returned (.ok n)) => if n = b.length then writeAll t' bs else none
    | _ => none

def encrypt (p : NonceBased Nat Segment.State) (ad : Bytes) (pieces : List Bytes) : Option Bytes :=
  match p.newRawEncryptingStream 3 ⟨true, ((), []), [0, 0, 0, 0, 0, 0, 0]⟩ ad with
  | .ok t => writeAll t pieces
  | .error _ => none

/-- `read` calls. -/
def readAll {σ : Type} (src : Source σ) (s : σ) (t : CcDecrypting Segment.State) :
    List Int → List (Option ReadResult)
  | [] => []
  | n :: ns =>
    match (NonceBased.rawStream (fun _ => false)).run src 100 t n s with
    | none => [none]
    | some (t', s', r) => some r :: readAll src s' t' ns

def decrypt (p : NonceBased Nat Segment.State) (ad c : Bytes) (sizes : List Int) :
    List (Option ReadResult) :=
  match p.newRawDecryptingStream [0, 0, 0, 0, 0] ad with
  | .ok t => readAll ToyStream.src (c, false) t sizes
  | .error e => [some (.raised e)]

/-- The plaintext, or nothing if anything went wrong. -/
def plaintext (rs : List (Option ReadResult)) : Option Bytes :=
  rs.foldr (fun r acc =>
    match r, acc with
    | some (.data b), some a => some (b ++ a)
    | some .none, some a => some a
    | _, _ => none) (some [])

end Tink.ToySegments
