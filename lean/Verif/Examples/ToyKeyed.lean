import Verif.Examples.ToySegments
import Verif.Spec.Writing

/-!
# Cryptographic functions in which the key matters

As those of `ToySegments`, but every derived key starts with the first byte of the key that it was derived from, and
so do the tags.
-/

namespace Tink.ToyKeyed
open Spec
open ToySegments (fit fit_length fit_inj size size_ge)

/-- "HKDF": 16 bytes with the first byte of the key, the associated data and the salt, four times. -/
def block (ikm salt info : Bytes) : Bytes :=
  fit 16 (ikm.headD 0 :: UInt8.ofNat info.length :: (info ++ salt))

/-- The tag of "HMAC": the first byte of the key, and the data from byte number 7 on. -/
def tag (h : EnumVal) (k d : Bytes) : Bytes := fit (size h) (k.headD 0 :: d.drop 7)

def lib : SegmentLibrary where
  hkdf _ ikm salt info n := some (fit n (block ikm salt info ++ block ikm salt info ++ block ikm salt info ++
    block ikm salt info))
  gcmEncrypt k n b := if n.length = 12 then some (b ++ (fit 4 k ++ n)) else none
  gcmDecrypt k n c :=
    if 16 ≤ c.length ∧ n.length = 12 ∧ c.drop (c.length - 16) = fit 4 k ++ n then some (c.take (c.length - 16))
    else none
  ctrEncrypt _ _ b := some b
  ctrDecrypt _ _ b := some b
  hmac h k d := if size h = 0 then none else some (tag h k d)
  hmacVerify h k t d := some (decide (t = (tag h k d).take t.length))
  random seed n := List.replicate n (UInt8.ofNat seed)
  random' seed n := List.replicate n (UInt8.ofNat (seed + 1))

theorem tag_length (h : EnumVal) (k d : Bytes) : (tag h k d).length = size h := fit_length _ _

theorem sound : SoundLibrary lib where
  hkdf h ikm salt info n k hk := by
    simp only [lib, Option.some.injEq] at hk
    rw [← hk, fit_length]
  random seed n := by simp [lib]
  random' seed n := by simp [lib]
  gcmLength k n b c h := by
    simp only [lib] at h
    split at h
    · rename_i hn
      simp only [Option.some.injEq] at h
      rw [← h, List.length_append, List.length_append, fit_length, hn]
    · cases h
  ctrSame k n b c h := by
    simp only [lib, Option.some.injEq] at h ⊢
    exact h.symm
  hmacLength h k d t ht := by
    simp only [lib] at ht
    split at ht
    · cases ht
    · simp only [Option.some.injEq] at ht
      rw [← ht, tag_length]
      rfl

theorem lawful : LawfulLibrary lib where
  toSoundLibrary := sound
  gcmSame k n b c h := by
    simp only [lib] at h ⊢
    split at h
    · rename_i hn
      simp only [Option.some.injEq] at h
      subst h
      have hl : (b ++ (fit 4 k ++ n)).length - 16 = b.length := by
        rw [List.length_append, List.length_append, fit_length]; omega
      rw [hl, List.drop_left, List.take_left,
        if_pos ⟨by rw [List.length_append, List.length_append, fit_length]; omega, hn, rfl⟩]
    · cases h
  gcmLast k n b c h := by
    simp only [lib] at h ⊢
    split at h
    · rename_i hn
      simp only [Option.some.injEq] at h
      subst h
      have hl : (b ++ (fit 4 k ++ (n ++ [1]))).length - 16 = b.length := by
        rw [List.length_append, List.length_append, fit_length]; omega
      rw [hl, List.drop_left, if_neg]
      rintro ⟨-, -, e⟩
      simp at e
    · cases h
  hmacSame h k d t sz ht _ := by
    simp only [lib] at ht ⊢
    split at ht
    · cases ht
    · simp only [Option.some.injEq] at ht
      subst ht
      simp only [Option.some.injEq, decide_eq_true_eq, List.length_take, tag_length]
      rcases Nat.le_total sz (size h) with hle | hle
      · rw [Nat.min_eq_left hle]
      · rw [Nat.min_eq_right hle, List.take_of_length_le (by rw [tag_length]; omega),
          List.take_of_length_le (by rw [tag_length]; omega)]
  hmacLast h k n c t sz hn ht hsz := by
    simp only [lib] at ht ⊢
    split at ht
    · cases ht
    · rename_i hs
      have h20 := size_ge hs
      simp only [Option.some.injEq] at ht
      subst ht
      simp only [ne_eq, Option.some.injEq, decide_eq_true_eq]
      intro e
      have e5 := congrArg (fun l : Bytes => l[5]?) e
      have hd : ∀ x : UInt8, ((n ++ [x, 0, 0, 0, 0] ++ c).drop 7)[4]? = some x := by
        intro x
        rw [List.getElem?_drop, List.append_assoc, List.getElem?_append_right (by omega), hn]
        rfl
      have hf : ∀ (x : UInt8) (m : Nat), 5 < m →
          ((tag h k (n ++ [x, 0, 0, 0, 0] ++ c)).take m)[5]? = some x := by
        intro x m hm
        rw [List.getElem?_take_of_lt hm, tag, fit, List.getElem?_take_of_lt (by omega),
          List.getElem?_append_left (by simp [hn]; omega), List.getElem?_cons_succ]
        exact hd x
      rw [hf 1 sz (by omega), hf 0 _ (by rw [List.length_take, tag_length]; omega)] at e5
      simp at e5

theorem working : WorkingLibrary lib where
  hkdf h ikm salt info n _ _ := by simp [lib]
  gcm k n b _ hn _ := by simp [lib, hn]
  ctr k n b _ _ _ := ⟨b, rfl, rfl⟩
  hmac h k d hh := by
    simp only [lib]
    rw [if_neg]
    · simp
    · rcases hh with rfl | rfl | rfl <;> decide

/-- Every derived key starts with the first byte of the key that it was derived from. -/
theorem hkdf_head {h : EnumVal} {ikm salt info k : Bytes} {n : Nat} (hn : 0 < n)
    (hk : lib.hkdf h ikm salt info n = some k) : k.head? = some (ikm.headD 0) := by
  simp only [lib, Option.some.injEq] at hk
  subst hk
  obtain ⟨m, rfl⟩ : ∃ m, n = m + 1 := ⟨n - 1, by omega⟩
  simp [fit, block]

/-- What passes "AES-GCM" with two keys tells that they start with the same byte. -/
theorem gcm_head {k k' n n' c b b' : Bytes} {x y : UInt8} (hx : k.head? = some x) (hy : k'.head? = some y)
    (h : lib.gcmDecrypt k n c = some b) (h' : lib.gcmDecrypt k' n' c = some b') : x = y := by
  simp only [lib] at h h'
  split at h
  · split at h'
    · rename_i h1 h2
      have e := h1.2.2.symm.trans h2.2.2
      have := congrArg List.head? (List.append_inj e (by rw [fit_length, fit_length])).1
      cases k with
      | nil => cases hx
      | cons u k =>
        cases k' with
        | nil => cases hy
        | cons u' k' =>
          simp only [List.head?_cons, Option.some.injEq] at hx hy
          subst hx hy
          simpa [fit] using this
    · cases h'
  · cases h

end Tink.ToyKeyed
