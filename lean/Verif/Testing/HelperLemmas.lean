import Verif.Testing.Helper
import Verif.Py.Utf8Lemmas

/-!
# Helpers for C105
-/

namespace Tink.Testing

theorem split_whole {sep : UInt8} : ∀ {b : Bytes}, sep ∉ b → split sep b = [b]
  | [], _ => rfl
  | x :: xs, h => by
    simp only [List.mem_cons, not_or] at h
    rw [split, if_neg (fun e => h.1 e.symm), split_whole h.2]

theorem split_first {sep : UInt8} {r : Bytes} : ∀ {w : Bytes}, sep ∉ w →
    split sep (w ++ sep :: r) = w :: split sep r
  | [], _ => by simp [split]
  | x :: xs, h => by
    simp only [List.mem_cons, not_or] at h
    rw [List.cons_append, split, if_neg (fun e => h.1 e.symm), split_first h.2]

theorem split_cases (sep : UInt8) : ∀ b : Bytes, (split sep b = [b] ∧ sep ∉ b) ∨
    ∃ w r, b = w ++ sep :: r ∧ sep ∉ w ∧ split sep b = w :: split sep r
  | [] => .inl ⟨rfl, by simp⟩
  | x :: xs => by
    by_cases hx : x = sep
    · subst hx
      exact .inr ⟨[], xs, rfl, by simp, by simp [split]⟩
    · rcases split_cases sep xs with ⟨h1, h2⟩ | ⟨w, r, h1, h2, h3⟩
      · have hn : sep ∉ x :: xs := by
          simp only [List.mem_cons, not_or]
          exact ⟨fun e => hx e.symm, h2⟩
        exact .inl ⟨split_whole hn, hn⟩
      · subst h1
        have hn : sep ∉ x :: w := by
          simp only [List.mem_cons, not_or]
          exact ⟨fun e => hx e.symm, h2⟩
        exact .inr ⟨x :: w, r, rfl, hn, split_first hn⟩

/-- The parts of a byte string that begins with two given parts. -/
theorem split_head {sep : UInt8} {b w : Bytes} {ws : List Bytes} :
    split sep b = w :: ws ↔ (b = w ∧ sep ∉ b ∧ ws = []) ∨
      ∃ r, b = w ++ sep :: r ∧ sep ∉ w ∧ split sep r = ws := by
  constructor
  · intro h
    rcases split_cases sep b with ⟨h1, h2⟩ | ⟨w', r, h1, h2, h3⟩
    · rw [h1] at h
      cases h
      exact .inl ⟨rfl, h2, rfl⟩
    · rw [h3] at h
      cases h
      exact .inr ⟨r, h1, h2, rfl⟩
  · rintro (⟨rfl, h1, rfl⟩ | ⟨r, rfl, h1, rfl⟩)
    · exact split_whole h1
    · exact split_first h1

theorem split_three {b d0 d1 d2 : Bytes} {ws : List Bytes} (h : split bar b = d0 :: d1 :: d2 :: ws) :
    bar ∉ d0 ∧ bar ∉ d1 ∧ bar ∉ d2 ∧
    ∃ rest, b = d0 ++ [bar] ++ d1 ++ [bar] ++ d2 ++ rest ∧ (rest = [] ∨ ∃ r, rest = bar :: r) := by
  rcases split_head.1 h with ⟨-, -, h1⟩ | ⟨r1, rfl, h1, h2⟩
  · cases h1
  rcases split_head.1 h2 with ⟨-, -, h3⟩ | ⟨r2, rfl, h3, h4⟩
  · cases h3
  rcases split_head.1 h4 with ⟨rfl, h5, -⟩ | ⟨r3, rfl, h5, h6⟩
  · exact ⟨h1, h3, h5, [], by simp, .inl rfl⟩
  · exact ⟨h1, h3, h5, bar :: r3, by simp, .inr ⟨r3, rfl⟩⟩

theorem split_of_three {d0 d1 d2 rest : Bytes} (h0 : bar ∉ d0) (h1 : bar ∉ d1) (h2 : bar ∉ d2)
    (hr : rest = [] ∨ ∃ r, rest = bar :: r) :
    ∃ ws, split bar (d0 ++ [bar] ++ d1 ++ [bar] ++ d2 ++ rest) = d0 :: d1 :: d2 :: ws := by
  have e : d0 ++ [bar] ++ d1 ++ [bar] ++ d2 ++ rest = d0 ++ bar :: (d1 ++ bar :: (d2 ++ rest)) := by simp
  rw [e, split_first h0, split_first h1]
  rcases hr with rfl | ⟨r, rfl⟩
  · rw [List.append_nil, split_whole h2]; exact ⟨_, rfl⟩
  · rw [split_first h2]; exact ⟨_, rfl⟩

theorem failed_ne {ct pt : Bytes} : failedToDecrypt ct ≠ .ok pt := by
  unfold failedToDecrypt
  cases utf8Decode ct <;> simp [bind, Except.bind]

theorem failed_eq (ct : Bytes) :
    failedToDecrypt ct = .error (if (utf8Decode? ct).isSome then .tinkError else .unicodeError) := by
  unfold failedToDecrypt utf8Decode
  cases utf8Decode? ct <;> rfl

theorem fakeDecrypt_iff {name : PyStr} {n ct ad pt : Bytes} (hn : utf8Encode name = .ok n) :
    fakeDecrypt name ct ad = .ok pt ↔ bar ∉ pt ∧ bar ∉ ad ∧ bar ∉ n ∧
      ∃ rest, ct = pt ++ [bar] ++ ad ++ [bar] ++ n ++ rest ∧ (rest = [] ∨ ∃ r, rest = bar :: r) := by
  constructor
  · intro h
    unfold fakeDecrypt at h
    split at h
    · rename_i d0 d1 d2 ws hs
      split at h
      · exact absurd h failed_ne
      · rename_i hd1
        rw [hn] at h
        dsimp only [bind, Except.bind] at h
        split at h
        · exact absurd h failed_ne
        · rename_i hd2
          rw [Decidable.not_not] at hd1 hd2
          subst hd1 hd2
          cases h
          exact split_three hs
    · exact absurd h failed_ne
  · rintro ⟨h0, h1, h2, rest, rfl, hr⟩
    obtain ⟨ws, hs⟩ := split_of_three h0 h1 h2 hr
    unfold fakeDecrypt
    rw [hs]
    dsimp only
    rw [if_neg (by simp), hn]
    dsimp only [bind, Except.bind]
    rw [if_neg (by simp)]
    rfl

theorem fakeDecrypt_error {name : PyStr} {n ct ad : Bytes} (hn : utf8Encode name = .ok n) {e : Exc}
    (h : fakeDecrypt name ct ad = .error e) :
    e = if (utf8Decode? ct).isSome then .tinkError else .unicodeError := by
  unfold fakeDecrypt at h
  rw [failed_eq] at h
  split at h
  · split at h
    · cases h; rfl
    · rw [hn] at h
      dsimp only [bind, Except.bind] at h
      split at h
      · cases h; rfl
      · cases h
  · cases h; rfl

theorem encode_inj {s t : PyStr} {b : Bytes} (hs : utf8Encode s = .ok b) (ht : utf8Encode t = .ok b) : s = t := by
  have h1 := utf8Decode_encode _ _ hs
  rw [utf8Decode_encode _ _ ht] at h1
  cases h1
  rfl

/-- The last bar separates. -/
theorem bar_unique {a b c d : Bytes} (hb : bar ∉ b) (hd : bar ∉ d) (h : a ++ [bar] ++ b = c ++ [bar] ++ d) :
    a = c ∧ b = d := by
  simp only [List.append_assoc, List.cons_append, List.nil_append] at h
  induction a generalizing c with
  | nil =>
    cases c with
    | nil => cases h; exact ⟨rfl, rfl⟩
    | cons x xs =>
      rw [List.nil_append, List.cons_append] at h
      injection h with _ h
      subst h
      simp at hb
  | cons y ys ih =>
    cases c with
    | nil =>
      rw [List.nil_append, List.cons_append] at h
      injection h with _ h
      subst h
      simp at hd
    | cons x xs =>
      rw [List.cons_append, List.cons_append] at h
      injection h with h1 h2
      obtain ⟨rfl, rfl⟩ := ih h2
      exact ⟨by rw [h1], rfl⟩

end Tink.Testing
