import Verif.Jwt.CodecLemmas
import Verif.Jwt.RawLemmas
import Verif.Spec.JwtKeys

/-!
# Lemmas about splitting the compact form
-/

namespace Tink
namespace Jwt
open Spec

theorem rsplitDot_none {b : Bytes} : rsplitDot b = none ↔ 46 ∉ b := by
  induction b with
  | nil => simp [rsplitDot]
  | cons c r ih =>
    unfold rsplitDot
    cases h : rsplitDot r with
    | some x =>
      have : ¬ 46 ∉ r := fun hn => by rw [ih.2 hn] at h; cases h
      simp only [List.mem_cons, not_or, reduceCtorEq, false_iff, not_and]
      intro _; exact this
    | none =>
      have := ih.1 h
      by_cases hc : c = 46
      · simp [hc]
      · simp [hc, this, Ne.symm hc]

theorem rsplitDot_append {u s : Bytes} (h : 46 ∉ s) : rsplitDot (u ++ 46 :: s) = some (u, s) := by
  induction u with
  | nil =>
    show rsplitDot (46 :: s) = _
    unfold rsplitDot
    rw [rsplitDot_none.2 h]
    rfl
  | cons c u ih =>
    show rsplitDot (c :: (u ++ 46 :: s)) = _
    unfold rsplitDot
    rw [ih]

theorem rsplitDot_some {b u s : Bytes} (h : rsplitDot b = some (u, s)) : b = u ++ 46 :: s ∧ 46 ∉ s := by
  induction b generalizing u with
  | nil => cases h
  | cons c r ih =>
    unfold rsplitDot at h
    cases hr : rsplitDot r with
    | some x =>
      obtain ⟨a, b⟩ := x
      simp only [hr, Option.some.injEq, Prod.mk.injEq] at h
      obtain ⟨rfl, rfl⟩ := h
      obtain ⟨h1, h2⟩ := ih hr
      exact ⟨by rw [h1]; rfl, h2⟩
    | none =>
      simp only [hr] at h
      by_cases hc : c = 46
      · rw [if_pos hc] at h
        cases h
        exact ⟨by rw [hc]; rfl, rsplitDot_none.1 hr⟩
      · rw [if_neg hc] at h; cases h

theorem splitDots_ne (b : Bytes) : splitDots b ≠ [] := by
  cases b with
  | nil => simp [splitDots]
  | cons c r =>
    unfold splitDots
    split
    · simp
    · cases splitDots r <;> simp

theorem splitDots_one {b x : Bytes} : splitDots b = [x] ↔ b = x ∧ 46 ∉ b := by
  induction b generalizing x with
  | nil => simp [splitDots, eq_comm]
  | cons c r ih =>
    unfold splitDots
    by_cases hc : c = 46
    · rw [if_pos hc]
      simp only [List.cons.injEq, hc, List.mem_cons, true_or, not_true, and_false, iff_false, not_and]
      intro _; exact splitDots_ne r
    · rw [if_neg hc]
      cases hs : splitDots r with
      | nil => exact absurd hs (splitDots_ne r)
      | cons p ps =>
        simp only [List.cons.injEq]
        constructor
        · rintro ⟨rfl, rfl⟩
          obtain ⟨h1, h2⟩ := ih.1 hs
          exact ⟨by rw [h1], by simp [Ne.symm hc, h2]⟩
        · rintro ⟨rfl, h2⟩
          have := (ih (x := r)).2 ⟨rfl, fun h => h2 (by simp [h])⟩
          rw [hs] at this
          cases this
          exact ⟨rfl, rfl⟩

theorem splitDots_two {b x y : Bytes} : splitDots b = [x, y] ↔ b = x ++ 46 :: y ∧ 46 ∉ x ∧ 46 ∉ y := by
  induction b generalizing x with
  | nil => simp [splitDots]
  | cons c r ih =>
    unfold splitDots
    by_cases hc : c = 46
    · rw [if_pos hc]
      subst hc
      simp only [List.cons.injEq]
      constructor
      · rintro ⟨rfl, h⟩
        obtain ⟨rfl, h2⟩ := splitDots_one.1 h
        exact ⟨rfl, by simp, h2⟩
      · rintro ⟨h1, h2, h3⟩
        cases x with
        | nil => cases h1; exact ⟨rfl, splitDots_one.2 ⟨rfl, h3⟩⟩
        | cons a x => cases h1; simp at h2
    · rw [if_neg hc]
      cases hs : splitDots r with
      | nil => exact absurd hs (splitDots_ne r)
      | cons p ps =>
        simp only [List.cons.injEq]
        constructor
        · rintro ⟨rfl, rfl⟩
          obtain ⟨h1, h2, h3⟩ := ih.1 hs
          exact ⟨by rw [h1]; rfl, by simp [Ne.symm hc, h2], h3⟩
        · rintro ⟨h1, h2, h3⟩
          cases x with
          | nil => cases h1; exact absurd rfl hc
          | cons a x =>
            cases h1
            have := (ih (x := x)).2 ⟨rfl, fun h => h2 (by simp [h]), h3⟩
            rw [hs] at this
            cases this
            exact ⟨rfl, rfl⟩

theorem urlChar_ne_dot {c : UInt8} (h : UrlChar c) : c ≠ 46 := by
  rintro rfl
  revert h
  decide

theorem no_dot {s : Bytes} (h : ∀ c ∈ s, UrlChar c) : 46 ∉ s :=
  fun hm => urlChar_ne_dot (h 46 hm) rfl

theorem base64Decode_chars {s b : Bytes} (h : base64Decode s = .ok b) : ∀ c ∈ s, UrlChar c := by
  rcases base64Decode_cases s with ⟨h1, _⟩ | ⟨h1, _⟩
  · rw [h1] at h; cases h
  · exact h1

theorem decodeText_ok {s : Bytes} {text : PyStr} (h : decodeText s = .ok text) :
    ∃ b, base64Decode s = .ok b ∧ utf8Decode b = .ok text := by
  unfold decodeText at h
  cases hb : base64Decode s with
  | error e => rw [hb] at h; cases h
  | ok b =>
    simp only [hb] at h
    cases hu : utf8Decode b with
    | error e => rw [hu] at h; cases h
    | ok t => rw [hu] at h; cases h; exact ⟨b, rfl, hu⟩

theorem decodeText_error {s : Bytes} {e : Exc} (h : decodeText s = .error e) : e = .jwtInvalidError := by
  unfold decodeText at h
  rcases base64Decode_cases s with ⟨h1, _⟩ | ⟨_, _, b, h1, _⟩
  · rw [h1] at h; cases h; rfl
  · simp only [h1] at h
    cases hu : utf8Decode b with
    | error e => rw [hu] at h; cases h; rfl
    | ok t => rw [hu] at h; cases h

/-- Splitting succeeds on tokens of the right form. -/
theorem split_of {compact : PyStr} {header payload signature sig : Bytes} {ht pt : PyStr}
    (hc : Compact compact header payload signature) (hs : base64Decode signature = .ok sig)
    (hh : decodeText header = .ok ht) (hp : decodeText payload = .ok pt) :
    splitSignedCompact compact = .ok { unsigned := header ++ 46 :: payload, header := ht, payload := pt,
                                       signature := sig } := by
  unfold splitSignedCompact
  have hascii : ∀ c ∈ header ++ 46 :: payload ++ 46 :: signature, c.toNat < 128 := by
    intro c hm
    simp only [List.append_assoc, List.mem_append, List.mem_cons, List.cons_append] at hm
    rcases hm with hm | rfl | hm | rfl | hm
    · exact UrlChar.ascii (hc.header c hm)
    · decide
    · exact UrlChar.ascii (hc.payload c hm)
    · decide
    · exact UrlChar.ascii (hc.signature c hm)
  have henc : utf8Encode compact = .ok (header ++ 46 :: payload ++ 46 :: signature) := by
    refine utf8Encode_decode _ _ ?_
    rw [hc.form]
    exact utf8Decode_ascii _ hascii
  rw [henc]
  simp only
  rw [rsplitDot_append (no_dot hc.signature)]
  simp only [hs]
  unfold splitUnsigned
  rw [splitDots_two.2 ⟨rfl, no_dot hc.header, no_dot hc.payload⟩]
  simp only [hh, hp]

/-- Whatever is split has the right form. -/
theorem split_ok {compact : PyStr} {parts : Parts} (h : splitSignedCompact compact = .ok parts) :
    ∃ header payload signature, Compact compact header payload signature ∧
      parts.unsigned = header ++ 46 :: payload ∧ decodeText header = .ok parts.header ∧
      decodeText payload = .ok parts.payload ∧ base64Decode signature = .ok parts.signature := by
  unfold splitSignedCompact at h
  cases he : utf8Encode compact with
  | error e => rw [he] at h; cases h
  | ok encoded =>
    simp only [he] at h
    cases hr : rsplitDot encoded with
    | none => rw [hr] at h; cases h
    | some x =>
      obtain ⟨unsigned, sig⟩ := x
      simp only [hr] at h
      cases hs : base64Decode sig with
      | error e => rw [hs] at h; cases h
      | ok signature =>
        simp only [hs] at h
        unfold splitUnsigned at h
        match hd : splitDots unsigned with
        | [] => rw [hd] at h; cases h
        | [_] => rw [hd] at h; cases h
        | _ :: _ :: _ :: _ => rw [hd] at h; cases h
        | [a, b] =>
          simp only [hd] at h
          cases ha : decodeText a with
          | error e => rw [ha] at h; cases h
          | ok at' =>
            simp only [ha] at h
            cases hb : decodeText b with
            | error e => rw [hb] at h; cases h
            | ok bt =>
              rw [hb] at h
              cases h
              obtain ⟨rfl, _⟩ := splitDots_two.1 hd
              obtain ⟨rfl, _⟩ := rsplitDot_some hr
              obtain ⟨_, ha', _⟩ := decodeText_ok ha
              obtain ⟨_, hb', _⟩ := decodeText_ok hb
              have c1 := base64Decode_chars ha'
              have c2 := base64Decode_chars hb'
              have c3 := base64Decode_chars hs
              refine ⟨a, b, sig, ⟨?_, c1, c2, c3⟩, rfl, ha, hb, hs⟩
              have hascii : ∀ c ∈ a ++ 46 :: b ++ 46 :: sig, c.toNat < 128 := by
                intro c hm
                simp only [List.append_assoc, List.mem_append, List.mem_cons, List.cons_append] at hm
                rcases hm with hm | rfl | hm | rfl | hm
                · exact UrlChar.ascii (c1 c hm)
                · decide
                · exact UrlChar.ascii (c2 c hm)
                · decide
                · exact UrlChar.ascii (c3 c hm)
              have h1 := utf8Decode_encode _ _ he
              rw [utf8Decode_ascii _ hascii] at h1
              exact (Except.ok.inj h1).symm

/-- Splitting fails only with `JwtInvalidError`. -/
theorem split_error {compact : PyStr} {e : Exc} (h : splitSignedCompact compact = .error e) :
    e = .jwtInvalidError := by
  unfold splitSignedCompact at h
  cases he : utf8Encode compact with
  | error e => rw [he] at h; cases h; rfl
  | ok encoded =>
    simp only [he] at h
    cases hr : rsplitDot encoded with
    | none => rw [hr] at h; cases h; rfl
    | some x =>
      obtain ⟨unsigned, sig⟩ := x
      simp only [hr] at h
      rcases base64Decode_cases sig with ⟨h1, _⟩ | ⟨_, _, b, h1, _⟩
      · rw [h1] at h; cases h; rfl
      · simp only [h1] at h
        unfold splitUnsigned at h
        match hd : splitDots unsigned with
        | [] => rw [hd] at h; cases h; rfl
        | [_] => rw [hd] at h; cases h; rfl
        | _ :: _ :: _ :: _ => rw [hd] at h; cases h; rfl
        | [a, b] =>
          simp only [hd] at h
          cases ha : decodeText a with
          | error e => rw [ha] at h; cases h; exact decodeText_error ha
          | ok at' =>
            simp only [ha] at h
            cases hb : decodeText b with
            | error e => rw [hb] at h; cases h; exact decodeText_error hb
            | ok bt => rw [hb] at h; cases h

end Jwt
end Tink
