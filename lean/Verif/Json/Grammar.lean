import Verif.Spec.JsonGrammar
import Verif.Json.RoundTrip
import Verif.Json.Digits

/-!
# The scanner of `json.loads` and the grammar

Lemmas for C81.
-/

namespace Tink
namespace Json
open Spec

variable {F : Type}

/-! ## White space -/

theorem isWs_iff (c : Nat) : isWs c = true ↔ c = 32 ∨ c = 9 ∨ c = 10 ∨ c = 13 := by
  unfold isWs
  simp only [Bool.or_eq_true, decide_eq_true_eq]
  omega

theorem blank_ws {w : PyStr} (h : Blank w) : ∀ c ∈ w, isWs c = true := fun c hc => (isWs_iff c).2 (h c hc)

theorem skipWs_blank {w : PyStr} (h : Blank w) (t : PyStr) : skipWs (w ++ t) = skipWs t := skipWs_pad (blank_ws h) t

/-- What was skipped. -/
theorem skipWs_split (s : PyStr) : ∃ w, s = w ++ skipWs s ∧ Blank w := by
  refine ⟨s.takeWhile isWs, (List.takeWhile_append_dropWhile ..).symm, ?_⟩
  intro c hc
  have := List.all_eq_true.1 (List.all_takeWhile (p := isWs) (l := s)) c hc
  exact (isWs_iff c).1 this

theorem skipWs_nil {s : PyStr} (h : skipWs s = []) : Blank s := by
  obtain ⟨w, h1, h2⟩ := skipWs_split s
  rw [h, List.append_nil] at h1
  rw [h1]; exact h2

/-- White space, or what comes after a value. -/
theorem follows_blank {w r : PyStr} (hw : Blank w) (hr : Follows r) : Follows (w ++ r) := by
  cases w with
  | nil => exact hr
  | cons c w =>
    have := hw c (by simp)
    exact follows_cons (by omega)

/-! ## Strings -/

theorem hexVal_iff (c n : Nat) : hexVal c = some n ↔ HexDigit c n := by
  unfold hexVal HexDigit
  constructor
  · intro h
    split at h
    · cases h; omega
    · split at h
      · cases h; omega
      · split at h
        · cases h; omega
        · cases h
  · intro h
    split
    · simp only [Option.some.injEq]; omega
    · split
      · simp only [Option.some.injEq]; omega
      · split
        · simp only [Option.some.injEq]; omega
        · omega

theorem hex4_iff (a b c d n : Nat) : hex4 a b c d = some n ↔ CodeEscape [92, 117, a, b, c, d] n := by
  unfold hex4 CodeEscape
  constructor
  · intro h
    cases h1 : hexVal a with
    | none => rw [h1] at h; cases h
    | some n1 =>
      cases h2 : hexVal b with
      | none => rw [h1, h2] at h; cases h
      | some n2 =>
        cases h3 : hexVal c with
        | none => rw [h1, h2, h3] at h; cases h
        | some n3 =>
          cases h4 : hexVal d with
          | none => rw [h1, h2, h3, h4] at h; cases h
          | some n4 =>
            rw [h1, h2, h3, h4] at h
            simp only [Option.some.injEq] at h
            exact ⟨a, b, c, d, n1, n2, n3, n4, rfl, (hexVal_iff ..).1 h1, (hexVal_iff ..).1 h2,
              (hexVal_iff ..).1 h3, (hexVal_iff ..).1 h4, by omega⟩
  · rintro ⟨h1, h2, h3, h4, n1, n2, n3, n4, he, g1, g2, g3, g4, rfl⟩
    simp only [List.cons.injEq, true_and, and_true] at he
    obtain ⟨rfl, rfl, rfl, rfl⟩ := he
    rw [(hexVal_iff ..).2 g1, (hexVal_iff ..).2 g2, (hexVal_iff ..).2 g3, (hexVal_iff ..).2 g4]
    simp only [Option.some.injEq]
    omega

theorem codeEscape_unique {u : PyStr} {c c' : Nat} (h : CodeEscape u c) (h' : CodeEscape u c') : c = c' := by
  obtain ⟨h1, h2, h3, h4, n1, n2, n3, n4, rfl, g⟩ := h
  have a := (hex4_iff h1 h2 h3 h4 c).2 ⟨h1, h2, h3, h4, n1, n2, n3, n4, rfl, g⟩
  have b := (hex4_iff h1 h2 h3 h4 c').2 h'
  rw [a] at b
  exact Option.some.inj b

theorem simpleEscape_iff (e c : Nat) : simpleEscape e = some c ↔ (e, c) ∈ letterEscapes := by
  unfold simpleEscape letterEscapes
  simp only [List.mem_cons, Prod.mk.injEq, List.not_mem_nil, or_false]
  constructor
  · intro h
    repeat' split at h
    all_goals first | (cases h; done) | (simp only [Option.some.injEq] at h; omega)
  · intro h
    repeat' split
    all_goals first | (simp only [Option.some.injEq]; omega) | omega

/-- What is between the quotes, and the characters and escapes in it. -/
inductive Units : PyStr → List (Nat × Bool) → Prop
  | nil : Units [] []
  | plain {c b us} : 32 ≤ c → c ≠ 34 → c ≠ 92 → Units b us → Units (c :: b) ((c, false) :: us)
  | letter {e c b us} : (e, c) ∈ letterEscapes → Units b us → Units (92 :: e :: b) ((c, false) :: us)
  | code {u c b us} : CodeEscape u c → Units b us → Units (u ++ b) ((c, true) :: us)

theorem consScan_ok {α : Type} {a : α} {m : Py (List α × PyStr)} {l : List α} {r : PyStr}
    (h : consScan a m = .ok (l, r)) : ∃ l', m = .ok (l', r) ∧ l = a :: l' := by
  cases m with
  | error e => cases h
  | ok p =>
    obtain ⟨l', r'⟩ := p
    cases h
    exact ⟨l', rfl, rfl⟩

theorem scanUnits_sound (n : Nat) : ∀ (s : PyStr), s.length ≤ n → ∀ {us r}, scanUnits s = .ok (us, r) →
    ∃ b, s = b ++ 34 :: r ∧ Units b us := by
  induction n with
  | zero =>
    intro s hn us r h
    rw [List.length_eq_zero_iff.1 (Nat.le_zero.1 hn)] at h
    cases h
  | succ n ih =>
    intro s hn us r h
    rw [scanUnits.eq_def] at h
    cases s with
    | nil => cases h
    | cons c s =>
      simp only [List.length_cons] at hn
      dsimp only at h
      by_cases h1 : c = 34
      · rw [if_pos h1] at h
        cases h
        exact ⟨[], by rw [h1]; rfl, .nil⟩
      · rw [if_neg h1] at h
        by_cases h2 : c = 92
        · rw [if_pos h2] at h
          cases s with
          | nil => cases h
          | cons e s =>
            simp only [List.length_cons] at hn
            dsimp only at h
            by_cases h3 : e = 117
            · rw [if_pos h3] at h
              match s, h, hn with
              | [], h, _ => cases h
              | [_], h, _ => cases h
              | [_, _], h, _ => cases h
              | [_, _, _], h, _ => cases h
              | d1 :: d2 :: d3 :: d4 :: s, h, hn =>
                simp only [List.length_cons] at hn
                dsimp only at h
                cases hx : hex4 d1 d2 d3 d4 with
                | none => rw [hx] at h; cases h
                | some k =>
                  rw [hx] at h
                  obtain ⟨us', h4, rfl⟩ := consScan_ok h
                  obtain ⟨b, rfl, hb⟩ := ih s (by omega) h4
                  have := Units.code ((hex4_iff ..).1 hx) hb
                  exact ⟨_, by rw [h2, h3]; rfl, this⟩
            · rw [if_neg h3] at h
              cases hx : simpleEscape e with
              | none => rw [hx] at h; cases h
              | some k =>
                rw [hx] at h
                obtain ⟨us', h4, rfl⟩ := consScan_ok h
                obtain ⟨b, rfl, hb⟩ := ih s (by omega) h4
                exact ⟨92 :: e :: b, by rw [h2]; rfl, .letter ((simpleEscape_iff ..).1 hx) hb⟩
        · rw [if_neg h2] at h
          by_cases h3 : c < 32
          · rw [if_pos h3] at h; cases h
          · rw [if_neg h3] at h
            obtain ⟨us', h4, rfl⟩ := consScan_ok h
            obtain ⟨b, rfl, hb⟩ := ih s (by omega) h4
            exact ⟨c :: b, rfl, .plain (by omega) h1 h2 hb⟩

theorem scanUnits_complete {b : PyStr} {us : List (Nat × Bool)} (h : Units b us) (r : PyStr) :
    scanUnits (b ++ 34 :: r) = .ok (us, r) := by
  induction h with
  | nil =>
    rw [scanUnits.eq_def]
    rfl
  | @plain c b us h1 h2 h3 _ ih =>
    rw [scanUnits.eq_def]
    simp only [List.cons_append]
    rw [if_neg h2, if_neg h3, if_neg (by omega), ih]
    rfl
  | @letter e c b us he _ ih =>
    have h117 : e ≠ 117 := by
      rintro rfl
      simp [letterEscapes] at he
    rw [List.cons_append, List.cons_append, scanUnits_escape h117 ((simpleEscape_iff ..).2 he), ih]
    rfl
  | @code u c b us hu _ ih =>
    have hu' := hu
    obtain ⟨h1, h2, h3, h4, n1, n2, n3, n4, rfl, g⟩ := hu
    rw [scanUnits.eq_def]
    simp only [List.cons_append, List.nil_append]
    rw [if_neg (by decide), if_pos trivial, if_pos trivial, (hex4_iff ..).2 hu', ih]
    rfl

theorem isHigh_iff (c : Nat) : isHigh c = true ↔ HighSurrogate c := by
  unfold isHigh HighSurrogate
  simp only [Bool.and_eq_true, decide_eq_true_eq]
  omega

theorem isLow_iff (c : Nat) : isLow c = true ↔ LowSurrogate c := by
  unfold isLow LowSurrogate
  simp only [Bool.and_eq_true, decide_eq_true_eq]
  omega

/-- An escape at the start is the first unit. -/
theorem units_code {u b : PyStr} {c : Nat} {us : List (Nat × Bool)} (hu : CodeEscape u c) (h : Units (u ++ b) us) :
    ∃ us', us = (c, true) :: us' ∧ Units b us' := by
  have hu' := hu
  obtain ⟨h1, h2, h3, h4, n1, n2, n3, n4, rfl, g⟩ := hu
  generalize hs : [92, 117, h1, h2, h3, h4] ++ b = s at h
  cases h with
  | nil => cases hs
  | plain g1 g2 g3 _ =>
    simp only [List.cons_append, List.cons.injEq] at hs
    exact absurd hs.1.symm g3
  | letter he _ =>
    simp only [List.cons_append, List.cons.injEq] at hs
    rw [← hs.2.1] at he
    simp [letterEscapes] at he
  | code hv hb =>
    have hv' := hv
    obtain ⟨k1, k2, k3, k4, m1, m2, m3, m4, rfl, g'⟩ := hv
    simp only [List.cons_append, List.nil_append, List.cons.injEq, true_and] at hs
    obtain ⟨rfl, rfl, rfl, rfl, rfl⟩ := hs
    rw [codeEscape_unique hu' hv']
    exact ⟨_, rfl, hb⟩

/-- A unit that was written as an escape was there. -/
theorem units_escaped {b : PyStr} {c : Nat} {us : List (Nat × Bool)} (h : Units b ((c, true) :: us)) :
    ∃ u b', b = u ++ b' ∧ CodeEscape u c ∧ Units b' us := by
  generalize hs : (c, true) :: us = x at h
  cases h with
  | nil => cases hs
  | plain _ _ _ _ => cases hs
  | letter _ _ => cases hs
  | code hv hb => cases hs; exact ⟨_, _, rfl, hv, hb⟩

theorem joinUnits_cons {c : Nat} {f : Bool} {us : List (Nat × Bool)}
    (h : ¬ (f = true ∧ HighSurrogate c ∧ ∃ l us', us = (l, true) :: us' ∧ LowSurrogate l)) :
    joinUnits ((c, f) :: us) = c :: joinUnits us := by
  cases us with
  | nil => rfl
  | cons y us =>
    obtain ⟨l, g⟩ := y
    rw [joinUnits.eq_def]
    dsimp only
    rw [if_neg]
    intro hx
    simp only [Bool.and_eq_true] at hx
    obtain ⟨⟨⟨rfl, rfl⟩, h1⟩, h2⟩ := hx
    exact h ⟨rfl, (isHigh_iff c).1 h1, l, us, rfl, (isLow_iff l).1 h2⟩

theorem joinUnits_pair {h l : Nat} {us : List (Nat × Bool)} (hh : HighSurrogate h) (hl : LowSurrogate l) :
    joinUnits ((h, true) :: (l, true) :: us) = joinSurrogates h l :: joinUnits us := by
  rw [joinUnits.eq_def]
  dsimp only
  rw [if_pos (by simp [(isHigh_iff h).2 hh, (isLow_iff l).2 hl])]

theorem units_chars (n : Nat) : ∀ {b : PyStr} {us : List (Nat × Bool)}, us.length ≤ n → Units b us →
    Chars b (joinUnits us) := by
  induction n with
  | zero =>
    intro b us hn h
    rw [List.length_eq_zero_iff.1 (Nat.le_zero.1 hn)] at h ⊢
    cases h
    exact .nil
  | succ n ih =>
    intro b us hn h
    cases h with
    | nil => exact .nil
    | plain h1 h2 h3 hb =>
      rw [joinUnits_cons (by rintro ⟨h, -⟩; cases h)]
      exact .plain h1 h2 h3 (ih (by simpa using hn) hb)
    | letter he hb =>
      rw [joinUnits_cons (by rintro ⟨h, -⟩; cases h)]
      exact .letter he (ih (by simpa using hn) hb)
    | @code u c b us hu hb =>
      simp only [List.length_cons] at hn
      by_cases hp : HighSurrogate c ∧ ∃ l us', us = (l, true) :: us' ∧ LowSurrogate l
      · obtain ⟨h1, l, us', rfl, h2⟩ := hp
        obtain ⟨u', b', rfl, h3, h4⟩ := units_escaped hb
        rw [joinUnits_pair h1 h2, ← List.append_assoc]
        refine .pair hu h1 h3 h2 (ih ?_ h4)
        simp only [List.length_cons] at hn
        omega
      · rw [joinUnits_cons (fun h => hp h.2)]
        refine .code hu ?_ (ih (by omega) hb)
        rintro ⟨h1, u', l, b', h2, h3, rfl⟩
        obtain ⟨us', rfl, -⟩ := units_code h2 hb
        exact hp ⟨h1, l, us', rfl, h3⟩

theorem chars_units {b x : PyStr} (h : Chars b x) : ∃ us, Units b us ∧ joinUnits us = x := by
  induction h with
  | nil => exact ⟨[], .nil, rfl⟩
  | plain h1 h2 h3 _ ih =>
    obtain ⟨us, g1, rfl⟩ := ih
    exact ⟨_, .plain h1 h2 h3 g1, joinUnits_cons (by rintro ⟨h, -⟩; cases h)⟩
  | letter he _ ih =>
    obtain ⟨us, g1, rfl⟩ := ih
    exact ⟨_, .letter he g1, joinUnits_cons (by rintro ⟨h, -⟩; cases h)⟩
  | code hu hn _ ih =>
    obtain ⟨us, g1, rfl⟩ := ih
    refine ⟨_, .code hu g1, joinUnits_cons ?_⟩
    rintro ⟨-, h1, l, us', rfl, h2⟩
    obtain ⟨u', b', rfl, h3, -⟩ := units_escaped g1
    exact hn ⟨h1, u', l, b', h3, h2, rfl⟩
  | pair h1 h2 h3 h4 _ ih =>
    obtain ⟨us, g1, rfl⟩ := ih
    refine ⟨_, by rw [List.append_assoc]; exact .code h1 (.code h3 g1), ?_⟩
    rw [joinUnits_pair h2 h4]
    rfl

theorem scanString_sound {s x r : PyStr} (h : scanString s = .ok (x, r)) : ∃ b, s = b ++ 34 :: r ∧ Chars b x := by
  unfold scanString at h
  cases hs : scanUnits s with
  | error e => rw [hs] at h; cases h
  | ok p =>
    obtain ⟨us, r'⟩ := p
    rw [hs] at h
    cases h
    obtain ⟨b, h1, h2⟩ := scanUnits_sound _ s (Nat.le_refl _) hs
    exact ⟨b, h1, units_chars _ (Nat.le_refl _) h2⟩

theorem scanString_complete {b x : PyStr} (h : Chars b x) (r : PyStr) : scanString (b ++ 34 :: r) = .ok (x, r) := by
  obtain ⟨us, h1, rfl⟩ := chars_units h
  unfold scanString
  rw [scanUnits_complete h1]

/-! ## Numbers -/

theorem ofDigits_foldl (s : PyStr) : ∀ a, ofDigits a s = s.foldl (fun n c => 10 * n + (c - 48)) a := by
  induction s with
  | nil => intro a; rfl
  | cons c s ih =>
    intro a
    unfold ofDigits
    rw [ih, List.foldl_cons, Nat.mul_comm]

theorem ofDigits_value (s : PyStr) : ofDigits 0 s = digitsValue s := ofDigits_foldl s 0

theorem takeWhile_digits (s : PyStr) : Digits (s.takeWhile isDigit) := by
  intro c hc
  have := List.all_eq_true.1 (List.all_takeWhile (p := isDigit) (l := s)) c hc
  exact (isDigit_iff c).1 this

theorem numInt_sound {s i r : PyStr} (h : numInt s = some (i, r)) : s = i ++ r ∧ IntPart i := by
  unfold numInt at h
  cases s with
  | nil => cases h
  | cons c s =>
    dsimp only at h
    by_cases h1 : c = 48
    · rw [if_pos h1] at h
      cases h
      exact ⟨by rw [h1]; rfl, .inl rfl⟩
    · rw [if_neg h1] at h
      by_cases h2 : isDigit c = true
      · rw [if_pos h2] at h
        cases h
        refine ⟨by simp, .inr ⟨c, _, rfl, ?_, ?_, takeWhile_digits _⟩⟩
        · have := (isDigit_iff c).1 h2; omega
        · exact ((isDigit_iff c).1 h2).2
      · rw [if_neg h2] at h; cases h

theorem numFrac_sound (s : PyStr) : s = (numFrac s).1 ++ (numFrac s).2 ∧ Fraction (numFrac s).1 := by
  match s with
  | [] => exact ⟨rfl, .inl rfl⟩
  | [_] => exact ⟨rfl, .inl rfl⟩
  | p :: c :: r =>
    unfold numFrac
    dsimp only
    by_cases h : p = 46 ∧ isDigit c = true
    · rw [if_pos h]
      refine ⟨by rw [h.1]; simp, .inr ⟨c :: r.takeWhile isDigit, rfl, by simp, ?_⟩⟩
      intro x hx
      rcases List.mem_cons.1 hx with rfl | hx
      · exact (isDigit_iff x).1 h.2
      · exact takeWhile_digits r x hx
    · rw [if_neg h]
      exact ⟨rfl, .inl rfl⟩

theorem expSign_sound (s : PyStr) : s = (expSign s).1 ++ (expSign s).2 ∧
    ((expSign s).1 = [] ∨ (expSign s).1 = [45] ∨ (expSign s).1 = [43]) := by
  cases s with
  | nil => exact ⟨rfl, .inl rfl⟩
  | cons c r =>
    unfold expSign
    dsimp only
    by_cases h : c = 45 ∨ c = 43
    · rw [if_pos h]
      refine ⟨rfl, ?_⟩
      rcases h with rfl | rfl
      · exact .inr (.inl rfl)
      · exact .inr (.inr rfl)
    · rw [if_neg h]
      exact ⟨rfl, .inl rfl⟩

theorem numExp_sound (s : PyStr) : s = (numExp s).1 ++ (numExp s).2 ∧ Exponent (numExp s).1 := by
  cases s with
  | nil => exact ⟨rfl, .inl rfl⟩
  | cons e r =>
    unfold numExp
    dsimp only
    by_cases h : (e = 101 ∨ e = 69) ∧ ((expSign r).2.takeWhile isDigit).isEmpty = false
    · rw [if_pos h]
      obtain ⟨h1, h2⟩ := expSign_sound r
      refine ⟨?_, .inr ⟨e, (expSign r).1, (expSign r).2.takeWhile isDigit, rfl, h.1, h2, ?_, takeWhile_digits _⟩⟩
      · rw [List.cons_append, List.append_assoc, List.takeWhile_append_dropWhile, ← h1]
      · intro h0
        rw [h0] at h
        exact absurd h.2 (by simp)
    · rw [if_neg h]
      exact ⟨rfl, .inl rfl⟩

theorem numSign_sound (s : PyStr) : s = (numSign s).1 ++ (numSign s).2 ∧
    ((numSign s).1 = [] ∨ (numSign s).1 = [45]) := by
  cases s with
  | nil => exact ⟨rfl, .inl rfl⟩
  | cons c r =>
    unfold numSign
    dsimp only
    by_cases h : c = 45
    · rw [if_pos h]; exact ⟨by rw [h]; rfl, .inr rfl⟩
    · rw [if_neg h]; exact ⟨rfl, .inl rfl⟩

theorem matchNumber_sound {s r : PyStr} {n : Numeral} (h : matchNumber s = some (n, r)) :
    s = n.sign ++ n.int ++ n.frac ++ n.exp ++ r ∧ (n.sign = [] ∨ n.sign = [45]) ∧ IntPart n.int ∧ Fraction n.frac ∧
      Exponent n.exp := by
  unfold matchNumber at h
  cases hi : numInt (numSign s).2 with
  | none => rw [hi] at h; cases h
  | some p =>
    obtain ⟨i, r1⟩ := p
    rw [hi] at h
    cases h
    obtain ⟨h1, h2⟩ := numInt_sound hi
    obtain ⟨h3, h4⟩ := numSign_sound s
    obtain ⟨h5, h6⟩ := numFrac_sound r1
    obtain ⟨h7, h8⟩ := numExp_sound (numFrac r1).2
    refine ⟨?_, h4, h2, h6, h8⟩
    dsimp only
    rw [List.append_assoc _ (numExp _).1, ← h7, List.append_assoc _ (numFrac _).1, ← h5, List.append_assoc, ← h1,
      ← h3]

theorem numberValue_sound {env : JsonEnv F} {n : Numeral} {v : JVal F} (hs : n.sign = [] ∨ n.sign = [45])
    (hi : IntPart n.int) (hf : Fraction n.frac) (he : Exponent n.exp) (h : numberValue env n = .ok v) :
    ScalarText env (n.sign ++ n.int ++ n.frac ++ n.exp) v := by
  unfold numberValue at h
  by_cases h1 : (n.frac.isEmpty && n.exp.isEmpty) = true
  · rw [if_pos h1] at h
    simp only [Bool.and_eq_true, List.isEmpty_iff] at h1
    rw [h1.1, h1.2, List.append_nil, List.append_nil]
    by_cases h2 : env.digitsOk n.int.length = true
    · rw [if_pos h2] at h
      cases h
      rw [ofDigits_value]
      rcases hs with hs | hs
      · rw [hs]; exact .int hi h2
      · rw [hs]; exact .negative hi h2
    · rw [if_neg h2] at h; cases h
  · rw [if_neg h1] at h
    cases h
    refine .float ⟨_, _, _, _, rfl, hs, hi, hf, he, ?_⟩
    simp only [Bool.and_eq_true, List.isEmpty_iff, Decidable.not_and_iff_not_or_not] at h1
    exact h1

theorem prefix_drop {p s : PyStr} (h : p.isPrefixOf s = true) : s = p ++ s.drop p.length := by
  obtain ⟨t, rfl⟩ := List.isPrefixOf_iff_prefix.1 h
  rw [List.drop_left]

theorem scanScalar_sound {env : JsonEnv F} {s r : PyStr} {v : JVal F} (h : scanScalar env s = .ok (v, r)) :
    ∃ t, s = t ++ r ∧ ScalarText env t v := by
  unfold scanScalar at h
  by_cases h1 : (py! "null").isPrefixOf s = true
  · rw [if_pos h1] at h; cases h; exact ⟨_, prefix_drop h1, .null⟩
  rw [if_neg h1] at h
  by_cases h2 : (py! "true").isPrefixOf s = true
  · rw [if_pos h2] at h; cases h; exact ⟨_, prefix_drop h2, .true⟩
  rw [if_neg h2] at h
  by_cases h3 : (py! "false").isPrefixOf s = true
  · rw [if_pos h3] at h; cases h; exact ⟨_, prefix_drop h3, .false⟩
  rw [if_neg h3] at h
  by_cases h4 : (py! "NaN").isPrefixOf s = true
  · rw [if_pos h4] at h; cases h; exact ⟨_, prefix_drop h4, .nan⟩
  rw [if_neg h4] at h
  by_cases h5 : (py! "Infinity").isPrefixOf s = true
  · rw [if_pos h5] at h; cases h; exact ⟨_, prefix_drop h5, .inf⟩
  rw [if_neg h5] at h
  by_cases h6 : (py! "-Infinity").isPrefixOf s = true
  · rw [if_pos h6] at h; cases h; exact ⟨_, prefix_drop h6, .ninf⟩
  rw [if_neg h6] at h
  cases hm : matchNumber s with
  | none => rw [hm] at h; cases h
  | some p =>
    obtain ⟨n, r'⟩ := p
    rw [hm] at h
    dsimp only at h
    cases hv : numberValue env n with
    | error e => rw [hv] at h; cases h
    | ok v' =>
      rw [hv] at h
      cases h
      obtain ⟨g1, g2, g3, g4, g5⟩ := matchNumber_sound hm
      exact ⟨_, g1, numberValue_sound g2 g3 g4 g5 hv⟩

/-- What a value begins with. -/
theorem scalar_begins {env : JsonEnv F} {t : PyStr} {v : JVal F} (h : ScalarText env t v) : Begins t := by
  cases h with
  | null => exact ⟨_, _, rfl, rfl, by decide, by decide⟩
  | true => exact ⟨_, _, rfl, rfl, by decide, by decide⟩
  | false => exact ⟨_, _, rfl, rfl, by decide, by decide⟩
  | nan => exact ⟨_, _, rfl, rfl, by decide, by decide⟩
  | inf => exact ⟨_, _, rfl, rfl, by decide, by decide⟩
  | ninf => exact ⟨_, _, rfl, rfl, by decide, by decide⟩
  | int hi _ => exact begins_intPart hi
  | negative hi _ => exact ⟨_, _, rfl, rfl, by decide, by decide⟩
  | float hf =>
    obtain ⟨sg, i, f, e, rfl, hs, hi, -⟩ := hf
    rw [List.append_assoc]
    exact (signed_begins hs hi).1.append _
  | str hs =>
    obtain ⟨b, rfl, -⟩ := hs
    exact ⟨_, _, rfl, rfl, by decide, by decide⟩

theorem scalar_complete {env : JsonEnv F} (hook : List (PyStr × JVal F) → Py (JVal F)) {t : PyStr} {v : JVal F}
    (h : ScalarText env t v) (depth : Nat) {r : PyStr} (hr : Follows r) :
    scanValue env hook depth (t ++ r) = .ok (v, r) := by
  have plain : ∀ {u : PyStr}, Plain (u ++ r) → scanScalar env (u ++ r) = .ok (v, r) →
      scanValue env hook depth (u ++ r) = .ok (v, r) := fun hp h => (scanValue_plain env hook depth hp).trans h
  cases h with
  | null => exact plain ⟨_, _, rfl, by decide, by decide, by decide⟩ rfl
  | true => exact plain ⟨_, _, rfl, by decide, by decide, by decide⟩ rfl
  | false => exact plain ⟨_, _, rfl, by decide, by decide, by decide⟩ rfl
  | nan => exact plain ⟨_, _, rfl, by decide, by decide, by decide⟩ rfl
  | inf => exact plain ⟨_, _, rfl, by decide, by decide, by decide⟩ rfl
  | ninf => exact plain ⟨_, _, rfl, by decide, by decide, by decide⟩ rfl
  | int hi hd =>
    refine plain (intPart_plain hi r) ?_
    have h1 := scanScalar_number env (t := r) (.inl rfl) hi
    have h2 := matchNumber_append (sg := []) (f := []) (e := []) (.inl rfl) hi (.inl rfl) (.inl rfl) hr
    simp only [List.nil_append] at h1 h2
    rw [h1, h2]
    simp [numberValue, hd, ofDigits_value]
  | negative hi hd =>
    refine plain ⟨_, _, rfl, by decide, by decide, by decide⟩ ?_
    have h1 := scanScalar_number env (t := r) (.inr rfl) hi
    have h2 := matchNumber_append (sg := [45]) (f := []) (e := []) (.inr rfl) hi (.inl rfl) (.inl rfl) hr
    simp only [List.nil_append, List.cons_append] at h1 h2 ⊢
    rw [h1, h2]
    simp [numberValue, hd, ofDigits_value]
  | float hf =>
    obtain ⟨sg, i, f, e, rfl, hs, hi, hf, he, hne⟩ := hf
    refine plain ?_ ?_
    · rw [List.append_assoc (sg ++ i), List.append_assoc]
      exact (signed_begins hs hi).2 _
    · have h1 := scanScalar_number env (t := f ++ (e ++ r)) hs hi
      rw [matchNumber_append hs hi hf he hr] at h1
      simp only [List.append_assoc]
      rw [h1]
      dsimp only
      have hne' : (f.isEmpty && e.isEmpty) = Bool.false := by
        cases f <;> cases e <;> simp_all
      unfold numberValue
      simp [hne', List.append_assoc]
  | str hs =>
    obtain ⟨b, rfl, hb⟩ := hs
    have := scanString_complete hb r
    simp only [List.cons_append, List.append_assoc, List.nil_append]
    cases depth <;>
    · unfold scanValue
      rw [if_pos rfl, this]

/-! ## Arrays and objects -/

theorem blank_nil : Blank [] := fun _ h => nomatch h

theorem blank_append {w w' : PyStr} (h : Blank w) (h' : Blank w') : Blank (w ++ w') := by
  intro c hc
  rcases List.mem_append.1 hc with hc | hc
  · exact h c hc
  · exact h' c hc

theorem elements_blank {α : Type} {R : PyStr → α → Prop} {w u : PyStr} {l : List α} (hw : Blank w)
    (h : Elements R u l) : Elements R (w ++ u) l := by
  cases h with
  | one h1 h2 h3 =>
    rw [← List.append_assoc, ← List.append_assoc]
    exact .one (blank_append hw h1) h2 h3
  | more h1 h2 h3 h4 =>
    rw [← List.append_assoc, ← List.append_assoc, ← List.append_assoc]
    exact .more (blank_append hw h1) h2 h3 h4

theorem scanItems_sound {scan : PyStr → Py (JVal F × PyStr)} {R : PyStr → JVal F → Prop}
    (hs : ∀ s v r, scan s = .ok (v, r) → ∃ t, s = t ++ r ∧ R t v) :
    ∀ (n : Nat) (s : PyStr) {l : List (JVal F)} {r : PyStr}, scanItems scan n s = .ok (l, r) →
      ∃ t, s = t ++ 93 :: r ∧ Elements R t l := by
  intro n
  induction n with
  | zero => intro s l r h; cases h
  | succ n ih =>
    intro s l r h
    unfold scanItems at h
    cases h1 : scan s with
    | error e => rw [h1] at h; cases h
    | ok p =>
      obtain ⟨v, r1⟩ := p
      rw [h1] at h
      dsimp only at h
      obtain ⟨t, rfl, ht⟩ := hs _ _ _ h1
      obtain ⟨w2, hw, hb2⟩ := skipWs_split r1
      cases h2 : skipWs r1 with
      | nil => rw [h2] at h; cases h
      | cons c r2 =>
        rw [h2] at h hw
        dsimp only at h
        by_cases hc : c = 93
        · rw [if_pos hc] at h
          cases h
          refine ⟨t ++ w2, by rw [hw, hc]; simp, ?_⟩
          exact Elements.one (w1 := []) (by simp [Blank]) ht hb2
        · rw [if_neg hc] at h
          by_cases hc2 : c = 44
          · rw [if_pos hc2] at h
            obtain ⟨l', h3, rfl⟩ := consScan_ok h
            obtain ⟨w3, hw3, hb3⟩ := skipWs_split r2
            obtain ⟨u, hu, he⟩ := ih _ h3
            rw [hu] at hw3
            refine ⟨t ++ w2 ++ 44 :: (w3 ++ u), by rw [hw, hw3, hc2]; simp, ?_⟩
            refine Elements.more (w1 := []) (by simp [Blank]) ht hb2 ?_
            exact elements_blank hb3 he
          · rw [if_neg hc2] at h; cases h

theorem scanKey_sound {s k r : PyStr} (h : scanKey s = .ok (k, r)) :
    ∃ t w1 w2, s = t ++ w1 ++ 58 :: (w2 ++ r) ∧ StringText t k ∧ Blank w1 ∧ Blank w2 := by
  unfold scanKey at h
  cases s with
  | nil => cases h
  | cons q s =>
    dsimp only at h
    by_cases hq : q = 34
    · rw [if_pos hq] at h
      cases hs : scanString s with
      | error e => rw [hs] at h; cases h
      | ok p =>
        obtain ⟨k', r1⟩ := p
        rw [hs] at h
        dsimp only at h
        obtain ⟨b, rfl, hb⟩ := scanString_sound hs
        obtain ⟨w1, hw1, hb1⟩ := skipWs_split r1
        cases h2 : skipWs r1 with
        | nil => rw [h2] at h; cases h
        | cons c r2 =>
          rw [h2] at h hw1
          dsimp only at h
          by_cases hc : c = 58
          · rw [if_pos hc] at h
            cases h
            obtain ⟨w2, hw2, hb2⟩ := skipWs_split r2
            refine ⟨34 :: (b ++ [34]), w1, w2, ?_, ⟨b, rfl, hb⟩, hb1, hb2⟩
            rw [← hw2, hw1, hq, hc]
            simp
          · rw [if_neg hc] at h; cases h
    · rw [if_neg hq] at h; cases h

theorem scanPairs_sound {scan : PyStr → Py (JVal F × PyStr)} {R : PyStr → JVal F → Prop}
    (hs : ∀ s v r, scan s = .ok (v, r) → ∃ t, s = t ++ r ∧ R t v) :
    ∀ (n : Nat) (s : PyStr) {l : List (PyStr × JVal F)} {r : PyStr}, scanPairs scan n s = .ok (l, r) →
      ∃ t, s = t ++ 125 :: r ∧ Elements (PairText R) t l := by
  intro n
  induction n with
  | zero => intro s l r h; cases h
  | succ n ih =>
    intro s l r h
    unfold scanPairs at h
    cases h0 : scanKey s with
    | error e => rw [h0] at h; cases h
    | ok p =>
      obtain ⟨k, s1⟩ := p
      rw [h0] at h
      dsimp only at h
      obtain ⟨kt, x1, x2, rfl, hk, hx1, hx2⟩ := scanKey_sound h0
      cases h1 : scan s1 with
      | error e => rw [h1] at h; cases h
      | ok p =>
        obtain ⟨v, r1⟩ := p
        rw [h1] at h
        dsimp only at h
        obtain ⟨t, rfl, ht⟩ := hs _ _ _ h1
        have hp : PairText R (kt ++ x1 ++ 58 :: (x2 ++ t)) (k, v) := ⟨kt, x1, x2, t, rfl, hk, hx1, hx2, ht⟩
        obtain ⟨w2, hw, hb2⟩ := skipWs_split r1
        cases h2 : skipWs r1 with
        | nil => rw [h2] at h; cases h
        | cons c r2 =>
          rw [h2] at h hw
          dsimp only at h
          by_cases hc : c = 125
          · rw [if_pos hc] at h
            cases h
            refine ⟨[] ++ (kt ++ x1 ++ 58 :: (x2 ++ t)) ++ w2, by rw [hw, hc]; simp, ?_⟩
            exact Elements.one blank_nil hp hb2
          · rw [if_neg hc] at h
            by_cases hc2 : c = 44
            · rw [if_pos hc2] at h
              obtain ⟨l', h3, rfl⟩ := consScan_ok h
              obtain ⟨w3, hw3, hb3⟩ := skipWs_split r2
              obtain ⟨u, hu, he⟩ := ih _ h3
              rw [hu] at hw3
              refine ⟨[] ++ (kt ++ x1 ++ 58 :: (x2 ++ t)) ++ w2 ++ 44 :: (w3 ++ u), by rw [hw, hw3, hc2]; simp, ?_⟩
              exact Elements.more blank_nil hp hb2 (elements_blank hb3 he)
            · rw [if_neg hc2] at h; cases h

theorem scanValue_sound (env : JsonEnv F) (n : Nat) : ∀ (s : PyStr) (v : JVal F) (r : PyStr),
    scanValue env (fun ps => .ok (.dict ps)) n s = .ok (v, r) → ∃ t, s = t ++ r ∧ ValueText env n t v := by
  have string : ∀ (s : PyStr) (v : JVal F) (r : PyStr), (match scanString s with
      | .ok (s, r1) => (.ok (.str s, r1) : Py (JVal F × PyStr))
      | .error e => .error e) = .ok (v, r) → ∃ t, 34 :: s = t ++ r ∧ ScalarText env t v := by
    intro s v r h
    cases hs : scanString s with
    | error e => rw [hs] at h; cases h
    | ok p =>
      obtain ⟨x, r1⟩ := p
      rw [hs] at h
      cases h
      obtain ⟨b, rfl, hb⟩ := scanString_sound hs
      exact ⟨34 :: (b ++ [34]), by simp, .str ⟨b, rfl, hb⟩⟩
  induction n with
  | zero =>
    intro s v r h
    cases s with
    | nil => cases h
    | cons c s =>
      unfold scanValue at h
      by_cases h1 : c = 34
      · rw [if_pos h1] at h
        rw [h1]
        exact string s v r h
      · rw [if_neg h1] at h
        by_cases h2 : c = 91 ∨ c = 123
        · rw [if_pos h2] at h; cases h
        · rw [if_neg h2] at h
          exact scanScalar_sound h
  | succ n ih =>
    intro s v r h
    cases s with
    | nil => cases h
    | cons c s =>
      unfold scanValue at h
      by_cases h1 : c = 34
      · rw [if_pos h1] at h
        rw [h1]
        obtain ⟨t, g1, g2⟩ := string s v r h
        exact ⟨t, g1, .inl g2⟩
      · rw [if_neg h1] at h
        by_cases h2 : c = 91
        · rw [if_pos h2] at h
          unfold scanArray at h
          obtain ⟨w, hw, hb⟩ := skipWs_split s
          cases hs : skipWs s with
          | nil => rw [hs] at h; cases h
          | cons d s1 =>
            rw [hs] at h hw
            dsimp only at h
            by_cases hd : d = 93
            · rw [if_pos hd] at h
              cases h
              exact ⟨91 :: (w ++ [93]), by rw [hw, h2, hd]; simp, .inr (.inl ⟨w, [], rfl, rfl, .inl ⟨rfl, hb⟩⟩)⟩
            · rw [if_neg hd] at h
              cases hi : scanItems (scanValue env (fun ps => .ok (.dict ps)) n) (s1.length + 1) (d :: s1) with
              | error e => rw [hi] at h; cases h
              | ok p =>
                obtain ⟨l, r1⟩ := p
                rw [hi] at h
                cases h
                obtain ⟨t, g1, g2⟩ := scanItems_sound ih _ _ hi
                exact ⟨91 :: (w ++ t ++ [93]), by rw [hw, g1, h2]; simp,
                  .inr (.inl ⟨w ++ t, l, rfl, rfl, .inr (elements_blank hb g2)⟩)⟩
        · rw [if_neg h2] at h
          by_cases h3 : c = 123
          · rw [if_pos h3] at h
            unfold scanObject at h
            obtain ⟨w, hw, hb⟩ := skipWs_split s
            cases hs : skipWs s with
            | nil => rw [hs] at h; cases h
            | cons d s1 =>
              rw [hs] at h hw
              dsimp only at h
              by_cases hd : d = 125
              · rw [if_pos hd] at h
                cases h
                exact ⟨123 :: (w ++ [125]), by rw [hw, h3, hd]; simp, .inr (.inr ⟨w, [], rfl, rfl, .inl ⟨rfl, hb⟩⟩)⟩
              · rw [if_neg hd] at h
                cases hi : scanPairs (scanValue env (fun ps => .ok (.dict ps)) n) (s1.length + 1) (d :: s1) with
                | error e => rw [hi] at h; cases h
                | ok p =>
                  obtain ⟨l, r1⟩ := p
                  rw [hi] at h
                  cases h
                  obtain ⟨t, g1, g2⟩ := scanPairs_sound ih _ _ hi
                  exact ⟨123 :: (w ++ t ++ [125]), by rw [hw, g1, h3]; simp,
                    .inr (.inr ⟨w ++ t, l, rfl, rfl, .inr (elements_blank hb g2)⟩)⟩
          · rw [if_neg h3] at h
            obtain ⟨t, g1, g2⟩ := scanScalar_sound h
            exact ⟨t, g1, .inl g2⟩

/-! ### The other way round -/

theorem skipWs_begins {t : PyStr} (h : Begins t) (r : PyStr) : skipWs (t ++ r) = t ++ r := by
  obtain ⟨c, u, rfl, h1, -⟩ := h
  exact skipWs_cons h1

theorem elements_length {α : Type} {R : PyStr → α → Prop} (hR : ∀ t a, R t a → t ≠ []) {t : PyStr} {l : List α}
    (h : Elements R t l) : l.length ≤ t.length := by
  induction h with
  | one _ h2 _ =>
    have := List.length_pos_iff.2 (hR _ _ h2)
    simp only [List.length_append, List.length_cons, List.length_nil]
    omega
  | more _ _ _ _ ih =>
    simp only [List.length_append, List.length_cons]
    omega

theorem scanItems_complete {scan : PyStr → Py (JVal F × PyStr)} {R : PyStr → JVal F → Prop}
    (hs : ∀ t v r, R t v → Follows r → scan (t ++ r) = .ok (v, r)) (hR : ∀ t v, R t v → Begins t) {t : PyStr}
    {l : List (JVal F)} (h : Elements R t l) : ∀ (k : Nat) (r : PyStr), l.length ≤ k →
      scanItems scan k (skipWs (t ++ 93 :: r)) = .ok (l, r) := by
  induction h with
  | @one w1 t v w2 h1 h2 h3 =>
    intro k r hk
    cases k with
    | zero => exact absurd hk (by simp)
    | succ k =>
      rw [List.append_assoc, List.append_assoc, skipWs_blank h1, skipWs_begins (hR _ _ h2)]
      unfold scanItems
      rw [hs _ _ _ h2 (follows_blank h3 (follows_cons (by omega)))]
      dsimp only
      rw [skipWs_blank h3, skipWs_cons (by decide)]
      rfl
  | @more w1 t v w2 u l h1 h2 h3 _ ih =>
    intro k r hk
    cases k with
    | zero => exact absurd hk (by simp)
    | succ k =>
      rw [List.append_assoc, List.append_assoc, List.append_assoc, skipWs_blank h1, skipWs_begins (hR _ _ h2)]
      unfold scanItems
      rw [List.cons_append, hs _ _ _ h2 (follows_blank h3 (follows_cons (by omega)))]
      dsimp only
      rw [skipWs_blank h3, skipWs_cons (by decide)]
      dsimp only
      rw [if_neg (by decide), if_pos rfl, ih k r (by simpa using hk)]
      rfl

theorem scanKey_complete {kt k w1 w2 : PyStr} (hk : StringText kt k) (h1 : Blank w1) (h2 : Blank w2) (r : PyStr) :
    scanKey (kt ++ (w1 ++ 58 :: (w2 ++ r))) = .ok (k, skipWs r) := by
  obtain ⟨b, rfl, hb⟩ := hk
  simp only [List.cons_append, List.append_assoc, List.nil_append]
  unfold scanKey
  dsimp only
  rw [if_pos rfl, scanString_complete hb]
  dsimp only
  rw [skipWs_blank h1, skipWs_cons (by decide)]
  dsimp only
  rw [if_pos rfl, skipWs_blank h2]

theorem pair_begins {R : PyStr → JVal F → Prop} {t : PyStr} {p : PyStr × JVal F} (h : PairText R t p) : Begins t := by
  obtain ⟨k, w1, w2, u, rfl, ⟨b, rfl, -⟩, -⟩ := h
  exact ⟨_, _, rfl, by decide, by decide, by decide⟩

theorem scanPairs_complete {scan : PyStr → Py (JVal F × PyStr)} {R : PyStr → JVal F → Prop}
    (hs : ∀ t v r, R t v → Follows r → scan (t ++ r) = .ok (v, r)) (hR : ∀ t v, R t v → Begins t) {t : PyStr}
    {l : List (PyStr × JVal F)} (h : Elements (PairText R) t l) : ∀ (k : Nat) (r : PyStr), l.length ≤ k →
      scanPairs scan k (skipWs (t ++ 125 :: r)) = .ok (l, r) := by
  induction h with
  | @one w1 t v w2 h1 h2 h3 =>
    intro k r hk
    cases k with
    | zero => exact absurd hk (by simp)
    | succ k =>
      rw [List.append_assoc, List.append_assoc, skipWs_blank h1, skipWs_begins (pair_begins h2)]
      obtain ⟨kt, x1, x2, u, rfl, g1, g2, g3, g4⟩ := h2
      unfold scanPairs
      simp only [List.append_assoc, List.cons_append]
      rw [scanKey_complete g1 g2 g3]
      dsimp only
      rw [skipWs_begins (hR _ _ g4), hs _ _ _ g4 (follows_blank h3 (follows_cons (by omega)))]
      dsimp only
      rw [skipWs_blank h3, skipWs_cons (by decide)]
      rfl
  | @more w1 t v w2 y l h1 h2 h3 _ ih =>
    intro k r hk
    cases k with
    | zero => exact absurd hk (by simp)
    | succ k =>
      rw [List.append_assoc, List.append_assoc, List.append_assoc, skipWs_blank h1, skipWs_begins (pair_begins h2)]
      obtain ⟨kt, x1, x2, u, rfl, g1, g2, g3, g4⟩ := h2
      unfold scanPairs
      simp only [List.append_assoc, List.cons_append]
      rw [scanKey_complete g1 g2 g3]
      dsimp only
      rw [skipWs_begins (hR _ _ g4), hs _ _ _ g4 (follows_blank h3 (follows_cons (by omega)))]
      dsimp only
      rw [skipWs_blank h3, skipWs_cons (by decide)]
      dsimp only
      rw [if_neg (by decide), if_pos rfl, ih k r (by simpa using hk)]
      rfl

theorem value_begins {env : JsonEnv F} : ∀ (n : Nat) (t : PyStr) (v : JVal F), ValueText env n t v → Begins t := by
  intro n t v h
  cases n with
  | zero => exact scalar_begins h
  | succ n =>
    rcases h with h | ⟨u, l, rfl, -⟩ | ⟨u, l, rfl, -⟩
    · exact scalar_begins h
    · exact ⟨_, _, rfl, by decide, by decide, by decide⟩
    · exact ⟨_, _, rfl, by decide, by decide, by decide⟩

theorem begins_ne {t : PyStr} (h : Begins t) : t ≠ [] := by
  obtain ⟨c, u, rfl, -⟩ := h
  exact List.cons_ne_nil _ _

/-- The elements do not begin with the bracket. -/
theorem elements_skip {α : Type} {R : PyStr → α → Prop} (hR : ∀ t a, R t a → Begins t) {t : PyStr} {l : List α}
    (h : Elements R t l) (r : PyStr) : ∃ c s, skipWs (t ++ r) = c :: s ∧ c ≠ 93 ∧ c ≠ 125 ∧ l.length ≤ s.length + 1 := by
  cases h with
  | @one w1 t a w2 h1 h2 h3 =>
    rw [List.append_assoc, List.append_assoc, skipWs_blank h1, skipWs_begins (hR _ _ h2)]
    obtain ⟨c, u, rfl, -, h4⟩ := hR _ _ h2
    exact ⟨c, u ++ (w2 ++ r), rfl, h4.1, h4.2, by simp⟩
  | @more w1 t a w2 u as h1 h2 h3 h4 =>
    have hl := elements_length (fun t a h => begins_ne (hR t a h)) h4
    rw [List.append_assoc, List.append_assoc, List.append_assoc, skipWs_blank h1, skipWs_begins (hR _ _ h2)]
    obtain ⟨c, y, rfl, -, h5⟩ := hR _ _ h2
    refine ⟨c, y ++ (w2 ++ (44 :: u ++ r)), rfl, h5.1, h5.2, ?_⟩
    simp only [List.length_cons, List.length_append]
    omega

theorem scanValue_complete (env : JsonEnv F) (n : Nat) : ∀ (t : PyStr) (v : JVal F) (r : PyStr),
    ValueText env n t v → Follows r → scanValue env (fun ps => .ok (.dict ps)) n (t ++ r) = .ok (v, r) := by
  induction n with
  | zero => intro t v r h hr; exact scalar_complete _ h 0 hr
  | succ n ih =>
    intro t v r h hr
    rcases h with h | ⟨u, l, rfl, rfl, h⟩ | ⟨u, d, rfl, rfl, h⟩
    · exact scalar_complete _ h _ hr
    · simp only [List.cons_append, List.append_assoc, List.nil_append]
      unfold scanValue
      rw [if_neg (by decide), if_pos rfl]
      unfold scanArray
      rcases h with ⟨rfl, h⟩ | h
      · rw [skipWs_blank h, skipWs_cons (by decide)]
        rfl
      · obtain ⟨c, s, h1, h2, -, h3⟩ := elements_skip (value_begins n) h (93 :: r)
        have h4 := scanItems_complete ih (value_begins n) h (s.length + 1) r h3
        rw [h1] at h4
        rw [h1]
        dsimp only
        rw [if_neg h2, h4]
        rfl
    · simp only [List.cons_append, List.append_assoc, List.nil_append]
      unfold scanValue
      rw [if_neg (by decide), if_neg (by decide), if_pos rfl]
      unfold scanObject
      rcases h with ⟨rfl, h⟩ | h
      · rw [skipWs_blank h, skipWs_cons (by decide)]
        rfl
      · obtain ⟨c, s, h1, -, h2, h3⟩ := elements_skip (fun _ _ => pair_begins) h (125 :: r)
        have h4 := scanPairs_complete ih (value_begins n) h (s.length + 1) r h3
        rw [h1] at h4
        rw [h1]
        dsimp only
        rw [if_neg h2, h4]
        rfl

/-- What `json.loads` accepts, and what it reads. -/
theorem parseTree_iff (env : JsonEnv F) (text : PyStr) (v : JVal F) :
    parseTree env text = .ok v ↔ JsonText env text v := by
  unfold parseTree loadsHook
  constructor
  · intro h
    cases hs : scanValue env (fun ps => .ok (.dict ps)) env.depth (skipWs text) with
    | error e => rw [hs] at h; cases h
    | ok p =>
      obtain ⟨v', r⟩ := p
      rw [hs] at h
      dsimp only at h
      by_cases he : (skipWs r).isEmpty = true
      · rw [if_pos he] at h
        cases h
        obtain ⟨w, hw, hb⟩ := skipWs_split text
        obtain ⟨t, g1, g2⟩ := scanValue_sound env _ _ _ _ hs
        refine ⟨w, t, r, ?_, hb, g2, skipWs_nil (List.isEmpty_iff.1 he)⟩
        rw [hw, g1, List.append_assoc]
      · rw [if_neg he] at h; cases h
  · rintro ⟨w1, t, w2, rfl, h1, h2, h3⟩
    have hf : Follows w2 := by
      have := follows_blank h3 (r := []) (fun c h => nomatch h)
      rwa [List.append_nil] at this
    have he : skipWs w2 = [] := by
      have := skipWs_blank h3 []
      rw [List.append_nil] at this
      rw [this]; rfl
    rw [List.append_assoc, skipWs_blank h1, skipWs_begins (value_begins _ _ _ h2), scanValue_complete env _ _ _ _ h2 hf]
    dsimp only
    rw [he]
    rfl

/-! ## Plain `json.loads` -/

/-- A result of the scanner, with the value changed. -/
def mapScan {α β : Type} (f : α → β) : Py (α × PyStr) → Py (β × PyStr)
  | .ok (a, r) => .ok (f a, r)
  | .error e => .error e

theorem scanItems_map {scan scan' : PyStr → Py (JVal F × PyStr)} (h : ∀ s, scan' s = mapScan lastWins (scan s))
    (n : Nat) : ∀ s, scanItems scan' n s = mapScan lastWinsList (scanItems scan n s) := by
  induction n with
  | zero => intro s; rfl
  | succ n ih =>
    intro s
    unfold scanItems
    rw [h]
    cases scan s with
    | error e => rfl
    | ok p =>
      obtain ⟨v, r⟩ := p
      show (match skipWs r with
        | [] => _
        | c :: r1 => _) = _
      dsimp only
      cases skipWs r with
      | nil => rfl
      | cons c r1 =>
        dsimp only
        by_cases h1 : c = 93
        · rw [if_pos h1, if_pos h1]; rfl
        · rw [if_neg h1, if_neg h1]
          by_cases h2 : c = 44
          · rw [if_pos h2, if_pos h2, ih]
            cases scanItems scan n (skipWs r1) <;> rfl
          · rw [if_neg h2, if_neg h2]; rfl

theorem scanPairs_map {scan scan' : PyStr → Py (JVal F × PyStr)} (h : ∀ s, scan' s = mapScan lastWins (scan s))
    (n : Nat) : ∀ s, scanPairs scan' n s = mapScan lastWinsPairs (scanPairs scan n s) := by
  induction n with
  | zero => intro s; rfl
  | succ n ih =>
    intro s
    unfold scanPairs
    cases scanKey s with
    | error e => rfl
    | ok q =>
      obtain ⟨k, s1⟩ := q
      dsimp only
      rw [h]
      cases scan s1 with
      | error e => rfl
      | ok p =>
        obtain ⟨v, r⟩ := p
        show (match skipWs r with
          | [] => _
          | c :: r1 => _) = _
        dsimp only
        cases skipWs r with
        | nil => rfl
        | cons c r1 =>
          dsimp only
          by_cases h1 : c = 125
          · rw [if_pos h1, if_pos h1]; rfl
          · rw [if_neg h1, if_neg h1]
            by_cases h2 : c = 44
            · rw [if_pos h2, if_pos h2, ih]
              cases scanPairs scan n (skipWs r1) <;> rfl
            · rw [if_neg h2, if_neg h2]; rfl

theorem scanScalar_lastWins (env : JsonEnv F) (s : PyStr) :
    scanScalar env s = mapScan lastWins (scanScalar env s) := by
  cases h : scanScalar env s with
  | error e => rfl
  | ok p =>
    obtain ⟨v, r⟩ := p
    obtain ⟨t, -, ht⟩ := scanScalar_sound h
    cases ht <;> rfl

theorem scanValue_map (env : JsonEnv F) (n : Nat) : ∀ s, scanValue env (fun ps => .ok (.dict (dictOf ps))) n s =
    mapScan lastWins (scanValue env (fun ps => .ok (.dict ps)) n s) := by
  have string : ∀ s : PyStr, (match scanString s with
      | .ok (s, r1) => (.ok (.str s, r1) : Py (JVal F × PyStr))
      | .error e => .error e) = mapScan lastWins (match scanString s with
      | .ok (s, r1) => (.ok (.str s, r1) : Py (JVal F × PyStr))
      | .error e => .error e) := by
    intro s
    cases scanString s <;> rfl
  induction n with
  | zero =>
    intro s
    cases s with
    | nil => rfl
    | cons c s =>
      unfold scanValue
      by_cases h1 : c = 34
      · rw [if_pos h1]; exact string s
      · rw [if_neg h1]
        by_cases h2 : c = 91 ∨ c = 123
        · rw [if_pos h2]; rfl
        · rw [if_neg h2]; exact scanScalar_lastWins env _
  | succ n ih =>
    intro s
    cases s with
    | nil => rfl
    | cons c s =>
      unfold scanValue
      by_cases h1 : c = 34
      · rw [if_pos h1, if_pos h1]; exact string s
      · rw [if_neg h1, if_neg h1]
        by_cases h2 : c = 91
        · rw [if_pos h2, if_pos h2]
          unfold scanArray
          cases skipWs s with
          | nil => rfl
          | cons d r =>
            dsimp only
            by_cases h3 : d = 93
            · rw [if_pos h3, if_pos h3]; rfl
            · rw [if_neg h3, if_neg h3, scanItems_map ih]
              cases scanItems (scanValue env (fun ps => .ok (.dict ps)) n) (r.length + 1) (d :: r) <;> rfl
        · rw [if_neg h2, if_neg h2]
          by_cases h3 : c = 123
          · rw [if_pos h3, if_pos h3]
            unfold scanObject
            cases skipWs s with
            | nil => rfl
            | cons d r =>
              dsimp only
              by_cases h4 : d = 125
              · rw [if_pos h4, if_pos h4]; rfl
              · rw [if_neg h4, if_neg h4, scanPairs_map ih]
                cases scanPairs (scanValue env (fun ps => .ok (.dict ps)) n) (r.length + 1) (d :: r) <;> rfl
          · rw [if_neg h3, if_neg h3]; exact scanScalar_lastWins env _

theorem loads_iff (env : JsonEnv F) (text : PyStr) (v : JVal F) :
    loads env text = .ok v ↔ ∃ w, JsonText env text w ∧ v = lastWins w := by
  have : loads env text = (match parseTree env text with
      | .ok w => .ok (lastWins w)
      | .error e => .error e) := by
    unfold loads parseTree loadsHook
    rw [scanValue_map]
    cases scanValue env (fun ps => .ok (.dict ps)) env.depth (skipWs text) with
    | error e => rfl
    | ok p =>
      obtain ⟨w, r⟩ := p
      unfold mapScan
      dsimp only
      split <;> rfl
  rw [this]
  constructor
  · intro h
    cases hp : parseTree env text with
    | error e => rw [hp] at h; cases h
    | ok w => rw [hp] at h; exact ⟨w, (parseTree_iff ..).1 hp, (Except.ok.inj h).symm⟩
  · rintro ⟨w, hw, rfl⟩
    rw [(parseTree_iff ..).2 hw]

end Json
end Tink
