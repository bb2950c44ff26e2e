import Verif.Spec.Json
import Verif.Json.Encode

namespace Tink
namespace Json
open Spec

variable {F : Type}

/-! ## Strings -/

theorem hexVal_hexDigit {n : Nat} (h : n < 16) : hexVal (hexDigit n) = some n := by
  unfold hexDigit hexVal
  by_cases h10 : n < 10
  · rw [if_pos h10, if_pos (by omega)]; congr 1; omega
  · rw [if_neg h10, if_neg (by omega), if_pos (by omega)]; congr 1; omega

theorem hex4_uEscape {c : Nat} (h : c < 0x10000) :
    hex4 (hexDigit (c / 4096 % 16)) (hexDigit (c / 256 % 16)) (hexDigit (c / 16 % 16))
      (hexDigit (c % 16)) = some c := by
  unfold hex4
  rw [hexVal_hexDigit (by omega), hexVal_hexDigit (by omega), hexVal_hexDigit (by omega),
    hexVal_hexDigit (by omega)]
  simp only
  congr 1; omega

/-- The units written for a character. -/
def charUnits (c : Nat) : List (Nat × Bool) :=
  if c = 34 ∨ c = 92 ∨ c = 8 ∨ c = 12 ∨ c = 10 ∨ c = 13 ∨ c = 9 ∨ (32 ≤ c ∧ c ≤ 126) then [(c, false)]
  else if c < 0x10000 then [(c, true)]
  else [(0xD800 + (c - 0x10000) / 1024, true), (0xDC00 + (c - 0x10000) % 1024, true)]

theorem scanUnits_uEscape {c : Nat} (h : c < 0x10000) (r : PyStr) :
    scanUnits (uEscape c ++ r) = consScan (c, true) (scanUnits r) := by
  unfold uEscape
  simp only [List.cons_append, List.nil_append]
  rw [scanUnits.eq_def]
  simp only
  rw [if_neg (by decide), if_pos trivial, if_pos trivial, hex4_uEscape h]

theorem scanUnits_escape {e x : Nat} (he : e ≠ 117) (hx : simpleEscape e = some x) (r : PyStr) :
    scanUnits (92 :: e :: r) = consScan (x, false) (scanUnits r) := by
  rw [scanUnits.eq_def]
  simp only
  rw [if_neg (by decide), if_pos trivial, if_neg he, hx]

/-- Puts several units in front. -/
def appendScan {α : Type} (us : List α) (r : Py (List α × PyStr)) : Py (List α × PyStr) :=
  us.foldr consScan r

theorem scanUnits_escapeChar {c : Nat} (h : c < 0x110000) (r : PyStr) :
    scanUnits (escapeChar c ++ r) = appendScan (charUnits c) (scanUnits r) := by
  unfold escapeChar charUnits
  by_cases h1 : c = 34
  · subst h1; simp only [if_pos, true_or]; exact scanUnits_escape (by decide) (by decide) r
  rw [if_neg h1]
  by_cases h2 : c = 92
  · subst h2; simp only [if_pos, true_or, or_true]; exact scanUnits_escape (by decide) (by decide) r
  rw [if_neg h2]
  by_cases h3 : c = 8
  · subst h3; simp only [if_pos, true_or, or_true]; exact scanUnits_escape (by decide) (by decide) r
  rw [if_neg h3]
  by_cases h4 : c = 12
  · subst h4; simp only [if_pos, true_or, or_true]; exact scanUnits_escape (by decide) (by decide) r
  rw [if_neg h4]
  by_cases h5 : c = 10
  · subst h5; simp only [if_pos, true_or, or_true]; exact scanUnits_escape (by decide) (by decide) r
  rw [if_neg h5]
  by_cases h6 : c = 13
  · subst h6; simp only [if_pos, true_or, or_true]; exact scanUnits_escape (by decide) (by decide) r
  rw [if_neg h6]
  by_cases h7 : c = 9
  · subst h7; simp only [if_pos, true_or, or_true]; exact scanUnits_escape (by decide) (by decide) r
  rw [if_neg h7]
  by_cases h8 : 32 ≤ c ∧ c ≤ 126
  · rw [if_pos h8, if_pos (by omega)]
    simp only [List.cons_append, List.nil_append]
    rw [scanUnits.eq_def]
    simp only
    rw [if_neg h1, if_neg h2, if_neg (by omega)]
    rfl
  have h10 : ¬ (c = 34 ∨ c = 92 ∨ c = 8 ∨ c = 12 ∨ c = 10 ∨ c = 13 ∨ c = 9 ∨ (32 ≤ c ∧ c ≤ 126)) := by
    omega
  rw [if_neg h8, if_neg h10]
  by_cases h9 : c < 0x10000
  · rw [if_pos h9, if_pos h9, scanUnits_uEscape h9]; rfl
  · rw [if_neg h9, if_neg h9, List.append_assoc, scanUnits_uEscape (by omega),
      scanUnits_uEscape (by omega)]
    rfl

theorem appendScan_ok {α : Type} (us vs : List α) (r : PyStr) :
    appendScan us (.ok (vs, r)) = .ok (us ++ vs, r) := by
  unfold appendScan
  induction us with
  | nil => rfl
  | cons u us ih => rw [List.foldr_cons, ih]; rfl

theorem scanUnits_encode (s : PyStr) (hs : ∀ c ∈ s, c < 0x110000) (r : PyStr) :
    scanUnits (s.flatMap escapeChar ++ 34 :: r) = .ok (s.flatMap charUnits, r) := by
  induction s with
  | nil => rw [List.flatMap_nil, List.nil_append, scanUnits.eq_def]; rfl
  | cons c s ih =>
    rw [List.flatMap_cons, List.append_assoc, scanUnits_escapeChar (hs c (by simp)),
      ih (fun x hx => hs x (by simp [hx])), appendScan_ok, List.flatMap_cons]

theorem isScalar_lt {c : Nat} (h : isScalar c = true) : c < 0x110000 := by
  unfold isScalar at h
  simp only [Bool.or_eq_true, decide_eq_true_eq, Bool.and_eq_true] at h
  omega

theorem _root_.Tink.Spec.ValidText.joined {s : PyStr} (h : ValidText s) : Joined s := by
  refine ⟨fun c hc => isScalar_lt (h c hc), ?_⟩
  rintro a x l b rfl hx
  have := h x (by simp)
  unfold isScalar at this
  simp only [Bool.or_eq_true, decide_eq_true_eq, Bool.and_eq_true] at this
  omega

theorem _root_.Tink.Spec.Joined.tail {c : Nat} {s : PyStr} (h : Joined (c :: s)) : Joined s :=
  ⟨fun x hx => h.1 x (by simp [hx]), fun a x l b e => h.2 (c :: a) x l b (by rw [e]; rfl)⟩

/-- The first unit of a character. -/
theorem charUnits_cons (c : Nat) (h : c < 0x110000) : ∃ u us, charUnits c = u :: us ∧
    (isLow u.1 = true → u.1 = c) := by
  unfold charUnits
  split
  · exact ⟨_, _, rfl, fun _ => rfl⟩
  split
  · exact ⟨_, _, rfl, fun _ => rfl⟩
  · refine ⟨_, _, rfl, fun hl => ?_⟩
    unfold isLow at hl
    simp only [Bool.and_eq_true, decide_eq_true_eq] at hl
    omega

theorem joinUnits_step {c : Nat} {b : Bool} {s : PyStr} (h : Joined (c :: s)) :
    joinUnits ((c, b) :: s.flatMap charUnits) = c :: joinUnits (s.flatMap charUnits) := by
  cases s with
  | nil => rfl
  | cons d s =>
    obtain ⟨u, us, hu, hl⟩ := charUnits_cons d (h.1 d (by simp))
    rw [List.flatMap_cons, hu, List.cons_append]
    rw [joinUnits.eq_def]
    simp only
    rw [if_neg]
    intro hc
    simp only [Bool.and_eq_true] at hc
    have hd := hl hc.2
    have h1 := hc.1.2
    have h2 := hc.2
    rw [hd] at h2
    unfold isHigh at h1
    unfold isLow at h2
    simp only [Bool.and_eq_true, decide_eq_true_eq] at h1 h2
    exact h.2 [] c d s rfl ⟨h1.1, h1.2, h2.1, h2.2⟩

theorem joinUnits_encode (s : PyStr) (hs : Joined s) : joinUnits (s.flatMap charUnits) = s := by
  induction s with
  | nil => rfl
  | cons c s ih =>
    have hc := hs.1 c (by simp)
    have ih := ih hs.tail
    rw [List.flatMap_cons]
    rw [charUnits.eq_def c]
    split
    · rw [List.cons_append, List.nil_append, joinUnits_step hs, ih]
    split
    · rw [List.cons_append, List.nil_append, joinUnits_step hs, ih]
    · rename_i h1 h2
      rw [List.cons_append, List.cons_append, List.nil_append, joinUnits.eq_def]
      simp only
      rw [if_pos, ih]
      · have : joinSurrogates (0xD800 + (c - 0x10000) / 1024) (0xDC00 + (c - 0x10000) % 1024) = c := by
          unfold joinSurrogates; omega
        rw [this]
      · unfold isHigh isLow
        simp only [Bool.true_and, Bool.and_eq_true, decide_eq_true_eq]
        omega

theorem scanString_encode (s : PyStr) (hs : Joined s) (r : PyStr) :
    scanString (s.flatMap escapeChar ++ 34 :: r) = .ok (s, r) := by
  unfold scanString
  rw [scanUnits_encode s hs.1]
  simp only [joinUnits_encode s hs]

/-! ## Numbers -/

/-- What may follow a value: nothing, a comma, a closing bracket or white space. -/
def Follows (r : PyStr) : Prop :=
  ∀ c ∈ r.head?, c = 44 ∨ c = 93 ∨ c = 125 ∨ c = 10 ∨ c = 32 ∨ c = 9 ∨ c = 13

theorem isDigit_iff (c : Nat) : isDigit c = true ↔ 48 ≤ c ∧ c ≤ 57 := by
  unfold isDigit; simp

theorem span_digits (ds r : PyStr) (hd : Digits ds) (hr : ∀ c ∈ r.head?, isDigit c = false) :
    (ds ++ r).takeWhile isDigit = ds ∧ (ds ++ r).dropWhile isDigit = r := by
  induction ds with
  | nil =>
    cases r with
    | nil => exact ⟨rfl, rfl⟩
    | cons c r =>
      have := hr c (by simp)
      simp [this]
  | cons d ds ih =>
    have h1 : isDigit d = true := (isDigit_iff d).2 (hd d (by simp))
    have := ih (fun c hc => hd c (by simp [hc]))
    simp only [List.cons_append, List.takeWhile_cons, List.dropWhile_cons, h1, if_true]
    exact ⟨by rw [this.1], this.2⟩

theorem follows_not_digit {r : PyStr} (h : Follows r) : ∀ c ∈ r.head?, isDigit c = false := by
  intro c hc
  have := h c hc
  cases hd : isDigit c with
  | false => rfl
  | true => rw [isDigit_iff] at hd; omega

theorem numInt_append {i r : PyStr} (hi : IntPart i) (hr : ∀ c ∈ r.head?, isDigit c = false) :
    numInt (i ++ r) = some (i, r) := by
  rcases hi with rfl | ⟨c, ds, rfl, h1, h2, hd⟩
  · rfl
  · unfold numInt
    simp only [List.cons_append]
    rw [if_neg (by omega), if_pos ((isDigit_iff c).2 (by omega)), (span_digits ds r hd hr).1,
      (span_digits ds r hd hr).2]

theorem numFrac_append {f r : PyStr} (hf : Fraction f) (hr : ∀ c ∈ r.head?, isDigit c = false)
    (hp : ∀ c ∈ r.head?, c ≠ 46) : numFrac (f ++ r) = (f, r) := by
  rcases hf with rfl | ⟨ds, rfl, hne, hd⟩
  · cases r with
    | nil => rfl
    | cons c r =>
      have := hp c (by simp)
      cases r with
      | nil => rfl
      | cons c' r =>
        unfold numFrac
        simp only [List.nil_append]
        rw [if_neg (by intro h; exact this h.1)]
  · cases ds with
    | nil => exact absurd rfl hne
    | cons d ds =>
      unfold numFrac
      simp only [List.cons_append]
      have h1 : isDigit d = true := (isDigit_iff d).2 (hd d (by simp))
      have h2 : Digits ds := fun c hc => hd c (by simp [hc])
      rw [if_pos ⟨trivial, h1⟩, (span_digits ds r h2 hr).1, (span_digits ds r h2 hr).2]

theorem expSign_append {sg ds r : PyStr} (hs : sg = [] ∨ sg = [45] ∨ sg = [43]) (hne : ds ≠ [])
    (hd : Digits ds) : expSign (sg ++ (ds ++ r)) = (sg, ds ++ r) := by
  cases ds with
  | nil => exact absurd rfl hne
  | cons d ds =>
    have := hd d (by simp)
    rcases hs with rfl | rfl | rfl
    · unfold expSign
      simp only [List.nil_append, List.cons_append]
      rw [if_neg (by omega)]
    · rfl
    · rfl

theorem numExp_append {e r : PyStr} (he : Exponent e) (hr : Follows r) :
    numExp (e ++ r) = (e, r) := by
  rcases he with rfl | ⟨x, sg, ds, rfl, hx, hs, hne, hd⟩
  · cases r with
    | nil => rfl
    | cons c r =>
      have := hr c (by simp)
      unfold numExp
      simp only [List.nil_append]
      rw [if_neg (by intro h; have := h.1; omega)]
  · unfold numExp
    simp only [List.cons_append, List.append_assoc]
    rw [expSign_append hs hne hd]
    have h1 := span_digits ds r hd (follows_not_digit hr)
    simp only
    rw [h1.1, h1.2, if_pos]
    refine ⟨hx, ?_⟩
    cases ds with
    | nil => exact absurd rfl hne
    | cons d ds => rfl

theorem _root_.Tink.Spec.Exponent.head {e r : PyStr} (he : Exponent e) (hr : Follows r) :
    ∀ c ∈ (e ++ r).head?, isDigit c = false ∧ c ≠ 46 := by
  rcases he with rfl | ⟨x, sg, ds, rfl, hx, hs, hne, hd⟩
  · intro c hc
    refine ⟨follows_not_digit hr c hc, ?_⟩
    have := hr c hc
    omega
  · intro c hc
    simp only [List.cons_append, List.head?_cons, Option.mem_def, Option.some.injEq] at hc
    subst hc
    refine ⟨?_, by omega⟩
    cases hd : isDigit x with
    | false => rfl
    | true => rw [isDigit_iff] at hd; omega

theorem _root_.Tink.Spec.Fraction.head {f r : PyStr} (hf : Fraction f) (hr : ∀ c ∈ r.head?, isDigit c = false) :
    ∀ c ∈ (f ++ r).head?, isDigit c = false := by
  rcases hf with rfl | ⟨ds, rfl, hne, hd⟩
  · exact hr
  · intro c hc
    simp only [List.cons_append, List.head?_cons, Option.mem_def, Option.some.injEq] at hc
    subst hc
    rfl

theorem _root_.Tink.Spec.IntPart.cons {i : PyStr} (hi : IntPart i) : ∃ c r, i = c :: r ∧ 48 ≤ c ∧ c ≤ 57 := by
  rcases hi with rfl | ⟨c, ds, rfl, h1, h2, hd⟩
  · exact ⟨48, [], rfl, by omega, by omega⟩
  · exact ⟨c, ds, rfl, by omega, h2⟩

theorem numSign_append {sg i r : PyStr} (hs : sg = [] ∨ sg = [45]) (hi : IntPart i) :
    numSign (sg ++ (i ++ r)) = (sg, i ++ r) := by
  obtain ⟨c, t, rfl, h1, h2⟩ := hi.cons
  rcases hs with rfl | rfl
  · unfold numSign
    simp only [List.nil_append, List.cons_append]
    rw [if_neg (by omega)]
  · rfl

/-- A numeral followed by the end of a value is matched exactly. -/
theorem matchNumber_append {sg i f e r : PyStr} (hs : sg = [] ∨ sg = [45]) (hi : IntPart i)
    (hf : Fraction f) (he : Exponent e) (hr : Follows r) :
    matchNumber (sg ++ (i ++ (f ++ (e ++ r)))) =
      some ({ sign := sg, int := i, frac := f, exp := e }, r) := by
  have h1 := he.head hr
  have h2 := hf.head (r := e ++ r) (fun c hc => (h1 c hc).1)
  unfold matchNumber
  rw [numSign_append hs hi]
  simp only
  rw [numInt_append hi h2]
  simp only
  rw [numFrac_append hf (fun c hc => (h1 c hc).1) (fun c hc => (h1 c hc).2)]
  simp only
  rw [numExp_append he hr]

/-- On a numeral the constants are no prefix. -/
theorem scanScalar_number (env : JsonEnv F) {sg i t : PyStr} (hs : sg = [] ∨ sg = [45])
    (hi : IntPart i) :
    scanScalar env (sg ++ (i ++ t)) =
      match matchNumber (sg ++ (i ++ t)) with
      | none => .error .jsonDecodeError
      | some (n, r) =>
        match numberValue env n with
        | .ok v => .ok (v, r)
        | .error e => .error e := by
  obtain ⟨c, u, rfl, h1, h2⟩ := hi.cons
  unfold scanScalar
  have hb : ∀ x : Nat, x < 48 ∨ 57 < x → (x == c) = false := by
    intro x hx; simp only [beq_eq_false_iff_ne]; omega
  rcases hs with rfl | rfl
  · simp only [List.nil_append, List.cons_append, List.isPrefixOf, hb 110 (by omega),
      hb 116 (by omega), hb 102 (by omega), hb 78 (by omega), hb 73 (by omega), hb 45 (by omega),
      Bool.false_and, Bool.false_eq_true, if_false]
    rfl
  · simp only [List.nil_append, List.cons_append, List.isPrefixOf, hb 73 (by omega),
      Bool.false_and, Bool.false_eq_true, if_false, show (110 == 45) = false from rfl,
      show (116 == 45) = false from rfl, show (102 == 45) = false from rfl,
      show (78 == 45) = false from rfl, show (73 == 45) = false from rfl, Bool.and_false]
    rfl

/-! ### Decimal numbers -/

theorem decimalAux_spec (fuel n : Nat) (hf : n < fuel) (acc : PyStr) :
    ∃ ds, decimalAux fuel n acc = ds ++ acc ∧ IntPart ds ∧ ∀ a, ofDigits a ds = a * 10 ^ ds.length + n := by
  induction fuel generalizing n acc with
  | zero => omega
  | succ fuel ih =>
    unfold decimalAux
    by_cases h : n < 10
    · rw [if_pos h]
      refine ⟨[48 + n], rfl, ?_, ?_⟩
      · by_cases h0 : n = 0
        · subst h0; exact .inl rfl
        · exact .inr ⟨48 + n, [], rfl, by omega, by omega, by intro c hc; simp at hc⟩
      · intro a
        show a * 10 + (48 + n - 48) = a * 10 ^ (0 + 1) + n
        rw [Nat.zero_add, Nat.pow_one, Nat.add_sub_cancel_left]
    · rw [if_neg h]
      obtain ⟨ds, h1, h2, h3⟩ := ih (n / 10) (by omega) ((48 + n % 10) :: acc)
      refine ⟨ds ++ [48 + n % 10], by rw [h1, List.append_assoc]; rfl, ?_, ?_⟩
      · rcases h2 with rfl | ⟨c, r, rfl, hc1, hc2, hd⟩
        · exfalso
          have h4 : 0 = 0 * 10 ^ 1 + n / 10 := h3 0
          rw [Nat.zero_mul, Nat.zero_add] at h4
          omega
        · refine .inr ⟨c, r ++ [48 + n % 10], rfl, hc1, hc2, ?_⟩
          intro x hx
          rcases List.mem_append.1 hx with hx | hx
          · exact hd x hx
          · simp only [List.mem_singleton] at hx; omega
      · intro a
        have happ : ∀ (ds : PyStr) (a d : Nat), ofDigits a (ds ++ [d]) = ofDigits a ds * 10 + (d - 48) := by
          intro ds
          induction ds with
          | nil => intro a d; rw [List.nil_append]; unfold ofDigits; unfold ofDigits; rfl
          | cons x ds ih => intro a d; rw [List.cons_append]; unfold ofDigits; exact ih _ _
        rw [happ, h3, List.length_append, List.length_singleton, Nat.pow_succ]
        rw [← Nat.mul_assoc]
        generalize a * 10 ^ ds.length = y
        omega

theorem decimal_intPart (n : Nat) : IntPart (decimal n) := by
  obtain ⟨ds, h1, h2, _⟩ := decimalAux_spec (n + 1) n (by omega) []
  unfold decimal
  rw [h1, List.append_nil]; exact h2

theorem ofDigits_decimal (n : Nat) : ofDigits 0 (decimal n) = n := by
  obtain ⟨ds, h1, _, h3⟩ := decimalAux_spec (n + 1) n (by omega) []
  unfold decimal
  rw [h1, List.append_nil, h3]; omega

theorem scanScalar_int (env : JsonEnv F) (n : Int) {t r : PyStr} (h : encodeInt env n = .ok t)
    (hr : Follows r) : scanScalar env (t ++ r) = .ok (.int n, r) := by
  unfold encodeInt at h
  cases hd : env.digitsOk (decimal n.natAbs).length with
  | false => rw [hd] at h; simp at h
  | true =>
    rw [hd, if_pos rfl, Except.ok.injEq] at h
    have key : ∀ sg : PyStr, sg = [] ∨ sg = [45] → (if sg.isEmpty then (n.natAbs : Int) else -(n.natAbs : Int)) = n →
        scanScalar env (sg ++ (decimal n.natAbs ++ r)) = .ok (.int n, r) := by
      intro sg hs hn
      rw [scanScalar_number env hs (decimal_intPart _)]
      have := matchNumber_append (f := []) (e := []) (r := r) hs (decimal_intPart n.natAbs) (.inl rfl)
        (.inl rfl) hr
      simp only [List.nil_append] at this
      rw [this]
      simp only [numberValue, List.isEmpty_nil, Bool.and_self, if_true, hd, ofDigits_decimal, hn]
    by_cases hn : n < 0
    · rw [if_pos hn] at h; subst h
      refine key [45] (.inr rfl) ?_
      show -(n.natAbs : Int) = n
      omega
    · rw [if_neg hn] at h; subst h
      refine key [] (.inl rfl) ?_
      show (n.natAbs : Int) = n
      omega

theorem scanScalar_float (env : JsonEnv F) (hl : LawfulFloats env.floats) (x : PyFloat F) (r : PyStr)
    (hr : Follows r) : scanScalar env (encodeFloat env x ++ r) = .ok (.float x, r) := by
  cases x with
  | nan => rfl
  | inf => rfl
  | ninf => rfl
  | fin x =>
    have hp := hl.parse_repr x
    obtain ⟨sg, i, f, e, he, hs, hi, hf, hx, hne⟩ := hl.numeral x
    unfold encodeFloat
    simp only
    rw [he, List.append_assoc, List.append_assoc, List.append_assoc, scanScalar_number env hs hi,
      matchNumber_append hs hi hf hx hr]
    simp only
    unfold numberValue
    rw [if_neg]
    · simp only [← he, hp]
    · simp only [Bool.and_eq_true, List.isEmpty_iff]
      intro h
      rcases hne with h' | h'
      · exact h' h.1
      · exact h' h.2

end Json
end Tink
