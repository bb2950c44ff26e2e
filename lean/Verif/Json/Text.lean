import Verif.Json.RoundTrip

/-!
# Strings read from valid texts

What is left after a scan is a suffix of the text.  In a text without surrogates, the strings read are
`Joined`: surrogates come from escapes only, and pairs of those are joined.
-/

namespace Tink
namespace Json
open Spec

variable {F : Type}

theorem skipWs_suffix (s : PyStr) : skipWs s <:+ s := List.dropWhile_suffix _

theorem consScan_ok {α : Type} {c : α} {m : Py (List α × PyStr)} {l : List α} {r : PyStr}
    (h : consScan c m = .ok (l, r)) : ∃ l', m = .ok (l', r) ∧ l = c :: l' := by
  cases m with
  | error e => cases h
  | ok p => cases h; exact ⟨_, rfl, rfl⟩

theorem hexVal_lt {c n : Nat} (h : hexVal c = some n) : n < 16 := by
  unfold hexVal at h
  split at h
  · cases h; omega
  · split at h
    · cases h; omega
    · split at h
      · cases h; omega
      · cases h

theorem hex4_lt {a b c d n : Nat} (h : hex4 a b c d = some n) : n < 0x10000 := by
  unfold hex4 at h
  split at h
  · rename_i h1 h2 h3 h4
    have := hexVal_lt h1
    have := hexVal_lt h2
    have := hexVal_lt h3
    have := hexVal_lt h4
    cases h; omega
  · cases h

theorem simpleEscape_lt {e x : Nat} (h : simpleEscape e = some x) : x < 128 := by
  unfold simpleEscape at h
  repeat' split at h
  all_goals first | (cases h; omega) | cases h

/-- A unit of a string: a code point, that is a surrogate only if it was escaped. -/
def GoodUnit (u : Nat × Bool) : Prop := u.1 < 0x110000 ∧ (u.2 = false → isScalar u.1 = true)

theorem isScalar_small {c : Nat} (h : c < 128) : isScalar c = true := by
  unfold isScalar
  simp only [decide_eq_true_eq, Bool.or_eq_true, Bool.and_eq_true]
  omega

theorem scanUnits_text (s : PyStr) (u : List (Nat × Bool)) (r : PyStr) (h : scanUnits s = .ok (u, r)) :
    r <:+ s ∧ (ValidText s → ∀ x ∈ u, GoodUnit x) := by
  induction hn : s.length using Nat.strongRecOn generalizing s u with
  | _ n ih =>
    subst hn
    match s, h with
    | [], h => cases h
    | c :: t, h =>
      unfold scanUnits at h
      by_cases h1 : c = 34
      · rw [if_pos h1] at h; cases h
        exact ⟨List.suffix_cons _ _, by simp⟩
      rw [if_neg h1] at h
      by_cases h2 : c = 92
      · rw [if_pos h2] at h
        match t, h with
        | [], h => cases h
        | e :: r1, h =>
          simp only at h
          by_cases h3 : e = 117
          · rw [if_pos h3] at h
            match r1, h with
            | [], h => cases h
            | [_], h => cases h
            | [_, _], h => cases h
            | [_, _, _], h => cases h
            | a :: b :: c' :: d :: r2, h =>
              simp only at h
              cases h4 : hex4 a b c' d with
              | none => rw [h4] at h; cases h
              | some v =>
                rw [h4] at h
                obtain ⟨l', h5, rfl⟩ := consScan_ok h
                obtain ⟨h6, h7⟩ := ih _ (by simp; omega) r2 l' h5 rfl
                refine ⟨h6.trans (List.suffix_append [c, e, a, b, c', d] r2), fun hv x hx => ?_⟩
                rcases List.mem_cons.1 hx with rfl | hx
                · exact ⟨by have := hex4_lt h4; simp only; omega, by simp⟩
                · exact h7 (fun y hy => hv y (by simp [hy])) x hx
          · rw [if_neg h3] at h
            cases h4 : simpleEscape e with
            | none => rw [h4] at h; cases h
            | some v =>
              rw [h4] at h
              obtain ⟨l', h5, rfl⟩ := consScan_ok h
              obtain ⟨h6, h7⟩ := ih _ (by simp; omega) r1 l' h5 rfl
              refine ⟨h6.trans (List.suffix_append [c, e] r1), fun hv x hx => ?_⟩
              rcases List.mem_cons.1 hx with rfl | hx
              · have := simpleEscape_lt h4
                exact ⟨by simp only; omega, fun _ => isScalar_small this⟩
              · exact h7 (fun y hy => hv y (by simp [hy])) x hx
      rw [if_neg h2] at h
      by_cases h3 : c < 32
      · rw [if_pos h3] at h; cases h
      rw [if_neg h3] at h
      obtain ⟨l', h5, rfl⟩ := consScan_ok h
      obtain ⟨h6, h7⟩ := ih _ (by simp) t l' h5 rfl
      refine ⟨h6.trans (List.suffix_cons _ _), fun hv x hx => ?_⟩
      rcases List.mem_cons.1 hx with rfl | hx
      · have := hv c (by simp)
        exact ⟨isScalar_lt this, fun _ => this⟩
      · exact h7 (fun y hy => hv y (by simp [hy])) x hx

/-- No high surrogate is directly followed by a low one: `prev` is what comes before. -/
def JoinedFrom : Nat → PyStr → Prop
  | _, [] => True
  | prev, c :: r => ¬ (isHigh prev = true ∧ isLow c = true) ∧ JoinedFrom c r

theorem joinedFrom_joined {s : PyStr} (h1 : ∀ c ∈ s, c < 0x110000) (h2 : JoinedFrom 0 s) : Joined s := by
  refine ⟨h1, ?_⟩
  have main : ∀ (a : PyStr) (prev h l : Nat) (b : PyStr), JoinedFrom prev (a ++ h :: l :: b) →
      ¬ (isHigh h = true ∧ isLow l = true) := by
    intro a
    induction a with
    | nil => intro prev h l b hj; exact hj.2.1
    | cons x a ih => intro prev h l b hj; exact ih x h l b hj.2
  rintro a h l b rfl ⟨g1, g2, g3, g4⟩
  exact main a 0 h l b h2 ⟨by simp [isHigh]; omega, by simp [isLow]; omega⟩

theorem scalar_not_low {c : Nat} (h : isScalar c = true) : isLow c = false ∧ isHigh c = false := by
  unfold isScalar at h
  simp only [decide_eq_true_eq, Bool.or_eq_true, Bool.and_eq_true] at h
  unfold isLow isHigh
  simp only [Bool.and_eq_false_iff, decide_eq_false_iff_not]
  omega

theorem joinSurrogates_range {h l : Nat} (hh : isHigh h = true) (hl : isLow l = true) :
    0x10000 ≤ joinSurrogates h l ∧ joinSurrogates h l < 0x110000 := by
  unfold isHigh at hh
  unfold isLow at hl
  simp only [Bool.and_eq_true, decide_eq_true_eq] at hh hl
  unfold joinSurrogates
  omega

theorem joinUnits_joined (u : List (Nat × Bool)) (hu : ∀ x ∈ u, GoodUnit x) :
    (∀ c ∈ joinUnits u, c < 0x110000) ∧ ∀ prev : Nat × Bool, GoodUnit prev →
      (∀ x y r, u = (x, y) :: r → ¬ (prev.2 = true ∧ y = true ∧ isHigh prev.1 = true ∧ isLow x = true)) →
      JoinedFrom prev.1 (joinUnits u) := by
  induction hn : u.length using Nat.strongRecOn generalizing u with
  | _ n ih =>
    subst hn
    have notBoth : ∀ (prev : Nat × Bool), GoodUnit prev → ∀ x y, GoodUnit (x, y) →
        ¬ (prev.2 = true ∧ y = true ∧ isHigh prev.1 = true ∧ isLow x = true) →
        ¬ (isHigh prev.1 = true ∧ isLow x = true) := by
      rintro prev hp x y hx h ⟨h1, h2⟩
      cases h3 : prev.2 with
      | false =>
        have := (scalar_not_low (hp.2 h3)).2
        rw [this] at h1; cases h1
      | true =>
        cases hy : y with
        | false =>
          have := (scalar_not_low (hx.2 hy)).1
          simp only at this
          rw [this] at h2; cases h2
        | true => exact h ⟨h3, hy, h1, h2⟩
    match u, hu with
    | [], _ => exact ⟨by simp [joinUnits], fun _ _ _ => trivial⟩
    | [(c, y)], hu =>
      have hc := hu (c, y) (by simp)
      refine ⟨by simp only [joinUnits, List.mem_singleton]; rintro x rfl; exact hc.1, ?_⟩
      intro prev hp h
      exact ⟨notBoth prev hp c y hc (h c y [] rfl), trivial⟩
    | (h, x) :: (l, y) :: r, hu =>
      have hc := hu (h, x) (by simp)
      have hd := hu (l, y) (by simp)
      unfold joinUnits
      cases hj : (x && y && isHigh h && isLow l) with
      | true =>
        rw [if_pos rfl]
        simp only [Bool.and_eq_true] at hj
        obtain ⟨⟨⟨hx, hy⟩, hh⟩, hl⟩ := hj
        obtain ⟨g1, g2⟩ := joinSurrogates_range hh hl
        obtain ⟨i1, i2⟩ := ih _ (by simp; omega) r (fun z hz => hu z (by simp [hz])) rfl
        have hs : isScalar (joinSurrogates h l) = true := by
          unfold isScalar
          simp only [decide_eq_true_eq, Bool.or_eq_true, Bool.and_eq_true]
          omega
        refine ⟨?_, fun prev hp hq => ⟨?_, ?_⟩⟩
        · intro c hc
          rcases List.mem_cons.1 hc with e | hc
          · rw [e]; exact g2
          · exact i1 c hc
        · rw [(scalar_not_low hs).1]; simp
        · exact i2 (joinSurrogates h l, false) ⟨g2, fun _ => hs⟩ (by simp)
      | false =>
        rw [if_neg (by simp)]
        obtain ⟨i1, i2⟩ := ih _ (by simp) ((l, y) :: r) (fun z hz => hu z (by simp [hz])) rfl
        refine ⟨?_, fun prev hp hq => ⟨notBoth prev hp h x hc (hq h x _ rfl), ?_⟩⟩
        · intro c hc'
          rcases List.mem_cons.1 hc' with rfl | hc'
          · exact hc.1
          · exact i1 c hc'
        · refine i2 (h, x) hc ?_
          rintro l' y' r' e ⟨e1, e2, e3, e4⟩
          cases e
          simp only at e1 e3
          rw [e1, e2, e3, e4] at hj
          cases hj

theorem scanString_text (s t r : PyStr) (h : scanString s = .ok (t, r)) :
    r <:+ s ∧ (ValidText s → Joined t) := by
  unfold scanString at h
  cases hs : scanUnits s with
  | error e => rw [hs] at h; cases h
  | ok p =>
    rw [hs] at h; cases h
    obtain ⟨h1, h2⟩ := scanUnits_text s p.1 p.2 hs
    refine ⟨h1, fun hv => ?_⟩
    obtain ⟨h3, h4⟩ := joinUnits_joined p.1 (h2 hv)
    exact joinedFrom_joined h3 (h4 (0, false) ⟨by simp, fun _ => rfl⟩ (by simp))

theorem ValidText.suffix {s r : PyStr} (h : ValidText s) (hr : r <:+ s) : ValidText r :=
  fun c hc => h c (hr.subset hc)

theorem numSign_suffix (s : PyStr) : (numSign s).2 <:+ s := by
  unfold numSign
  split
  · split
    · exact List.suffix_cons _ _
    · exact List.suffix_refl _
  · exact List.suffix_refl _

theorem numInt_suffix {s i r : PyStr} (h : numInt s = some (i, r)) : r <:+ s := by
  unfold numInt at h
  split at h
  · cases h
  · split at h
    · cases h; exact List.suffix_cons _ _
    · split at h
      · cases h; exact (List.dropWhile_suffix _).trans (List.suffix_cons _ _)
      · cases h

theorem numFrac_suffix (s : PyStr) : (numFrac s).2 <:+ s := by
  unfold numFrac
  split
  · split
    · exact (List.dropWhile_suffix _).trans (List.suffix_append [_, _] _)
    · exact List.suffix_refl _
  · exact List.suffix_refl _

theorem expSign_suffix (s : PyStr) : (expSign s).2 <:+ s := by
  unfold expSign
  split
  · split
    · exact List.suffix_cons _ _
    · exact List.suffix_refl _
  · exact List.suffix_refl _

theorem numExp_suffix (s : PyStr) : (numExp s).2 <:+ s := by
  unfold numExp
  split
  · split
    · exact (List.dropWhile_suffix _).trans ((expSign_suffix _).trans (List.suffix_cons _ _))
    · exact List.suffix_refl _
  · exact List.suffix_refl _

theorem matchNumber_suffix {s r : PyStr} {n : Numeral} (h : matchNumber s = some (n, r)) : r <:+ s := by
  unfold matchNumber at h
  cases hi : numInt (numSign s).2 with
  | none => rw [hi] at h; cases h
  | some p =>
    rw [hi] at h; cases h
    exact (numExp_suffix _).trans ((numFrac_suffix _).trans ((numInt_suffix hi).trans (numSign_suffix s)))

theorem scanScalar_suffix {env : JsonEnv F} {s r : PyStr} {v : JVal F}
    (h : scanScalar env s = .ok (v, r)) : r <:+ s := by
  unfold scanScalar at h
  repeat' split at h
  all_goals first
    | (cases h; exact List.drop_suffix _ _)
    | (cases h; exact matchNumber_suffix ‹_›)
    | cases h

/-! ## What holds of all values parsed from a valid text -/

section
variable {env : JsonEnv F} {hook : List (PyStr × JVal F) → Py (JVal F)} {P : JVal F → Prop}

theorem scanItems_text {scan : PyStr → Py (JVal F × PyStr)}
    (hs : ∀ s v r, scan s = .ok (v, r) → r <:+ s ∧ (ValidText s → P v)) (n : Nat) (s : PyStr)
    (l : List (JVal F)) (r : PyStr) (h : scanItems scan n s = .ok (l, r)) :
    r <:+ s ∧ (ValidText s → ∀ x ∈ l, P x) := by
  induction n generalizing s l r with
  | zero => cases h
  | succ n ih =>
    unfold scanItems at h
    cases h1 : scan s with
    | error e => rw [h1] at h; cases h
    | ok p =>
      obtain ⟨p1, p2⟩ := hs s p.1 p.2 h1
      rw [h1] at h
      simp only at h
      cases h2 : skipWs p.2 with
      | nil => rw [h2] at h; cases h
      | cons c r1 =>
        have suf : r1 <:+ s := (List.suffix_cons c r1).trans
          ((h2 ▸ skipWs_suffix p.2 : c :: r1 <:+ p.2).trans p1)
        rw [h2] at h
        simp only at h
        by_cases h3 : c = 93
        · rw [if_pos h3] at h; cases h
          exact ⟨suf, fun hv => by simpa using p2 hv⟩
        rw [if_neg h3] at h
        by_cases h4 : c = 44
        · rw [if_pos h4] at h
          obtain ⟨l', h5, rfl⟩ := consScan_ok h
          obtain ⟨i1, i2⟩ := ih _ _ _ h5
          refine ⟨i1.trans ((skipWs_suffix r1).trans suf), fun hv x hx => ?_⟩
          rcases List.mem_cons.1 hx with rfl | hx
          · exact p2 hv
          · exact i2 (ValidText.suffix hv ((skipWs_suffix r1).trans suf)) x hx
        rw [if_neg h4] at h
        cases h

theorem scanKey_text {s k r : PyStr} (h : scanKey s = .ok (k, r)) :
    r <:+ s ∧ (ValidText s → Joined k) := by
  cases s with
  | nil => cases h
  | cons q s =>
    unfold scanKey at h
    simp only at h
    by_cases h1 : q = 34
    · rw [if_pos h1] at h
      cases h2 : scanString s with
      | error e => rw [h2] at h; cases h
      | ok p =>
        obtain ⟨p1, p2⟩ := scanString_text s p.1 p.2 h2
        rw [h2] at h
        simp only at h
        cases h3 : skipWs p.2 with
        | nil => rw [h3] at h; cases h
        | cons c r1 =>
          rw [h3] at h
          simp only at h
          by_cases h4 : c = 58
          · rw [if_pos h4] at h; cases h
            refine ⟨(skipWs_suffix r1).trans ((List.suffix_cons c r1).trans
              ((h3 ▸ skipWs_suffix p.2 : c :: r1 <:+ p.2).trans (p1.trans (List.suffix_cons _ _)))),
              fun hv => p2 fun x hx => hv x (by simp [hx])⟩
          · rw [if_neg h4] at h; cases h
    · rw [if_neg h1] at h; cases h

theorem scanPairs_text {scan : PyStr → Py (JVal F × PyStr)}
    (hs : ∀ s v r, scan s = .ok (v, r) → r <:+ s ∧ (ValidText s → P v)) (n : Nat) (s : PyStr)
    (l : List (PyStr × JVal F)) (r : PyStr) (h : scanPairs scan n s = .ok (l, r)) :
    r <:+ s ∧ (ValidText s → ∀ p ∈ l, Joined p.1 ∧ P p.2) := by
  induction n generalizing s l r with
  | zero => cases h
  | succ n ih =>
    unfold scanPairs at h
    cases h0 : scanKey s with
    | error e => rw [h0] at h; cases h
    | ok q =>
      obtain ⟨q1, q2⟩ := scanKey_text h0
      rw [h0] at h
      simp only at h
      cases h1 : scan q.2 with
      | error e => rw [h1] at h; cases h
      | ok p =>
        obtain ⟨p1, p2⟩ := hs q.2 p.1 p.2 h1
        rw [h1] at h
        simp only at h
        cases h2 : skipWs p.2 with
        | nil => rw [h2] at h; cases h
        | cons c r1 =>
          have suf : r1 <:+ s := (List.suffix_cons c r1).trans
            ((h2 ▸ skipWs_suffix p.2 : c :: r1 <:+ p.2).trans (p1.trans q1))
          rw [h2] at h
          simp only at h
          by_cases h3 : c = 125
          · rw [if_pos h3] at h; cases h
            exact ⟨suf, fun hv => by simpa using ⟨q2 hv, p2 (ValidText.suffix hv q1)⟩⟩
          rw [if_neg h3] at h
          by_cases h4 : c = 44
          · rw [if_pos h4] at h
            obtain ⟨l', h5, rfl⟩ := consScan_ok h
            obtain ⟨i1, i2⟩ := ih _ _ _ h5
            refine ⟨i1.trans ((skipWs_suffix r1).trans suf), fun hv x hx => ?_⟩
            rcases List.mem_cons.1 hx with rfl | hx
            · exact ⟨q2 hv, p2 (ValidText.suffix hv q1)⟩
            · exact i2 (ValidText.suffix hv ((skipWs_suffix r1).trans suf)) x hx
          rw [if_neg h4] at h
          cases h

theorem scanValue_text (hscalar : ∀ s v r, scanScalar env s = .ok (v, r) → P v)
    (hstr : ∀ s, Joined s → P (.str s)) (hlist : ∀ l, (∀ x ∈ l, P x) → P (.list l))
    (hhook : ∀ ps v, hook ps = .ok v → (∀ p ∈ ps, Joined p.1 ∧ P p.2) → P v) (depth : Nat) (s : PyStr)
    (v : JVal F) (r : PyStr) (h : scanValue env hook depth s = .ok (v, r)) :
    r <:+ s ∧ (ValidText s → P v) := by
  have str : ∀ (c : Nat) (t : PyStr) (v : JVal F) (r : PyStr), (match scanString t with
      | .ok (s, r1) => (.ok (.str s, r1) : Py (JVal F × PyStr)) | .error e => .error e) = .ok (v, r) →
      r <:+ c :: t ∧ (ValidText (c :: t) → P v) := by
    intro c t v r h
    cases hs : scanString t with
    | error e' => rw [hs] at h; cases h
    | ok p =>
      rw [hs] at h; cases h
      obtain ⟨h1, h2⟩ := scanString_text t p.1 p.2 hs
      exact ⟨h1.trans (List.suffix_cons _ _), fun hv => hstr _ (h2 fun x hx => hv x (by simp [hx]))⟩
  have hk : ∀ (s : PyStr) (m : Py (List (PyStr × JVal F) × PyStr)) (v : JVal F) (r : PyStr),
      (∀ l r', m = .ok (l, r') → r' <:+ s ∧ (ValidText s → ∀ p ∈ l, Joined p.1 ∧ P p.2)) →
      hooked hook m = .ok (v, r) → r <:+ s ∧ (ValidText s → P v) := by
    intro s m v r hm h
    unfold hooked at h
    cases m with
    | error e => cases h
    | ok q =>
      simp only at h
      cases h1 : hook q.1 with
      | error e => rw [h1] at h; cases h
      | ok w =>
        rw [h1] at h; cases h
        obtain ⟨h2, h3⟩ := hm _ _ rfl
        exact ⟨h2, fun hv => hhook _ _ h1 (h3 hv)⟩
  induction depth generalizing s v r with
  | zero =>
    cases s with
    | nil => cases h
    | cons c t =>
      unfold scanValue at h
      by_cases h1 : c = 34
      · rw [if_pos h1] at h; exact str c t _ _ h
      rw [if_neg h1] at h
      by_cases h2 : c = 91 ∨ c = 123
      · rw [if_pos h2] at h; cases h
      rw [if_neg h2] at h
      exact ⟨scanScalar_suffix h, fun _ => hscalar _ _ _ h⟩
  | succ depth ih =>
    cases s with
    | nil => cases h
    | cons c t =>
      unfold scanValue at h
      by_cases h1 : c = 34
      · rw [if_pos h1] at h; exact str c t _ _ h
      rw [if_neg h1] at h
      by_cases h2 : c = 91
      · rw [if_pos h2] at h
        unfold scanArray at h
        cases h3 : skipWs t with
        | nil => rw [h3] at h; cases h
        | cons c' r1 =>
          have suf : c' :: r1 <:+ c :: t := (h3 ▸ skipWs_suffix t : c' :: r1 <:+ t).trans (List.suffix_cons _ _)
          rw [h3] at h
          simp only at h
          by_cases h4 : c' = 93
          · rw [if_pos h4] at h; cases h
            exact ⟨(List.suffix_cons _ _).trans suf, fun _ => hlist _ (by simp)⟩
          · rw [if_neg h4] at h
            cases h5 : scanItems (scanValue env hook depth) (r1.length + 1) (c' :: r1) with
            | error e' => rw [h5] at h; cases h
            | ok p =>
              rw [h5] at h; cases h
              obtain ⟨i1, i2⟩ := scanItems_text ih _ _ _ _ h5
              exact ⟨i1.trans suf, fun hv => hlist _ (i2 (ValidText.suffix hv suf))⟩
      rw [if_neg h2] at h
      by_cases h2 : c = 123
      · rw [if_pos h2] at h
        unfold scanObject at h
        cases h3 : skipWs t with
        | nil => rw [h3] at h; cases h
        | cons c' r1 =>
          have suf : c' :: r1 <:+ c :: t := (h3 ▸ skipWs_suffix t : c' :: r1 <:+ t).trans (List.suffix_cons _ _)
          rw [h3] at h
          simp only at h
          by_cases h4 : c' = 125
          · rw [if_pos h4] at h
            refine hk (c :: t) _ _ _ ?_ h
            intro l r' e
            cases e
            exact ⟨(List.suffix_cons _ _).trans suf, fun _ => by simp⟩
          · rw [if_neg h4] at h
            refine hk (c :: t) _ _ _ ?_ h
            intro l r' e
            obtain ⟨i1, i2⟩ := scanPairs_text ih _ _ _ _ e
            exact ⟨i1.trans suf, fun hv => i2 (ValidText.suffix hv suf)⟩
      rw [if_neg h2] at h
      exact ⟨scanScalar_suffix h, fun _ => hscalar _ _ _ h⟩

theorem loadsHook_text (hscalar : ∀ s v r, scanScalar env s = .ok (v, r) → P v)
    (hstr : ∀ s, Joined s → P (.str s)) (hlist : ∀ l, (∀ x ∈ l, P x) → P (.list l))
    (hhook : ∀ ps v, hook ps = .ok v → (∀ p ∈ ps, Joined p.1 ∧ P p.2) → P v) (text : PyStr) (v : JVal F)
    (ht : ValidText text) (h : loadsHook env hook text = .ok v) : P v := by
  unfold loadsHook at h
  cases h1 : scanValue env hook env.depth (skipWs text) with
  | error e => rw [h1] at h; cases h
  | ok p =>
    rw [h1] at h
    simp only at h
    split at h
    · cases h
      exact (scanValue_text hscalar hstr hlist hhook _ _ _ _ h1).2 (ValidText.suffix ht (skipWs_suffix _))
    · cases h

end

/-! ## Texts written are ASCII -/

theorem escapeChar_ascii (c x : Nat) (h : x ∈ escapeChar c) : x < 128 := by
  have hex : ∀ n, hexDigit (n % 16) < 128 := by
    intro n; unfold hexDigit; split <;> omega
  have u : ∀ c x, x ∈ uEscape c → x < 128 := by
    intro c x h
    unfold uEscape at h
    simp only [List.mem_cons, List.not_mem_nil, or_false] at h
    rcases h with rfl | rfl | rfl | rfl | rfl | rfl
    · omega
    · omega
    all_goals exact hex _
  unfold escapeChar at h
  repeat' split at h
  all_goals try (simp only [List.mem_cons, List.not_mem_nil, or_false] at h; omega)
  · exact u _ _ h
  · rcases List.mem_append.1 h with h | h <;> exact u _ _ h

theorem encodeString_ascii (s : PyStr) (x : Nat) (h : x ∈ encodeString s) : x < 128 := by
  unfold encodeString at h
  simp only [List.cons_append, List.mem_cons, List.mem_append, List.mem_flatMap, List.not_mem_nil,
    or_false] at h
  rcases h with rfl | ⟨c, _, h⟩ | rfl
  · omega
  · exact escapeChar_ascii c x h
  · omega

theorem intPart_ascii {s : PyStr} (h : IntPart s) (x : Nat) (hx : x ∈ s) : x < 128 := by
  rcases h with rfl | ⟨c, r, rfl, h1, h2, h3⟩
  · simp only [List.mem_singleton] at hx; omega
  · rcases List.mem_cons.1 hx with rfl | hx
    · omega
    · have := h3 x hx; omega

theorem numeral_ascii {s : PyStr} (h : FloatNumeral s) (x : Nat) (hx : x ∈ s) : x < 128 := by
  obtain ⟨sg, i, f, e, rfl, h1, h2, h3, h4, _⟩ := h
  simp only [List.mem_append] at hx
  rcases hx with ((hx | hx) | hx) | hx
  · rcases h1 with rfl | rfl
    · simp at hx
    · simp only [List.mem_singleton] at hx; omega
  · exact intPart_ascii h2 x hx
  · rcases h3 with rfl | ⟨r, rfl, _, h3⟩
    · simp at hx
    · rcases List.mem_cons.1 hx with rfl | hx
      · omega
      · have := h3 x hx; omega
  · rcases h4 with rfl | ⟨e, sg, r, rfl, he, hs, _, h4⟩
    · simp at hx
    · rcases List.mem_cons.1 hx with rfl | hx
      · omega
      · rcases List.mem_append.1 hx with hx | hx
        · rcases hs with rfl | rfl | rfl
          · simp at hx
          · simp only [List.mem_singleton] at hx; omega
          · simp only [List.mem_singleton] at hx; omega
        · have := h4 x hx; omega

theorem commas_ascii {pad : PyStr} (hp : ∀ c ∈ pad, c < 128) (ts : List PyStr)
    (h : ∀ t ∈ ts, ∀ x ∈ t, x < 128) : ∀ x ∈ commas pad ts, x < 128 := by
  induction ts with
  | nil => simp [commas]
  | cons t ts ih =>
    cases ts with
    | nil => exact h t (by simp)
    | cons u us =>
      rw [commas_cons]
      intro x hx
      simp only [List.mem_append, List.mem_cons] at hx
      rcases hx with hx | rfl | hx | hx
      · exact h t (by simp) x hx
      · omega
      · exact hp x hx
      · exact ih (fun t ht => h t (by simp [ht])) x hx

theorem dumpsDepth_ascii (env : JsonEnv F) (hl : LawfulFloats env.floats) {pad : PyStr}
    (hp : ∀ c ∈ pad, c < 128) (depth : Nat) (v : JVal F) (t : PyStr)
    (h : dumpsDepth env pad depth v = .ok t) : ∀ x ∈ t, x < 128 := by
  have lit : ∀ (l : PyStr), (l.all fun c => decide (c < 128)) = true → ∀ x ∈ l, x < 128 := by
    intro l hl x hx
    have := (List.all_eq_true.1 hl) x hx
    simpa using this
  have int : ∀ n t, encodeInt env n = .ok t → ∀ x ∈ t, x < 128 := by
    intro n t h
    unfold encodeInt at h
    cases hd : env.digitsOk (decimal n.natAbs).length with
    | false => rw [hd] at h; simp at h
    | true =>
      rw [hd, if_pos rfl, Except.ok.injEq] at h
      subst h
      intro x hx
      split at hx
      · rcases List.mem_cons.1 hx with rfl | hx
        · omega
        · exact intPart_ascii (decimal_intPart _) x hx
      · exact intPart_ascii (decimal_intPart _) x hx
  have float : ∀ x, ∀ c ∈ encodeFloat env x, c < 128 := by
    intro x
    cases x with
    | fin x => exact numeral_ascii (hl.numeral x)
    | _ => exact lit _ rfl
  have br : ∀ (a b : Nat) (m : Py (List PyStr)) (t : PyStr), a < 128 → b < 128 →
      (∀ ts, m = .ok ts → ∀ t ∈ ts, ∀ x ∈ t, x < 128) → bracket pad a b m = .ok t → ∀ x ∈ t, x < 128 := by
    intro a b m t ha hb hm h
    unfold bracket at h
    cases m with
    | error e => cases h
    | ok ts =>
      cases h
      intro x hx
      simp only [List.cons_append, List.mem_cons, List.mem_append, List.not_mem_nil, or_false] at hx
      rcases hx with rfl | hx | rfl
      · exact ha
      · exact commas_ascii hp ts (hm ts rfl) x hx
      · exact hb
  induction depth generalizing v t with
  | zero =>
    cases v with
    | null => cases h; exact lit _ rfl
    | bool b => cases b <;> cases h <;> exact lit _ rfl
    | int n => exact int n t h
    | float x => cases h; exact float x
    | str s => cases h; exact encodeString_ascii s
    | list l => cases h
    | dict d => cases h
  | succ depth ih =>
    cases v with
    | null => cases h; exact lit _ rfl
    | bool b => cases b <;> cases h <;> exact lit _ rfl
    | int n => exact int n t h
    | float x => cases h; exact float x
    | str s => cases h; exact encodeString_ascii s
    | list l =>
      refine br 91 93 _ t (by omega) (by omega) ?_ h
      intro ts hts t ht
      obtain ⟨v, _, hv⟩ := (mapPy_length hts).2 t ht
      exact ih v t hv
    | dict d =>
      refine br 123 125 _ t (by omega) (by omega) ?_ h
      intro ts hts t ht
      obtain ⟨p, _, hv⟩ := (mapPy_length hts).2 t ht
      obtain ⟨u, hu, rfl⟩ := encodePair_ok hv
      intro x hx
      simp only [List.mem_append, List.mem_cons] at hx
      rcases hx with hx | rfl | hx | hx
      · exact encodeString_ascii _ x hx
      · omega
      · exact hp x hx
      · exact ih p.2 u hu x hx

end Json
end Tink
