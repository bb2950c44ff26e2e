import Verif.Jwt.JsonUtilLemmas

/-!
# `ValueError` of `json.loads`

It comes from an integer in the text.
-/

namespace Tink
namespace Json
open Spec JsonUtil

variable {F : Type}

theorem skipWs_suffix (s : PyStr) : skipWs s <:+ s := List.dropWhile_suffix _

theorem scanUnits_suffix (n : Nat) (s : PyStr) (hn : s.length ≤ n) (u : List (Nat × Bool)) (r : PyStr)
    (h : scanUnits s = .ok (u, r)) : r <:+ s := by
  have cons : ∀ {c : Nat × Bool} {m : Py (List (Nat × Bool) × PyStr)} {u r},
      consScan c m = .ok (u, r) → ∃ u', m = .ok (u', r) := by
    intro c m u r hm
    cases m with
    | error e' => cases hm
    | ok p => cases hm; exact ⟨_, rfl⟩
  induction n generalizing s u with
  | zero =>
    cases s with
    | nil => cases h
    | cons c r => simp at hn
  | succ n ih =>
    cases s with
    | nil => cases h
    | cons c r0 =>
      have hlen : r0.length ≤ n := by simpa using hn
      unfold scanUnits at h
      repeat' split at h
      all_goals try (cases h; done)
      · cases h; exact List.suffix_cons _ _
      · obtain ⟨u', hu⟩ := cons h
        simp only [List.length_cons] at hlen
        have := ih _ (by omega) _ hu
        refine this.trans ⟨[c, _, _, _, _, _], rfl⟩
      · obtain ⟨u', hu⟩ := cons h
        simp only [List.length_cons] at hlen
        have := ih _ (by omega) _ hu
        exact this.trans ⟨[c, _], rfl⟩
      · obtain ⟨u', hu⟩ := cons h
        exact (ih _ hlen _ hu).trans (List.suffix_cons _ _)

theorem scanString_suffix {s x r : PyStr} (h : scanString s = .ok (x, r)) : r <:+ s := by
  unfold scanString at h
  cases hs : scanUnits s with
  | error e' => rw [hs] at h; cases h
  | ok p => rw [hs] at h; cases h; exact scanUnits_suffix _ s (Nat.le_refl _) _ _ hs

theorem sign_append (s : PyStr) : (numSign s).1 ++ (numSign s).2 = s := by
  unfold numSign
  repeat' split
  all_goals simp_all

theorem int_append {s i r : PyStr} (h : numInt s = some (i, r)) : i ++ r = s ∧ Digits i := by
  unfold numInt at h
  repeat' split at h
  all_goals try (cases h; done)
  · rename_i h1
    cases h
    exact ⟨by simp [h1], by intro c hc; simp at hc; omega⟩
  · rename_i h1
    cases h
    refine ⟨by simp, ?_⟩
    intro c hc
    rcases List.mem_cons.1 hc with rfl | hc
    · simpa [isDigit] using h1
    · have := List.all_takeWhile (p := isDigit) (l := ‹PyStr›)
      have := List.all_eq_true.1 this c hc
      simpa [isDigit] using this

theorem numFrac_suffix (s : PyStr) : (numFrac s).2 <:+ s := by
  unfold numFrac
  repeat' split
  · exact (List.dropWhile_suffix _).trans ⟨[_, _], rfl⟩
  · exact List.suffix_refl _
  · exact List.suffix_refl _

theorem numExp_suffix (s : PyStr) : (numExp s).2 <:+ s := by
  have sign : ∀ s, (expSign s).2 <:+ s := by
    intro s
    unfold expSign
    repeat' split
    · exact List.suffix_cons _ _
    · exact List.suffix_refl _
    · exact List.suffix_refl _
  unfold numExp
  repeat' split
  · exact ((List.dropWhile_suffix _).trans (sign _)).trans (List.suffix_cons _ _)
  · exact List.suffix_refl _
  · exact List.suffix_refl _

theorem matchNumber_parts {s r : PyStr} {n : Numeral} (h : matchNumber s = some (n, r)) :
    r <:+ s ∧ Digits n.int ∧ ∃ post, s = n.sign ++ n.int ++ post := by
  unfold matchNumber at h
  cases hi : numInt (numSign s).2 with
  | none => rw [hi] at h; cases h
  | some p =>
    obtain ⟨i, r1⟩ := p
    rw [hi] at h
    cases h
    obtain ⟨h1, h2⟩ := int_append hi
    have hs := sign_append s
    refine ⟨?_, h2, r1, ?_⟩
    · refine ((numExp_suffix _).trans (numFrac_suffix _)).trans ?_
      exact ⟨(numSign s).1 ++ i, by rw [List.append_assoc, h1, hs]⟩
    · rw [List.append_assoc, h1, hs]

theorem scanScalar_suffix {env : JsonEnv F} {s r : PyStr} {v : JVal F}
    (h : scanScalar env s = .ok (v, r)) : r <:+ s := by
  unfold scanScalar at h
  repeat' split at h
  all_goals try (cases h; done)
  all_goals try (cases h; exact List.drop_suffix _ _)
  rename_i hm _ _ _
  cases h
  exact (matchNumber_parts hm).1

theorem LongInt_mono {env : JsonEnv F} {s t : PyStr} (h : LongInt env s) (hs : s <:+ t) :
    LongInt env t := by
  obtain ⟨m, pre, ds, post, h1, h2, h3, h4⟩ := h
  obtain ⟨p, rfl⟩ := hs
  exact ⟨m, p ++ pre, ds, post, h1, by rw [h2]; simp, h3, h4⟩

theorem scanScalar_long {env : JsonEnv F} {s : PyStr} (h : scanScalar env s = .error .valueError) :
    LongInt env s := by
  unfold scanScalar at h
  repeat' split at h
  all_goals try (cases h; done)
  rename_i hm _ _ h1
  obtain ⟨_, h2, post, h3⟩ := matchNumber_parts hm
  unfold numberValue at h1
  repeat' split at h1
  all_goals try (cases h1; done)
  rename_i h4
  unfold JsonEnv.digitsOk at h4
  cases hd : env.maxDigits with
  | none => rw [hd] at h4; exact absurd rfl h4
  | some m =>
    rw [hd] at h4
    exact ⟨m, _, _, post, hd, h3, h2, by simpa using h4⟩

/-- What a scanner of values must satisfy. -/
structure Traced (env : JsonEnv F) (scan : PyStr → Py (JVal F × PyStr)) : Prop where
  suffix : ∀ s v r, scan s = .ok (v, r) → r <:+ s
  long : ∀ s, scan s = .error .valueError → LongInt env s

theorem skip_cons {s r : PyStr} {c : Nat} (h : skipWs s = c :: r) : r <:+ s :=
  (List.suffix_cons c r).trans (h ▸ skipWs_suffix s)

theorem scanItems_traced {env : JsonEnv F} {scan : PyStr → Py (JVal F × PyStr)} (T : Traced env scan)
    (n : Nat) (s : PyStr) :
    (∀ vs r, scanItems scan n s = .ok (vs, r) → r <:+ s) ∧
    (scanItems scan n s = .error .valueError → LongInt env s) := by
  induction n generalizing s with
  | zero => exact ⟨fun _ _ h => (by cases h), fun h => (by cases h)⟩
  | succ n ih =>
    unfold scanItems
    cases h1 : scan s with
    | error e =>
      refine ⟨fun _ _ h => (by cases h), fun h => ?_⟩
      cases h
      exact T.long s h1
    | ok p =>
      obtain ⟨v, r⟩ := p
      have hr := T.suffix s v r h1
      simp only
      cases h2 : skipWs r with
      | nil => exact ⟨fun _ _ h => (by cases h), fun h => (by cases h)⟩
      | cons c r1 =>
        have hr1 : r1 <:+ s := (skip_cons h2).trans hr
        simp only
        by_cases h3 : c = 93
        · rw [if_pos h3]
          exact ⟨fun _ _ h => (by cases h; exact hr1), fun h => (by cases h)⟩
        rw [if_neg h3]
        by_cases h4 : c = 44
        · rw [if_pos h4]
          have ih := ih (skipWs r1)
          have hw := (skipWs_suffix r1).trans hr1
          cases h5 : scanItems scan n (skipWs r1) with
          | error e =>
            rw [h5] at ih
            exact ⟨fun _ _ h => (by cases h), fun h => (by cases h; exact LongInt_mono (ih.2 rfl) hw)⟩
          | ok p =>
            rw [h5] at ih
            exact ⟨fun _ _ h => (by cases h; exact (ih.1 _ _ rfl).trans hw), fun h => (by cases h)⟩
        · rw [if_neg h4]
          exact ⟨fun _ _ h => (by cases h), fun h => (by cases h)⟩

theorem scanKey_suffix {s k r : PyStr} (h : scanKey s = .ok (k, r)) : r <:+ s := by
  unfold scanKey at h
  cases s with
  | nil => cases h
  | cons q s =>
    simp only at h
    by_cases hq : q = 34
    · rw [if_pos hq] at h
      cases h1 : scanString s with
      | error e => rw [h1] at h; cases h
      | ok p =>
        obtain ⟨k', r'⟩ := p
        rw [h1] at h
        simp only at h
        cases h2 : skipWs r' with
        | nil => rw [h2] at h; cases h
        | cons c r1 =>
          rw [h2] at h
          simp only at h
          by_cases h3 : c = 58
          · rw [if_pos h3] at h
            cases h
            exact ((skipWs_suffix _).trans (skip_cons h2)).trans
              ((scanString_suffix h1).trans (List.suffix_cons _ _))
          · rw [if_neg h3] at h; cases h
    · rw [if_neg hq] at h; cases h

theorem scanKey_not_valueError {s : PyStr} (h : scanKey s = .error .valueError) : False := by
  unfold scanKey at h
  repeat' split at h
  all_goals try (cases h; done)
  cases h
  rename_i h1
  cases scanString_error h1

theorem scanPairs_traced {env : JsonEnv F} {scan : PyStr → Py (JVal F × PyStr)} (T : Traced env scan)
    (n : Nat) (s : PyStr) :
    (∀ vs r, scanPairs scan n s = .ok (vs, r) → r <:+ s) ∧
    (scanPairs scan n s = .error .valueError → LongInt env s) := by
  induction n generalizing s with
  | zero => exact ⟨fun _ _ h => (by cases h), fun h => (by cases h)⟩
  | succ n ih =>
    unfold scanPairs
    cases h0 : scanKey s with
    | error e =>
      refine ⟨fun _ _ h => (by cases h), fun h => ?_⟩
      cases h
      exact (scanKey_not_valueError h0).elim
    | ok q =>
    obtain ⟨k, s1⟩ := q
    have hs1 := scanKey_suffix h0
    simp only
    cases h1 : scan s1 with
    | error e =>
      refine ⟨fun _ _ h => (by cases h), fun h => ?_⟩
      cases h
      exact LongInt_mono (T.long s1 h1) hs1
    | ok p =>
      obtain ⟨v, r⟩ := p
      have hr := (T.suffix s1 v r h1).trans hs1
      simp only
      cases h2 : skipWs r with
      | nil => exact ⟨fun _ _ h => (by cases h), fun h => (by cases h)⟩
      | cons c r1 =>
        have hr1 : r1 <:+ s := (skip_cons h2).trans hr
        simp only
        by_cases h3 : c = 125
        · rw [if_pos h3]
          exact ⟨fun _ _ h => (by cases h; exact hr1), fun h => (by cases h)⟩
        rw [if_neg h3]
        by_cases h4 : c = 44
        · rw [if_pos h4]
          have ih := ih (skipWs r1)
          have hw := (skipWs_suffix r1).trans hr1
          cases h5 : scanPairs scan n (skipWs r1) with
          | error e =>
            rw [h5] at ih
            exact ⟨fun _ _ h => (by cases h), fun h => (by cases h; exact LongInt_mono (ih.2 rfl) hw)⟩
          | ok p =>
            rw [h5] at ih
            exact ⟨fun _ _ h => (by cases h; exact (ih.1 _ _ rfl).trans hw), fun h => (by cases h)⟩
        · rw [if_neg h4]
          exact ⟨fun _ _ h => (by cases h), fun h => (by cases h)⟩

theorem scanValue_traced (env : JsonEnv F) {hook : List (PyStr × JVal F) → Py (JVal F)}
    (hh : ∀ ps, hook ps ≠ .error .valueError) (depth : Nat) : Traced env (scanValue env hook depth) := by
  have str : ∀ (r : PyStr), let m := (match scanString r with
      | .ok (s, r1) => (.ok (.str s, r1) : Py (JVal F × PyStr)) | .error e => .error e)
      (∀ v r', m = .ok (v, r') → r' <:+ r) ∧ m ≠ .error .valueError := by
    intro r
    cases hs : scanString r with
    | error e =>
      refine ⟨fun _ _ h => (by cases h), fun h => ?_⟩
      cases h
      cases scanString_error hs
    | ok p => exact ⟨fun _ _ h => (by cases h; exact scanString_suffix hs), fun h => (by cases h)⟩
  have hk : ∀ {m : Py (List (PyStr × JVal F) × PyStr)} {t : PyStr},
      (∀ vs r, m = .ok (vs, r) → r <:+ t) ∧ (m = .error .valueError → LongInt env t) →
      (∀ v r, hooked hook m = .ok (v, r) → r <:+ t) ∧
      (hooked hook m = .error .valueError → LongInt env t) := by
    intro m t ⟨h1, h2⟩
    cases m with
    | error e => exact ⟨fun _ _ h => (by cases h), fun h => (by cases h; exact h2 rfl)⟩
    | ok p =>
      obtain ⟨ps, r⟩ := p
      unfold hooked
      simp only
      cases h3 : hook ps with
      | error e =>
        refine ⟨fun _ _ h => (by cases h), fun h => ?_⟩
        cases h
        exact absurd h3 (hh ps)
      | ok v => exact ⟨fun _ _ h => (by cases h; exact h1 _ _ rfl), fun h => (by cases h)⟩
  induction depth with
  | zero =>
    constructor
    · intro s v r h
      cases s with
      | nil => cases h
      | cons c t =>
        unfold scanValue at h
        by_cases h1 : c = 34
        · rw [if_pos h1] at h; exact ((str t).1 _ _ h).trans (List.suffix_cons _ _)
        rw [if_neg h1] at h
        by_cases h2 : c = 91 ∨ c = 123
        · rw [if_pos h2] at h; cases h
        rw [if_neg h2] at h
        exact scanScalar_suffix h
    · intro s h
      cases s with
      | nil => cases h
      | cons c t =>
        unfold scanValue at h
        by_cases h1 : c = 34
        · rw [if_pos h1] at h; exact absurd h (str t).2
        rw [if_neg h1] at h
        by_cases h2 : c = 91 ∨ c = 123
        · rw [if_pos h2] at h; cases h
        rw [if_neg h2] at h
        exact scanScalar_long h
  | succ depth ih =>
    suffices ∀ s, (∀ v r, scanValue env hook (depth + 1) s = .ok (v, r) → r <:+ s) ∧
        (scanValue env hook (depth + 1) s = .error .valueError → LongInt env s) from
      ⟨fun s => (this s).1, fun s => (this s).2⟩
    intro s
    cases s with
    | nil => exact ⟨fun _ _ h => (by cases h), fun h => (by cases h)⟩
    | cons c t =>
      have ht : t <:+ c :: t := List.suffix_cons _ _
      unfold scanValue
      by_cases h1 : c = 34
      · rw [if_pos h1]
        exact ⟨fun v r h => ((str t).1 _ _ h).trans ht, fun h => absurd h (str t).2⟩
      rw [if_neg h1]
      by_cases h2 : c = 91
      · rw [if_pos h2]
        unfold scanArray
        cases h3 : skipWs t with
        | nil => exact ⟨fun _ _ h => (by cases h), fun h => (by cases h)⟩
        | cons c' r1 =>
          have hw : c' :: r1 <:+ c :: t := (h3 ▸ skipWs_suffix t).trans ht
          simp only
          by_cases h4 : c' = 93
          · rw [if_pos h4]
            exact ⟨fun _ _ h => (by cases h; exact (List.suffix_cons _ _).trans hw),
              fun h => (by cases h)⟩
          · rw [if_neg h4]
            have hi := scanItems_traced ih (r1.length + 1) (c' :: r1)
            cases h5 : scanItems (scanValue env hook depth) (r1.length + 1) (c' :: r1) with
            | error e =>
              rw [h5] at hi
              exact ⟨fun _ _ h => (by cases h), fun h => (by cases h; exact LongInt_mono (hi.2 rfl) hw)⟩
            | ok p =>
              rw [h5] at hi
              exact ⟨fun _ _ h => (by cases h; exact (hi.1 _ _ rfl).trans hw), fun h => (by cases h)⟩
      rw [if_neg h2]
      by_cases h2 : c = 123
      · rw [if_pos h2]
        unfold scanObject
        cases h3 : skipWs t with
        | nil => exact ⟨fun _ _ h => (by cases h), fun h => (by cases h)⟩
        | cons c' r1 =>
          have hw : c' :: r1 <:+ c :: t := (h3 ▸ skipWs_suffix t).trans ht
          simp only
          by_cases h4 : c' = 125
          · rw [if_pos h4]
            have := hk (m := .ok ([], r1)) (t := r1)
              ⟨fun _ _ h => (by cases h; exact List.suffix_refl _), fun h => (by cases h)⟩
            have hr := (List.suffix_cons c' r1).trans hw
            exact ⟨fun v r h => (this.1 v r h).trans hr, fun h => LongInt_mono (this.2 h) hr⟩
          · rw [if_neg h4]
            have := hk (scanPairs_traced ih (r1.length + 1) (c' :: r1))
            exact ⟨fun v r h => (this.1 v r h).trans hw, fun h => LongInt_mono (this.2 h) hw⟩
      rw [if_neg h2]
      exact ⟨fun v r h => scanScalar_suffix h, scanScalar_long⟩

/-- If `json.loads` raises `ValueError` itself, there is an integer with too many digits in the
text. -/
theorem loadsHook_long {env : JsonEnv F} {hook : List (PyStr × JVal F) → Py (JVal F)}
    (hh : ∀ ps, hook ps ≠ .error .valueError) {text : PyStr}
    (h : loadsHook env hook text = .error .valueError) : LongInt env text := by
  unfold loadsHook at h
  cases h1 : scanValue env hook env.depth (skipWs text) with
  | error e =>
    rw [h1] at h
    cases h
    exact LongInt_mono ((scanValue_traced env hh env.depth).long _ h1) (skipWs_suffix text)
  | ok p =>
    rw [h1] at h
    simp only at h
    split at h <;> cases h

end Json
end Tink
