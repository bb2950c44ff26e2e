import Verif.Jwt.JsonUtilLemmas

/-!
# `json.loads` with a hook

The exceptions it raises, and how its result compares with the pairs in the text.
-/

namespace Tink
namespace Json
open Spec JsonUtil

variable {F : Type}

theorem scanValue_raises {env : JsonEnv F} {hook : List (PyStr × JVal F) → Py (JVal F)}
    {P : Exc → Prop} (hs : ∀ e, ScanError env e → P e) (hh : ∀ ps e, hook ps = .error e → P e)
    (depth : Nat) (s : PyStr) (e : Exc) (h : scanValue env hook depth s = .error e) : P e := by
  have items : ∀ {scan : PyStr → Py (JVal F × PyStr)}, (∀ s e, scan s = .error e → P e) →
      ∀ (n : Nat) (s : PyStr) (e : Exc), scanItems scan n s = .error e → P e := by
    intro scan hsc n
    induction n with
    | zero => intro s e h; cases h; exact hs _ (.inl rfl)
    | succ n ih =>
      intro s e h
      unfold scanItems at h
      cases h1 : scan s with
      | error e' => rw [h1] at h; cases h; exact hsc _ _ h1
      | ok p =>
        rw [h1] at h
        simp only at h
        repeat' split at h
        all_goals try (cases h; done)
        all_goals try (cases h; exact hs _ (.inl rfl))
        rename_i r1 _ _ _
        cases h2 : scanItems scan n (skipWs r1) with
        | error e' => rw [h2] at h; cases h; exact ih _ _ h2
        | ok p' => rw [h2] at h; cases h
  have pairs : ∀ {scan : PyStr → Py (JVal F × PyStr)}, (∀ s e, scan s = .error e → P e) →
      ∀ (n : Nat) (s : PyStr) (e : Exc), scanPairs scan n s = .error e → P e := by
    intro scan hsc n
    induction n with
    | zero => intro s e h; cases h; exact hs _ (.inl rfl)
    | succ n ih =>
      intro s e h
      unfold scanPairs at h
      cases h0 : scanKey s with
      | error e' => rw [h0] at h; cases h; exact hs _ (scanKey_error h0)
      | ok q =>
        rw [h0] at h
        simp only at h
        cases h1 : scan q.2 with
        | error e' => rw [h1] at h; cases h; exact hsc _ _ h1
        | ok p =>
          rw [h1] at h
          simp only at h
          repeat' split at h
          all_goals try (cases h; done)
          all_goals try (cases h; exact hs _ (.inl rfl))
          rename_i r1 _ _ _
          cases h2 : scanPairs scan n (skipWs r1) with
          | error e' => rw [h2] at h; cases h; exact ih _ _ h2
          | ok p' => rw [h2] at h; cases h
  have hk : ∀ (m : Py (List (PyStr × JVal F) × PyStr)) (e : Exc), (∀ e', m = .error e' → P e') →
      hooked hook m = .error e → P e := by
    intro m e hm h
    cases m with
    | error e' => cases h; exact hm _ rfl
    | ok q =>
      unfold hooked at h
      simp only at h
      cases h1 : hook q.1 with
      | error e' => rw [h1] at h; cases h; exact hh _ _ h1
      | ok v => rw [h1] at h; cases h
  have str : ∀ (r : PyStr) (e : Exc), (match scanString r with
      | .ok (s, r1) => (.ok (.str s, r1) : Py (JVal F × PyStr)) | .error e => .error e) = .error e →
      P e := by
    intro r e h
    cases hs' : scanString r with
    | error e' => rw [hs'] at h; cases h; exact hs _ (.inl (scanString_error hs'))
    | ok p => rw [hs'] at h; cases h
  induction depth generalizing s e with
  | zero =>
    cases s with
    | nil => cases h; exact hs _ (.inl rfl)
    | cons c r =>
      unfold scanValue at h
      by_cases h1 : c = 34
      · rw [if_pos h1] at h; exact str r _ h
      rw [if_neg h1] at h
      by_cases h2 : c = 91 ∨ c = 123
      · rw [if_pos h2] at h; cases h; exact hs _ (.inr (.inl rfl))
      rw [if_neg h2] at h
      exact hs _ (scanScalar_error h)
  | succ depth ih =>
    cases s with
    | nil => cases h; exact hs _ (.inl rfl)
    | cons c r =>
      unfold scanValue at h
      by_cases h1 : c = 34
      · rw [if_pos h1] at h; exact str r _ h
      rw [if_neg h1] at h
      by_cases h2 : c = 91
      · rw [if_pos h2] at h
        unfold scanArray at h
        cases h3 : skipWs r with
        | nil => rw [h3] at h; cases h; exact hs _ (.inl rfl)
        | cons c' r1 =>
          rw [h3] at h
          simp only at h
          by_cases h4 : c' = 93
          · rw [if_pos h4] at h; cases h
          · rw [if_neg h4] at h
            cases h5 : scanItems (scanValue env hook depth) (r1.length + 1) (c' :: r1) with
            | error e' => rw [h5] at h; cases h; exact items ih _ _ _ h5
            | ok p => rw [h5] at h; cases h
      rw [if_neg h2] at h
      by_cases h2 : c = 123
      · rw [if_pos h2] at h
        unfold scanObject at h
        cases h3 : skipWs r with
        | nil => rw [h3] at h; cases h; exact hs _ (.inl rfl)
        | cons c' r1 =>
          rw [h3] at h
          simp only at h
          by_cases h4 : c' = 125
          · rw [if_pos h4] at h; exact hk _ _ (by intro e' he; cases he) h
          · rw [if_neg h4] at h
            exact hk _ _ (fun e' he => pairs ih _ _ _ he) h
      rw [if_neg h2] at h
      exact hs _ (scanScalar_error h)

/-- The exceptions of `json.loads` with a hook: its own, and those of the hook. -/
theorem loadsHook_raises {env : JsonEnv F} {hook : List (PyStr × JVal F) → Py (JVal F)}
    {P : Exc → Prop} (hs : ∀ e, ScanError env e → P e) (hh : ∀ ps e, hook ps = .error e → P e)
    {text : PyStr} {e : Exc} (h : loadsHook env hook text = .error e) : P e := by
  unfold loadsHook at h
  cases h1 : scanValue env hook env.depth (skipWs text) with
  | error e' => rw [h1] at h; cases h; exact scanValue_raises hs hh _ _ _ h1
  | ok p =>
    rw [h1] at h
    simp only at h
    split at h
    · cases h
    · cases h; exact hs _ (.inl rfl)

theorem scanItems_mono {s1 s2 : PyStr → Py (JVal F × PyStr)}
    (hs : ∀ s p, s1 s = .ok p → s2 s = .ok p) (n : Nat) (s : PyStr) (p : List (JVal F) × PyStr)
    (h : scanItems s1 n s = .ok p) : scanItems s2 n s = .ok p := by
  induction n generalizing s p with
  | zero => cases h
  | succ n ih =>
    unfold scanItems at h ⊢
    cases h1 : s1 s with
    | error e => rw [h1] at h; cases h
    | ok q =>
      rw [hs _ _ h1]
      rw [h1] at h
      simp only at h ⊢
      cases h2 : skipWs q.2 with
      | nil => rw [h2] at h; cases h
      | cons c r =>
        rw [h2] at h
        simp only at h ⊢
        by_cases h3 : c = 93
        · rw [if_pos h3] at h ⊢; exact h
        rw [if_neg h3] at h ⊢
        by_cases h4 : c = 44
        · rw [if_pos h4] at h ⊢
          cases h5 : scanItems s1 n (skipWs r) with
          | error e => rw [h5] at h; cases h
          | ok x => rw [ih _ _ h5]; rw [h5] at h; exact h
        · rw [if_neg h4] at h; cases h

theorem scanPairs_mono {s1 s2 : PyStr → Py (JVal F × PyStr)}
    (hs : ∀ s p, s1 s = .ok p → s2 s = .ok p) (n : Nat) (s : PyStr)
    (p : List (PyStr × JVal F) × PyStr) (h : scanPairs s1 n s = .ok p) :
    scanPairs s2 n s = .ok p := by
  induction n generalizing s p with
  | zero => cases h
  | succ n ih =>
    unfold scanPairs at h ⊢
    cases h0 : scanKey s with
    | error e => rw [h0] at h; cases h
    | ok k =>
      rw [h0] at h
      simp only at h ⊢
      cases h1 : s1 k.2 with
      | error e => rw [h1] at h; cases h
      | ok q =>
        rw [hs _ _ h1]
        rw [h1] at h
        simp only at h ⊢
        cases h2 : skipWs q.2 with
        | nil => rw [h2] at h; cases h
        | cons c r =>
          rw [h2] at h
          simp only at h ⊢
          by_cases h3 : c = 125
          · rw [if_pos h3] at h ⊢; exact h
          rw [if_neg h3] at h ⊢
          by_cases h4 : c = 44
          · rw [if_pos h4] at h ⊢
            cases h5 : scanPairs s1 n (skipWs r) with
            | error e => rw [h5] at h; cases h
            | ok x => rw [ih _ _ h5]; rw [h5] at h; exact h
          · rw [if_neg h4] at h; cases h

theorem scanValue_mono {env : JsonEnv F} {h1 h2 : List (PyStr × JVal F) → Py (JVal F)}
    (hh : ∀ ps v, h1 ps = .ok v → h2 ps = .ok v) (depth : Nat) (s : PyStr) (p : JVal F × PyStr)
    (h : scanValue env h1 depth s = .ok p) : scanValue env h2 depth s = .ok p := by
  have hk : ∀ (m m' : Py (List (PyStr × JVal F) × PyStr)) (p : JVal F × PyStr),
      (∀ q, m = .ok q → m' = .ok q) → hooked h1 m = .ok p → hooked h2 m' = .ok p := by
    intro m m' p hm h
    cases m with
    | error e => cases h
    | ok q =>
      rw [hm q rfl]
      unfold hooked at h ⊢
      simp only at h ⊢
      cases h3 : h1 q.1 with
      | error e => rw [h3] at h; cases h
      | ok v => rw [hh _ _ h3]; rw [h3] at h; exact h
  induction depth generalizing s p with
  | zero =>
    cases s with
    | nil => cases h
    | cons c r => unfold scanValue at h ⊢; exact h
  | succ depth ih =>
    cases s with
    | nil => cases h
    | cons c r =>
      unfold scanValue at h ⊢
      by_cases h3 : c = 34
      · rw [if_pos h3] at h ⊢; exact h
      rw [if_neg h3] at h ⊢
      by_cases h3 : c = 91
      · rw [if_pos h3] at h ⊢
        unfold scanArray at h ⊢
        cases h4 : skipWs r with
        | nil => rw [h4] at h; cases h
        | cons c' r1 =>
          rw [h4] at h
          simp only at h ⊢
          by_cases h5 : c' = 93
          · rw [if_pos h5] at h ⊢; exact h
          · rw [if_neg h5] at h ⊢
            cases h6 : scanItems (scanValue env h1 depth) (r1.length + 1) (c' :: r1) with
            | error e => rw [h6] at h; cases h
            | ok x => rw [scanItems_mono ih _ _ _ h6]; rw [h6] at h; exact h
      rw [if_neg h3] at h ⊢
      by_cases h3 : c = 123
      · rw [if_pos h3] at h ⊢
        unfold scanObject at h ⊢
        cases h4 : skipWs r with
        | nil => rw [h4] at h; cases h
        | cons c' r1 =>
          rw [h4] at h
          simp only at h ⊢
          by_cases h5 : c' = 125
          · rw [if_pos h5] at h ⊢; exact hk _ _ _ (fun q hq => hq) h
          · rw [if_neg h5] at h ⊢
            exact hk _ _ _ (fun q hq => scanPairs_mono ih _ _ _ hq) h
      rw [if_neg h3] at h ⊢
      exact h

/-- A hook that only accepts or refuses: what is accepted is what the text says. -/
theorem loadsHook_parseTree {env : JsonEnv F} {hook : List (PyStr × JVal F) → Py (JVal F)}
    (hh : ∀ ps v, hook ps = .ok v → v = .dict ps) {text : PyStr} {v : JVal F}
    (h : loadsHook env hook text = .ok v) : parseTree env text = .ok v := by
  unfold parseTree loadsHook at *
  cases h1 : scanValue env hook env.depth (skipWs text) with
  | error e => rw [h1] at h; cases h
  | ok p =>
    rw [scanValue_mono (h2 := fun ps => .ok (.dict ps)) (fun ps v hv => by rw [hh ps v hv]) _ _ _ h1]
    rw [h1] at h
    exact h

end Json
end Tink
