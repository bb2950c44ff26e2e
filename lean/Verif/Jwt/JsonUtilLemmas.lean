import Verif.Jwt.JsonUtil
import Verif.Json.RoundTrip

namespace Tink
namespace JsonUtil
open Json Spec

variable {F : Type}

/-- The strings of the value of a pair that are looked at. -/
def GoodValue (x : JVal F) : Prop :=
  (∀ s, x = .str s → ValidText s) ∧ ∀ l s, x = .list l → .str s ∈ l → ValidText s

/-- Pairs that pass the validation. -/
def GoodPairs (ps : List (PyStr × JVal F)) : Prop :=
  (ps.map Prod.fst).Nodup ∧ ∀ k x, (k, x) ∈ ps → ValidText k ∧ GoodValue x

theorem validateStr_iff (s : PyStr) :
    (validateStr s = .ok () ∧ ValidText s) ∨ (validateStr s = .error .unicodeError ∧ ¬ ValidText s) := by
  unfold validateStr utf8Encode
  by_cases h : s.all isScalar = true
  · left
    rw [if_pos h]
    exact ⟨rfl, by simpa [ValidText] using h⟩
  · right
    rw [if_neg h]
    refine ⟨rfl, fun hv => h ?_⟩
    simpa [ValidText] using hv

theorem validateItems_iff (l : List (JVal F)) :
    (validateItems l = .ok () ∧ ∀ s, .str s ∈ l → ValidText s) ∨
      (validateItems l = .error .unicodeError ∧ ¬ ∀ s, .str s ∈ l → ValidText s) := by
  induction l with
  | nil => exact .inl ⟨rfl, by simp⟩
  | cons x l ih =>
    have other : (∀ s, x ≠ .str s) → validateItems (x :: l) = validateItems l →
        (validateItems (x :: l) = .ok () ∧ ∀ s, .str s ∈ x :: l → ValidText s) ∨
        (validateItems (x :: l) = .error .unicodeError ∧ ¬ ∀ s, .str s ∈ x :: l → ValidText s) := by
      intro hx he
      rw [he]
      have : ∀ s, JVal.str s ∈ x :: l ↔ JVal.str s ∈ l := by
        intro s
        simp only [List.mem_cons, or_iff_right_iff_imp]
        intro h; exact absurd h.symm (hx s)
      simp only [this]
      exact ih
    cases x with
    | str s =>
      unfold validateItems
      rcases validateStr_iff s with ⟨h1, h2⟩ | ⟨h1, h2⟩
      · rw [h1]
        simp only
        rcases ih with ⟨h3, h4⟩ | ⟨h3, h4⟩
        · refine .inl ⟨h3, fun t ht => ?_⟩
          rcases List.mem_cons.1 ht with ht | ht
          · cases ht; exact h2
          · exact h4 t ht
        · exact .inr ⟨h3, fun h => h4 fun t ht => h t (by simp [ht])⟩
      · rw [h1]
        exact .inr ⟨rfl, fun h => h2 (h s (by simp))⟩
    | null => exact other (by simp) rfl
    | bool b => exact other (by simp) rfl
    | int b => exact other (by simp) rfl
    | float b => exact other (by simp) rfl
    | list b => exact other (by simp) rfl
    | dict b => exact other (by simp) rfl

theorem validateValue_iff (x : JVal F) :
    (validateValue x = .ok () ∧ GoodValue x) ∨
      (validateValue x = .error .unicodeError ∧ ¬ GoodValue x) := by
  unfold GoodValue
  cases x with
  | str s =>
    unfold validateValue
    rcases validateStr_iff s with ⟨h1, h2⟩ | ⟨h1, h2⟩
    · exact .inl ⟨h1, by simpa using h2⟩
    · exact .inr ⟨h1, by simpa using h2⟩
  | list l =>
    unfold validateValue
    rcases validateItems_iff l with ⟨h1, h2⟩ | ⟨h1, h2⟩
    · exact .inl ⟨h1, by simp, by intro l' s h; cases h; exact h2 s⟩
    · exact .inr ⟨h1, fun h => h2 fun s => h.2 l s rfl⟩
  | null => exact .inl ⟨rfl, by simp⟩
  | bool b => exact .inl ⟨rfl, by simp⟩
  | int b => exact .inl ⟨rfl, by simp⟩
  | float b => exact .inl ⟨rfl, by simp⟩
  | dict b => exact .inl ⟨rfl, by simp⟩

/-- The errors of the validation. -/
def HookError (e : Exc) : Prop := e = .unicodeError ∨ e = .jwtInvalidError

theorem validatePairs_iff (keys : List PyStr) (ps : List (PyStr × JVal F)) :
    (validatePairs keys ps = .ok () ∧ GoodPairs ps ∧ ∀ k x, (k, x) ∈ ps → k ∉ keys) ∨
      ∃ e, validatePairs keys ps = .error e ∧ HookError e ∧
        ¬ (GoodPairs ps ∧ ∀ k x, (k, x) ∈ ps → k ∉ keys) := by
  induction ps generalizing keys with
  | nil => exact .inl ⟨rfl, ⟨List.nodup_nil, by simp⟩, by simp⟩
  | cons p ps ih =>
    obtain ⟨k, x⟩ := p
    unfold validatePairs
    rcases validateStr_iff k with ⟨h1, h2⟩ | ⟨h1, h2⟩
    · rw [h1]
      simp only
      by_cases hk : k ∈ keys
      · rw [if_pos hk]
        exact .inr ⟨_, rfl, .inr rfl, fun h => h.2 k x (by simp) hk⟩
      · rw [if_neg hk]
        rcases validateValue_iff x with ⟨h3, h4⟩ | ⟨h3, h4⟩
        · rw [h3]
          simp only
          have hiff : (GoodPairs ((k, x) :: ps) ∧ ∀ k' x', (k', x') ∈ (k, x) :: ps → k' ∉ keys) ↔
              (GoodPairs ps ∧ ∀ k' x', (k', x') ∈ ps → k' ∉ k :: keys) := by
            constructor
            · rintro ⟨⟨hn, hg⟩, hd⟩
              rw [List.map_cons, List.nodup_cons] at hn
              refine ⟨⟨hn.2, fun a b hab => hg a b (by simp [hab])⟩, fun a b hab hmem => ?_⟩
              rcases List.mem_cons.1 hmem with rfl | hmem
              · exact hn.1 (List.mem_map.2 ⟨(a, b), hab, rfl⟩)
              · exact hd a b (by simp [hab]) hmem
            · rintro ⟨⟨hn, hg⟩, hd⟩
              refine ⟨⟨?_, ?_⟩, ?_⟩
              · rw [List.map_cons, List.nodup_cons]
                refine ⟨fun hmem => ?_, hn⟩
                obtain ⟨⟨a, b⟩, hab, he⟩ := List.mem_map.1 hmem
                simp only at he
                exact hd a b hab (by simp [he])
              · intro a b hab
                rcases List.mem_cons.1 hab with hab | hab
                · cases hab; exact ⟨h2, h4⟩
                · exact hg a b hab
              · intro a b hab hmem
                rcases List.mem_cons.1 hab with hab | hab
                · cases hab; exact hk hmem
                · exact hd a b hab (by simp [hmem])
          rcases ih (k :: keys) with ⟨h5, h6⟩ | ⟨e, h5, h6, h7⟩
          · exact .inl ⟨h5, hiff.2 h6⟩
          · exact .inr ⟨e, h5, h6, fun h => h7 (hiff.1 h)⟩
        · rw [h3]
          exact .inr ⟨_, rfl, .inl rfl, fun h => h4 (h.1.2 k x (by simp)).2⟩
    · rw [h1]
      exact .inr ⟨_, rfl, .inl rfl, fun h => h2 (h.1.2 k x (by simp)).1⟩

theorem dictWithValidation_iff (ps : List (PyStr × JVal F)) :
    (dictWithValidation ps = .ok (.dict ps) ∧ GoodPairs ps) ∨
      ∃ e, dictWithValidation ps = .error e ∧ HookError e ∧ ¬ GoodPairs ps := by
  unfold dictWithValidation
  rcases validatePairs_iff [] ps with ⟨h1, h2, _⟩ | ⟨e, h1, h2, h3⟩
  · rw [h1]
    exact .inl ⟨by simp only [dictOf_nodup h2.1], h2⟩
  · rw [h1]
    exact .inr ⟨e, rfl, h2, fun h => h3 ⟨h, by simp⟩⟩

/-- A value all of whose objects pass the validation. -/
def Good (v : JVal F) : Prop := ∀ d, Within (.dict d) v → GoodPairs d

theorem Good.list {l : List (JVal F)} : Good (.list l) ↔ ∀ x ∈ l, Good x := by
  constructor
  · exact fun h x hx d hd => h d (.item hx hd)
  · intro h d hd
    cases hd with
    | item hx hw => exact h _ hx d hw

theorem Good.dict {d : List (PyStr × JVal F)} :
    Good (.dict d) ↔ GoodPairs d ∧ ∀ k x, (k, x) ∈ d → Good x := by
  constructor
  · exact fun h => ⟨h d .here, fun k x hx e he => h e (.value hx he)⟩
  · rintro ⟨h1, h2⟩ e he
    cases he with
    | here => exact h1
    | value hx hw => exact h2 _ _ hx e hw

/-- How the scan with validation (second) compares with the one that keeps all pairs (first), where
`good` says what passes. -/
def Compare {α : Type} (good : α → Prop) : Py (α × PyStr) → Py (α × PyStr) → Prop
  | .ok (v, r), .ok (v', r') => v = v' ∧ r = r' ∧ good v
  | .ok (v, _), .error e => HookError e ∧ ¬ good v
  | .error _, .ok _ => False
  | .error e, .error e' => e' = e ∨ HookError e'

theorem Compare.same {α : Type} {good : α → Prop} {m : Py (α × PyStr)}
    (h : ∀ v r, m = .ok (v, r) → good v) : Compare good m m := by
  cases m with
  | error e => exact .inl rfl
  | ok p => exact ⟨rfl, rfl, h p.1 p.2 rfl⟩

theorem Compare.cons {α : Type} {g : α → Prop} {a : α} (ha : g a) {m m' : Py (List α × PyStr)}
    (h : Compare (fun l => ∀ x ∈ l, g x) m m') :
    Compare (fun l => ∀ x ∈ l, g x) (consScan a m) (consScan a m') := by
  cases m with
  | error e =>
    cases m' with
    | error e' => exact h
    | ok p' => exact h
  | ok p =>
    cases m' with
    | error e' => exact ⟨h.1, fun hg => h.2 fun x hx => hg x (by simp [hx])⟩
    | ok p' =>
      obtain ⟨h1, h2, h3⟩ := h
      refine ⟨by rw [h1], h2, ?_⟩
      intro x hx
      rcases List.mem_cons.1 hx with rfl | hx
      · exact ha
      · exact h3 x hx

/-- When the scan with validation has failed, whatever comes later in the other is no matter. -/
theorem Compare.failed {α : Type} {g : List α → Prop} {a : α} (hb : ∀ l, ¬ g (a :: l)) {e : Exc}
    (he : HookError e) (m : Py (List α × PyStr)) : Compare g (consScan a m) (.error e) := by
  cases m with
  | error e' => exact .inr he
  | ok p => exact ⟨he, hb p.1⟩

theorem scanItems_compare {s1 s2 : PyStr → Py (JVal F × PyStr)}
    (hs : ∀ s, Compare Good (s1 s) (s2 s)) (n : Nat) (s : PyStr) :
    Compare (fun l => ∀ x ∈ l, Good x) (scanItems s1 n s) (scanItems s2 n s) := by
  induction n generalizing s with
  | zero => exact .inl rfl
  | succ n ih =>
    unfold scanItems
    have h := hs s
    cases h1 : s1 s with
    | error e =>
      cases h2 : s2 s with
      | error e' => rw [h1, h2] at h; exact h
      | ok p' => rw [h1, h2] at h; exact h.elim
    | ok p =>
      obtain ⟨v, r⟩ := p
      cases h2 : s2 s with
      | error e' =>
        rw [h1, h2] at h
        simp only
        cases skipWs r with
        | nil => exact .inr h.1
        | cons c r1 =>
          simp only
          split
          · exact ⟨h.1, fun hg => h.2 (hg v (by simp))⟩
          split
          · exact Compare.failed (fun l hg => h.2 (hg v (by simp))) h.1 _
          · exact .inr h.1
      | ok p' =>
        rw [h1, h2] at h
        obtain ⟨v', r'⟩ := p'
        obtain ⟨rfl, rfl, hv⟩ := h
        simp only
        cases skipWs r with
        | nil => exact .inl rfl
        | cons c r1 =>
          simp only
          split
          · exact ⟨rfl, rfl, by simpa using hv⟩
          split
          · exact Compare.cons hv (ih _)
          · exact .inl rfl

theorem scanPairs_compare {s1 s2 : PyStr → Py (JVal F × PyStr)}
    (hs : ∀ s, Compare Good (s1 s) (s2 s)) (n : Nat) (s : PyStr) :
    Compare (fun l : List (PyStr × JVal F) => ∀ p ∈ l, Good p.2) (scanPairs s1 n s)
      (scanPairs s2 n s) := by
  induction n generalizing s with
  | zero => exact .inl rfl
  | succ n ih =>
    unfold scanPairs
    cases hk : scanKey s with
    | error e => exact .inl rfl
    | ok q =>
      obtain ⟨k, s'⟩ := q
      simp only
      have h := hs s'
      cases h1 : s1 s' with
      | error e =>
        cases h2 : s2 s' with
        | error e' => rw [h1, h2] at h; exact h
        | ok p' => rw [h1, h2] at h; exact h.elim
      | ok p =>
        obtain ⟨v, r⟩ := p
        cases h2 : s2 s' with
        | error e' =>
          rw [h1, h2] at h
          simp only
          cases skipWs r with
          | nil => exact .inr h.1
          | cons c r1 =>
            simp only
            split
            · exact ⟨h.1, fun hg => h.2 (hg (k, v) (by simp))⟩
            split
            · exact Compare.failed (fun l hg => h.2 (hg (k, v) (by simp))) h.1 _
            · exact .inr h.1
        | ok p' =>
          rw [h1, h2] at h
          obtain ⟨v', r'⟩ := p'
          obtain ⟨rfl, rfl, hv⟩ := h
          simp only
          cases skipWs r with
          | nil => exact .inl rfl
          | cons c r1 =>
            simp only
            split
            · exact ⟨rfl, rfl, by simpa using hv⟩
            split
            · exact Compare.cons (g := fun p : PyStr × JVal F => Good p.2) (a := (k, v)) hv (ih _)
            · exact .inl rfl

theorem listed_compare {m m' : Py (List (JVal F) × PyStr)}
    (h : Compare (fun l => ∀ x ∈ l, Good x) m m') : Compare Good (listed m) (listed m') := by
  cases m with
  | error e =>
    cases m' with
    | error e' => exact h
    | ok p' => exact h
  | ok p =>
    cases m' with
    | error e' => exact ⟨h.1, fun hg => h.2 (Good.list.1 hg)⟩
    | ok p' =>
      obtain ⟨h1, h2, h3⟩ := h
      exact ⟨by rw [h1], h2, Good.list.2 h3⟩

/-- Keeps all pairs. -/
abbrev keepPairs (ps : List (PyStr × JVal F)) : Py (JVal F) := .ok (.dict ps)

theorem hooked_compare {m m' : Py (List (PyStr × JVal F) × PyStr)}
    (h : Compare (fun l : List (PyStr × JVal F) => ∀ p ∈ l, Good p.2) m m') :
    Compare Good (hooked keepPairs m) (hooked dictWithValidation m') := by
  cases m with
  | error e =>
    cases m' with
    | error e' => exact h
    | ok p' => exact h.elim
  | ok p =>
    cases m' with
    | error e' => exact ⟨h.1, fun hg => h.2 fun q hq => (Good.dict.1 hg).2 q.1 q.2 hq⟩
    | ok p' =>
      obtain ⟨ps, r⟩ := p
      obtain ⟨ps', r'⟩ := p'
      obtain ⟨rfl, rfl, h3⟩ := h
      unfold hooked
      simp only
      rcases dictWithValidation_iff ps with ⟨h4, h5⟩ | ⟨e, h4, h5, h6⟩
      · rw [h4]
        exact ⟨rfl, rfl, Good.dict.2 ⟨h5, fun k x hx => h3 (k, x) hx⟩⟩
      · rw [h4]
        exact ⟨h5, fun hg => h6 (Good.dict.1 hg).1⟩

theorem scanString_value_good (s : PyStr) : Good (F := F) (.str s) := by
  intro d hd
  cases hd

theorem numberValue_ok {env : JsonEnv F} {n : Numeral} {v : JVal F} (h : numberValue env n = .ok v) :
    (∃ i, v = .int i) ∨ ∃ x, v = .float x := by
  unfold numberValue at h
  repeat' split at h
  all_goals cases h
  all_goals first | exact .inl ⟨_, rfl⟩ | exact .inr ⟨_, rfl⟩

theorem scanScalar_ok {env : JsonEnv F} {s : PyStr} {v : JVal F} {r : PyStr}
    (h : scanScalar env s = .ok (v, r)) :
    v = .null ∨ (∃ b, v = .bool b) ∨ (∃ i, v = .int i) ∨ ∃ x, v = .float x := by
  unfold scanScalar at h
  repeat' split at h
  all_goals try (cases h; done)
  all_goals (simp only [Except.ok.injEq, Prod.mk.injEq] at h; obtain ⟨rfl, _⟩ := h)
  · exact .inl rfl
  · exact .inr (.inl ⟨_, rfl⟩)
  · exact .inr (.inl ⟨_, rfl⟩)
  · exact .inr (.inr (.inr ⟨_, rfl⟩))
  · exact .inr (.inr (.inr ⟨_, rfl⟩))
  · exact .inr (.inr (.inr ⟨_, rfl⟩))
  · rename_i h1 _
    exact .inr (.inr (numberValue_ok h1))

theorem scanScalar_good (env : JsonEnv F) (s : PyStr) (v : JVal F) (r : PyStr)
    (h : scanScalar env s = .ok (v, r)) : Good v := by
  intro d hd
  rcases scanScalar_ok h with rfl | ⟨_, rfl⟩ | ⟨_, rfl⟩ | ⟨_, rfl⟩ <;> cases hd

theorem scanValue_compare (env : JsonEnv F) (depth : Nat) (s : PyStr) :
    Compare Good (scanValue env keepPairs depth s) (scanValue env dictWithValidation depth s) := by
  have str : ∀ r : PyStr, Compare (Good (F := F))
      (match scanString r with | .ok (s, r1) => .ok (.str s, r1) | .error e => .error e)
      (match scanString r with | .ok (s, r1) => .ok (.str s, r1) | .error e => .error e) := by
    intro r
    refine Compare.same fun v r' h => ?_
    cases hs : scanString r with
    | error e => rw [hs] at h; cases h
    | ok p => rw [hs] at h; cases h; exact scanString_value_good _
  induction depth generalizing s with
  | zero =>
    cases s with
    | nil => exact .inl rfl
    | cons c r =>
      unfold scanValue
      split
      · exact str r
      split
      · exact .inl rfl
      · exact Compare.same fun v r' h => scanScalar_good env _ v r' h
  | succ depth ih =>
    cases s with
    | nil => exact .inl rfl
    | cons c r =>
      unfold scanValue
      split
      · exact str r
      split
      · unfold scanArray
        cases skipWs r with
        | nil => exact .inl rfl
        | cons c r1 =>
          simp only
          split
          · exact ⟨rfl, rfl, Good.list.2 (by simp)⟩
          · exact listed_compare (scanItems_compare ih _ _)
      split
      · unfold scanObject
        cases skipWs r with
        | nil => exact .inl rfl
        | cons c r1 =>
          simp only
          split
          · exact ⟨rfl, rfl, Good.dict.2 ⟨⟨List.nodup_nil, by simp⟩, by simp⟩⟩
          · exact hooked_compare (scanPairs_compare ih _ _)
      · exact Compare.same fun v r' h => scanScalar_good env _ v r' h

/-- `json_loads` by what the text says. -/
theorem loadsHook_compare (env : JsonEnv F) (text : PyStr) :
    (∃ v, parseTree env text = .ok v ∧ Good v ∧ loadsHook env dictWithValidation text = .ok v) ∨
    (∃ v e, parseTree env text = .ok v ∧ ¬ Good v ∧ HookError e ∧
      loadsHook env dictWithValidation text = .error e) ∨
    (∃ e e', parseTree env text = .error e ∧ loadsHook env dictWithValidation text = .error e' ∧
      (e' = e ∨ HookError e')) := by
  have h := scanValue_compare env env.depth (skipWs text)
  unfold parseTree loadsHook
  cases h1 : scanValue env keepPairs env.depth (skipWs text) with
  | error e =>
    cases h2 : scanValue env dictWithValidation env.depth (skipWs text) with
    | error e' => rw [h1, h2] at h; exact .inr (.inr ⟨e, e', rfl, rfl, h⟩)
    | ok p' => rw [h1, h2] at h; exact h.elim
  | ok p =>
    obtain ⟨v, r⟩ := p
    cases h2 : scanValue env dictWithValidation env.depth (skipWs text) with
    | error e' =>
      rw [h1, h2] at h
      simp only
      split
      · exact .inr (.inl ⟨v, e', rfl, h.2, h.1, rfl⟩)
      · exact .inr (.inr ⟨_, e', rfl, rfl, .inr h.1⟩)
    | ok p' =>
      rw [h1, h2] at h
      obtain ⟨v', r'⟩ := p'
      obtain ⟨rfl, rfl, hv⟩ := h
      simp only
      split
      · exact .inl ⟨v, rfl, hv, rfl⟩
      · exact .inr (.inr ⟨_, _, rfl, rfl, .inl rfl⟩)

/-! ## Errors -/

/-- The errors of `json.loads` itself. -/
def ScanError (env : JsonEnv F) (e : Exc) : Prop :=
  e = .jsonDecodeError ∨ e = .recursionError ∨ (e = .valueError ∧ env.maxDigits ≠ none)

theorem scanUnits_error (n : Nat) (s : PyStr) (hn : s.length ≤ n) (e : Exc)
    (h : scanUnits s = .error e) : e = .jsonDecodeError := by
  have cons : ∀ {c : Nat × Bool} {m : Py (List (Nat × Bool) × PyStr)},
      consScan c m = .error e → m = .error e := by
    intro c m hm
    cases m with
    | error e' => exact hm
    | ok p => cases hm
  induction n generalizing s with
  | zero =>
    cases s with
    | nil => cases h; rfl
    | cons c r => simp at hn
  | succ n ih =>
    cases s with
    | nil => cases h; rfl
    | cons c r =>
      have hlen : r.length ≤ n := by simpa using hn
      unfold scanUnits at h
      repeat' split at h
      all_goals try (cases h; done)
      all_goals try (cases h; rfl)
      all_goals first
        | exact ih _ hlen (cons h)
        | (simp only [List.length_cons] at hlen; exact ih _ (by omega) (cons h))

theorem scanString_error {s : PyStr} {e : Exc} (h : scanString s = .error e) :
    e = .jsonDecodeError := by
  unfold scanString at h
  cases hs : scanUnits s with
  | error e' => rw [hs] at h; cases h; exact scanUnits_error _ s (Nat.le_refl _) _ hs
  | ok p => rw [hs] at h; cases h

theorem scanScalar_error {env : JsonEnv F} {s : PyStr} {e : Exc} (h : scanScalar env s = .error e) :
    ScanError env e := by
  unfold scanScalar at h
  repeat' split at h
  all_goals try (cases h; done)
  all_goals try (cases h; exact .inl rfl)
  cases h
  rename_i h1
  unfold numberValue at h1
  repeat' split at h1
  all_goals cases h1
  rename_i h2
  refine .inr (.inr ⟨rfl, fun hn => h2 ?_⟩)
  unfold JsonEnv.digitsOk
  rw [hn]

theorem scanItems_error {env : JsonEnv F} {scan : PyStr → Py (JVal F × PyStr)}
    (hs : ∀ s e, scan s = .error e → ScanError env e) (n : Nat) (s : PyStr) (e : Exc)
    (h : scanItems scan n s = .error e) : ScanError env e := by
  induction n generalizing s with
  | zero => cases h; exact .inl rfl
  | succ n ih =>
    unfold scanItems at h
    cases h1 : scan s with
    | error e' => rw [h1] at h; cases h; exact hs _ _ h1
    | ok p =>
      rw [h1] at h
      simp only at h
      repeat' split at h
      all_goals try (cases h; done)
      all_goals try (cases h; exact .inl rfl)
      rename_i r1 _ _ _
      cases h2 : scanItems scan n (skipWs r1) with
      | error e' => rw [h2] at h; cases h; exact ih _ h2
      | ok p' => rw [h2] at h; cases h

theorem scanKey_error {env : JsonEnv F} {s : PyStr} {e : Exc} (h : scanKey s = .error e) :
    ScanError env e := by
  unfold scanKey at h
  repeat' split at h
  all_goals try (cases h; done)
  all_goals try (cases h; exact .inl rfl)
  cases h
  rename_i h1
  exact .inl (scanString_error h1)

theorem scanPairs_error {env : JsonEnv F} {scan : PyStr → Py (JVal F × PyStr)}
    (hs : ∀ s e, scan s = .error e → ScanError env e) (n : Nat) (s : PyStr) (e : Exc)
    (h : scanPairs scan n s = .error e) : ScanError env e := by
  induction n generalizing s with
  | zero => cases h; exact .inl rfl
  | succ n ih =>
    unfold scanPairs at h
    cases h0 : scanKey s with
    | error e' => rw [h0] at h; cases h; exact scanKey_error h0
    | ok q =>
      rw [h0] at h
      simp only at h
      cases h1 : scan q.2 with
      | error e' => rw [h1] at h; cases h; exact hs _ _ h1
      | ok p =>
        rw [h1] at h
        simp only at h
        repeat' split at h
        all_goals try (cases h; done)
        all_goals try (cases h; exact .inl rfl)
        rename_i r1 _ _ _
        cases h2 : scanPairs scan n (skipWs r1) with
        | error e' => rw [h2] at h; cases h; exact ih _ h2
        | ok p' => rw [h2] at h; cases h

theorem scanValue_error (env : JsonEnv F) (depth : Nat) (s : PyStr) (e : Exc)
    (h : scanValue env keepPairs depth s = .error e) : ScanError env e := by
  have str : ∀ (r : PyStr) (e : Exc), (match scanString r with
      | .ok (s, r1) => (.ok (.str s, r1) : Py (JVal F × PyStr)) | .error e => .error e) = .error e →
      ScanError env e := by
    intro r e h
    cases hs : scanString r with
    | error e' => rw [hs] at h; cases h; exact .inl (scanString_error hs)
    | ok p => rw [hs] at h; cases h
  induction depth generalizing s e with
  | zero =>
    cases s with
    | nil => cases h; exact .inl rfl
    | cons c r =>
      unfold scanValue at h
      by_cases h1 : c = 34
      · rw [if_pos h1] at h; exact str r _ h
      rw [if_neg h1] at h
      by_cases h2 : c = 91 ∨ c = 123
      · rw [if_pos h2] at h; cases h; exact .inr (.inl rfl)
      rw [if_neg h2] at h
      exact scanScalar_error h
  | succ depth ih =>
    cases s with
    | nil => cases h; exact .inl rfl
    | cons c r =>
      unfold scanValue at h
      by_cases h1 : c = 34
      · rw [if_pos h1] at h; exact str r _ h
      rw [if_neg h1] at h
      by_cases h2 : c = 91
      · rw [if_pos h2] at h
        unfold scanArray at h
        cases h3 : skipWs r with
        | nil => rw [h3] at h; cases h; exact .inl rfl
        | cons c' r1 =>
          rw [h3] at h
          simp only at h
          by_cases h4 : c' = 93
          · rw [if_pos h4] at h; cases h
          · rw [if_neg h4] at h
            cases h5 : scanItems (scanValue env keepPairs depth) (r1.length + 1) (c' :: r1) with
            | error e' => rw [h5] at h; cases h; exact scanItems_error ih _ _ _ h5
            | ok p => rw [h5] at h; cases h
      rw [if_neg h2] at h
      by_cases h2 : c = 123
      · rw [if_pos h2] at h
        unfold scanObject at h
        cases h3 : skipWs r with
        | nil => rw [h3] at h; cases h; exact .inl rfl
        | cons c' r1 =>
          rw [h3] at h
          simp only at h
          by_cases h4 : c' = 125
          · rw [if_pos h4] at h; cases h
          · rw [if_neg h4] at h
            cases h5 : scanPairs (scanValue env keepPairs depth) (r1.length + 1) (c' :: r1) with
            | error e' => rw [h5] at h; cases h; exact scanPairs_error ih _ _ _ h5
            | ok p => rw [h5] at h; cases h
      rw [if_neg h2] at h
      exact scanScalar_error h

theorem parseTree_error (env : JsonEnv F) (text : PyStr) (e : Exc)
    (h : parseTree env text = .error e) : ScanError env e := by
  unfold parseTree loadsHook at h
  cases h1 : scanValue env keepPairs env.depth (skipWs text) with
  | error e' => rw [h1] at h; cases h; exact scanValue_error env _ _ _ h1
  | ok p =>
    rw [h1] at h
    simp only at h
    split at h
    · cases h
    · cases h; exact .inl rfl

end JsonUtil
end Tink
