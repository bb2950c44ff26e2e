import Verif.Json.Hooks

/-!
# A hook that accepts all objects of a text
-/

namespace Tink
namespace Json
open Spec

variable {F : Type}

theorem consScan_inv {α : Type} {a : α} {m : Py (List α × PyStr)} {p : List α × PyStr}
    (h : consScan a m = .ok p) : ∃ q, m = .ok q ∧ p = (a :: q.1, q.2) := by
  cases m with
  | error e => cases h
  | ok q => cases h; exact ⟨q, rfl, rfl⟩

theorem scanItems_agree {s1 s2 : PyStr → Py (JVal F × PyStr)} (P : JVal F → Prop)
    (hs : ∀ s p, s1 s = .ok p → P p.1 → s2 s = .ok p) (n : Nat) (s : PyStr)
    (p : List (JVal F) × PyStr) (h : scanItems s1 n s = .ok p) (hp : ∀ x ∈ p.1, P x) :
    scanItems s2 n s = .ok p := by
  induction n generalizing s p with
  | zero => cases h
  | succ n ih =>
    unfold scanItems at h ⊢
    cases h1 : s1 s with
    | error e => rw [h1] at h; cases h
    | ok q =>
      rw [h1] at h
      obtain ⟨v, r⟩ := q
      simp only at h
      cases h2 : skipWs r with
      | nil => rw [h2] at h; cases h
      | cons c r1 =>
        rw [h2] at h
        simp only at h
        by_cases h3 : c = 93
        · rw [if_pos h3] at h
          cases h
          rw [hs _ _ h1 (hp v (by simp))]
          simp only [h2, h3, if_true]
        rw [if_neg h3] at h
        by_cases h4 : c = 44
        · rw [if_pos h4] at h
          obtain ⟨q, hq, rfl⟩ := consScan_inv h
          rw [hs _ _ h1 (hp v (by simp))]
          simp only [h2]
          rw [if_neg h3, if_pos h4, ih _ _ hq (fun x hx => hp x (by simp [hx]))]
          rfl
        · rw [if_neg h4] at h; cases h

theorem scanPairs_agree {s1 s2 : PyStr → Py (JVal F × PyStr)} (P : JVal F → Prop)
    (hs : ∀ s p, s1 s = .ok p → P p.1 → s2 s = .ok p) (n : Nat) (s : PyStr)
    (p : List (PyStr × JVal F) × PyStr) (h : scanPairs s1 n s = .ok p)
    (hp : ∀ x ∈ p.1, P x.2) : scanPairs s2 n s = .ok p := by
  induction n generalizing s p with
  | zero => cases h
  | succ n ih =>
    unfold scanPairs at h ⊢
    cases h0 : scanKey s with
    | error e => rw [h0] at h; cases h
    | ok k =>
      rw [h0] at h
      simp only at h ⊢
      cases h1 : s1 k.2 with
      | error e => rw [h1] at h; cases h
      | ok q =>
        rw [h1] at h
        obtain ⟨v, r⟩ := q
        simp only at h
        cases h2 : skipWs r with
        | nil => rw [h2] at h; cases h
        | cons c r1 =>
          rw [h2] at h
          simp only at h
          by_cases h3 : c = 125
          · rw [if_pos h3] at h
            cases h
            rw [hs _ _ h1 (hp (k.1, v) (by simp))]
            simp only [h2, h3, if_true]
          rw [if_neg h3] at h
          by_cases h4 : c = 44
          · rw [if_pos h4] at h
            obtain ⟨q, hq, rfl⟩ := consScan_inv h
            rw [hs _ _ h1 (hp (k.1, v) (by simp))]
            simp only [h2]
            rw [if_neg h3, if_pos h4, ih _ _ hq (fun x hx => hp x (by simp [hx]))]
            rfl
          · rw [if_neg h4] at h; cases h

/-- Every object of `v` is accepted as it is. -/
def AcceptsAll (hook : List (PyStr × JVal F) → Py (JVal F)) (v : JVal F) : Prop :=
  ∀ d, Within (.dict d) v → hook d = .ok (.dict d)

theorem scanValue_agree {env : JsonEnv F} {hook : List (PyStr × JVal F) → Py (JVal F)}
    (depth : Nat) (s : PyStr) (p : JVal F × PyStr)
    (h : scanValue env (fun ps => .ok (.dict ps)) depth s = .ok p) (hp : AcceptsAll hook p.1) :
    scanValue env hook depth s = .ok p := by
  induction depth generalizing s p with
  | zero =>
    cases s with
    | nil => cases h
    | cons c r => unfold scanValue at h ⊢; exact h
  | succ depth ih =>
    cases s with
    | nil => cases h
    | cons c r =>
      unfold scanValue at h ⊢
      by_cases h3 : c = 34
      · rw [if_pos h3] at h ⊢; exact h
      rw [if_neg h3] at h ⊢
      by_cases h3 : c = 91
      · rw [if_pos h3] at h ⊢
        unfold scanArray at h ⊢
        cases h4 : skipWs r with
        | nil => rw [h4] at h; cases h
        | cons c' r1 =>
          rw [h4] at h
          simp only at h ⊢
          by_cases h5 : c' = 93
          · rw [if_pos h5] at h ⊢; exact h
          · rw [if_neg h5] at h ⊢
            cases h6 : scanItems (scanValue env (fun ps => .ok (.dict ps)) depth) (r1.length + 1)
                (c' :: r1) with
            | error e => rw [h6] at h; cases h
            | ok x =>
              rw [h6] at h
              cases h
              rw [scanItems_agree (AcceptsAll hook) ih _ _ _ h6 fun x hx d hd => hp d (.item hx hd)]
              rfl
      rw [if_neg h3] at h ⊢
      by_cases h3 : c = 123
      · rw [if_pos h3] at h ⊢
        unfold scanObject at h ⊢
        cases h4 : skipWs r with
        | nil => rw [h4] at h; cases h
        | cons c' r1 =>
          rw [h4] at h
          simp only at h ⊢
          by_cases h5 : c' = 125
          · rw [if_pos h5] at h ⊢
            cases h
            simp only [hooked, hp [] .here]
          · rw [if_neg h5] at h ⊢
            cases h6 : scanPairs (scanValue env (fun ps => .ok (.dict ps)) depth) (r1.length + 1)
                (c' :: r1) with
            | error e => rw [h6] at h; cases h
            | ok x =>
              rw [h6] at h
              cases h
              rw [scanPairs_agree (AcceptsAll hook) ih _ _ _ h6
                fun x hx d hd => hp d (.value (k := x.1) hx hd)]
              simp only [hooked, hp _ .here]
      rw [if_neg h3] at h ⊢
      exact h

/-- A hook that accepts all objects of a text as they are: what is read is what the text says. -/
theorem loadsHook_agree {env : JsonEnv F} {hook : List (PyStr × JVal F) → Py (JVal F)}
    {text : PyStr} {v : JVal F} (h : parseTree env text = .ok v) (hv : AcceptsAll hook v) :
    loadsHook env hook text = .ok v := by
  unfold parseTree loadsHook at *
  cases h1 : scanValue env (fun ps => .ok (.dict ps)) env.depth (skipWs text) with
  | error e => rw [h1] at h; cases h
  | ok p =>
    rw [h1] at h
    obtain ⟨w, r⟩ := p
    simp only at h
    split at h
    · rename_i hr
      cases h
      rw [scanValue_agree _ _ _ h1 hv]
      simp only [hr, if_true]
    · cases h

end Json
end Tink
