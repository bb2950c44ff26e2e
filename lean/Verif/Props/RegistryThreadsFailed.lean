import Verif.Props.RegistryThreads

/-!
# C112: calls that fail, and lookups, among those of other threads
-/

namespace Tink.Props
open Spec Threads
variable {P C : Type} [DecidableEq C] {isInst : P → C → Bool}

/-- C112.  A lookup that no other thread interrupts does what it does without threads. -/
theorem C112_uninterrupted_lookup (cfg : Config P C) (u : PStr) :
    let cfg' := cfg.run isInst (.start (.lookup u) :: List.replicate 4 (.step cfg.calls.length))
    cfg'.shared = cfg.shared ∧
    Finished cfg' cfg.calls.length (.lookup u)
      ((cfg.shared.registry.keyManagerInternal u).map fun p => .manager p.1 p.2) := by
  obtain ⟨s, calls⟩ := cfg
  have e : PyDict.get? s.registry.keyManagers u = PyDict.get? (s.keyManagers s.kmNow) u := rfl
  simp only [Config.run, List.foldl_cons, List.replicate_succ, List.replicate_zero, List.foldl_nil,
    Config.next.eq_1, code, Threads.lookup, step_next, id, Registry.keyManagerInternal, e]
  cases hg : PyDict.get? (s.keyManagers s.kmNow) u with
  | none => simp only [step_done]; exact ⟨trivial, by simp [Finished, Except.map]⟩
  | some x => simp only [step_next, id, hg]; exact ⟨trivial, by simp [Finished, Except.map]⟩

/-- C112.  Likewise for finding the wrapper of a class. -/
theorem C112_uninterrupted_wrapper (cfg : Config P C) (c : C) :
    let cfg' := cfg.run isInst (.start (.wrapperFor c) :: List.replicate 4 (.step cfg.calls.length))
    cfg'.shared = cfg.shared ∧
    Finished cfg' cfg.calls.length (.wrapperFor c)
      (match PyDict.get? cfg.shared.registry.wrappers c with
        | none => .error .tinkError
        | some w => .ok (.wrapper w)) := by
  obtain ⟨s, calls⟩ := cfg
  have e : PyDict.get? s.registry.wrappers c = PyDict.get? (s.wrappers s.wrNow) c := rfl
  simp only [Config.run, List.foldl_cons, List.replicate_succ, List.replicate_zero, List.foldl_nil,
    Config.next.eq_1, code, Threads.wrapperFor, step_next, id, e]
  cases hg : PyDict.get? (s.wrappers s.wrNow) c with
  | none => simp only [step_done]; exact ⟨trivial, by simp [Finished]⟩
  | some x => simp only [step_next, id, hg]; exact ⟨trivial, by simp [Finished]⟩

/-- After a step that changes something, no outcome that is `fine` can come. -/
def QuietAct {S α : Type} (fine : α → Prop) : Act S α → Prop
  | .done _ => True
  | .step upd next => ∀ s, (upd s = s ∧ QuietAct fine (next s)) ∨ Never fine (next s)
where
  /-- No outcome that is `fine` can come. -/
  Never {S α : Type} (fine : α → Prop) : Act S α → Prop
    | .done r => ¬ fine r
    | .step _ next => ∀ s, Never fine (next s)

/-- The outcomes of calls that changed nothing. -/
def NoChange : Call P C → Py (Answer P C) → Prop
  | _, .error _ => True
  | .lookup _, .ok _ => True
  | .wrapperFor _, .ok _ => True
  | _, .ok _ => False

theorem code_quietAct (c : Call P C) : QuietAct (NoChange c) (code isInst c) := by
  have check : ∀ w : PrimitiveWrapper P C,
      QuietAct (NoChange (.registerPrimitiveWrapper w)) (checkWrapper isInst w) := by
    intro w
    unfold checkWrapper
    split
    · trivial
    · split
      · trivial
      · exact fun s => .inl ⟨rfl, fun s => .inr id⟩
  cases c with
  | registerKeyManager m b =>
    refine fun s => .inl ⟨rfl, ?_⟩
    dsimp only
    split
    · trivial
    · refine fun s => .inl ⟨rfl, ?_⟩
      dsimp only
      split
      · exact fun s => .inr id
      · refine fun s => .inl ⟨rfl, ?_⟩
        dsimp only
        split
        · trivial
        · split
          · trivial
          · split
            · trivial
            · exact fun s => .inr id
  | registerPrimitiveWrapper w =>
    refine fun s => .inl ⟨rfl, fun s => .inl ⟨rfl, ?_⟩⟩
    dsimp only
    split
    · exact check w
    · refine fun s => .inl ⟨rfl, fun s => .inl ⟨rfl, ?_⟩⟩
      dsimp only
      split
      · trivial
      · split
        · trivial
        · exact check w
  | lookup u =>
    refine fun s => .inl ⟨rfl, fun s => .inl ⟨rfl, ?_⟩⟩
    dsimp only
    split
    · trivial
    · refine fun s => .inl ⟨rfl, fun s => .inl ⟨rfl, ?_⟩⟩
      dsimp only
      split <;> trivial
  | wrapperFor u =>
    refine fun s => .inl ⟨rfl, fun s => .inl ⟨rfl, ?_⟩⟩
    dsimp only
    split
    · trivial
    · refine fun s => .inl ⟨rfl, fun s => .inl ⟨rfl, ?_⟩⟩
      dsimp only
      split <;> trivial
  | reset => exact fun s => .inr fun s => id

/-- The calls that are to be followed: nothing was changed by call `i` in `cfg`, and `cfg'` is what there would be
without it; or it cannot end without a change. -/
def Unseen (i : Nat) (cfg cfg' : Config P C) : Prop :=
  (cfg'.shared = cfg.shared ∧ cfg'.calls.length = cfg.calls.length ∧
    (∀ j, j ≠ i → cfg'.calls[j]? = cfg.calls[j]?) ∧
    ∀ c a, cfg.calls[i]? = some (c, a) → QuietAct (NoChange c) a) ∨
  ∃ c a, cfg.calls[i]? = some (c, a) ∧ QuietAct.Never (NoChange c) a

theorem unseen_never {i : Nat} {cfg : Config P C} {e : Event P C} {c : Call P C} {a : Code P C}
    (h : cfg.calls[i]? = some (c, a)) (hn : QuietAct.Never (NoChange c) a) :
    ∃ c a, (cfg.next isInst e).calls[i]? = some (c, a) ∧ QuietAct.Never (NoChange c) a := by
  have hi : i < cfg.calls.length := (List.getElem?_eq_some_iff.mp h).1
  cases e with
  | start c' =>
    refine ⟨c, a, ?_, hn⟩
    simp only [Config.next]
    rw [List.getElem?_append_left hi, h]
  | step j =>
    by_cases hj : j = i
    · subst hj
      cases a with
      | done r => exact ⟨c, .done r, by simp [Config.next, h], hn⟩
      | step upd next => exact ⟨c, next cfg.shared, by
          simp only [Config.next, h]; simp [hi], hn _⟩
    · refine ⟨c, a, ?_, hn⟩
      simp only [Config.next]
      split
      · simp only [List.getElem?_set, hj, if_false, h]
      · exact h

theorem unseen_run {i : Nat} : ∀ (schedule : List (Event P C)) (cfg cfg' : Config P C), Unseen i cfg cfg' →
    Unseen i (cfg.run isInst schedule) (cfg'.run isInst (without i schedule))
  | [], _, _, h => h
  | e :: es, cfg, cfg', h => by
    have run_cons : ∀ cfg : Config P C, cfg.run isInst (e :: es) = (cfg.next isInst e).run isInst es := fun _ => rfl
    rw [run_cons]
    rcases h with ⟨hs, hl, hc, hq⟩ | ⟨c, a, h, hn⟩
    · cases e with
      | start c =>
        refine unseen_run es _ (cfg'.next isInst (.start c)) (.inl ⟨hs, by simp [Config.next, hl], fun j hj => ?_, ?_⟩)
        · simp only [Config.next, List.getElem?_append, hl, hc j hj]
        · intro c' a' h'
          simp only [Config.next, List.getElem?_append] at h'
          split at h'
          · exact hq _ _ h'
          · obtain ⟨h1, -⟩ : i - cfg.calls.length = 0 ∧ True := by
              cases hx : i - cfg.calls.length with
              | zero => exact ⟨rfl, trivial⟩
              | succ n => rw [hx] at h'; simp at h'
            rw [h1] at h'
            cases h'
            exact code_quietAct _
      | step j =>
        by_cases hj : j = i
        · subst hj
          have e' : without j (.step j :: es : List (Event P C)) = without j es := by simp [without]
          rw [e']
          refine unseen_run es _ cfg' ?_
          cases hx : cfg.calls[j]? with
          | none =>
            have : cfg.next isInst (.step j) = cfg := by simp [Config.next, hx]
            rw [this]; exact .inl ⟨hs, hl, hc, hq⟩
          | some x =>
            obtain ⟨c, a⟩ := x
            have hi : j < cfg.calls.length := (List.getElem?_eq_some_iff.mp hx).1
            cases a with
            | done r =>
              have : cfg.next isInst (.step j) = cfg := by simp [Config.next, hx]
              rw [this]; exact .inl ⟨hs, hl, hc, hq⟩
            | step upd next =>
              have hnx : cfg.next isInst (.step j) = ⟨upd cfg.shared, cfg.calls.set j (c, next cfg.shared)⟩ := by
                simp [Config.next, hx]
              rw [hnx]
              rcases hq _ _ hx cfg.shared with ⟨hu, hq'⟩ | hn
              · refine .inl ⟨by rw [hs]; exact hu.symm, by simp [hl], fun k hk => ?_, ?_⟩
                · rw [hc k hk]
                  simp [List.getElem?_set, Ne.symm hk]
                · intro c' a' h'
                  simp [hi] at h'
                  obtain ⟨rfl, rfl⟩ := h'
                  exact hq'
              · exact .inr ⟨c, next cfg.shared, by simp [hi], hn⟩
        · have e' : without i (.step j :: es : List (Event P C)) = .step j :: without i es := by simp [without, hj]
          rw [e']
          refine unseen_run es _ (cfg'.next isInst (.step j)) (.inl ?_)
          have hcj := hc j hj
          simp only [Config.next]
          rw [hcj]
          split
          · refine ⟨by rw [hs], by simp [hl], fun k hk => ?_, ?_⟩
            · simp only [List.getElem?_set, hl, hs, hc k hk]
            · intro c' a' h'
              rw [List.getElem?_set, if_neg hj] at h'
              exact hq _ _ h'
          · exact ⟨hs, hl, hc, hq⟩
    · cases e with
      | start c' => exact unseen_run es _ (cfg'.next isInst (.start c')) (.inr (unseen_never h hn))
      | step j =>
        by_cases hj : j = i
        · have e' : without i (.step j :: es : List (Event P C)) = without i es := by simp [without, hj]
          rw [e']
          exact unseen_run es _ cfg' (.inr (unseen_never h hn))
        · have e' : without i (.step j :: es : List (Event P C)) = .step j :: without i es := by simp [without, hj]
          rw [e']
          exact unseen_run es _ (cfg'.next isInst (.step j)) (.inr (unseen_never h hn))

theorem unseen {r : Registry P C} {schedule : List (Event P C)} {i : Nat} {c : Call P C} {res : Py (Answer P C)}
    (h : Finished ((Config.of r).run isInst schedule) i c res) (hn : NoChange c res) :
    let cfg := (Config.of r).run isInst schedule
    let cfg' := (Config.of r).run isInst (without i schedule)
    cfg'.shared = cfg.shared ∧ ∀ j, j ≠ i → cfg'.calls[j]? = cfg.calls[j]? := by
  rcases unseen_run (isInst := isInst) (i := i) schedule (Config.of r) (Config.of r)
    (.inl ⟨rfl, rfl, fun _ _ => rfl, fun c a h => by simp [Config.of] at h⟩) with ⟨h1, -, h2, -⟩ | ⟨c', a, h', hx⟩
  · exact ⟨h1, h2⟩
  · unfold Finished at h
    rw [h'] at h
    cases h
    exact absurd hn hx

/-- C112.  A call that raises has no effect, whatever other threads do meanwhile: the registry, and how far all other
calls have got and what they have returned, are as if it had never proceeded. -/
theorem C112_failed {r : Registry P C} {schedule : List (Event P C)} {i : Nat} {c : Call P C} {e : Exc}
    (h : Finished ((Config.of r).run isInst schedule) i c (.error e)) :
    let cfg := (Config.of r).run isInst schedule
    let cfg' := (Config.of r).run isInst (without i schedule)
    cfg'.shared = cfg.shared ∧ ∀ j, j ≠ i → cfg'.calls[j]? = cfg.calls[j]? :=
  unseen h (by cases c <;> trivial)

/-- C112.  Nor has a lookup. -/
theorem C112_lookups {r : Registry P C} {schedule : List (Event P C)} {i : Nat} {c : Call P C} {res : Py (Answer P C)}
    (hc : (∃ u, c = .lookup u) ∨ ∃ cls, c = .wrapperFor cls)
    (h : Finished ((Config.of r).run isInst schedule) i c res) :
    let cfg := (Config.of r).run isInst schedule
    let cfg' := (Config.of r).run isInst (without i schedule)
    cfg'.shared = cfg.shared ∧ ∀ j, j ≠ i → cfg'.calls[j]? = cfg.calls[j]? :=
  unseen h (by rcases hc with ⟨u, rfl⟩ | ⟨u, rfl⟩ <;> cases res <;> trivial)

end Tink.Props
