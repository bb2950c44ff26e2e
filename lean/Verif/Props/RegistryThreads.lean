import Verif.Spec.RegistryThreads
import Verif.Core.RegistryThreadsLemmas
import Verif.Props.Registry

/-!
# C112: the registry used by several threads
-/

namespace Tink.Props
open Spec Threads
variable {P C : Type} [DecidableEq C] {isInst : P → C → Bool}

/-! ## A call that is not interrupted -/

omit [DecidableEq C] in
theorem step_next [DecidableEq C] {s : Shared P C} {calls : List (Call P C × Code P C)} {c : Call P C}
    {upd : Shared P C → Shared P C} {next : Shared P C → Code P C} :
    (⟨s, calls ++ [(c, .step upd next)]⟩ : Config P C).next isInst (.step calls.length) =
      ⟨upd s, calls ++ [(c, next s)]⟩ := by
  simp [Config.next]

theorem step_done {s : Shared P C} {calls : List (Call P C × Code P C)} {c : Call P C} {r : Py (Answer P C)} :
    (⟨s, calls ++ [(c, .done r)]⟩ : Config P C).next isInst (.step calls.length) = ⟨s, calls ++ [(c, .done r)]⟩ := by
  simp [Config.next]

theorem setManager_registry {s : Shared P C} {u : PStr} {x : KeyManager P C × Bool} :
    (s.setManager s.kmNow u x).registry = { s.registry with keyManagers := PyDict.set s.registry.keyManagers u x } := by
  simp [Shared.setManager, Shared.registry]

theorem setWrapper_registry {s : Shared P C} {w : PrimitiveWrapper P C} :
    (s.setWrapper s.wrNow w).registry =
      { s.registry with wrappers := PyDict.set s.registry.wrappers w.primitiveClass w } := by
  simp [Shared.setWrapper, Shared.registry]

theorem reset_registry {s : Shared P C} : s.newManagers.newWrappers.registry = ⟨[], []⟩ := by
  simp [Shared.newManagers, Shared.newWrappers, Shared.registry]

/-- The calls of C15 to C17. -/
def callOf : RegistryOp P C → Call P C
  | .registerKeyManager m b => .registerKeyManager m b
  | .registerPrimitiveWrapper w => .registerPrimitiveWrapper w
  | .reset => .reset

/-- C112.  A call that no other thread interrupts does what it does without threads, also while others are under
way. -/
theorem C112_uninterrupted (cfg : Config P C) (op : RegistryOp P C) :
    let cfg' := cfg.run isInst (.start (callOf op) :: List.replicate 7 (.step cfg.calls.length))
    cfg'.shared.registry = (op.call isInst cfg.shared.registry).1 ∧
    Finished cfg' cfg.calls.length (callOf op) ((op.call isInst cfg.shared.registry).2.map fun _ => .unit) := by
  obtain ⟨s, calls⟩ := cfg
  have fin : ∀ (s : Shared P C) (c : Call P C) (r : Py (Answer P C)),
      Finished (⟨s, calls ++ [(c, .done r)]⟩ : Config P C) calls.length c r := by
    intro s c r; simp [Finished]
  cases op with
  | registerKeyManager m b =>
    simp only [Config.run, List.foldl_cons, List.replicate_succ, List.replicate_zero, List.foldl_nil, callOf,
      Config.next.eq_1, code, Threads.registerKeyManager, step_next, id, RegistryOp.call,
      Registry.registerKeyManager]
    cases hs : m.doesSupport m.keyType with
    | false => simpa [step_done, Except.map] using fin _ _ _
    | true =>
      simp only [Bool.not_true, Bool.false_eq_true, if_false, step_next, id]
      have e : PyDict.get? s.registry.keyManagers m.keyType = PyDict.get? (s.keyManagers s.kmNow) m.keyType := rfl
      rw [e]
      cases hg : PyDict.get? (s.keyManagers s.kmNow) m.keyType with
      | none => exact ⟨by simp only [step_next, step_done, setManager_registry], by
          simpa only [step_next, step_done, Except.map] using fin _ _ _⟩
      | some x =>
        obtain ⟨ex, eb⟩ := x
        simp only [step_next, id, hg]
        split
        · exact ⟨by simp only [step_done], by simpa only [step_done, Except.map] using fin _ _ _⟩
        · split
          · exact ⟨by simp only [step_done], by simpa only [step_done, Except.map] using fin _ _ _⟩
          · exact ⟨by simp only [step_next, step_done, setManager_registry], by
              simpa only [step_next, step_done, Except.map] using fin _ _ _⟩
  | registerPrimitiveWrapper w =>
    simp only [Config.run, List.foldl_cons, List.replicate_succ, List.replicate_zero, List.foldl_nil, callOf,
      Config.next.eq_1, code, Threads.registerPrimitiveWrapper, step_next, id, RegistryOp.call,
      Registry.registerPrimitiveWrapper]
    have e : PyDict.get? s.registry.wrappers w.primitiveClass = PyDict.get? (s.wrappers s.wrNow) w.primitiveClass := rfl
    rw [e]
    cases hg : PyDict.get? (s.wrappers s.wrNow) w.primitiveClass with
    | none =>
      simp only [Bool.false_eq_true, if_false, checkWrapper]
      cases hw : w.wrap { primitiveClass := w.inputPrimitiveClass } with
      | error x => exact ⟨by simp only [step_done], by simpa only [step_done, Except.map] using fin _ _ _⟩
      | ok p =>
        dsimp only
        split
        · exact ⟨by simp only [step_done], by simpa only [step_done, Except.map] using fin _ _ _⟩
        · exact ⟨by simp only [step_next, step_done, id, setWrapper_registry], by
            simpa only [step_next, step_done, id, Except.map] using fin _ _ _⟩
    | some w' =>
      simp only [step_next, id, hg]
      by_cases ht : w'.pyType = w.pyType
      · simp only [ht, ne_eq, not_true_eq_false, if_false, decide_false, Bool.false_eq_true, checkWrapper]
        cases hw : w.wrap { primitiveClass := w.inputPrimitiveClass } with
        | error x => exact ⟨by simp only [step_done], by simpa only [step_done, Except.map] using fin _ _ _⟩
        | ok p =>
          dsimp only
          split
          · exact ⟨by simp only [step_done], by simpa only [step_done, Except.map] using fin _ _ _⟩
          · exact ⟨by simp only [step_next, step_done, id, setWrapper_registry], by
              simpa only [step_next, step_done, id, Except.map] using fin _ _ _⟩
      · simp only [ht, ne_eq, not_false_eq_true, if_true, decide_true]
        exact ⟨by simp only [step_done], by simpa only [step_done, Except.map] using fin _ _ _⟩
  | reset =>
    simp only [Config.run, List.foldl_cons, List.replicate_succ, List.replicate_zero, List.foldl_nil, callOf,
      Config.next.eq_1, code, Threads.reset, step_next, step_done, RegistryOp.call, Registry.reset, reset_registry,
      Except.map]
    exact ⟨trivial, fin _ _ _⟩

/-! ## All schedules -/

section
variable {K : PStr → KeyManager P C → Bool → Prop} {W : C → PrimitiveWrapper P C → Prop} {keep : Prop}
  {r : Registry P C} {before after : List (Event P C)}

theorem threads_run_append (cfg : Config P C) : cfg.run isInst (before ++ after) = (cfg.run isInst before).run isInst after := by
  unfold Config.run
  exact List.foldl_append

theorem split_run (hinv : Inv K W (Shared.of r)) (hall : ∀ c, .start c ∈ before ++ after → Allowed isInst K W keep c)
    {cfg1 cfg2 : Config P C} (e1 : cfg1 = (Config.of r).run isInst before) (e2 : cfg2 = cfg1.run isInst after) :
    Inv K W cfg2.shared ∧ Rely K W keep cfg1.shared cfg2.shared ∧
    ∀ i c res, Finished cfg2 i c res → ∃ s0, Outcome isInst K W keep s0 c res cfg2.shared ∧
      (cfg1.calls.length ≤ i → Rely K W keep cfg1.shared s0) := by
  obtain ⟨g1, g2⟩ := run_good (isInst := isInst) (rely := Rely K W keep) (guar := fun _ => Rely K W keep)
    (post := fun _ c res s => ∃ s0, Outcome isInst K W keep s0 c res s) Rely.refl Rely.trans (fun _ _ _ h => h)
    (cfg := Config.of r) (schedule := before) (by intro i c a h; simp [Config.of] at h)
    (fun c hc i s _ hs => (code_keeps (hall c (by simp [hc])) (hs.1 hinv)).weaken (fun _ _ h => h) (fun _ _ h => h)
      (fun _ _ h => ⟨s, h⟩))
  rw [← e1] at g1 g2
  have hi1 := g2.1 hinv
  obtain ⟨g3, g4⟩ := run_good (isInst := isInst) (rely := Rely K W keep) (guar := fun _ => Rely K W keep)
    (post := fun i c res s => ∃ s0, Outcome isInst K W keep s0 c res s ∧
      (cfg1.calls.length ≤ i → Rely K W keep cfg1.shared s0)) Rely.refl Rely.trans (fun _ _ _ h => h)
    (cfg := cfg1) (schedule := after)
    (by
      intro i c a h
      refine (g1 i c a h).weaken (fun _ _ h => h) (fun _ _ h => h) ?_
      rintro res s ⟨s0, h0⟩
      refine ⟨s0, h0, fun hi => ?_⟩
      rw [List.getElem?_eq_none hi] at h
      cases h)
    (fun c hc i s _ hs => (code_keeps (hall c (by simp [hc])) (hs.1 hi1)).weaken (fun _ _ h => h) (fun _ _ h => h)
      (fun _ _ h => ⟨s, h, fun _ => hs⟩))
  rw [← e2] at g3 g4
  exact ⟨g4.1 hi1, g4, fun i c res h => g3 i c _ h _ (Rely.refl _)⟩

omit keep K W in
/-- Calls that are there were started. -/
theorem started {schedule : List (Event P C)} {cfg : Config P C} {i : Nat} {c : Call P C} {a : Code P C}
    (h : (cfg.run isInst schedule).calls[i]? = some (c, a)) :
    .start c ∈ schedule ∨ ∃ a', cfg.calls[i]? = some (c, a') := by
  induction schedule generalizing cfg with
  | nil => exact .inr ⟨a, h⟩
  | cons e es ih =>
    rcases ih (cfg := cfg.next isInst e) h with h1 | ⟨a', h1⟩
    · exact .inl (List.mem_cons_of_mem _ h1)
    · cases e with
      | start c' =>
        simp only [Config.next] at h1
        rw [List.getElem?_append] at h1
        split at h1
        · exact .inr ⟨a', h1⟩
        · rw [List.getElem?_singleton] at h1
          split at h1
          · cases h1; exact .inl (by simp)
          · cases h1
      | step j =>
        unfold Config.next at h1
        dsimp only at h1
        split at h1
        · rename_i c' upd next hj
          rw [List.getElem?_set] at h1
          split at h1
          · rename_i hij
            subst hij
            split at h1
            · cases h1; exact .inr ⟨_, hj⟩
            · cases h1
          · exact .inr ⟨a', h1⟩
        · exact .inr ⟨a', h1⟩

omit keep K W in
theorem started_of {schedule : List (Event P C)} {i : Nat} {c : Call P C} {a : Code P C}
    (h : ((Config.of r).run isInst schedule).calls[i]? = some (c, a)) : .start c ∈ schedule := by
  rcases started h with h | ⟨a', h⟩
  · exact h
  · simp [Config.of] at h

/-- C112.  Whatever threads do at the same time, resetting the registry included: a lookup returns a manager that was
registered for the type URL and supports it, and a permission that was given with such a registration. -/
theorem C112_lookup {schedule : List (Event P C)} {i : Nat} {u : PStr} {m : KeyManager P C} {b : Bool}
    (h : Finished ((Config.of r).run isInst schedule) i (.lookup u) (.ok (.manager m b))) :
    ((∃ b', PyDict.get? r.keyManagers u = some (m, b')) ∨
      ((∃ b', .start (.registerKeyManager m b') ∈ schedule) ∧ m.keyType = u ∧ m.doesSupport u = true)) ∧
    (PyDict.get? r.keyManagers u = some (m, b) ∨
      ∃ m', .start (.registerKeyManager m' b) ∈ schedule ∧ m'.keyType = u ∧ m'.pyType = m.pyType ∧
        m'.primitiveClass = m.primitiveClass) := by
  let K : PStr → KeyManager P C → Bool → Prop := fun u m b =>
    ((∃ b', PyDict.get? r.keyManagers u = some (m, b')) ∨
      ((∃ b', .start (.registerKeyManager m b') ∈ schedule) ∧ m.keyType = u ∧ m.doesSupport u = true)) ∧
    (PyDict.get? r.keyManagers u = some (m, b) ∨
      ∃ m', .start (.registerKeyManager m' b) ∈ schedule ∧ m'.keyType = u ∧ m'.pyType = m.pyType ∧
        m'.primitiveClass = m.primitiveClass)
  obtain ⟨-, -, hf⟩ := split_run (isInst := isInst) (K := K) (W := fun _ _ => True) (keep := False) (r := r)
    (before := []) (after := schedule) ⟨fun a u m b hg => ⟨.inl ⟨b, hg⟩, .inl hg⟩, fun _ _ _ _ => trivial⟩
    (by
      intro c hc
      rw [List.nil_append] at hc
      cases c with
      | registerKeyManager m b =>
        exact ⟨fun hs => ⟨.inr ⟨⟨b, hc⟩, rfl, hs⟩, .inr ⟨m, hc, rfl, rfl, rfl⟩⟩,
          fun m' b' hk h1 h2 => ⟨hk.1, .inr ⟨m, hc, rfl, h1.symm, h2.symm⟩⟩⟩
      | registerPrimitiveWrapper w => exact fun _ => trivial
      | reset => exact id
      | lookup _ => trivial
      | wrapperFor _ => trivial) rfl rfl
  obtain ⟨s0, ho, -⟩ := hf i _ _ h
  rcases ho with ⟨m', b', e, hk⟩ | ⟨e, -⟩ | ⟨e, -⟩
  · cases e; exact hk
  · cases e
  · cases e

/-- The same for wrappers: what is found was registered for the class and has passed the test. -/
theorem C112_wrapper {schedule : List (Event P C)} {i : Nat} {c : C} {w : PrimitiveWrapper P C}
    (h : Finished ((Config.of r).run isInst schedule) i (.wrapperFor c) (.ok (.wrapper w))) :
    PyDict.get? r.wrappers c = some w ∨
      (.start (.registerPrimitiveWrapper w) ∈ schedule ∧ w.primitiveClass = c ∧ WrapsNothing isInst w) := by
  obtain ⟨-, -, hf⟩ := split_run (isInst := isInst) (K := fun _ _ _ => True) (keep := False) (r := r)
    (W := fun c w => PyDict.get? r.wrappers c = some w ∨
      (.start (.registerPrimitiveWrapper w) ∈ schedule ∧ w.primitiveClass = c ∧ WrapsNothing isInst w))
    (before := []) (after := schedule) ⟨fun _ _ _ _ _ => trivial, fun a c w hg => .inl hg⟩
    (by
      intro c hc
      rw [List.nil_append] at hc
      cases c with
      | registerKeyManager m b => exact ⟨fun _ => trivial, fun _ _ _ _ _ => trivial⟩
      | registerPrimitiveWrapper w => exact fun hw => .inr ⟨hc, rfl, hw⟩
      | reset => exact id
      | lookup _ => trivial
      | wrapperFor _ => trivial) rfl rfl
  obtain ⟨s0, ho, -⟩ := hf i _ _ h
  rcases ho with ⟨w', e, hk⟩ | ⟨e, -⟩ | ⟨e, -⟩
  · cases e; exact hk
  · cases e
  · cases e

theorem allowed_all {schedule : List (Event P C)} (hno : NeverReset schedule) :
    ∀ c, .start c ∈ schedule → Allowed isInst (fun _ _ _ => True) (fun _ _ => True) True c := by
  intro c hc
  cases c with
  | registerKeyManager m b => exact ⟨fun _ => trivial, fun _ _ _ _ _ => trivial⟩
  | registerPrimitiveWrapper w => exact fun _ => trivial
  | reset => exact absurd hc hno
  | lookup _ => trivial
  | wrapperFor _ => trivial

/-- C112.  If nobody resets the registry: once a registration has succeeded, a manager is registered for its type
URL; one stays registered, and every lookup that starts later returns one. -/
theorem C112_stays_registered (hno : NeverReset (before ++ after)) {cfg1 cfg2 : Config P C}
    (e1 : cfg1 = (Config.of r).run isInst before) (e2 : cfg2 = cfg1.run isInst after) {u : PStr}
    (h : (∃ m b, ManagerRegistered cfg1 u m b) ∨
      ∃ i m b, m.keyType = u ∧ Finished cfg1 i (.registerKeyManager m b) (.ok .unit)) :
    (∃ m b, ManagerRegistered cfg2 u m b) ∧
    ∀ j res, cfg1.calls.length ≤ j → Finished cfg2 j (.lookup u) res → ∃ m b, res = .ok (.manager m b) := by
  have hp : PyDict.get? (cfg1.shared.keyManagers cfg1.shared.kmNow) u ≠ none := by
    rcases h with ⟨m, b, h⟩ | ⟨i, m, b, rfl, h⟩
    · rw [show PyDict.get? (cfg1.shared.keyManagers cfg1.shared.kmNow) u = _ from h]; simp
    · obtain ⟨-, -, hf⟩ := split_run (isInst := isInst) (r := r) (before := []) (after := before)
        ⟨fun _ _ _ _ _ => trivial, fun _ _ _ _ => trivial⟩
        (fun c hc => allowed_all hno c (by rw [List.nil_append] at hc; simp [hc])) rfl e1
      obtain ⟨s0, ho, -⟩ := hf i _ _ h
      rcases ho with ⟨-, ho⟩ | ⟨e, -⟩ | ⟨e, -⟩
      · exact ho trivial
      · cases e
      · cases e
  obtain ⟨-, hr, hf⟩ := split_run (isInst := isInst) (r := r) ⟨fun _ _ _ _ _ => trivial, fun _ _ _ _ => trivial⟩
    (allowed_all hno) e1 e2
  constructor
  · obtain ⟨h1, -, h3, -⟩ := hr.2 trivial
    have := h3 _ _ hp
    rw [← h1] at this
    cases hg : PyDict.get? (cfg2.shared.keyManagers cfg2.shared.kmNow) u with
    | none => exact absurd hg this
    | some x => exact ⟨x.1, x.2, hg⟩
  · intro j res hj hx
    obtain ⟨s0, ho, h0⟩ := hf j _ _ hx
    rcases ho with ⟨m, b, e, -⟩ | ⟨-, ho⟩ | ⟨-, ho⟩
    · exact ⟨m, b, e⟩
    · obtain ⟨h1, -, h3, -⟩ := (h0 hj).2 trivial
      exact absurd (ho trivial) (by rw [h1]; exact h3 _ _ hp)
    · exact absurd trivial ho

/-- The same for wrappers. -/
theorem C112_wrapper_stays_registered (hno : NeverReset (before ++ after)) {cfg1 cfg2 : Config P C}
    (e1 : cfg1 = (Config.of r).run isInst before) (e2 : cfg2 = cfg1.run isInst after) {c : C}
    (h : (∃ w, WrapperRegistered cfg1 c w) ∨
      ∃ i w, w.primitiveClass = c ∧ Finished cfg1 i (.registerPrimitiveWrapper w) (.ok .unit)) :
    (∃ w, WrapperRegistered cfg2 c w) ∧
    ∀ j res, cfg1.calls.length ≤ j → Finished cfg2 j (.wrapperFor c) res → ∃ w, res = .ok (.wrapper w) := by
  have hp : PyDict.get? (cfg1.shared.wrappers cfg1.shared.wrNow) c ≠ none := by
    rcases h with ⟨w, h⟩ | ⟨i, w, rfl, h⟩
    · rw [show PyDict.get? (cfg1.shared.wrappers cfg1.shared.wrNow) c = _ from h]; simp
    · obtain ⟨-, -, hf⟩ := split_run (isInst := isInst) (r := r) (before := []) (after := before)
        ⟨fun _ _ _ _ _ => trivial, fun _ _ _ _ => trivial⟩
        (fun c hc => allowed_all hno c (by rw [List.nil_append] at hc; simp [hc])) rfl e1
      obtain ⟨s0, ho, -⟩ := hf i _ _ h
      rcases ho with ⟨-, ho⟩ | ⟨e, -⟩ | ⟨e, -⟩ | ⟨⟨e, he⟩, -⟩
      · exact ho trivial
      · cases e
      · cases e
      · cases he
  obtain ⟨-, hr, hf⟩ := split_run (isInst := isInst) (r := r) ⟨fun _ _ _ _ _ => trivial, fun _ _ _ _ => trivial⟩
    (allowed_all hno) e1 e2
  constructor
  · obtain ⟨-, h1, -, h3⟩ := hr.2 trivial
    have := h3 _ _ hp
    rw [← h1] at this
    cases hg : PyDict.get? (cfg2.shared.wrappers cfg2.shared.wrNow) c with
    | none => exact absurd hg this
    | some w => exact ⟨w, hg⟩
  · intro j res hj hx
    obtain ⟨s0, ho, h0⟩ := hf j _ _ hx
    rcases ho with ⟨w, e, -⟩ | ⟨-, ho⟩ | ⟨-, ho⟩
    · exact ⟨w, e⟩
    · obtain ⟨-, h1, -, h3⟩ := (h0 hj).2 trivial
      exact absurd (ho trivial) (by rw [h1]; exact h3 _ _ hp)
    · exact absurd trivial ho

/-- C112.  If nobody resets the registry, and all who register managers for a type URL agree on their type, the
primitive class and the permission, no such registration fails, however they are interleaved, and lookups that find
something find such a manager with this permission. -/
theorem C112_agreeing {schedule : List (Event P C)} (hno : NeverReset schedule) {u : PStr} {t : Nat} {c : C}
    {allowed : Bool}
    (h0 : ∀ m b, PyDict.get? r.keyManagers u = some (m, b) → m.pyType = t ∧ m.primitiveClass = c ∧ b = allowed)
    (hall : ∀ m b, .start (.registerKeyManager m b) ∈ schedule → m.keyType = u →
      m.pyType = t ∧ m.primitiveClass = c ∧ b = allowed ∧ m.doesSupport u = true) {i : Nat} {res : Py (Answer P C)} :
    (∀ m b, m.keyType = u → Finished ((Config.of r).run isInst schedule) i (.registerKeyManager m b) res →
      res = .ok .unit) ∧
    (Finished ((Config.of r).run isInst schedule) i (.lookup u) res →
      res = .error .tinkError ∨ ∃ m, res = .ok (.manager m allowed) ∧ m.pyType = t ∧ m.primitiveClass = c) := by
  obtain ⟨-, -, hf⟩ := split_run (isInst := isInst) (keep := True) (r := r) (W := fun _ _ => True)
    (K := fun u' m b => u' = u → m.pyType = t ∧ m.primitiveClass = c ∧ b = allowed)
    (before := []) (after := schedule) ⟨fun a u' m b hg e => h0 m b (e ▸ hg), fun _ _ _ _ => trivial⟩
    (by
      intro x hx
      rw [List.nil_append] at hx
      cases x with
      | registerKeyManager m b =>
        refine ⟨fun _ e => ?_, fun m' b' hk _ _ e => ?_⟩
        · obtain ⟨g1, g2, g3, -⟩ := hall m b hx e; exact ⟨g1, g2, g3⟩
        · exact ⟨(hk e).1, (hk e).2.1, (hall m b hx e).2.2.1⟩
      | registerPrimitiveWrapper w => exact fun _ => trivial
      | reset => exact absurd hx hno
      | lookup _ => trivial
      | wrapperFor _ => trivial) rfl rfl
  constructor
  · intro m b hm hfin
    have hs := started_of hfin
    subst hm
    obtain ⟨g1, g2, g3, g4⟩ := hall m b hs rfl
    obtain ⟨s0, ho, -⟩ := hf i _ _ hfin
    rcases ho with ⟨e, -⟩ | ⟨-, ho⟩ | ⟨-, ho⟩
    · exact e
    · rcases ho with ho | ⟨m', b', hk, (ho | ho) | ho⟩
      · rw [g4] at ho; cases ho
      · exact absurd ((hk rfl).1.trans g1.symm) ho
      · exact absurd ((hk rfl).2.1.trans g2.symm) ho
      · rw [(hk rfl).2.2, ← g3, ho.2] at ho; cases ho.1
    · exact absurd trivial ho
  · intro hfin
    obtain ⟨s0, ho, -⟩ := hf i _ _ hfin
    rcases ho with ⟨m, b, e, hk⟩ | ⟨e, -⟩ | ⟨-, ho⟩
    · obtain ⟨g1, g2, rfl⟩ := hk rfl
      exact .inr ⟨m, e, g1, g2⟩
    · exact .inl e
    · exact absurd trivial ho

/-- The same for wrappers of one type that pass the test. -/
theorem C112_agreeing_wrappers {schedule : List (Event P C)} (hno : NeverReset schedule) {c : C} {t : Nat}
    (h0 : ∀ w, PyDict.get? r.wrappers c = some w → w.pyType = t)
    (hall : ∀ w, .start (.registerPrimitiveWrapper w) ∈ schedule → w.primitiveClass = c →
      w.pyType = t ∧ WrapsNothing isInst w) {i : Nat} {w : PrimitiveWrapper P C} {res : Py (Answer P C)}
    (hw : w.primitiveClass = c)
    (hfin : Finished ((Config.of r).run isInst schedule) i (.registerPrimitiveWrapper w) res) : res = .ok .unit := by
  have hs := started_of hfin
  obtain ⟨-, -, hf⟩ := split_run (isInst := isInst) (keep := True) (r := r) (K := fun _ _ _ => True)
    (W := fun c' w => c' = c → w.pyType = t)
    (before := []) (after := schedule) ⟨fun _ _ _ _ _ => trivial, fun a c' w hg e => h0 w (e ▸ hg)⟩
    (by
      intro x hx
      rw [List.nil_append] at hx
      cases x with
      | registerKeyManager m b => exact ⟨fun _ => trivial, fun _ _ _ _ _ => trivial⟩
      | registerPrimitiveWrapper w => exact fun _ e => (hall w hx e).1
      | reset => exact absurd hx hno
      | lookup _ => trivial
      | wrapperFor _ => trivial) rfl rfl
  obtain ⟨s0, ho, -⟩ := hf i _ _ hfin
  rcases ho with ⟨e, -⟩ | ⟨-, w', hk, hne⟩ | ⟨-, ho⟩ | ⟨-, ho⟩
  · exact e
  · exact absurd ((hk hw).trans (hall w hs hw).1.symm) hne
  · exact absurd trivial ho
  · exact absurd (hall w hs hw).2 ho

/-! ## A manager that is registered before others start to register -/

omit keep K W in
/-- This type URL is left alone. -/
def LeavesAlone (u : PStr) (s s' : Shared P C) : Prop :=
  s'.kmNow = s.kmNow ∧ ∀ a, PyDict.get? (s'.keyManagers a) u = PyDict.get? (s.keyManagers a) u

omit keep K W in
theorem leaves_alone {u : PStr} {c : Call P C} (h1 : ¬ RegistersFor u c) (h2 : c ≠ .reset) {s : Shared P C} :
    (code isInst c).Keeps (fun _ _ => True) (LeavesAlone u) (fun _ _ => True) s := by
  have refl : ∀ s : Shared P C, LeavesAlone u s s := fun s => ⟨rfl, fun _ => rfl⟩
  have set : ∀ (s : Shared P C) a u' x, u' ≠ u → LeavesAlone u s (s.setManager a u' x) := by
    intro s a u' x hne
    refine ⟨rfl, fun a' => ?_⟩
    rw [get_setManager, if_neg (fun h => hne h.2)]
  have check : ∀ (w : PrimitiveWrapper P C) s,
      (checkWrapper isInst w).Keeps (fun _ _ => True) (LeavesAlone u) (fun _ _ => True) s := by
    intro w s
    unfold checkWrapper
    split
    · exact fun _ _ => trivial
    · split
      · exact fun _ _ => trivial
      · exact fun s1 _ => ⟨refl _, fun s2 _ => ⟨⟨rfl, fun _ => rfl⟩, fun _ _ => trivial⟩⟩
  cases c with
  | reset => exact absurd rfl h2
  | registerKeyManager m b =>
    have hne : m.keyType ≠ u := h1
    simp only [code, Threads.registerKeyManager]
    intro s1 _
    refine ⟨refl _, ?_⟩
    dsimp only
    split
    · exact fun _ _ => trivial
    intro s2 _
    refine ⟨refl _, ?_⟩
    dsimp only
    split
    · exact fun s3 _ => ⟨set _ _ _ _ hne, fun _ _ => trivial⟩
    intro s3 _
    refine ⟨refl _, ?_⟩
    dsimp only
    split
    · exact fun _ _ => trivial
    split
    · exact fun _ _ => trivial
    split
    · exact fun _ _ => trivial
    exact fun s4 _ => ⟨set _ _ _ _ hne, fun _ _ => trivial⟩
  | registerPrimitiveWrapper w =>
    simp only [code, Threads.registerPrimitiveWrapper]
    intro s1 _
    refine ⟨refl _, ?_⟩
    intro s2 _
    refine ⟨refl _, ?_⟩
    dsimp only
    split
    · exact check _ _
    intro s3 _
    refine ⟨refl _, ?_⟩
    intro s4 _
    refine ⟨refl _, ?_⟩
    dsimp only
    split
    · exact fun _ _ => trivial
    split
    · exact fun _ _ => trivial
    exact check _ _
  | lookup u' =>
    simp only [code, lookup]
    intro s1 _
    refine ⟨refl _, ?_⟩
    intro s2 _
    refine ⟨refl _, ?_⟩
    dsimp only
    split
    · exact fun _ _ => trivial
    intro s3 _
    refine ⟨refl _, ?_⟩
    intro s4 _
    refine ⟨refl _, ?_⟩
    dsimp only
    split <;> exact fun _ _ => trivial
  | wrapperFor c =>
    simp only [code, wrapperFor]
    intro s1 _
    refine ⟨refl _, ?_⟩
    intro s2 _
    refine ⟨refl _, ?_⟩
    dsimp only
    split
    · exact fun _ _ => trivial
    intro s3 _
    refine ⟨refl _, ?_⟩
    intro s4 _
    refine ⟨refl _, ?_⟩
    dsimp only
    split <;> exact fun _ _ => trivial

omit keep K W in
/-- `m` is registered; and, if `forbidden`, it may make no keys. -/
def Settled (u : PStr) (m : KeyManager P C) (forbidden : Prop) (s : Shared P C) : Prop :=
  ∃ b, PyDict.get? (s.keyManagers s.kmNow) u = some (m, b) ∧ (forbidden → b = false)

omit keep K W in
/-- It stays so. -/
def StaysSettled (u : PStr) (m : KeyManager P C) (forbidden : Prop) (s s' : Shared P C) : Prop :=
  s'.kmNow = s.kmNow ∧ (Settled u m forbidden s → Settled u m forbidden s')

omit keep K W in
theorem settled_keeps {m m' : KeyManager P C} {b : Bool} {forbidden : Prop} {s0 : Shared P C}
    (h0 : Settled m'.keyType m forbidden s0) :
    (Threads.registerKeyManager m' b).Keeps (StaysSettled m'.keyType m forbidden) (StaysSettled m'.keyType m forbidden)
      (fun _ _ => True) s0 := by
  have refl : ∀ s : Shared P C, StaysSettled m'.keyType m forbidden s s := fun s => ⟨rfl, id⟩
  unfold Threads.registerKeyManager
  intro s1 h1
  refine ⟨refl _, ?_⟩
  dsimp only [id]
  split
  · exact fun _ _ => trivial
  intro s2 h2
  refine ⟨refl _, ?_⟩
  dsimp only [id]
  have g2 := h2.2 (h1.2 h0)
  split
  · rename_i hn
    obtain ⟨x, hx, -⟩ := g2
    rw [h2.1, hn] at hx
    cases hx
  intro s3 h3
  refine ⟨refl _, ?_⟩
  dsimp only [id]
  have g3 := h3.2 g2
  split
  · exact fun _ _ => trivial
  rename_i ex eb hg
  obtain ⟨x, hx, hf⟩ := g3
  rw [h3.1, h2.1, hg] at hx
  cases hx
  split
  · exact fun _ _ => trivial
  split
  · exact fun _ _ => trivial
  rename_i hb
  intro s4 h4
  refine ⟨⟨rfl, fun _ => ⟨b, ?_, fun hx => ?_⟩⟩, fun _ _ => trivial⟩
  · rw [get_setManager, if_pos ⟨h4.1.trans (h3.1.trans h2.1), rfl⟩]
  · have := hf hx
    subst this
    simpa using hb

/-- C112.  If nobody resets the registry: a manager that is registered at a time when no registration for its type URL
is under way stays registered, whatever threads register later; and if it may make no new keys then, it never may
again. -/
theorem C112_settled (hno : NeverReset (before ++ after)) {cfg1 cfg2 : Config P C}
    (e1 : cfg1 = (Config.of r).run isInst before) (e2 : cfg2 = cfg1.run isInst after) {u : PStr}
    {m : KeyManager P C} {b : Bool} (h : ManagerRegistered cfg1 u m b)
    (hidle : ∀ c, RegistersFor u c → ¬ UnderWay cfg1 c) :
    ∃ b', ManagerRegistered cfg2 u m b' ∧ (b = false → b' = false) := by
  obtain ⟨g1, -⟩ := run_good (isInst := isInst) (rely := fun _ _ => True)
    (guar := fun c s s' => ¬ RegistersFor u c → c ≠ .reset → LeavesAlone u s s')
    (post := fun _ _ _ _ => True) (fun _ => trivial) (fun _ _ _ _ _ => trivial) (fun _ _ _ _ => trivial)
    (cfg := Config.of r) (schedule := before) (by intro i c a h; simp [Config.of] at h)
    (fun c hc i s _ _ => by
      by_cases hx : RegistersFor u c ∨ c = .reset
      · generalize code isInst c = act
        have all : ∀ (act : Code P C) (s : Shared P C), act.Keeps (fun _ _ => True)
            (fun s s' => ¬ RegistersFor u c → c ≠ .reset → LeavesAlone u s s') (fun _ _ => True) s := by
          intro act
          induction act with
          | done r => exact fun _ _ _ => trivial
          | step upd next ih =>
            exact fun _ s _ => ⟨fun h1 h2 => (hx.elim h1 h2).elim, ih s _⟩
        exact all act s
      · exact (leaves_alone (fun h => hx (.inl h)) (fun h => hx (.inr h))).weaken (fun _ _ h => h)
          (fun _ _ h _ _ => h) (fun _ _ h => h))
  rw [← e1] at g1
  have hs : Settled u m (b = false) cfg1.shared := ⟨b, h, id⟩
  obtain ⟨-, g2⟩ := run_good (isInst := isInst) (rely := StaysSettled u m (b = false))
    (guar := fun _ => StaysSettled u m (b = false)) (post := fun _ _ _ _ => True) (fun _ => ⟨rfl, id⟩)
    (fun _ _ _ h h' => ⟨h'.1.trans h.1, fun x => h'.2 (h.2 x)⟩) (fun _ _ _ h => h) (cfg := cfg1) (schedule := after)
    (by
      intro i c a hi
      by_cases hx : RegistersFor u c
      · cases a with
        | done r => exact fun _ _ => trivial
        | step upd next => exact absurd ⟨i, _, hi, fun r hr => by cases hr⟩ (hidle c hx)
      · have hne : c ≠ .reset := by
          rintro rfl
          rw [e1] at hi
          exact hno (List.mem_append_left _ (started_of hi))
        refine (g1 i c a hi).weaken (fun _ _ _ => trivial) (fun s s' hg => ?_) (fun _ _ h => h)
        obtain ⟨h1, h2⟩ := hg hx hne
        exact ⟨h1, fun ⟨b', hb, hf⟩ => ⟨b', by rw [h1, h2]; exact hb, hf⟩⟩)
    (fun c hc i s _ hr => by
      have hset := hr.2 hs
      by_cases hx : RegistersFor u c
      · cases c with
        | registerKeyManager m' b' =>
          have hx' : m'.keyType = u := hx
          subst hx'
          exact settled_keeps hset
        | registerPrimitiveWrapper w => exact hx.elim
        | lookup _ => exact hx.elim
        | wrapperFor _ => exact hx.elim
        | reset => exact hx.elim
      · have hne : c ≠ .reset := by
          rintro rfl
          exact hno (List.mem_append_right _ hc)
        refine (leaves_alone hx hne).weaken (fun _ _ _ => trivial) (fun s s' hg => ?_) (fun _ _ h => h)
        exact ⟨hg.1, fun ⟨b', hb, hf⟩ => ⟨b', by rw [hg.1, hg.2]; exact hb, hf⟩⟩)
  rw [← e2] at g2
  obtain ⟨b', hb, hf⟩ := g2.2 hs
  exact ⟨b', hb, hf⟩

end
end Tink.Props
