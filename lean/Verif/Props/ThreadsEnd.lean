import Verif.Spec.ThreadsEnd
import Verif.Props.RegistryThreadsFailed
import Verif.Props.RegistryThreadsExamples
import Verif.Props.ClientThreads

/-!
# C112, C113: no thread can keep another from finishing
-/

namespace Tink.Props
open Spec

section
open Threads
variable {P C : Type} [DecidableEq C] {isInst : P → C → Bool}

/-- Whatever it sees, there is an outcome after at most so many steps. -/
def EndsIn {S α : Type} : Nat → Act S α → Prop
  | _, .done _ => True
  | 0, .step _ _ => False
  | n + 1, .step _ next => ∀ s, EndsIn n (next s)

theorem EndsIn.more {S α : Type} : ∀ {n : Nat} {a : Act S α}, EndsIn n a → EndsIn (n + 1) a
  | _, .done _, _ => trivial
  | _ + 1, .step _ _, h => fun s => (h s).more

theorem check_ends (w : PrimitiveWrapper P C) : EndsIn 3 (checkWrapper isInst w) := by
  unfold checkWrapper
  split
  · trivial
  · split
    · trivial
    · exact fun _ _ => trivial

theorem code_ends (c : Call P C) : EndsIn 7 (code isInst c) := by
  cases c with
  | registerKeyManager m b =>
    intro s
    dsimp only
    split
    · trivial
    · intro s
      dsimp only
      split
      · exact fun s => trivial
      · intro s
        dsimp only
        split
        · trivial
        · split
          · trivial
          · split
            · trivial
            · exact fun s => trivial
  | registerPrimitiveWrapper w =>
    intro s s
    dsimp only
    split
    · exact (check_ends w).more.more
    · intro s s
      dsimp only
      split
      · trivial
      · split
        · trivial
        · exact check_ends w
  | lookup u =>
    intro s s
    dsimp only
    split
    · trivial
    · intro s s
      dsimp only
      split <;> trivial
  | wrapperFor u =>
    intro s s
    dsimp only
    split
    · trivial
    · intro s s
      dsimp only
      split <;> trivial
  | reset => exact fun _ _ => trivial

omit [DecidableEq C] in
theorem ends_next [DecidableEq C] {cfg : Config P C} {e : Event P C} {i n : Nat} {c : Call P C} {a : Code P C}
    (h : cfg.calls[i]? = some (c, a)) (hn : EndsIn n a) :
    ∃ a', (cfg.next isInst e).calls[i]? = some (c, a') ∧ EndsIn (n - turns i [e]) a' := by
  have hi : i < cfg.calls.length := (List.getElem?_eq_some_iff.mp h).1
  cases e with
  | start c' =>
    refine ⟨a, ?_, hn⟩
    simp only [Config.next]
    rw [List.getElem?_append_left hi, h]
  | step j =>
    by_cases hj : j = i
    · subst hj
      cases a with
      | done r => exact ⟨.done r, by simp [Config.next, h], by simp [EndsIn]⟩
      | step upd next =>
        refine ⟨next cfg.shared, by simp only [Config.next, h]; simp [hi], ?_⟩
        cases n with
        | zero => exact hn.elim
        | succ n => simpa [turns] using hn cfg.shared
    · refine ⟨a, ?_, by simpa [turns, hj] using hn⟩
      simp only [Config.next]
      split
      · simp only [List.getElem?_set, hj, if_false, h]
      · exact h

theorem ends_run {i : Nat} {c : Call P C} : ∀ (schedule : List (Event P C)) (cfg : Config P C) (n : Nat) (a : Code P C),
    cfg.calls[i]? = some (c, a) → EndsIn n a →
    ∃ a', (cfg.run isInst schedule).calls[i]? = some (c, a') ∧ EndsIn (n - turns i schedule) a'
  | [], _, _, a, h, hn => ⟨a, h, hn⟩
  | e :: es, cfg, n, a, h, hn => by
    obtain ⟨a1, h1, hn1⟩ := ends_next (isInst := isInst) (e := e) h hn
    obtain ⟨a2, h2, hn2⟩ := ends_run es _ _ a1 h1 hn1
    refine ⟨a2, h2, ?_⟩
    have : turns i (e :: es) = turns i [e] + turns i es := by
      cases e <;> simp [turns]
    rw [this, ← Nat.sub_sub]
    exact hn2

theorem all_end {r : Registry P C} {schedule : List (Event P C)} {i : Nat} {c : Call P C} {a : Code P C}
    (h : ((Config.of r).run isInst schedule).calls[i]? = some (c, a)) : EndsIn 7 a := by
  have lift : ∀ {n : Nat} {a : Code P C}, n ≤ 7 → EndsIn n a → EndsIn 7 a := by
    intro n a hle hn
    have up : ∀ k, EndsIn (n + k) a := by
      intro k
      induction k with
      | zero => exact hn
      | succ k ih => exact ih.more
    have := up (7 - n)
    rwa [Nat.add_sub_cancel' hle] at this
  induction schedule using reverse_induction generalizing i c a with
  | nil => simp [Config.run, Config.of] at h
  | snoc xs e ih =>
    rw [threads_run_append] at h
    change (((Config.of r).run isInst xs).next isInst e).calls[i]? = some (c, a) at h
    cases hx : ((Config.of r).run isInst xs).calls[i]? with
    | some y =>
      obtain ⟨c0, a0⟩ := y
      obtain ⟨a1, h1, hn⟩ := ends_next (isInst := isInst) (e := e) hx (ih hx)
      rw [h1] at h
      cases h
      exact lift (Nat.sub_le _ _) hn
    | none =>
      cases e with
      | start c' =>
        simp only [Config.next, List.getElem?_append] at h
        split at h
        · rw [hx] at h; cases h
        · cases hy : i - ((Config.of r).run isInst xs).calls.length with
          | succ n => rw [hy] at h; simp at h
          | zero => rw [hy] at h; cases h; exact code_ends _
      | step j =>
        have hle := List.getElem?_eq_none_iff.mp hx
        have hlt := (List.getElem?_eq_some_iff.mp h).1
        simp only [Config.next] at hlt
        split at hlt
        · simp at hlt; omega
        · omega

/-- C112.  Every call ends after at most seven steps of its own, whatever other threads do meanwhile: nobody waits for
anybody. -/
theorem C112_ends {r : Registry P C} {before after : List (Event P C)} {cfg1 cfg2 : Config P C}
    (e1 : cfg1 = (Config.of r).run isInst before) (e2 : cfg2 = cfg1.run isInst after) {i : Nat}
    (hi : i < cfg1.calls.length) (ht : 7 ≤ turns i after) : ∃ c res, Finished cfg2 i c res := by
  obtain ⟨⟨c, a⟩, ha⟩ : ∃ x, cfg1.calls[i]? = some x := ⟨_, List.getElem?_eq_getElem hi⟩
  have hn : EndsIn 7 a := by rw [e1] at ha; exact all_end ha
  obtain ⟨a', h', hn'⟩ := ends_run (isInst := isInst) after cfg1 7 a ha hn
  rw [← e2] at h'
  have : 7 - turns i after = 0 := by omega
  rw [this] at hn'
  cases a' with
  | done res => exact ⟨c, res, h'⟩
  | step _ _ => exact hn'.elim

namespace RegistryThreadsExample
/-- A registration of a wrapper that is interrupted at every step. -/
example : 0 < ((Config.of Toy.registry).run Toy.isInst [.start (.registerPrimitiveWrapper wrapper1)]).calls.length ∧
    7 ≤ turns 0 (.start .reset :: (List.replicate 7 [Event.step 0, .step 1]).flatten : List (Event Toy.Prim Toy.Cls)) :=
  by decide
end RegistryThreadsExample
end

section
open KmsThreads
variable {A : Type}

theorem search_ends {i : Nat} {uri : PyStr} : ∀ (schedule : List (Event A)) (s : State A) (a : Search A),
    NoneRegistered schedule → s.searches[i]? = some (uri, a) →
    (∀ k, a = .looking k → s.clients.length - k < searchTurns i schedule) →
    ∃ r, Found (s.run schedule) i uri r
  | [], s, a, _, h, hk => by
    cases a with
    | done r => exact ⟨r, h⟩
    | looking k => exact absurd (hk k rfl) (by simp [searchTurns])
  | e :: es, s, a, hno, h, hk => by
    have hno' : NoneRegistered es := fun c hc => hno c (List.mem_cons_of_mem _ hc)
    have hi : i < s.searches.length := (List.getElem?_eq_some_iff.mp h).1
    change ∃ r, Found ((s.next e).run es) i uri r
    cases e with
    | register c => exact absurd (by simp) (hno c)
    | reset =>
      refine search_ends es _ a hno' h fun k e => ?_
      have := hk k e
      simp only [searchTurns] at this
      simp only [State.next, resetKmsClients, List.length_nil]
      omega
    | start u =>
      refine search_ends es _ a hno' ?_ fun k e => hk k e
      simp only [State.next]
      rw [List.getElem?_append_left hi, h]
    | step j =>
      by_cases hj : j = i
      · subst hj
        have hn : s.next (.step j) = { s with searches := s.searches.set j (uri, a.step s.clients uri) } := by
          simp only [State.next, h]
        rw [hn]
        refine search_ends es _ (a.step s.clients uri) hno' (by simp [hi]) fun k e => ?_
        cases a with
        | done r => cases e
        | looking k0 =>
          have h0 := hk k0 rfl
          simp only [searchTurns, if_true] at h0
          simp only [Search.step] at e
          split at e
          · cases e
          · rename_i hg
            have := (List.getElem?_eq_some_iff.mp hg).1
            split at e
            · cases e
            · cases e
            · cases e
              show s.clients.length - (k0 + 1) < _
              omega
      · refine search_ends es _ a hno' ?_ fun k e => ?_
        · simp only [State.next]
          split
          · simp only [List.getElem?_set, hj, if_false, h]
          · exact h
        · have := hk k e
          simp only [searchTurns, hj, if_false, Nat.zero_add] at this
          have hc : (s.next (.step j)).clients = s.clients := by
            simp only [State.next]; split <;> rfl
          rw [hc]; exact this

/-- C113.  While nobody registers clients, a call ends after at most one step more than there are clients, whatever
other threads do, resetting the list included. -/
theorem C113_ends {s : State A} {schedule : List (Event A)} (hno : NoneRegistered schedule) {i : Nat}
    (hi : i < s.searches.length) (ht : s.clients.length < searchTurns i schedule) :
    ∃ uri r, Found (s.run schedule) i uri r := by
  obtain ⟨⟨uri, a⟩, ha⟩ : ∃ x, s.searches[i]? = some x := ⟨_, List.getElem?_eq_getElem hi⟩
  obtain ⟨r, hr⟩ := search_ends schedule s a hno ha fun k _ => by omega
  exact ⟨uri, r, hr⟩

namespace ClientThreadsExample
def waiting : State Nat := ⟨[client 1 false, client 2 false], [(uri, .looking 0), (uri, .looking 1)]⟩
example : NoneRegistered [.step 0, .step 1, .start uri, .step 0, .reset, .step (A := Nat) 0] ∧
    1 < waiting.searches.length ∧
    waiting.clients.length < searchTurns 0 [.step 0, .step 1, .start uri, .step 0, .reset, .step (A := Nat) 0] :=
  ⟨by simp [NoneRegistered], by decide, by decide⟩

/-- Another thread registers a client before each step. -/
def flood (n : Nat) : List (Event Nat) := (List.replicate n [.register (client 0 false), .step 0]).flatten
end ClientThreadsExample
open ClientThreadsExample

/-- Threads that keep registering clients can keep a call from ending: after any number of steps it still goes on. -/
theorem C113_kept_busy (n : Nat) : searchTurns 0 (flood n) = n ∧
    ∃ k, (State.run ⟨[], [(uri, .looking 0)]⟩ (flood n)).searches = [(uri, .looking k)] := by
  have gen : ∀ n (cs : KmsClients Nat), (∀ c ∈ cs, c.doesSupport uri = .ok false) →
      ∃ k, (State.run ⟨cs, [(uri, .looking cs.length)]⟩ (flood n)).searches = [(uri, .looking k)] := by
    intro n
    induction n with
    | zero => exact fun cs _ => ⟨cs.length, rfl⟩
    | succ n ih =>
      intro cs hcs
      have hstep : State.run ⟨cs, [(uri, .looking cs.length)]⟩ (flood (n + 1)) =
          State.run ⟨cs ++ [client 0 false], [(uri, .looking (cs ++ [client 0 false]).length)]⟩ (flood n) := by
        simp [State.run, flood, List.replicate_succ, State.next, registerKmsClient, Search.step, client]
      rw [hstep]
      refine ih _ fun c hc => ?_
      rcases List.mem_append.mp hc with hc | hc
      · exact hcs c hc
      · cases List.mem_singleton.mp hc; rfl
  refine ⟨?_, gen n [] nofun⟩
  induction n with
  | zero => rfl
  | succ n ih =>
    have : flood (n + 1) = .register (client 0 false) :: .step 0 :: flood n := by
      simp [flood, List.replicate_succ]
    rw [this]
    simp only [searchTurns, if_true, ih]
    omega
end
end Tink.Props
