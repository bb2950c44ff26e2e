import Verif.Spec.ClientThreads

/-!
# C113: the list of KMS clients used by several threads
-/

namespace Tink.Props
open Spec KmsThreads
variable {A : Type}

theorem clients_run_append (s : State A) (xs ys : List (Event A)) : s.run (xs ++ ys) = (s.run xs).run ys :=
  List.foldl_append

theorem clients_run_snoc (s : State A) (xs : List (Event A)) (e : Event A) : s.run (xs ++ [e]) = (s.run xs).next e :=
  clients_run_append s xs [e]

theorem reverse_induction {α : Type} {motive : List α → Prop} (nil : motive [])
    (snoc : ∀ xs x, motive xs → motive (xs ++ [x])) (xs : List α) : motive xs := by
  rw [← List.reverse_reverse xs]
  induction xs.reverse with
  | nil => exact nil
  | cons x xs ih => rw [List.reverse_cons]; exact snoc _ _ ih

/-- Skipping clients that say no. -/
theorem fromUri_append {uri : PyStr} {xs ys : KmsClients A} (h : ∀ x ∈ xs, x.doesSupport uri = .ok false) :
    kmsClientFromUri (xs ++ ys) uri = kmsClientFromUri ys uri := by
  induction xs with
  | nil => rfl
  | cons x xs ih =>
    rw [List.cons_append, kmsClientFromUri, h x (by simp)]
    exact ih fun y hy => h y (List.mem_cons_of_mem _ hy)

/-- What is known of a call while nobody resets the list. -/
def SearchOk (s0 : State A) (schedule : List (Event A)) (i : Nat) (uri : PyStr) : Search A → Prop
  | .looking k => ∃ xs ys, (s0.run schedule).clients = xs ++ ys ∧ xs.length = k ∧ ∀ x ∈ xs, x.doesSupport uri = .ok false
  | .done r => ∃ before after, schedule = before ++ after ∧
      (∃ a, (s0.run before).searches[i]? = some (uri, a)) ∧ r = kmsClientFromUri (s0.run before).clients uri

theorem searchOk_mono {s0 : State A} {schedule : List (Event A)} {e : Event A} (he : e ≠ .reset) {i : Nat}
    {uri : PyStr} {a : Search A} (h : SearchOk s0 schedule i uri a) : SearchOk s0 (schedule ++ [e]) i uri a := by
  cases a with
  | done r =>
    obtain ⟨before, after, rfl, h1, h2⟩ := h
    exact ⟨before, after ++ [e], by simp, h1, h2⟩
  | looking k =>
    obtain ⟨xs, ys, h1, h2, h3⟩ := h
    rw [SearchOk, clients_run_snoc]
    cases e with
    | reset => exact absurd rfl he
    | register c => exact ⟨xs, ys ++ [c], by simp [State.next, registerKmsClient, h1], h2, h3⟩
    | start u => exact ⟨xs, ys, h1, h2, h3⟩
    | step j =>
      refine ⟨xs, ys, ?_, h2, h3⟩
      simp only [State.next]
      split <;> exact h1

theorem searches_ok {clients : KmsClients A} {schedule : List (Event A)} (hno : NoClear schedule) :
    ∀ i uri a, (State.run ⟨clients, []⟩ schedule).searches[i]? = some (uri, a) →
      SearchOk ⟨clients, []⟩ schedule i uri a := by
  induction schedule using reverse_induction with
  | nil => intro i uri a h; simp [State.run] at h
  | snoc xs e ih =>
    have hno' : NoClear xs := fun h => hno (List.mem_append_left _ h)
    have he : e ≠ .reset := fun h => hno (by simp [h])
    have ih := ih hno'
    intro i uri a h
    rw [clients_run_snoc] at h
    cases e with
    | reset => exact absurd rfl he
    | register c => exact searchOk_mono he (ih i uri a h)
    | start u =>
      simp only [State.next, List.getElem?_append] at h
      split at h
      · exact searchOk_mono he (ih i uri a h)
      · cases hx : i - (State.run ⟨clients, []⟩ xs).searches.length with
        | succ n => rw [hx] at h; simp at h
        | zero =>
          rw [hx] at h
          cases h
          exact ⟨[], _, rfl, rfl, nofun⟩
    | step j =>
      simp only [State.next] at h
      split at h
      · rename_i uri' a' hj
        simp only [List.getElem?_set] at h
        split at h
        · rename_i hji
          subst hji
          split at h
          · cases h
            have hk := ih j uri a' hj
            cases a' with
            | done r => exact searchOk_mono he hk
            | looking k =>
              obtain ⟨ys, zs, h1, h2, h3⟩ := hk
              have hr : ∀ r, r = kmsClientFromUri (State.run ⟨clients, []⟩ xs).clients uri →
                  SearchOk ⟨clients, []⟩ (xs ++ [Event.step j]) j uri (.done r) :=
                fun r h => ⟨xs, [.step j], rfl, ⟨_, hj⟩, h⟩
              have hg : (State.run ⟨clients, []⟩ xs).clients[k]? = zs[0]? := by
                rw [h1, List.getElem?_append_right (by omega)]; congr 1; omega
              simp only [Search.step, hg]
              cases zs with
              | nil =>
                refine hr _ ?_
                rw [h1, fromUri_append h3]; rfl
              | cons z zs =>
                simp only [List.getElem?_cons_zero]
                cases hz : z.doesSupport uri with
                | error x =>
                  refine hr _ ?_
                  rw [h1, fromUri_append h3, kmsClientFromUri, hz]; rfl
                | ok b =>
                  cases b with
                  | true =>
                    refine hr _ ?_
                    rw [h1, fromUri_append h3, kmsClientFromUri, hz]; rfl
                  | false =>
                    refine searchOk_mono he ⟨ys ++ [z], zs, by simp [h1], by simp [h2], ?_⟩
                    intro x hx
                    rcases List.mem_append.mp hx with hx | hx
                    · exact h3 x hx
                    · cases List.mem_singleton.mp hx; exact hz
          · cases h
        · exact searchOk_mono he (ih i uri a h)
      · exact searchOk_mono he (ih i uri a h)

/-- C113.  If nobody resets the list: what a call returns or raises is what it would return or raise if it was made
in one go at some moment after it was started, however other threads register clients and look for clients. -/
theorem C113_linearizable {clients : KmsClients A} {schedule : List (Event A)} (hno : NoClear schedule) {i : Nat}
    {uri : PyStr} {r : Py (KmsClient A)} (h : Found (State.run ⟨clients, []⟩ schedule) i uri r) :
    ∃ before after, schedule = before ++ after ∧
      (∃ a, (State.run ⟨clients, []⟩ before).searches[i]? = some (uri, a)) ∧
      r = kmsClientFromUri (State.run ⟨clients, []⟩ before).clients uri :=
  searches_ok hno i uri _ h

theorem firstFor_fromUri {uri : PyStr} {c : KmsClient A} {cs : KmsClients A} (h : FirstFor cs uri c) :
    kmsClientFromUri cs uri = .ok c := by
  obtain ⟨xs, ys, rfl, h1, h2⟩ := h
  rw [fromUri_append h2, kmsClientFromUri, h1]; rfl

/-- Without resets the list only grows. -/
theorem clients_grow {schedule : List (Event A)} (hno : NoClear schedule) (s : State A) :
    ∃ more, (s.run schedule).clients = s.clients ++ more := by
  induction schedule using reverse_induction with
  | nil => exact ⟨[], by simp [State.run]⟩
  | snoc xs e ih =>
    obtain ⟨more, hm⟩ := ih fun h => hno (List.mem_append_left _ h)
    rw [clients_run_snoc]
    cases e with
    | reset => exact absurd (by simp) hno
    | register c => exact ⟨more ++ [c], by simp [State.next, registerKmsClient, hm]⟩
    | start u => exact ⟨more, hm⟩
    | step j =>
      refine ⟨more, ?_⟩
      simp only [State.next]
      split <;> exact hm

theorem searches_length {schedule : List (Event A)} (s : State A) :
    s.searches.length ≤ (s.run schedule).searches.length := by
  induction schedule using reverse_induction with
  | nil => simp [State.run]
  | snoc xs e ih =>
    rw [clients_run_snoc]
    refine Nat.le_trans ih ?_
    cases e with
    | reset => exact Nat.le_refl _
    | register c => exact Nat.le_refl _
    | start u => simp [State.next]
    | step j =>
      simp only [State.next]
      split
      · simp
      · exact Nat.le_refl _

/-- C113.  Once a client is the first that supports a URI, it stays so: every call that starts later and ends returns
it, whatever clients other threads register, if nobody resets the list. -/
theorem C113_stays_first {clients : KmsClients A} {earlier later : List (Event A)} (hno : NoClear (earlier ++ later))
    {s1 s2 : State A} (e1 : s1 = State.run ⟨clients, []⟩ earlier) (e2 : s2 = s1.run later) {uri : PyStr}
    {c : KmsClient A} (hc : FirstFor s1.clients uri c) :
    FirstFor s2.clients uri c ∧
    ∀ i r, s1.searches.length ≤ i → Found s2 i uri r → r = .ok c := by
  have grow : ∀ {more : KmsClients A}, FirstFor (s1.clients ++ more) uri c := by
    intro more
    obtain ⟨xs, ys, h1, h2, h3⟩ := hc
    exact ⟨xs, ys ++ more, by simp [h1], h2, h3⟩
  constructor
  · obtain ⟨more, hm⟩ := clients_grow (fun h => hno (List.mem_append_right _ h)) s1
    rw [e2, hm]; exact grow
  · intro i r hi hf
    rw [e2, e1, ← clients_run_append] at hf
    obtain ⟨before, after, hb, ⟨a, ha⟩, hr⟩ := C113_linearizable hno hf
    have hlen : i < (State.run ⟨clients, []⟩ before).searches.length := (List.getElem?_eq_some_iff.mp ha).1
    rcases List.append_eq_append_iff.mp hb with ⟨mid, hx, -⟩ | ⟨mid, hx, -⟩
    · rw [hr, hx, clients_run_append, ← e1]
      obtain ⟨more, hm⟩ := clients_grow (schedule := mid)
        (fun h => hno (List.mem_append.mpr (.inr (by
          have : later = mid ++ after := by
            rw [hx, List.append_assoc] at hb; exact List.append_cancel_left hb
          rw [this]; exact List.mem_append_left _ h)))) s1
      rw [hm]
      exact firstFor_fromUri grow
    · have : (State.run ⟨clients, []⟩ before).searches.length ≤ s1.searches.length := by
        rw [e1, hx, clients_run_append]; exact searches_length _
      omega

/-- C113.  A client that is returned was registered and supports the URI, also if the list is reset meanwhile. -/
theorem C113_returned {clients : KmsClients A} {schedule : List (Event A)} {i : Nat} {uri : PyStr} {c : KmsClient A}
    (h : Found (State.run ⟨clients, []⟩ schedule) i uri (.ok c)) :
    (c ∈ clients ∨ .register c ∈ schedule) ∧ c.doesSupport uri = .ok true := by
  have inv : (∀ c ∈ (State.run ⟨clients, []⟩ schedule).clients, c ∈ clients ∨ .register c ∈ schedule) ∧
      ∀ i uri c, Found (State.run ⟨clients, []⟩ schedule) i uri (.ok c) →
        (c ∈ clients ∨ .register c ∈ schedule) ∧ c.doesSupport uri = .ok true := by
    clear h
    induction schedule using reverse_induction with
    | nil => exact ⟨fun c hc => .inl hc, fun i uri c h => by simp [State.run, Found] at h⟩
    | snoc xs e ih =>
      have ih1 : ∀ c ∈ (State.run ⟨clients, []⟩ xs).clients, c ∈ clients ∨ .register c ∈ xs ++ [e] :=
        fun c hc => (ih.1 c hc).imp_right (List.mem_append_left _)
      have ih2 : ∀ i uri c, Found (State.run ⟨clients, []⟩ xs) i uri (.ok c) →
          (c ∈ clients ∨ .register c ∈ xs ++ [e]) ∧ c.doesSupport uri = .ok true :=
        fun i uri c h => ⟨(ih.2 i uri c h).1.imp_right (List.mem_append_left _), (ih.2 i uri c h).2⟩
      rw [clients_run_snoc]
      cases e with
      | reset => exact ⟨fun c hc => by simp [State.next, resetKmsClients] at hc, ih2⟩
      | register x =>
        refine ⟨fun c hc => ?_, ih2⟩
        rcases List.mem_append.mp hc with hc | hc
        · exact ih1 c hc
        · cases List.mem_singleton.mp hc; exact .inr (by simp)
      | start u =>
        refine ⟨ih1, fun i uri c h => ?_⟩
        simp only [Found, State.next, List.getElem?_append] at h
        split at h
        · exact ih2 i uri c h
        · cases hx : i - (State.run ⟨clients, []⟩ xs).searches.length with
          | succ n => rw [hx] at h; simp at h
          | zero => rw [hx] at h; cases h
      | step j =>
        simp only [State.next, Found]
        split
        · rename_i uri' a' hj
          refine ⟨ih1, fun i uri c h => ?_⟩
          simp only [List.getElem?_set] at h
          split at h
          · split at h
            · rename_i hji _
              subst hji
              simp only [Option.some.injEq, Prod.mk.injEq] at h
              obtain ⟨rfl, h⟩ := h
              cases a' with
              | done r => cases h; exact ih2 j _ c hj
              | looking k =>
                simp only [Search.step] at h
                split at h
                · cases h
                · rename_i x hk
                  split at h
                  · cases h
                  · rename_i hs
                    cases h
                    exact ⟨ih1 _ (List.mem_of_getElem? hk), hs⟩
                  · cases h
            · cases h
          · exact ih2 i uri c h
        · exact ⟨ih1, ih2⟩
  exact inv.2 i uri c h

namespace ClientThreadsExample

def uri : PyStr := [7]
def client (n : Nat) (answer : Bool) : KmsClient Nat := ⟨fun _ => .ok answer, fun _ => .ok n⟩

/-- Two threads look for a client while others register some. -/
def busy : List (Event Nat) :=
  [.start uri, .register (client 0 false), .step 0, .start uri, .register (client 1 false), .step 1]
def busy_end : List (Event Nat) :=
  [.register (client 2 true), .step 0, .start uri, .step 2, .register (client 3 true), .step 0, .step 2, .step 1, .step 2,
    .step 1]

/-- `C113_linearizable`, `C113_returned`. -/
example : NoClear (busy ++ busy_end) := by simp [NoClear, busy, busy_end]
example : Found (State.run ⟨[], []⟩ (busy ++ busy_end)) 0 uri (.ok (client 2 true)) := rfl
example : Found (State.run ⟨[], []⟩ (busy ++ busy_end)) 1 uri (.ok (client 2 true)) := rfl
/-- `C113_stays_first`. -/
example : NoClear ((busy ++ busy_end.take 1) ++ busy_end.drop 1) := by simp [NoClear, busy, busy_end]
example : FirstFor (State.run ⟨[], []⟩ (busy ++ busy_end.take 1)).clients uri (client 2 true) :=
  ⟨[client 0 false, client 1 false], [], rfl, rfl, by simp [client]⟩
example : Found ((State.run ⟨[], []⟩ (busy ++ busy_end.take 1)).run (busy_end.drop 1)) 2 uri (.ok (client 2 true)) := rfl

/-- The list is reset and filled again while a thread looks for a client. -/
def cleared : List (Event Nat) :=
  [.start uri, .step 0, .reset, .register (client 2 true), .register (client 3 true), .step 0]

end ClientThreadsExample
open ClientThreadsExample

/-- Violation, if the list is reset meanwhile: a call returns a client that was never the first that supports the
URI. -/
theorem C113_reset_violated :
    Found (State.run ⟨[client 1 false], []⟩ cleared) 0 uri (.ok (client 3 true)) ∧
    ∀ before after, cleared = before ++ after → ¬ FirstFor (State.run ⟨[client 1 false], []⟩ before).clients uri
      (client 3 true) := by
  refine ⟨rfl, fun before after h hf => ?_⟩
  have h1 := firstFor_fromUri hf
  have hb : before = cleared.take before.length := by rw [h]; simp
  have hl : before.length ≤ 6 := by
    have := congrArg List.length h; simp [cleared] at this; omega
  have get : ∀ x : Py (KmsClient Nat), x = .ok (client 3 true) →
      (match x with | .ok c => (match c.getAead uri with | .ok n => n | .error _ => 0) | .error _ => 0) = 3 := by
    rintro _ rfl; rfl
  have h2 := get _ h1
  rw [hb] at h2
  generalize before.length = n at h2 hl
  match n, hl with
  | 0, _ => cases h2
  | 1, _ => cases h2
  | 2, _ => cases h2
  | 3, _ => cases h2
  | 4, _ => cases h2
  | 5, _ => cases h2
  | 6, _ => cases h2

end Tink.Props
