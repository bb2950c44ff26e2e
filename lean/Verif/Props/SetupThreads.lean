import Verif.Spec.SetupThreads
import Verif.Props.RegistryThreads
import Verif.Props.Config

/-!
# C114: `register()` called by several threads

Any number of threads run `register()` of packages or `tink_config.register()` at the same time, look up managers and
wrappers, and register managers and wrappers of their own for other key types and classes.
-/

namespace Tink.Props
open Spec Threads

section
variable {σ δ ε τ S P C : Type} [DecidableEq C] {L : Tink.Config.Library σ δ ε τ S P C} {isInst : P → C → Bool}
  {before after : List (Event P C)}

/-- Whatever is started is a call in `register()` of a package, or does not concern Tink's key types and classes. -/
def SetsUp (L : Tink.Config.Library σ δ ε τ S P C) (schedule : List (Event P C)) : Prop :=
  ∀ c, .start c ∈ schedule → (∃ pkg, ∃ s ∈ registerPackage L pkg, callIn s = some c) ∨ ForOther L c

/-- Under the type URLs of Tink's managers there is nothing else. -/
def OnlyManager (L : Tink.Config.Library σ δ ε τ S P C) (u : PStr) (m : KeyManager P C) (b : Bool) : Prop :=
  ∀ m0, IsManager L m0 → m0.keyType = u → m = m0 ∧ b = true

/-- For the classes of Tink's wrappers there is nothing else. -/
def OnlyWrapper (L : Tink.Config.Library σ δ ε τ S P C) (c : C) (w : PrimitiveWrapper P C) : Prop :=
  ∀ w0, IsWrapper L w0 → w0.primitiveClass = c → w = w0

theorem setsUp_allowed (hl : LawfulConfig L isInst) {schedule : List (Event P C)} (hs : SetsUp L schedule)
    (hno : NeverReset schedule) (c : Call P C) (hc : .start c ∈ schedule) :
    Allowed isInst (OnlyManager L) (OnlyWrapper L) True c := by
  have hd := distinct hl
  rcases hs c hc with ⟨pkg, s, hm, he⟩ | hf
  · have hk := registerPackage_known hl pkg hm
    cases s with
    | bindings x => cases he
    | keyManager x =>
      obtain ⟨m, rfl, h⟩ := hk
      cases he
      refine ⟨fun _ m0 h0 e => ⟨hd.managers _ _ h h0 e.symm, rfl⟩, fun m' b' hK _ _ m0 h0 e => ?_⟩
      exact ⟨(hK m0 h0 e).1, rfl⟩
    | wrapper w =>
      cases he
      exact fun _ w0 h0 e => hd.wrappers _ _ hk h0 e.symm
  · cases c with
    | registerKeyManager m b =>
      have hn : ∀ m0, IsManager L m0 → m0.keyType ≠ m.keyType := by
        rintro m0 ⟨pkg, url, k, h⟩ e
        obtain ⟨_, h1, hg⟩ := packageManagers_good hl pkg _ h
        cases h1
        refine hf pkg k ?_
        rw [← e, hg.keyType, ← packageTypes_iff, ← packageManagers_types L]
        exact List.mem_map.2 ⟨_, h, rfl⟩
      exact ⟨fun _ m0 h0 e => absurd e (hn m0 h0), fun _ _ _ _ _ m0 h0 e => absurd e (hn m0 h0)⟩
    | registerPrimitiveWrapper w =>
      rintro - w0 ⟨k, h⟩ e
      obtain ⟨pkg, hk⟩ := tinkWrapper_mem h
      exact absurd (e.symm.trans (tinkWrapper_class h)) (hf pkg k hk)
    | reset => exact absurd hc hno
    | lookup u => trivial
    | wrapperFor c => trivial

theorem only_empty : Inv (OnlyManager L) (OnlyWrapper L) (Shared.of ({} : Registry P C)) :=
  ⟨fun _ _ _ _ h => (nomatch h), fun _ _ _ h => (nomatch h)⟩

/-- What a registration in `register()` of a package comes to. -/
theorem setup_outcome (hl : LawfulConfig L isInst) {pkg : Package} {st : Tink.Config.Stmt P C}
    (hst : st ∈ registerPackage L pkg) {c : Call P C} (hc : callIn st = some c) {res : Py (Answer P C)}
    {s0 s : Shared P C} (hi : Inv (OnlyManager L) (OnlyWrapper L) s)
    (ho : Outcome isInst (OnlyManager L) (OnlyWrapper L) True s0 c res s) :
    res = .ok .unit ∧ Done s.registry st := by
  have hd := distinct hl
  have hk := registerPackage_known hl pkg hst
  cases st with
  | bindings x => cases hc
  | keyManager x =>
    obtain ⟨m, rfl, h⟩ := hk
    cases hc
    rcases ho with ⟨e, ho⟩ | ⟨-, ho | ⟨m', b', hK, ho⟩⟩ | ⟨-, ho⟩
    · refine ⟨e, fun m0 e0 => ?_⟩
      cases e0
      show PyDict.get? (s.keyManagers s.kmNow) m.keyType = _
      cases hg : PyDict.get? (s.keyManagers s.kmNow) m.keyType with
      | none => exact absurd hg (ho trivial)
      | some x =>
        obtain ⟨e1, e2⟩ := hi.1 _ _ _ _ hg m h rfl
        rw [← e1, ← e2]
    · rw [hd.supports m h] at ho; cases ho
    · obtain ⟨rfl, rfl⟩ := hK m h rfl
      rcases ho with (ho | ho) | ⟨ho, -⟩
      · exact absurd rfl ho
      · exact absurd rfl ho
      · cases ho
    · exact absurd trivial ho
  | wrapper w =>
    cases hc
    rcases ho with ⟨e, ho⟩ | ⟨-, w', hW, ho⟩ | ⟨-, ho⟩ | ⟨-, ho⟩
    · refine ⟨e, ?_⟩
      show PyDict.get? (s.wrappers s.wrNow) w.primitiveClass = _
      cases hg : PyDict.get? (s.wrappers s.wrNow) w.primitiveClass with
      | none => exact absurd hg (ho trivial)
      | some w' => rw [hi.2 _ _ _ hg w hk rfl]
    · exact absurd (congrArg _ (hW w hk rfl)) ho
    · exact absurd trivial ho
    · exact absurd (hd.wraps w hk) ho

/-- C114.  No statement of `register()` of a package fails, whatever other threads register at the same time. -/
theorem C114_never_fails (hl : LawfulConfig L isInst) (hs : SetsUp L before) (hno : NeverReset before) {pkg : Package}
    {st : Tink.Config.Stmt P C} (hst : st ∈ registerPackage L pkg) :
    (∀ x, st = .bindings x → x = .ok ()) ∧ (∀ e, st ≠ .keyManager (.error e)) ∧
    ∀ i c res, callIn st = some c → Finished ((Config.of {}).run isInst before) i c res → res = .ok .unit := by
  refine ⟨?_, ?_, fun i c res hc hf => ?_⟩
  · rintro x rfl; exact registerPackage_known hl pkg hst
  · rintro e rfl
    obtain ⟨m, h, -⟩ := registerPackage_known hl pkg hst
    cases h
  · obtain ⟨hi, -, ho⟩ := split_run (isInst := isInst) (r := {}) (before := []) (after := before) (keep := True)
      only_empty (fun c hc => setsUp_allowed hl hs hno c (by simpa using hc)) rfl rfl
    obtain ⟨s0, ho, -⟩ := ho i c res hf
    exact (setup_outcome hl hst hc hi ho).1

/-- C114.  Once a thread is through with `register()` of a package, and from then on, all key types and primitives of
the package can be used. -/
theorem C114_registered (hl : LawfulConfig L isInst) (hs : SetsUp L (before ++ after))
    (hno : NeverReset (before ++ after)) {cfg1 cfg2 : Config P C} (e1 : cfg1 = (Config.of {}).run isInst before)
    (e2 : cfg2 = cfg1.run isInst after) {pkg : Package}
    (hdone : ∀ st ∈ registerPackage L pkg, ∀ c, callIn st = some c → ∃ i res, Finished cfg1 i c res) :
    PackageRegistered L cfg2.shared.registry pkg := by
  obtain ⟨hi1, -, ho⟩ := split_run (isInst := isInst) (r := {}) (before := []) (after := before) (keep := True)
    only_empty (fun c hc => setsUp_allowed hl hs hno c (by
      rw [List.nil_append] at hc; exact List.mem_append_left _ hc)) rfl e1
  obtain ⟨hi2, hr, -⟩ := split_run (isInst := isInst) (r := {}) (keep := True) only_empty
    (setsUp_allowed hl hs hno) e1 e2
  obtain ⟨n1, n2, n3, n4⟩ := hr.2 trivial
  refine registered_of_done hl fun st hst => ?_
  have hk := registerPackage_known hl pkg hst
  have hd : ∀ c, callIn st = some c → Done cfg1.shared.registry st := fun c hc => by
    obtain ⟨i, res, hf⟩ := hdone st hst c hc
    obtain ⟨s0, ho, -⟩ := ho i c res hf
    exact (setup_outcome hl hst hc hi1 ho).2
  cases st with
  | bindings x => trivial
  | keyManager x =>
    obtain ⟨m, rfl, h⟩ := hk
    rintro m0 e0
    cases e0
    have h1 : PyDict.get? (cfg1.shared.keyManagers cfg1.shared.kmNow) m.keyType = some (m, true) := hd _ rfl m rfl
    have h2 := n3 _ _ (by rw [h1]; simp)
    rw [← n1] at h2
    show PyDict.get? (cfg2.shared.keyManagers cfg2.shared.kmNow) m.keyType = _
    cases hg : PyDict.get? (cfg2.shared.keyManagers cfg2.shared.kmNow) m.keyType with
    | none => exact absurd hg h2
    | some x =>
      obtain ⟨e1, e2⟩ := hi2.1 _ _ _ _ hg m h rfl
      rw [← e1, ← e2]
  | wrapper w =>
    have h1 : PyDict.get? (cfg1.shared.wrappers cfg1.shared.wrNow) w.primitiveClass = some w := hd _ rfl
    have h2 := n4 _ _ (by rw [h1]; simp)
    rw [← n2] at h2
    show PyDict.get? (cfg2.shared.wrappers cfg2.shared.wrNow) w.primitiveClass = _
    cases hg : PyDict.get? (cfg2.shared.wrappers cfg2.shared.wrNow) w.primitiveClass with
    | none => exact absurd hg h2
    | some w' => rw [hi2.2 _ _ _ hg w hk rfl]

/-- C114.  A lookup that is started after a thread is through with `register()` of a package finds Tink's manager, and
new keys are allowed. -/
theorem C114_lookup (hl : LawfulConfig L isInst) (hs : SetsUp L (before ++ after))
    (hno : NeverReset (before ++ after)) {cfg1 cfg2 : Config P C} (e1 : cfg1 = (Config.of {}).run isInst before)
    (e2 : cfg2 = cfg1.run isInst after) {pkg : Package}
    (hdone : ∀ st ∈ registerPackage L pkg, ∀ c, callIn st = some c → ∃ i res, Finished cfg1 i c res)
    {u : PStr} {k : Tink.Config.PrimClass} (hu : (u, k) ∈ keyTypes pkg) {j : Nat} (hj : cfg1.calls.length ≤ j)
    {res : Py (Answer P C)} (hf : Finished cfg2 j (.lookup u) res) :
    ∃ m, res = .ok (.manager m true) ∧ TinkManager L u k m ∧ m.primitiveClass = L.cls k := by
  have hp := C114_registered (after := []) hl (by
    rw [List.append_nil]; exact fun c hc => hs c (List.mem_append_left _ hc)) (by
    rw [List.append_nil]; exact fun hc => hno (List.mem_append_left _ hc)) e1 (cfg2 := cfg1) rfl hdone
  obtain ⟨m, hm, hcls, -, ht⟩ := hp.managers u k hu
  obtain ⟨m', b', rfl⟩ := (C112_stays_registered hno e1 e2 (.inl ⟨m, true, hm⟩)).2 j res hj hf
  obtain ⟨-, -, ho⟩ := split_run (isInst := isInst) (r := {}) (keep := True) only_empty
    (setsUp_allowed hl hs hno) e1 e2
  obtain ⟨s0, ho, -⟩ := ho j _ _ hf
  obtain ⟨x, hx, he⟩ : ∃ x, x ∈ packageManagers L pkg ∧ (x.1, x.2.1) = (u, k) := by
    have := hu
    rw [← packageTypes_iff, ← packageManagers_types L] at this
    exact List.mem_map.1 this
  obtain ⟨m0, hm0, hg⟩ := packageManagers_good hl pkg x hx
  obtain ⟨x1, x2, x3⟩ := x
  cases he
  cases hm0
  rcases ho with ⟨m1, b1, e, hK⟩ | ⟨e, -⟩ | ⟨e, -⟩
  · cases e
    obtain ⟨rfl, rfl⟩ := hK m0 ⟨pkg, _, _, hx⟩ hg.keyType
    exact ⟨_, rfl, hg.tink, hg.cls⟩
  · cases e
  · cases e

/-- C114.  The same for wrappers. -/
theorem C114_wrapper (hl : LawfulConfig L isInst) (hs : SetsUp L (before ++ after))
    (hno : NeverReset (before ++ after)) {cfg1 cfg2 : Config P C} (e1 : cfg1 = (Config.of {}).run isInst before)
    (e2 : cfg2 = cfg1.run isInst after) {pkg : Package}
    (hdone : ∀ st ∈ registerPackage L pkg, ∀ c, callIn st = some c → ∃ i res, Finished cfg1 i c res)
    {k : Tink.Config.PrimClass} (hk : k ∈ wrapped pkg) {j : Nat} (hj : cfg1.calls.length ≤ j)
    {res : Py (Answer P C)} (hf : Finished cfg2 j (.wrapperFor (L.cls k)) res) :
    ∃ w, res = .ok (.wrapper w) ∧ TinkWrapper L k w := by
  have hp := C114_registered (after := []) hl (by
    rw [List.append_nil]; exact fun c hc => hs c (List.mem_append_left _ hc)) (by
    rw [List.append_nil]; exact fun hc => hno (List.mem_append_left _ hc)) e1 (cfg2 := cfg1) rfl hdone
  obtain ⟨w, hw, ht⟩ := hp.wrappers k hk
  obtain ⟨w', rfl⟩ := (C112_wrapper_stays_registered hno e1 e2 (.inl ⟨w, hw⟩)).2 j res hj hf
  obtain ⟨-, -, ho⟩ := split_run (isInst := isInst) (r := {}) (keep := True) only_empty
    (setsUp_allowed hl hs hno) e1 e2
  obtain ⟨s0, ho, -⟩ := ho j _ _ hf
  rcases ho with ⟨w1, e, hW⟩ | ⟨e, -⟩ | ⟨e, -⟩
  · cases e
    rw [hW w ⟨k, ht⟩ (tinkWrapper_class ht)]
    exact ⟨_, rfl, ht⟩
  · cases e
  · cases e

end

/-! ## Example -/

namespace SetupThreadsExample
open Tink.Config ToyConfig

/-- The manager that `daead.register()` makes. -/
def siv : KeyManager Prim PrimClass :=
  match daeadManager library (ps! "AesSivKey") with
  | .ok m => m
  | .error _ => ownManager

theorem siv_made : daeadManager library (ps! "AesSivKey") = .ok siv := by rfl

def sivWrapper : PrimitiveWrapper Prim PrimClass :=
  daeadWrapper library.daead (library.wrapperType .daead) (library.cls .daead)

def steps (i n : Nat) : List (Event Prim PrimClass) := List.replicate n (.step i)

/-- Two threads call `daead.register()`; both find the type URL free before either registers.  A third registers a
manager of its own in the meantime. -/
def both : List (Event Prim PrimClass) :=
  .start (.registerKeyManager siv true) :: .start (.registerKeyManager siv true) ::
    .start (.registerKeyManager ownManager false) ::
    (steps 0 2 ++ steps 1 2 ++ steps 2 3 ++ steps 0 1 ++
      .start (.registerPrimitiveWrapper sivWrapper) :: (steps 3 4 ++ steps 1 1))

/-- The second has yet to register the wrapper; a lookup is made. -/
def rest : List (Event Prim PrimClass) :=
  .start (.registerPrimitiveWrapper sivWrapper) :: .start (.lookup (ps! "type.googleapis.com/google.crypto.tink.AesSivKey")) ::
    (steps 4 2 ++ steps 5 4)

theorem sets_up : SetsUp library (both ++ rest) := by
  intro c hc
  have hm : (∃ pkg, ∃ s ∈ registerPackage library pkg, callIn s = some (.registerKeyManager siv true)) :=
    ⟨.daead, .keyManager (daeadManager library (ps! "AesSivKey")), by simp [registerPackage, registerDaead], by
      rw [siv_made]; rfl⟩
  have hw : (∃ pkg, ∃ s ∈ registerPackage library pkg, callIn s = some (.registerPrimitiveWrapper sivWrapper)) :=
    ⟨.daead, .wrapper sivWrapper, by simp [registerPackage, registerDaead, sivWrapper], rfl⟩
  simp [both, rest, steps] at hc
  rcases hc with rfl | rfl | rfl | rfl
  · exact .inl hm
  · refine .inr fun pkg k => ?_
    have : ownManager.keyType = ps! "type.example.com/Own" := rfl
    rw [this]
    cases pkg <;> cases k <;> decide
  · exact .inl hw
  · exact .inr trivial

theorem through : ∀ st ∈ registerPackage library .daead, ∀ c, callIn st = some c →
    ∃ i res, Finished ((Config.of {}).run ToyConfig.isInst both) i c res := by
  intro st hst c hc
  simp only [registerPackage, registerDaead, List.mem_cons, List.not_mem_nil, or_false] at hst
  rcases hst with rfl | rfl | rfl
  · cases hc
  · rw [siv_made] at hc
    cases hc
    exact ⟨0, .ok .unit, rfl⟩
  · cases hc
    exact ⟨3, .ok .unit, rfl⟩

end SetupThreadsExample

open SetupThreadsExample ToyConfig in
/-- The hypotheses of C114 are met while a second thread is still under way. -/
example : NeverReset (both ++ rest) ∧
    (∃ res, Finished (((Config.of {}).run ToyConfig.isInst both).run ToyConfig.isInst rest) 5
      (.lookup (ps! "type.googleapis.com/google.crypto.tink.AesSivKey")) res) ∧
    PackageRegistered library
      (((Config.of {}).run ToyConfig.isInst both).run ToyConfig.isInst rest).shared.registry .daead := by
  have hn : NeverReset (both ++ rest) := by simp [NeverReset, both, rest, steps]
  exact ⟨hn, ⟨.ok (.manager siv true), rfl⟩, C114_registered lawful sets_up hn rfl rfl through⟩

end Tink.Props
