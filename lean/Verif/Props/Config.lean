import Verif.Props.CcKeyManager
import Verif.Props.ConfigLemmas
import Verif.Examples.ToyConfig

/-!
# C64: registration of Tink's key types

After any history of registrations, in any order and with repetitions, the key types of every package
registered since the last `reset` can be used.
-/

namespace Tink.Props
open Spec Config

section
variable {σ δ ε τ S P C : Type} [DecidableEq C]

/-! ## Histories -/

/-- A call that may change the registry. -/
inductive ConfigOp (P C : Type) where
  /-- `register()` of a package -/
  | register (pkg : Package)
  /-- `tink_config.register()` -/
  | registerTinkConfig
  /-- a call of a method of `Registry` by the program -/
  | other (op : RegistryOp P C)

/-- The registry after a call, and the outcome of the call. -/
def ConfigOp.call (isInst : P → C → Bool) (L : Library σ δ ε τ S P C) (r : Registry P C) :
    ConfigOp P C → Registry P C × Py Unit
  | .register pkg => execAll isInst (registerPackage L pkg) r
  | .registerTinkConfig => execAll isInst (Config.registerTinkConfig L) r
  | .other op => op.call isInst r

/-- The registry after a history. -/
def runConfig (isInst : P → C → Bool) (L : Library σ δ ε τ S P C) (ops : List (ConfigOp P C))
    (r : Registry P C) : Registry P C :=
  ops.foldl (fun r op => (op.call isInst L r).1) r

/-- The program itself registers no key manager for a key type of Tink's and no wrapper for a class
of Tink's. -/
def Foreign (L : Library σ δ ε τ S P C) (ops : List (ConfigOp P C)) : Prop :=
  (∀ m b, .other (.registerKeyManager m b) ∈ ops →
    ∀ pkg, ∀ k, (m.keyType, k) ∉ keyTypes pkg) ∧
  (∀ w, .other (.registerPrimitiveWrapper w) ∈ ops →
    ∀ pkg, ∀ k ∈ wrapped pkg, w.primitiveClass ≠ L.cls k)

/-! ## The property -/

section
variable {L : Library σ δ ε τ S P C} {isInst : P → C → Bool}

/-- Effect of one call in a history. -/
theorem call_canon (hl : LawfulConfig L isInst) {r : Registry P C} (hr : Canon (IsManager L) (IsWrapper L) r)
    {op : ConfigOp P C} (hf : Foreign L [op]) :
    Canon (IsManager L) (IsWrapper L) (op.call isInst L r).1 ∧
    (op ≠ .other .reset → Keeps (IsManager L) (IsWrapper L) r (op.call isInst L r).1) ∧
    (∀ pkg, (op = .register pkg ∨ op = .registerTinkConfig) → (op.call isInst L r).2 = .ok () ∧
      ∀ s ∈ registerPackage L pkg, Done (op.call isInst L r).1 s) := by
  cases op with
  | register pkg =>
    obtain ⟨h1, h2, h3, h4⟩ := execAll_known (distinct hl) (registerPackage L pkg) r hr
      fun s hs => registerPackage_known hl pkg hs
    refine ⟨h2, fun _ => h3, ?_⟩
    rintro pkg' (h | h) <;> cases h
    exact ⟨h1, h4⟩
  | registerTinkConfig =>
    obtain ⟨h1, h2, h3, h4⟩ := execAll_known (distinct hl) (Config.registerTinkConfig L) r hr
      fun s hs => by
        obtain ⟨pkg, hp⟩ := registerTinkConfig_mem.1 hs
        exact registerPackage_known hl pkg hp
    exact ⟨h2, fun _ => h3, fun pkg _ => ⟨h1, fun s hs => h4 s (registerTinkConfig_mem.2 ⟨pkg, hs⟩)⟩⟩
  | other op =>
    refine (fun h => ⟨h.1, h.2, by rintro pkg (h | h) <;> cases h⟩ : _ ∧ _ → _) ?_
    cases op with
    | reset =>
      exact ⟨⟨fun _ _ _ _ h => (by cases h), fun _ _ _ h => (by cases h)⟩, fun h => absurd rfl h⟩
    | registerKeyManager m b =>
      have := canon_registerKeyManager hr (m := m) b (by
        rintro m' ⟨pkg, url, k, h⟩ he
        obtain ⟨_, h1, hg⟩ := packageManagers_good hl pkg _ h
        cases h1
        refine hf.1 m b (by simp) pkg k ?_
        rw [he, hg.keyType, ← packageTypes_iff, ← packageManagers_types L]
        exact List.mem_map.2 ⟨_, h, rfl⟩)
      exact ⟨this.1, fun _ => this.2⟩
    | registerPrimitiveWrapper w =>
      have := canon_registerPrimitiveWrapper isInst hr (w := w) (by
        rintro w' ⟨k, h⟩ he
        obtain ⟨pkg, hk⟩ := tinkWrapper_mem h
        exact hf.2 w (by simp) pkg k hk (he.trans (tinkWrapper_class h)))
      exact ⟨this.1, fun _ => this.2⟩

omit [DecidableEq C] in
theorem Foreign.head {op : ConfigOp P C} {ops : List (ConfigOp P C)} (h : Foreign L (op :: ops)) :
    Foreign L [op] :=
  ⟨fun m b hm => h.1 m b (List.mem_cons.2 (.inl (List.mem_singleton.1 hm))),
   fun w hw => h.2 w (List.mem_cons.2 (.inl (List.mem_singleton.1 hw)))⟩

omit [DecidableEq C] in
theorem Foreign.tail {op : ConfigOp P C} {ops : List (ConfigOp P C)} (h : Foreign L (op :: ops)) :
    Foreign L ops :=
  ⟨fun m b hm => h.1 m b (List.mem_cons_of_mem _ hm), fun w hw => h.2 w (List.mem_cons_of_mem _ hw)⟩

omit [DecidableEq C] in
theorem Foreign.left {a b : List (ConfigOp P C)} (h : Foreign L (a ++ b)) : Foreign L a :=
  ⟨fun m x hm => h.1 m x (List.mem_append_left _ hm), fun w hw => h.2 w (List.mem_append_left _ hw)⟩

omit [DecidableEq C] in
theorem Foreign.right {a b : List (ConfigOp P C)} (h : Foreign L (a ++ b)) : Foreign L b :=
  ⟨fun m x hm => h.1 m x (List.mem_append_right _ hm), fun w hw => h.2 w (List.mem_append_right _ hw)⟩

theorem run_canon (hl : LawfulConfig L isInst) (ops : List (ConfigOp P C)) : ∀ (r : Registry P C),
    Canon (IsManager L) (IsWrapper L) r → Foreign L ops →
    Canon (IsManager L) (IsWrapper L) (runConfig isInst L ops r) ∧
    (.other .reset ∉ ops → Keeps (IsManager L) (IsWrapper L) r (runConfig isInst L ops r)) := by
  induction ops with
  | nil => intro r hr _; exact ⟨hr, fun _ => ⟨fun _ _ h => h, fun _ _ h => h⟩⟩
  | cons op ops ih =>
    intro r hr hf
    obtain ⟨h1, h2, _⟩ := call_canon hl hr hf.head
    obtain ⟨g1, g2⟩ := ih _ h1 hf.tail
    refine ⟨g1, fun hn => ?_⟩
    simp only [List.mem_cons, not_or] at hn
    exact (h2 (Ne.symm hn.1)).trans (g2 hn.2)

theorem canon_empty : Canon (IsManager L) (IsWrapper L) ({} : Registry P C) :=
  ⟨fun _ _ _ _ h => (by cases h), fun _ _ _ h => (by cases h)⟩

/-- C64.  `register()` of any package, and `tink_config.register()`, succeed after any history. -/
theorem C64_never_fails (hl : LawfulConfig L isInst) {ops : List (ConfigOp P C)} (hf : Foreign L ops) :
    (∀ pkg, (ConfigOp.call isInst L (runConfig isInst L ops {}) (.register pkg)).2 = .ok ()) ∧
    (ConfigOp.call isInst L (runConfig isInst L ops {}) .registerTinkConfig).2 = .ok () := by
  have hc := (run_canon hl ops {} canon_empty hf).1
  have hf1 : ∀ pkg, Foreign L [.register pkg] := fun _ => ⟨by simp, by simp⟩
  have hf2 : Foreign L [.registerTinkConfig] := ⟨by simp, by simp⟩
  exact ⟨fun pkg => ((call_canon hl hc (hf1 pkg)).2.2 pkg (.inl rfl)).1,
    ((call_canon hl hc hf2).2.2 .aead (.inr rfl)).1⟩

/-- C64.  Once a package has been registered, by itself or with `tink_config.register()`, and until
`reset`, all its key types and primitives can be used, whatever else is registered before and after. -/
theorem C64_registered (hl : LawfulConfig L isInst) {before after : List (ConfigOp P C)} {op : ConfigOp P C}
    {pkg : Package} (hop : op = .register pkg ∨ op = .registerTinkConfig)
    (hf : Foreign L (before ++ op :: after)) (hn : .other .reset ∉ after) :
    PackageRegistered L (runConfig isInst L (before ++ op :: after) {}) pkg := by
  have hc := (run_canon hl before {} canon_empty hf.left).1
  obtain ⟨h1, _, h3⟩ := call_canon hl hc hf.right.head
  have hk := (run_canon hl after _ h1 hf.right.tail).2 hn
  have he : runConfig isInst L (before ++ op :: after) {} =
      runConfig isInst L after (op.call isInst L (runConfig isInst L before {})).1 := by
    simp [runConfig]
  rw [he]
  refine registered_of_done hl fun s hs => ?_
  exact hk.done (registerPackage_known hl pkg hs) ((h3 pkg hop).2 s hs)

/-- C64.  No other key type is registered: what is found in the registry under a type URL was
registered by the program itself, or the type is one of a package. -/
theorem C64_nothing_else (hl : LawfulConfig L isInst) (ops : List (ConfigOp P C)) {url : PStr}
    {m : KeyManager P C} {b : Bool}
    (hg : PyDict.get? (runConfig isInst L ops {}).keyManagers url = some (m, b)) :
    (∃ pkg k, (url, k) ∈ keyTypes pkg) ∨ ∃ b', .other (.registerKeyManager m b') ∈ ops := by
  have hexec : ∀ (ss : List (Stmt P C)) (I : PStr → KeyManager P C → Prop) (r : Registry P C),
      (∀ s ∈ ss, ∃ pkg, s ∈ registerPackage L pkg) →
      (∀ url m b, PyDict.get? r.keyManagers url = some (m, b) → (∃ pkg k, (url, k) ∈ keyTypes pkg) ∨ I url m) →
      ∀ url m b, PyDict.get? (execAll isInst ss r).1.keyManagers url = some (m, b) →
        (∃ pkg k, (url, k) ∈ keyTypes pkg) ∨ I url m := by
    intro ss I
    induction ss with
    | nil => intro r _ h; exact h
    | cons s ss ih =>
      intro r hs h
      refine andThen_inv (I := fun r => ∀ url m b, PyDict.get? r.keyManagers url = some (m, b) →
        (∃ pkg k, (url, k) ∈ keyTypes pkg) ∨ I url m) ?_ fun r hr => ih r (fun s hm => hs s (by simp [hm])) hr
      obtain ⟨pkg, hp⟩ := hs s (by simp)
      rcases registerPackage_cases hl pkg hp with rfl | ⟨x, hx, rfl⟩ | ⟨k, w, hw, rfl⟩
      · exact h
      · obtain ⟨m, hm, hgood⟩ := packageManagers_good hl pkg x hx
        intro url m' b hg
        rw [hm] at hg
        rcases register_get hg with ⟨b', hg⟩ | ⟨rfl, hu⟩
        · exact h url m' b' hg
        · left
          refine ⟨pkg, x.2.1, ?_⟩
          rw [hu, hgood.keyType, ← packageTypes_iff, ← packageManagers_types L]
          exact List.mem_map.2 ⟨_, hx, rfl⟩
      · intro url m' b hg
        simp only [Stmt.exec] at hg
        rw [register_wrapper_managers] at hg
        exact h url m' b hg
  have hrun : ∀ (all ops : List (ConfigOp P C)) (r : Registry P C), (∀ op ∈ ops, op ∈ all) →
      (∀ url m b, PyDict.get? r.keyManagers url = some (m, b) → (∃ pkg k, (url, k) ∈ keyTypes pkg) ∨
        ∃ b', .other (.registerKeyManager m b') ∈ all) →
      ∀ url m b, PyDict.get? (runConfig isInst L ops r).keyManagers url = some (m, b) →
        (∃ pkg k, (url, k) ∈ keyTypes pkg) ∨ ∃ b', .other (.registerKeyManager m b') ∈ all := by
    intro all ops
    induction ops with
    | nil => intro r _ h; exact h
    | cons op ops ih =>
      intro r hs h
      refine ih _ (fun op hm => hs op (by simp [hm])) ?_
      cases op with
      | register pkg =>
        exact hexec _ (fun _ m => ∃ b', .other (.registerKeyManager m b') ∈ all) r
          (fun s hs => ⟨pkg, hs⟩) h
      | registerTinkConfig =>
        exact hexec _ (fun _ m => ∃ b', .other (.registerKeyManager m b') ∈ all) r
          (fun s hs => registerTinkConfig_mem.1 hs) h
      | other op =>
        cases op with
        | reset => intro url m b hg; cases hg
        | registerKeyManager m b =>
          intro url m' b' hg
          rcases register_get hg with ⟨b'', hg⟩ | ⟨rfl, _⟩
          · exact h url m' b'' hg
          · exact .inr ⟨b, hs _ (by simp)⟩
        | registerPrimitiveWrapper w =>
          intro url m' b' hg
          simp only [ConfigOp.call, RegistryOp.call] at hg
          rw [register_wrapper_managers] at hg
          exact h url m' b' hg
  exact hrun ops ops {} (fun _ h => h) (fun _ _ _ h => by cases h) url m b hg

/-! ## A C++ library without the key types -/

theorem unknown_manager {pkg : Package} {x : PStr × PrimClass × Py (KeyManager P C)}
    (hx : x ∈ packageManagers L pkg)
    (h1 : x.1 ≠ ps! "type.googleapis.com/google.crypto.tink.KmsAeadKey")
    (h2 : x.1 ≠ ps! "type.googleapis.com/google.crypto.tink.KmsEnvelopeAeadKey")
    (hu : CcUnknown L x.1 x.2.1) : x.2.2 = .error .pythonTinkException := by
  cases pkg with
  | aead =>
    rcases List.mem_append.1 hx with hx | hx
    · obtain ⟨i, _, rfl⟩ := List.mem_map.1 hx
      simp only [CcUnknown] at hu
      simp only [aeadManager, hu]; rfl
    · simp only [List.mem_cons, List.not_mem_nil, or_false] at hx
      rcases hx with rfl | rfl
      · exact absurd rfl h1
      · exact absurd rfl h2
  | daead =>
    rw [List.mem_singleton.1 hx] at hu ⊢
    simp only [CcUnknown] at hu
    simp only [daeadManager, hu]; rfl
  | hybrid =>
    simp only [packageManagers, List.mem_cons, List.not_mem_nil, or_false] at hx
    rcases hx with rfl | rfl | rfl | rfl <;> simp only [CcUnknown] at hu <;>
      simp only [hybridDecryptManager, hybridEncryptManager, hu] <;> rfl
  | mac =>
    obtain ⟨i, _, rfl⟩ := List.mem_map.1 hx
    simp only [CcUnknown] at hu
    simp only [macManager, hu]; rfl
  | prf =>
    obtain ⟨i, _, rfl⟩ := List.mem_map.1 hx
    simp only [CcUnknown] at hu
    simp only [prfManager, hu]; rfl
  | signature =>
    rcases List.mem_append.1 hx with hx | hx <;> obtain ⟨i, _, rfl⟩ := List.mem_map.1 hx <;>
      simp only [CcUnknown] at hu <;> simp only [signManager, verifyManager, hu] <;> rfl
  | streamingAead =>
    obtain ⟨i, _, rfl⟩ := List.mem_map.1 hx
    simp only [CcUnknown] at hu
    simp only [streamingManager, hu]; rfl

theorem execAll_failing (ss : List (Stmt P C)) {s : Stmt P C} (hs : s ∈ ss)
    (hf : ∀ r, (s.exec isInst r).2 ≠ .ok ()) (r : Registry P C) : (execAll isInst ss r).2 ≠ .ok () := by
  induction ss generalizing r with
  | nil => cases hs
  | cons s' ss ih =>
    show (andThen (s'.exec isInst r) (execAll isInst ss)).2 ≠ .ok ()
    cases hx : s'.exec isInst r with
    | mk r' o =>
      cases o with
      | error e => simp [andThen]
      | ok u =>
        rcases List.mem_cons.1 hs with rfl | hs
        · exact absurd (by rw [hx]) (hf r)
        · exact ih hs r'

/-- C65.  If C++ does not have one of the package's key types, `register()` raises an exception, whatever
has been registered before; and so does `tink_config.register()`. -/
theorem C65_unknown_type {pkg : Package} {url : PStr} {k : PrimClass} (hk : (url, k) ∈ keyTypes pkg)
    (h1 : url ≠ ps! "type.googleapis.com/google.crypto.tink.KmsAeadKey")
    (h2 : url ≠ ps! "type.googleapis.com/google.crypto.tink.KmsEnvelopeAeadKey")
    (hu : CcUnknown L url k) (r : Registry P C) :
    (ConfigOp.call isInst L r (.register pkg)).2 ≠ .ok () ∧
    (ConfigOp.call isInst L r .registerTinkConfig).2 ≠ .ok () := by
  rw [← packageTypes_iff, ← packageManagers_types L] at hk
  obtain ⟨x, hx, he⟩ := List.mem_map.1 hk
  cases he
  have hs := packageManagers_stmt pkg hx
  have hf : ∀ r, ((Stmt.keyManager x.2.2).exec isInst r).2 ≠ .ok () := by
    intro r
    rw [unknown_manager hx h1 h2 hu]
    simp [Stmt.exec]
  exact ⟨execAll_failing _ hs hf r, execAll_failing _ (registerTinkConfig_mem.2 ⟨pkg, hs⟩) hf r⟩

/-- C65.  That exception is not translated: where C++ lacks AES-SIV, `daead.register()` raises
`PythonTinkException`, which is no `TinkError`, and registers nothing. -/
theorem C65_unknown_type_exception (hb : L.bindingsRegister = .ok ())
    (hu : L.ccDaead (ps! "type.googleapis.com/google.crypto.tink.AesSivKey") = none) (r : Registry P C) :
    ConfigOp.call isInst L r (.register .daead) = (r, .error .pythonTinkException) ∧
    Exc.isTink .pythonTinkException = false := by
  have : daeadManager L (ps! "AesSivKey") = .error .pythonTinkException := by
    have hu' : L.ccDaead (typeUrl (ps! "AesSivKey")) = none := hu
    simp only [daeadManager, hu']; rfl
  refine ⟨?_, rfl⟩
  show execAll isInst (registerDaead L) r = _
  simp only [registerDaead, execAll, Stmt.exec, hb, this, andThen]

/-! ## New keysets -/

omit [DecidableEq C] in
/-- C64.  Every predefined template names a key type of its package, for keys of the package's class,
with prefix type TINK or RAW (PRFs: RAW). -/
theorem C64_templates (pkg : Package) : ∀ x ∈ templates pkg, ∃ t, x = .ok t ∧ FitsTemplate t ∧
    (t.typeUrl, keyClass pkg) ∈ keyTypes pkg ∧
    t.typeUrl ≠ ps! "type.googleapis.com/google.crypto.tink.KmsAeadKey" ∧
    t.typeUrl ≠ ps! "type.googleapis.com/google.crypto.tink.KmsEnvelopeAeadKey" ∧
    (t.outputPrefixType = OutputPrefixType.TINK ∧ pkg ≠ .prf ∨
      t.outputPrefixType = OutputPrefixType.RAW) := by
  have hcheck : ∀ pkg ∈ packages, ∀ x ∈ templates pkg, (match x with
      | .error _ => false
      | .ok t => (match t.serializeToString with | .ok _ => true | .error _ => false) &&
        decide ((t.typeUrl, keyClass pkg) ∈ keyTypes pkg) &&
        decide (t.typeUrl ≠ ps! "type.googleapis.com/google.crypto.tink.KmsAeadKey") &&
        decide (t.typeUrl ≠ ps! "type.googleapis.com/google.crypto.tink.KmsEnvelopeAeadKey") &&
        decide (t.outputPrefixType = OutputPrefixType.TINK ∧ pkg ≠ .prf ∨
          t.outputPrefixType = OutputPrefixType.RAW)) = true := by decide +kernel
  intro x hx
  have := hcheck pkg (mem_packages pkg) x hx
  cases x with
  | error e => cases this
  | ok t =>
    simp only [Bool.and_eq_true, decide_eq_true_eq] at this
    obtain ⟨⟨⟨⟨h1, h2⟩, h3⟩, h4⟩, h5⟩ := this
    refine ⟨t, rfl, ?_, h2, h3, h4, h5⟩
    cases hs : t.serializeToString with
    | error e => rw [hs] at h1; cases h1
    | ok b => exact ⟨b, hs⟩

theorem registry_serves {A B : Type} {V : View P A} {toPy : B → A} {cc : Cpp.KeyManager B} {b : Bool}
    {r : Registry P C} {m : KeyManager P C} {c : C} {t : KeyTemplate}
    (hg : PyDict.get? r.keyManagers t.typeUrl = some (m, true)) (hc : m.primitiveClass = c)
    (hk : m.keyType = t.typeUrl) (hs : Serves V toPy cc b m) {seed : Seed} (hft : FitsTemplate t)
    {kd : KeyData} (hn : cc.newKeyData seed t.value = .ok kd) {a : B} (hp : cc.getPrimitive kd = .ok a)
    (hfk : Fits kd) (hu : kd.typeUrl = t.typeUrl) :
    r.newKeyData seed t = .ok kd ∧ r.primitive kd c = .ok (V.inj (toPy a)) := by
  constructor
  · unfold Registry.newKeyData Registry.keyManagerInternal
    rw [hg]
    show m.newKeyData seed t = _
    rw [hs.newKeyData seed t hft (by rw [← hk, hs.keyType]) (fun kd' h' => by
      rw [hn] at h'; cases h'; exact hfk), hn]
    rfl
  · unfold Registry.primitive Registry.keyManager Registry.keyManagerInternal
    rw [hu, hg]
    show (if m.primitiveClass ≠ c then _ else m.primitive kd) = _
    rw [if_neg (by simp [hc]), hs.primitive kd hfk, hp]
    rfl

/-- After registration, the registry makes what C++ makes. -/
theorem registry_makes {r : Registry P C} {pkg : Package} (hr : PackageRegistered L r pkg) {k : PrimClass}
    {t : KeyTemplate} (hk : (t.typeUrl, k) ∈ keyTypes pkg)
    (h1 : t.typeUrl ≠ ps! "type.googleapis.com/google.crypto.tink.KmsAeadKey")
    (h2 : t.typeUrl ≠ ps! "type.googleapis.com/google.crypto.tink.KmsEnvelopeAeadKey")
    {seed : Seed} (hft : FitsTemplate t) {kd : KeyData} {o : P}
    (hm : CcMakes L t.typeUrl seed t.value kd k o) (hfk : Fits kd) (hu : kd.typeUrl = t.typeUrl) :
    r.newKeyData seed t = .ok kd ∧ r.primitive kd (L.cls k) = .ok o := by
  obtain ⟨m, hg, hc, hkt, htm⟩ := hr.managers _ _ hk
  cases hm with
  | aead found new made =>
    cases htm with
    | aead _ _ found' serves =>
      rw [found] at found'; cases found'
      exact registry_serves hg hc hkt serves hft new made hfk hu
    | kmsAead h => exact absurd h h1
    | kmsEnvelopeAead h => exact absurd h h2
  | daead found new made =>
    cases htm with
    | daead found' serves =>
      rw [found] at found'; cases found'
      exact registry_serves hg hc hkt serves hft new made hfk hu
  | hybridDecrypt found new made =>
    cases htm with
    | hybridDecrypt found' serves =>
      rw [found] at found'; cases found'
      exact registry_serves hg hc hkt serves hft new made hfk hu
  | mac found new made =>
    cases htm with
    | mac found' serves =>
      rw [found] at found'; cases found'
      exact registry_serves hg hc hkt serves hft new made hfk hu
  | prf found new made =>
    cases htm with
    | prf found' serves =>
      rw [found] at found'; cases found'
      exact registry_serves hg hc hkt serves hft new made hfk hu
  | sign found new made =>
    cases htm with
    | sign found' serves =>
      rw [found] at found'; cases found'
      exact registry_serves hg hc hkt serves hft new made hfk hu
  | rawStreamingAead found new made =>
    cases htm with
    | rawStreamingAead found' serves =>
      rw [found] at found'; cases found'
      exact registry_serves hg hc hkt serves hft new made hfk hu

omit [DecidableEq C] in
/-- Tink's wrapper for the class of the package's keysets takes primitives of the class of its keys. -/
theorem tinkWrapper_input {pkg : Package} {w : PrimitiveWrapper P C}
    (h : TinkWrapper L (keysetClass pkg) w) : w.inputPrimitiveClass = L.cls (keyClass pkg) := by
  cases pkg <;> cases h <;> rfl

omit [DecidableEq C] in
theorem makes_inst (hl : LawfulConfig L isInst) {url : PStr} {seed : Seed} {v : Bytes} {kd : KeyData}
    {k : PrimClass} {o : P} (h : CcMakes L url seed v kd k o) : isInst o (L.cls k) = true := by
  cases h
  · exact hl.aead _
  · exact hl.daead _
  · exact hl.hybridDecrypt _
  · exact hl.mac _
  · exact hl.prf _
  · exact hl.sign _
  · exact hl.rawStreamingAead _

omit [DecidableEq C] in
theorem single_valid {kd : KeyData} {d : UInt32} {pt : EnumVal}
    (hp : pt ≠ OutputPrefixType.UNKNOWN_PREFIX) :
    Valid ⟨d, [⟨some kd, KeyStatusType.ENABLED, d, pt⟩]⟩ := by
  refine ⟨⟨_, List.mem_singleton.2 rfl, by simp [KeyStatusType.ENABLED,
    KeyStatusType.DESTROYED]⟩, ?_, ?_, ?_⟩
  · intro k hk _
    rw [List.mem_singleton.1 hk]
    exact ⟨by simp, hp, by simp [KeyStatusType.ENABLED, KeyStatusType.UNKNOWN_STATUS]⟩
  · intro pre k₁ mid k₂ post he
    exfalso
    have := congrArg List.length he
    simp at this
    omega
  · left
    exact ⟨_, List.mem_singleton.2 rfl, rfl, rfl⟩

/-- The primitive of a keyset with one key. -/
theorem single_obtained {r : Registry P C} {w : PrimitiveWrapper P C} {c : C} {kd : KeyData} {d : UInt32}
    {pt : EnumVal} {o p : P} (hw : PyDict.get? r.wrappers c = some w)
    (hp : r.primitive kd w.inputPrimitiveClass = .ok o) (hi : isInst o w.inputPrimitiveClass = true)
    (hne : pt ≠ OutputPrefixType.UNKNOWN_PREFIX)
    (hpre : ∃ id, outputPrefix ⟨some kd, KeyStatusType.ENABLED, d, pt⟩ = .ok id)
    (hwr : w.wrap (psetOf w.inputPrimitiveClass d [(⟨some kd, KeyStatusType.ENABLED, d, pt⟩, o)]) = .ok p) :
    Obtained isInst w r ⟨⟨d, [⟨some kd, KeyStatusType.ENABLED, d, pt⟩]⟩⟩ c
      [(⟨some kd, KeyStatusType.ENABLED, d, pt⟩, o)] p := by
  have hk : EnabledPrimitives r w.inputPrimitiveClass ⟨d, [⟨some kd, KeyStatusType.ENABLED, d, pt⟩]⟩
      [(⟨some kd, KeyStatusType.ENABLED, d, pt⟩, o)] := by
    refine ⟨by simp [Enabled], ?_⟩
    intro q hq
    rw [List.mem_singleton.1 hq]
    exact hp
  refine ⟨hw, primitive_ok_iff.2 ⟨(C20_validate_iff _).2 (single_valid hne), w, _, hw, hk, ?_, hwr⟩, hk⟩
  intro q hq
  rw [List.mem_singleton.1 hq]
  exact ⟨hi, hpre⟩

/-- C64.  From any predefined template of a registered package a new keyset can be made, and from the
keyset the package's primitive: if C++ makes key data and a primitive from the template, then
`generate_new` returns a keyset with one key with these key data, enabled and primary, with the
template's prefix type and the id drawn, and `primitive` gives Tink's wrapper of that primitive. -/
theorem C64_new_keyset (hl : LawfulConfig L isInst) {r : Registry P C} {pkg : Package}
    (hr : PackageRegistered L r pkg) {t : KeyTemplate} (ht : .ok t ∈ templates pkg) {seed : Seed} {kd : KeyData}
    {o : P} (hm : CcMakes L t.typeUrl seed t.value kd (keyClass pkg) o) (hfk : Fits kd)
    (hu : kd.typeUrl = t.typeUrl) (d : UInt32) (draws : List UInt32) :
    ∃ h w p, KeysetHandle.generateNew r seed (d :: draws) t = some (.ok h) ∧
      h.keyset = ⟨d, [⟨some kd, KeyStatusType.ENABLED, d, t.outputPrefixType⟩]⟩ ∧
      TinkWrapper L (keysetClass pkg) w ∧
      Obtained isInst w r h (L.cls (keysetClass pkg))
        [(⟨some kd, KeyStatusType.ENABLED, d, t.outputPrefixType⟩, o)] p := by
  obtain ⟨t', h0, hft, hk, h1, h2, hpt⟩ := C64_templates pkg _ ht
  cases h0
  obtain ⟨hn, hp⟩ := registry_makes hr hk h1 h2 hft hm hfk hu
  have hne : t.outputPrefixType ≠ OutputPrefixType.UNKNOWN_PREFIX := by
    rcases hpt with ⟨hpt, _⟩ | hpt <;> rw [hpt] <;> decide
  have hgen := C19_generate_new_ok (d := d) (draws := draws) hn hne
  have hks : keysetClass pkg ∈ wrapped pkg := by cases pkg <;> decide
  obtain ⟨w, hw, htw⟩ := hr.wrappers _ hks
  have hpre : ∃ id, outputPrefix ⟨some kd, KeyStatusType.ENABLED, d, t.outputPrefixType⟩ = .ok id := by
    unfold outputPrefix
    rcases hpt with ⟨hpt, _⟩ | hpt <;> simp only [hpt] <;> exact ⟨_, rfl⟩
  have hwr : ∃ p, w.wrap (psetOf w.inputPrimitiveClass d
      [(⟨some kd, KeyStatusType.ENABLED, d, t.outputPrefixType⟩, o)]) = .ok p := by
    cases pkg with
    | prf =>
      cases htw
      rcases hpt with ⟨_, hpt⟩ | hpt
      · exact absurd rfl hpt
      · refine ⟨_, bind_ok_iff.2 ⟨_, bind_ok_iff.2 ⟨(), ?_, rfl⟩, rfl⟩⟩
        exact (prf_validate_iff _ _).2 (by simp [hpt])
    | _ => cases htw; exact ⟨_, rfl⟩
  obtain ⟨p, hp'⟩ := hwr
  refine ⟨_, w, p, hgen, rfl, htw, ?_⟩
  exact single_obtained hw (by rw [tinkWrapper_input htw]; exact hp)
    (by rw [tinkWrapper_input htw]; exact makes_inst hl hm) hne hpre hp'

end
end

/-! ## Examples -/

section
open ToyConfig

/-- A history with a key manager of the program's own, a `reset`, and repeated registrations. -/
def history : List (ConfigOp ToyConfig.Prim PrimClass) :=
  [.register .prf, .other .reset, .other (.registerKeyManager ownManager true), .register .signature]

def later : List (ConfigOp ToyConfig.Prim PrimClass) :=
  [.register .aead, .other (.registerKeyManager ownManager false), .registerTinkConfig]

theorem history_foreign (a : List (ConfigOp ToyConfig.Prim PrimClass))
    (ha : ∀ op ∈ a, op = .registerTinkConfig ∨ (∃ pkg, op = .register pkg) ∨ op = .other .reset ∨
      ∃ b, op = .other (.registerKeyManager ownManager b)) : Foreign library a := by
  have hown : ∀ pkg ∈ packages, ownManager.keyType ∉ (keyTypes pkg).map Prod.fst := by decide +kernel
  constructor
  · intro m b hm pkg k hk
    rcases ha _ hm with h | ⟨_, h⟩ | h | ⟨_, h⟩
    · cases h
    · cases h
    · cases h
    · cases h
      exact hown pkg (mem_packages pkg) (List.mem_map.2 ⟨_, hk, rfl⟩)
  · intro w hw
    rcases ha _ hw with h | ⟨_, h⟩ | h | ⟨_, h⟩ <;> cases h

theorem toy_foreign : Foreign library (history ++ .registerTinkConfig :: later) := by
  refine history_foreign _ fun op hop => ?_
  simp only [history, later, List.cons_append, List.nil_append, List.mem_cons, List.not_mem_nil,
    or_false] at hop
  rcases hop with rfl | rfl | rfl | rfl | rfl | rfl | rfl | rfl <;> simp

/-- `C64_never_fails`, `C64_registered`. -/
example (pkg : Package) :
    (ConfigOp.call ToyConfig.isInst library (runConfig ToyConfig.isInst library history {})
      .registerTinkConfig).2 = .ok () ∧
    PackageRegistered library (runConfig ToyConfig.isInst library (history ++ .registerTinkConfig :: later) {})
      pkg :=
  ⟨(C64_never_fails lawful toy_foreign.left).2,
   C64_registered lawful (.inr rfl) toy_foreign (by simp [later])⟩

/-- After a registration of the program's own, the type of the program's key manager can be found. -/
example : ∃ m, PyDict.get? (runConfig ToyConfig.isInst library history {}).keyManagers
    (ps! "type.example.com/Own") = some (m, true) := by
  have h : ((PyDict.get? (runConfig ToyConfig.isInst library history {}).keyManagers
      (ps! "type.example.com/Own")).map Prod.snd) = some true := by decide +kernel
  obtain ⟨⟨m, b⟩, hg, rfl⟩ := Option.map_eq_some_iff.1 h
  exact ⟨m, hg⟩

/-- `C64_templates`: there are templates. -/
example : (packages.map fun pkg => (templates pkg).length) = [18, 1, 10, 5, 4, 15, 8] := rfl

/-- `C64_new_keyset`: C++ makes a key and a primitive from every predefined template for MACs. -/
example {t : KeyTemplate} (ht : .ok t ∈ templates .mac) :
    ∃ kd o, CcMakes library t.typeUrl 7 t.value kd (keyClass .mac) o ∧ Fits kd ∧ kd.typeUrl = t.typeUrl := by
  have hk : (t.typeUrl, PrimClass.mac) ∈ keyTypes .mac := by
    obtain ⟨_, h0, _, hk, _⟩ := C64_templates .mac _ ht
    cases h0
    exact hk
  refine ⟨⟨t.typeUrl, [7], KeyMaterialType.SYMMETRIC⟩, _,
    .mac (a := ToyConfig.mac [7]) (if_pos hk) rfl rfl, ?_, rfl⟩
  have hall : ∀ url ∈ (keyTypes .mac).map Prod.fst,
      Except.isOk (KeyData.serializeToString ⟨url, [7], KeyMaterialType.SYMMETRIC⟩) = true := by
    decide +kernel
  exact fits_of (hall _ (List.mem_map.2 ⟨_, hk, rfl⟩))

/-- `C65_unknown_type`, `C65_unknown_type_exception`. -/
example : CcUnknown withoutSiv (ps! "type.googleapis.com/google.crypto.tink.AesSivKey") .daead ∧
    withoutSiv.bindingsRegister = .ok () :=
  ⟨rfl, rfl⟩

end
end Tink.Props
