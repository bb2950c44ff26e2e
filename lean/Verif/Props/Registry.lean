import Verif.Keyset.HandleLemmas
import Verif.Py.DictLemmas
import Verif.Examples.Toy

/-!
# C15-C18: the registry

A history is a list of registration calls; calls that raise leave the registry as it was
(C17), so a history can contain failing calls anywhere.
-/

namespace Tink.Props
open Spec

/-- A call that may change the registry. -/
inductive RegistryOp (P C : Type) where
  | registerKeyManager (m : KeyManager P C) (newKeyAllowed : Bool)
  | registerPrimitiveWrapper (w : PrimitiveWrapper P C)
  | reset

section
variable {P C : Type} [DecidableEq C]

/-- The registry after a call, and the outcome of the call. -/
def RegistryOp.call (isInst : P → C → Bool) (r : Registry P C) :
    RegistryOp P C → Registry P C × Py Unit
  | .registerKeyManager m b => r.registerKeyManager m b
  | .registerPrimitiveWrapper w => r.registerPrimitiveWrapper isInst w
  | .reset => (r.reset, .ok ())

/-- The registry after a history. -/
def runRegistry (isInst : P → C → Bool) (ops : List (RegistryOp P C)) (r : Registry P C) :
    Registry P C :=
  ops.foldl (fun r op => (op.call isInst r).1) r

/-- A history without `reset`. -/
def NoReset (ops : List (RegistryOp P C)) : Prop := RegistryOp.reset ∉ ops

/-- C17.  A registration that raises changes nothing. -/
theorem C17_failed_call_changes_nothing (isInst : P → C → Bool) {r r' : Registry P C}
    {op : RegistryOp P C} {e : Exc} (h : op.call isInst r = (r', .error e)) : r' = r := by
  cases op with
  | registerKeyManager m b =>
    simp only [RegistryOp.call, Registry.registerKeyManager] at h
    repeat' split at h
    all_goals (first | (cases h; rfl) | cases h)
  | registerPrimitiveWrapper w =>
    simp only [RegistryOp.call, Registry.registerPrimitiveWrapper] at h
    repeat' split at h
    all_goals (first | (cases h; rfl) | cases h)
  | reset => cases h

/-- C17.  `register_key_manager` fails only with `TinkError`, exactly when the manager does not
support its own type URL, or another manager type or primitive class is registered for it, or
new keys would be allowed again. -/
theorem C17_register_key_manager_fails_iff (r : Registry P C) (m : KeyManager P C) (b : Bool) :
    ((r.registerKeyManager m b).2 = .error .tinkError ↔
      m.doesSupport m.keyType = false ∨
      ∃ m' b', PyDict.get? r.keyManagers m.keyType = some (m', b') ∧
        (m'.pyType ≠ m.pyType ∨ m'.primitiveClass ≠ m.primitiveClass ∨
          (b' = false ∧ b = true))) ∧
    ((r.registerKeyManager m b).2 = .ok () ∨
      (r.registerKeyManager m b).2 = .error .tinkError) := by
  unfold Registry.registerKeyManager
  cases hs : m.doesSupport m.keyType with
  | false => simp [hs]
  | true =>
    simp only [hs]
    cases hg : PyDict.get? r.keyManagers m.keyType with
    | none => simp
    | some x =>
      obtain ⟨m', b'⟩ := x
      by_cases h1 : m'.pyType ≠ m.pyType ∨ m'.primitiveClass ≠ m.primitiveClass
      · simp only [h1, if_true]
        simp only [ne_eq] at h1
        refine ⟨⟨fun _ => .inr ⟨m', b', rfl, ?_⟩, fun _ => rfl⟩, .inr rfl⟩
        rcases h1 with h1 | h1
        · exact .inl h1
        · exact .inr (.inl h1)
      · simp only [h1, if_false]
        simp only [ne_eq, not_or, Decidable.not_not] at h1
        cases b' <;> cases b <;> simp [h1]

theorem registerPrimitiveWrapper_cases (isInst : P → C → Bool) (r : Registry P C)
    (w : PrimitiveWrapper P C) :
    (r.registerPrimitiveWrapper isInst w).1 = r ∨
    ((∀ w', PyDict.get? r.wrappers w.primitiveClass = some w' → w'.pyType = w.pyType) ∧
      (∃ p, w.wrap { primitiveClass := w.inputPrimitiveClass } = .ok p ∧
        isInst p w.primitiveClass = true) ∧
      (r.registerPrimitiveWrapper isInst w).1 =
        ⟨r.keyManagers, PyDict.set r.wrappers w.primitiveClass w⟩) := by
  unfold Registry.registerPrimitiveWrapper
  cases hg : PyDict.get? r.wrappers w.primitiveClass with
  | none =>
    cases hw : w.wrap { primitiveClass := w.inputPrimitiveClass } with
    | error e => exact .inl rfl
    | ok p =>
      cases hi : isInst p w.primitiveClass with
      | false => left; simp [hi]
      | true => right; exact ⟨by simp, ⟨p, rfl, hi⟩, by simp [hi]⟩
  | some w' =>
    by_cases ht : w'.pyType = w.pyType
    · cases hw : w.wrap { primitiveClass := w.inputPrimitiveClass } with
      | error e => left; simp [ht]
      | ok p =>
        cases hi : isInst p w.primitiveClass with
        | false => left; simp [hi, ht]
        | true => right; exact ⟨by simp [ht], ⟨p, rfl, hi⟩, by simp [hi, ht]⟩
    · left; simp [ht]

theorem keyManagers_step (isInst : P → C → Bool) (r : Registry P C) {op : RegistryOp P C}
    (hop : op ≠ .reset) {url : PStr} {m : KeyManager P C} {b : Bool}
    (h : PyDict.get? r.keyManagers url = some (m, b)) :
    ∃ b', PyDict.get? (op.call isInst r).1.keyManagers url = some (m, b') ∧
      (b = false → b' = false) := by
  cases op with
  | reset => exact absurd rfl hop
  | registerPrimitiveWrapper w =>
    refine ⟨b, ?_, id⟩
    simp only [RegistryOp.call, Registry.registerPrimitiveWrapper]
    repeat' split
    all_goals exact h
  | registerKeyManager m' b' =>
    simp only [RegistryOp.call, Registry.registerKeyManager]
    split
    · exact ⟨b, h, id⟩
    · split
      · rename_i ex exb hg
        split
        · exact ⟨b, h, id⟩
        · split
          · exact ⟨b, h, id⟩
          · rename_i hnew
            simp only [PyDict.get?_set]
            by_cases hu : m'.keyType = url
            · rw [hu, h] at hg
              cases hg
              refine ⟨b', by simp [hu], ?_⟩
              intro hb
              subst hb
              cases b' with
              | false => rfl
              | true => simp at hnew
            · exact ⟨b, by simp [hu, h], id⟩
      · rename_i hg
        simp only [PyDict.get?_set]
        by_cases hu : m'.keyType = url
        · rw [hu, h] at hg; cases hg
        · exact ⟨b, by simp [hu, h], id⟩

theorem keyManagers_run (isInst : P → C → Bool) {ops : List (RegistryOp P C)}
    (hops : NoReset ops) {r : Registry P C} {url : PStr} {m : KeyManager P C} {b : Bool}
    (h : PyDict.get? r.keyManagers url = some (m, b)) :
    ∃ b', PyDict.get? (runRegistry isInst ops r).keyManagers url = some (m, b') ∧
      (b = false → b' = false) := by
  induction ops generalizing r b with
  | nil => exact ⟨b, h, id⟩
  | cons op ops ih =>
    simp only [NoReset, List.mem_cons, not_or] at hops
    obtain ⟨b1, h1, hb1⟩ := keyManagers_step isInst r (fun e => hops.1 e.symm) h
    obtain ⟨b2, h2, hb2⟩ := ih hops.2 h1
    exact ⟨b2, h2, fun hb => hb2 (hb1 hb)⟩

omit [DecidableEq C] in
theorem keyManager_ok_iff {r : Registry P C} {url : PStr} {m : KeyManager P C} :
    r.keyManager url = .ok m ↔ ∃ b, PyDict.get? r.keyManagers url = some (m, b) := by
  unfold Registry.keyManager Registry.keyManagerInternal
  cases PyDict.get? r.keyManagers url with
  | none => simp [bind, Except.bind]
  | some x => obtain ⟨m', b⟩ := x; simp [bind, Except.bind, pure, Except.pure]

/-- C15.  Once a manager is found for a type URL, it is found after any further history
without reset. -/
theorem C15_first_manager_stays (isInst : P → C → Bool) {r : Registry P C} {url : PStr}
    {m : KeyManager P C} (h : r.keyManager url = .ok m) {ops : List (RegistryOp P C)}
    (hops : NoReset ops) : (runRegistry isInst ops r).keyManager url = .ok m := by
  obtain ⟨b, hb⟩ := keyManager_ok_iff.1 h
  obtain ⟨b', h', _⟩ := keyManagers_run isInst hops hb
  exact keyManager_ok_iff.2 ⟨b', h'⟩

/-- C15.  The first successful registration binds the type URL to that manager; a later one
for the same type URL does not replace it. -/
theorem C15_registration_binds {r r' : Registry P C} {m : KeyManager P C} {b : Bool}
    (h : r.registerKeyManager m b = (r', .ok ())) :
    (r.keyManager m.keyType = .error .tinkError ∧ r'.keyManager m.keyType = .ok m) ∨
    (∃ m', r.keyManager m.keyType = .ok m' ∧ r'.keyManager m.keyType = .ok m' ∧
      m'.pyType = m.pyType ∧ m'.primitiveClass = m.primitiveClass) := by
  unfold Registry.registerKeyManager at h
  simp only at h
  split at h
  · cases h
  · split at h
    · rename_i ex exb hg
      split at h
      · cases h
      · rename_i hne
        split at h
        · cases h
        · cases h
          right
          simp only [ne_eq, not_or, Decidable.not_not] at hne
          refine ⟨ex, keyManager_ok_iff.2 ⟨exb, hg⟩, ?_, hne.1, hne.2⟩
          exact keyManager_ok_iff.2 ⟨b, by simp [PyDict.get?_set]⟩
    · rename_i hg
      cases h
      left
      constructor
      · unfold Registry.keyManager Registry.keyManagerInternal
        rw [hg]; rfl
      · exact keyManager_ok_iff.2 ⟨b, by simp [PyDict.get?_set]⟩

/-- C15.  Registering one type URL does not affect the others. -/
theorem C15_other_urls (r : Registry P C) (m : KeyManager P C) (b : Bool) {url : PStr}
    (hu : url ≠ m.keyType) : (r.registerKeyManager m b).1.keyManager url = r.keyManager url := by
  have : PyDict.get? (r.registerKeyManager m b).1.keyManagers url =
      PyDict.get? r.keyManagers url := by
    unfold Registry.registerKeyManager
    simp only
    repeat' split
    all_goals (first | rfl | skip)
    all_goals
      rw [PyDict.get?_set, if_neg (fun h => hu h.symm)]
  unfold Registry.keyManager Registry.keyManagerInternal
  rw [this]

/-- C16.  After a successful registration that disallows new keys, no history without reset makes
`new_key_data` succeed for that type URL. -/
theorem C16_forbidden_forever (isInst : P → C → Bool) {r r' : Registry P C} {m : KeyManager P C}
    (h : r.registerKeyManager m false = (r', .ok ())) {ops : List (RegistryOp P C)}
    (hops : NoReset ops) {template : KeyTemplate} (ht : template.typeUrl = m.keyType)
    (seed : Seed) :
    (runRegistry isInst ops r').newKeyData seed template = .error .tinkError := by
  have hg : ∃ m', PyDict.get? r'.keyManagers m.keyType = some (m', false) := by
    unfold Registry.registerKeyManager at h
    simp only at h
    repeat' split at h
    all_goals (first | cases h)
    · rename_i ex exb hg _ _
      exact ⟨ex, by simp [PyDict.get?_set]⟩
    · exact ⟨m, by simp [PyDict.get?_set]⟩
  obtain ⟨m', hm⟩ := hg
  obtain ⟨b', h', hb'⟩ := keyManagers_run isInst hops hm
  rw [hb' rfl] at h'
  unfold Registry.newKeyData Registry.keyManagerInternal
  rw [ht, h']
  rfl

/-- C16.  Conversely, key generation goes to the first manager as long as new keys are
allowed: right after a successful registration that allows them. -/
theorem C16_allowed_uses_manager {r r' : Registry P C} {m : KeyManager P C}
    (h : r.registerKeyManager m true = (r', .ok ())) {template : KeyTemplate}
    (ht : template.typeUrl = m.keyType) (seed : Seed) :
    ∃ m', r'.keyManager m.keyType = .ok m' ∧
      r'.newKeyData seed template = m'.newKeyData seed template := by
  have hg : ∃ m', PyDict.get? r'.keyManagers m.keyType = some (m', true) := by
    unfold Registry.registerKeyManager at h
    simp only at h
    repeat' split at h
    all_goals (first | cases h)
    · rename_i ex exb hg _ _
      exact ⟨ex, by simp [PyDict.get?_set]⟩
    · exact ⟨m, by simp [PyDict.get?_set]⟩
  obtain ⟨m', hm⟩ := hg
  refine ⟨m', keyManager_ok_iff.2 ⟨true, hm⟩, ?_⟩
  unfold Registry.newKeyData Registry.keyManagerInternal
  rw [ht, hm]
  rfl

/-- C18.  `primitive` succeeds exactly through a manager bound to the key's type URL, of the
requested class. -/
theorem C18_primitive_iff {r : Registry P C} {kd : KeyData} {cls : C} {p : P} :
    r.primitive kd cls = .ok p ↔
      ∃ m, r.keyManager kd.typeUrl = .ok m ∧ m.primitiveClass = cls ∧ m.primitive kd = .ok p := by
  unfold Registry.primitive
  rw [bind_ok_iff]
  constructor
  · rintro ⟨m, hm, h⟩
    split at h
    · cases h
    · rename_i hc
      exact ⟨m, hm, Decidable.not_not.1 hc, h⟩
  · rintro ⟨m, hm, hc, h⟩
    exact ⟨m, hm, by rw [if_neg (by simpa using hc)]; exact h⟩

/-- C18.  Without such a manager the outcome is `TinkError`. -/
theorem C18_primitive_rejected {r : Registry P C} {kd : KeyData} {cls : C}
    (h : ∀ m, r.keyManager kd.typeUrl = .ok m → m.primitiveClass ≠ cls) :
    r.primitive kd cls = .error .tinkError := by
  unfold Registry.primitive
  cases hm : r.keyManager kd.typeUrl with
  | error e =>
    unfold Registry.keyManager Registry.keyManagerInternal at hm
    split at hm
    · cases hm; rfl
    · cases hm
  | ok m =>
    show (if m.primitiveClass ≠ cls then .error .tinkError else m.primitive kd) = _
    exact if_pos (h m hm)

omit [DecidableEq C] in
/-- C18.  `public_key_data` succeeds exactly for private key material, through a private key
manager bound to its type URL. -/
theorem C18_public_key_data_iff {r : Registry P C} {kd pub : KeyData} :
    r.publicKeyData kd = .ok pub ↔
      kd.keyMaterialType = KeyMaterialType.ASYMMETRIC_PRIVATE ∧
      ∃ m f, r.keyManager kd.typeUrl = .ok m ∧ m.publicKeyData = some f ∧ f kd = .ok pub := by
  unfold Registry.publicKeyData
  split
  · rename_i h
    constructor
    · intro h'; cases h'
    · rintro ⟨h', _⟩; exact absurd h' h
  · rename_i h
    simp only [ne_eq, Decidable.not_not] at h
    rw [bind_ok_iff]
    constructor
    · rintro ⟨m, hm, h'⟩
      split at h'
      · cases h'
      · rename_i f hf
        exact ⟨h, m, f, hm, hf, h'⟩
    · rintro ⟨_, m, f, hm, hf, h'⟩
      exact ⟨m, hm, by rw [hf]; exact h'⟩

/-- Every binding of the registry stems from a registration in the history. -/
def Traced (isInst : P → C → Bool) (ops : List (RegistryOp P C)) (r : Registry P C) : Prop :=
  (∀ url m b, PyDict.get? r.keyManagers url = some (m, b) →
    m.keyType = url ∧ m.doesSupport url = true ∧ ∃ b', .registerKeyManager m b' ∈ ops) ∧
  (∀ c w, PyDict.get? r.wrappers c = some w →
    w.primitiveClass = c ∧ .registerPrimitiveWrapper w ∈ ops ∧
    ∃ p, w.wrap { primitiveClass := w.inputPrimitiveClass } = .ok p ∧ isInst p c = true)

/-- C18.  In any registry reached by a history from the empty registry, a manager bound to a type
URL was registered in that history for this URL and supports it; likewise wrappers, which were seen
to produce an object of their class. -/
theorem C18_traced (isInst : P → C → Bool) (ops : List (RegistryOp P C)) :
    Traced isInst ops (runRegistry isInst ops {}) := by
  have gen : ∀ (done ops : List (RegistryOp P C)) (r : Registry P C), Traced isInst done r →
      Traced isInst (done ++ ops) (runRegistry isInst ops r) := by
    intro done ops
    induction ops generalizing done with
    | nil => intro r h; simpa [runRegistry] using h
    | cons op ops ih =>
      intro r h
      have hstep : Traced isInst (done ++ [op]) (op.call isInst r).1 := by
        have hmono : Traced isInst (done ++ [op]) r := by
          refine ⟨fun url m b hg => ?_, fun c w hg => ?_⟩
          · obtain ⟨h1, h2, b', h3⟩ := h.1 url m b hg
            exact ⟨h1, h2, b', List.mem_append_left _ h3⟩
          · obtain ⟨h1, h2, h3⟩ := h.2 c w hg
            exact ⟨h1, List.mem_append_left _ h2, h3⟩
        cases op with
        | reset =>
          refine ⟨fun url m b hg => ?_, fun c w hg => ?_⟩
          · simp [RegistryOp.call, Registry.reset, PyDict.get?] at hg
          · simp [RegistryOp.call, Registry.reset, PyDict.get?] at hg
        | registerKeyManager m' b' =>
          simp only [RegistryOp.call, Registry.registerKeyManager]
          split
          · exact hmono
          · rename_i hs
            simp only [Bool.not_eq_true', Bool.not_eq_false] at hs
            split
            · rename_i ex exb hg
              split
              · exact hmono
              · split
                · exact hmono
                · refine ⟨fun url m b hg' => ?_, hmono.2⟩
                  simp only [PyDict.get?_set] at hg'
                  by_cases hu : m'.keyType = url
                  · rw [if_pos hu] at hg'
                    cases hg'
                    subst hu
                    exact hmono.1 _ _ _ hg
                  · rw [if_neg hu] at hg'
                    exact hmono.1 _ _ _ hg'
            · refine ⟨fun url m b hg' => ?_, hmono.2⟩
              simp only [PyDict.get?_set] at hg'
              by_cases hu : m'.keyType = url
              · rw [if_pos hu] at hg'
                cases hg'
                subst hu
                exact ⟨rfl, hs, b', by simp⟩
              · rw [if_neg hu] at hg'
                exact hmono.1 _ _ _ hg'
        | registerPrimitiveWrapper w' =>
          simp only [RegistryOp.call]
          rcases registerPrimitiveWrapper_cases isInst r w' with he | ⟨_, ⟨p, hp, hi⟩, he⟩
          · rw [he]; exact hmono
          · rw [he]
            refine ⟨hmono.1, fun c w hg' => ?_⟩
            simp only [PyDict.get?_set] at hg'
            by_cases hu : w'.primitiveClass = c
            · rw [if_pos hu] at hg'
              cases hg'
              subst hu
              exact ⟨rfl, by simp, p, hp, hi⟩
            · rw [if_neg hu] at hg'
              exact hmono.2 _ _ hg'
      have := ih (done ++ [op]) _ hstep
      simpa [runRegistry] using this
  have := gen [] ops {} ⟨by simp [PyDict.get?], by simp [PyDict.get?]⟩
  simpa using this

/-- C18.  `wrap` uses the wrapper bound to the class and only accepts primitive sets of that
wrapper's input class. -/
theorem C18_wrap_iff {r : Registry P C} {pset : PrimitiveSet P C} {cls : C} {p : P} :
    r.wrap pset cls = .ok p ↔
      ∃ w, PyDict.get? r.wrappers cls = some w ∧ pset.primitiveClass = w.inputPrimitiveClass ∧
        w.wrap pset = .ok p := by
  unfold Registry.wrap
  cases hg : PyDict.get? r.wrappers cls with
  | none => simp
  | some w =>
    simp only [Option.some.injEq, exists_eq_left']
    by_cases hc : pset.primitiveClass = w.inputPrimitiveClass <;> simp [hc]

/-- A wrapper of another type cannot replace a registered one. -/
theorem C17_wrapper_type_stays (isInst : P → C → Bool) {r : Registry P C} {c : C}
    {w : PrimitiveWrapper P C} (h : PyDict.get? r.wrappers c = some w)
    {ops : List (RegistryOp P C)} (hops : NoReset ops) :
    ∃ w', PyDict.get? (runRegistry isInst ops r).wrappers c = some w' ∧ w'.pyType = w.pyType := by
  induction ops generalizing r w with
  | nil => exact ⟨w, h, rfl⟩
  | cons op ops ih =>
    simp only [NoReset, List.mem_cons, not_or] at hops
    have : ∃ w', PyDict.get? (op.call isInst r).1.wrappers c = some w' ∧ w'.pyType = w.pyType := by
      cases op with
      | reset => exact absurd rfl hops.1
      | registerKeyManager m b =>
        refine ⟨w, ?_, rfl⟩
        simp only [RegistryOp.call, Registry.registerKeyManager]
        repeat' split
        all_goals exact h
      | registerPrimitiveWrapper w' =>
        simp only [RegistryOp.call]
        rcases registerPrimitiveWrapper_cases isInst r w' with he | ⟨ht, _, he⟩
        · rw [he]; exact ⟨w, h, rfl⟩
        · rw [he]
          simp only [PyDict.get?_set]
          by_cases hu : w'.primitiveClass = c
          · refine ⟨w', by simp [hu], ?_⟩
            subst hu
            exact (ht w h).symm
          · exact ⟨w, by simp [hu, h], rfl⟩
    obtain ⟨w1, h1, e1⟩ := this
    obtain ⟨w2, h2, e2⟩ := ih h1 hops.2
    exact ⟨w2, h2, e2.trans e1⟩

end

namespace RegistryExample
open Toy

/-- A manager for the AEAD type URL with another Python type. -/
def rival : KeyManager Prim Cls := { manager .aead with pyType := 2 }
/-- A second manager object of the same Python type that behaves differently. -/
def twin : KeyManager Prim Cls := { manager .aead with primitive := fun _ => .error .valueError }

def ops : List (RegistryOp Prim Cls) :=
  [.registerKeyManager rival true, .registerKeyManager twin true, .registerKeyManager twin false,
   .registerKeyManager (manager .aead) true,
   .registerPrimitiveWrapper (aeadWrapper aeadView 10 .aead)]

/-- The outcomes of that history, from a registry that holds the AEAD manager. -/
example : (ops.foldl (fun (x : Registry Prim Cls × List (Py Unit)) op =>
      ((op.call isInst x.1).1, x.2 ++ [(op.call isInst x.1).2])) (registry, [])).2 =
    [.error .tinkError, .ok (), .ok (), .error .tinkError, .ok ()] := rfl

example : NoReset ops := by simp [NoReset, ops]

/-- The hypotheses of C15 and C16 hold for it. -/
example : registry.keyManager (url .aead) = .ok (manager .aead) := rfl
example : (registry.registerKeyManager twin false).2 = .ok () := rfl

end RegistryExample
end Tink.Props
