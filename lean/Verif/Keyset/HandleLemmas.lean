import Verif.Spec.Keyset
import Verif.Core.PrimitiveSetLemmas

namespace Tink
open Spec
variable {P C : Type}

theorem bind_ok_iff {α β : Type} {x : Py α} {f : α → Py β} {b : β} :
    (x >>= f) = .ok b ↔ ∃ a, x = .ok a ∧ f a = .ok b := by
  cases x with
  | error e => constructor <;> intro h
               · cases h
               · obtain ⟨_, h, _⟩ := h; cases h
  | ok a => constructor
            · intro h; exact ⟨a, rfl, h⟩
            · rintro ⟨a', h, hf⟩; cases h; exact hf

/-- The prefix of a key, `[]` when it has none. -/
def prefixOf (k : Key) : Bytes := match outputPrefix k with | .ok id => id | .error _ => []

theorem prefixOf_eq {k : Key} {id : Bytes} (h : outputPrefix k = .ok id) : prefixOf k = id := by
  simp [prefixOf, h]

/-- The entry of a key in a primitive set. -/
def entryOf (q : Key × P) : Entry P := mkEntry q.2 q.1 (prefixOf q.1)

/-- One step of the loop of `primitive`. -/
def psetStep (pid : UInt32) (s : PrimitiveSet P C) (q : Key × P) : PrimitiveSet P C :=
  if q.1.keyId = pid then (s.append (entryOf q)).setPrimary (entryOf q) else s.append (entryOf q)

/-- The primitive set of a list of keys with their primitives. -/
def psetOf (c : C) (pid : UInt32) (kps : List (Key × P)) : PrimitiveSet P C :=
  kps.foldl (psetStep pid) { primitiveClass := c }

theorem psetStep_class (pid : UInt32) (s : PrimitiveSet P C) (q : Key × P) :
    (psetStep pid s q).primitiveClass = s.primitiveClass := by
  unfold psetStep; split <;> rfl

variable [DecidableEq C]

theorem addKey_disabled {isInst : P → C → Bool} {r : Registry P C} {c : C} {pid : UInt32}
    {s : PrimitiveSet P C} {k : Key} (h : ¬ Enabled k) :
    KeysetHandle.addKey isInst r c pid s k = .ok s := by
  unfold KeysetHandle.addKey; exact if_neg h

theorem addKey_enabled {isInst : P → C → Bool} {r : Registry P C} {c : C} {pid : UInt32}
    {s s' : PrimitiveSet P C} {k : Key} (h : Enabled k) :
    KeysetHandle.addKey isInst r c pid s k = .ok s' ↔
      ∃ p, r.primitive k.data c = .ok p ∧ isInst p s.primitiveClass = true ∧
        (∃ id, outputPrefix k = .ok id) ∧ s' = psetStep pid s (k, p) := by
  unfold KeysetHandle.addKey
  rw [if_pos (show k.status = KeyStatusType.ENABLED from h), bind_ok_iff]
  constructor
  · rintro ⟨p, hp, h2⟩
    rw [bind_ok_iff] at h2
    obtain ⟨⟨s1, e⟩, ha, h3⟩ := h2
    obtain ⟨hi, id, hid, he, hs⟩ := PrimitiveSet.addPrimitive_ok ha
    refine ⟨p, hp, hi, ⟨id, hid⟩, ?_⟩
    have hee : entryOf (k, p) = e := by rw [he]; simp [entryOf, prefixOf_eq hid]
    simp only [pure, Except.pure, Except.ok.injEq] at h3
    unfold psetStep
    rw [hee, ← hs, ← h3]
  · rintro ⟨p, hp, hi, ⟨id, hid⟩, hs⟩
    refine ⟨p, hp, ?_⟩
    rw [bind_ok_iff]
    refine ⟨_, PrimitiveSet.addPrimitive_of hi hid, ?_⟩
    simp [pure, Except.pure, hs, psetStep, entryOf, prefixOf_eq hid]

theorem primitiveSet_foldlM {isInst : P → C → Bool} {r : Registry P C} {c : C} {pid : UInt32}
    (keys : List Key) (s s' : PrimitiveSet P C) (hs : s.primitiveClass = c) :
    keys.foldlM (KeysetHandle.addKey isInst r c pid) s = .ok s' ↔
    ∃ kps : List (Key × P),
      (kps.map Prod.fst = keys.filter (fun k => Enabled k) ∧
        ∀ q ∈ kps, r.primitive q.1.data c = .ok q.2) ∧
      (∀ q ∈ kps, isInst q.2 c = true ∧ ∃ id, outputPrefix q.1 = .ok id) ∧
      s' = kps.foldl (psetStep pid) s := by
  induction keys generalizing s with
  | nil =>
    constructor
    · intro h
      simp only [List.foldlM_nil, pure, Except.pure, Except.ok.injEq] at h
      exact ⟨[], ⟨rfl, by simp⟩, by simp, h.symm⟩
    · rintro ⟨kps, ⟨h1, _⟩, _, h3⟩
      simp only [List.filter_nil, List.map_eq_nil_iff] at h1
      subst h1
      simp [h3, pure, Except.pure]
  | cons k keys ih =>
    rw [List.foldlM_cons, bind_ok_iff]
    by_cases hk : Enabled k
    · constructor
      · rintro ⟨s1, h1, h2⟩
        rw [addKey_enabled hk] at h1
        obtain ⟨p, hp, hi, hid, rfl⟩ := h1
        rw [ih _ (by rw [psetStep_class, hs])] at h2
        obtain ⟨kps, ⟨ha, hb⟩, hc, hd⟩ := h2
        refine ⟨(k, p) :: kps, ⟨?_, ?_⟩, ?_, ?_⟩
        · simp [hk, ha]
        · intro q hq
          rcases List.mem_cons.1 hq with rfl | hq
          · exact hp
          · exact hb q hq
        · intro q hq
          rcases List.mem_cons.1 hq with rfl | hq
          · exact ⟨hs ▸ hi, hid⟩
          · exact hc q hq
        · simp [hd]
      · rintro ⟨kps, ⟨ha, hb⟩, hc, hd⟩
        rw [List.filter_cons_of_pos (by simpa using hk)] at ha
        cases kps with
        | nil => simp at ha
        | cons q kps =>
          simp only [List.map_cons, List.cons.injEq] at ha
          obtain ⟨rfl, ha⟩ := ha
          refine ⟨psetStep pid s q, ?_, ?_⟩
          · rw [addKey_enabled hk]
            refine ⟨q.2, hb q (by simp), ?_, (hc q (by simp)).2, rfl⟩
            rw [hs]; exact (hc q (by simp)).1
          · rw [ih _ (by rw [psetStep_class, hs])]
            exact ⟨kps, ⟨ha, fun q hq => hb q (by simp [hq])⟩, fun q hq => hc q (by simp [hq]),
              by simpa using hd⟩
    · rw [List.filter_cons_of_neg (by simpa using hk)]
      constructor
      · rintro ⟨s1, h1, h2⟩
        rw [addKey_disabled hk] at h1
        cases h1
        exact (ih s hs).1 h2
      · intro h
        exact ⟨s, addKey_disabled hk, (ih s hs).2 h⟩

theorem primitiveSet_ok_iff {isInst : P → C → Bool} {r : Registry P C} {c : C} {ks : Keyset}
    {s : PrimitiveSet P C} :
    KeysetHandle.primitiveSet isInst r c ks = .ok s ↔
    ∃ kps, EnabledPrimitives r c ks kps ∧
      (∀ q ∈ kps, isInst q.2 c = true ∧ ∃ id, outputPrefix q.1 = .ok id) ∧
      s = psetOf c ks.primaryKeyId kps :=
  primitiveSet_foldlM ks.key _ s rfl

/-- `primitive` succeeds exactly when the keyset is valid, a wrapper is registered,
every enabled key has a primitive of the right class and a known prefix type,
and the wrapper accepts them. -/
theorem primitive_ok_iff {isInst : P → C → Bool} {r : Registry P C} {h : KeysetHandle} {c : C}
    {p : P} :
    h.primitive isInst r c = .ok p ↔
    validateKeyset h.keyset = .ok () ∧
    ∃ w kps, PyDict.get? r.wrappers c = some w ∧
      EnabledPrimitives r w.inputPrimitiveClass h.keyset kps ∧
      (∀ q ∈ kps, isInst q.2 w.inputPrimitiveClass = true ∧ ∃ id, outputPrefix q.1 = .ok id) ∧
      w.wrap (psetOf w.inputPrimitiveClass h.keyset.primaryKeyId kps) = .ok p := by
  have hcls : ∀ (c : C) pid (kps : List (Key × P)) (s : PrimitiveSet P C), s.primitiveClass = c →
      (kps.foldl (psetStep pid) s).primitiveClass = c := by
    intro c pid kps
    induction kps with
    | nil => intro s h; exact h
    | cons q kps ih => intro s h; exact ih _ (by rw [psetStep_class, h])
  unfold KeysetHandle.primitive
  rw [bind_ok_iff]
  constructor
  · rintro ⟨⟨⟩, hv, h1⟩
    refine ⟨hv, ?_⟩
    obtain ⟨ic, hic, h2⟩ := bind_ok_iff.1 h1
    obtain ⟨s, hs, h3⟩ := bind_ok_iff.1 h2
    unfold Registry.inputPrimitiveClass at hic
    unfold Registry.wrap at h3
    split at hic
    · cases hic
    · rename_i w hw
      cases hic
      rw [hw] at h3
      obtain ⟨kps, ha, hb, rfl⟩ := primitiveSet_ok_iff.1 hs
      have hc := hcls w.inputPrimitiveClass h.keyset.primaryKeyId kps
        { primitiveClass := w.inputPrimitiveClass } rfl
      simp only [psetOf, hc, ne_eq, not_true_eq_false, if_false] at h3
      exact ⟨w, kps, hw, ha, hb, h3⟩
  · rintro ⟨hv, w, kps, hw, ha, hb, h3⟩
    refine ⟨(), hv, ?_⟩
    rw [bind_ok_iff]
    refine ⟨w.inputPrimitiveClass, by simp [Registry.inputPrimitiveClass, hw], ?_⟩
    rw [bind_ok_iff]
    refine ⟨_, primitiveSet_ok_iff.2 ⟨kps, ha, hb, rfl⟩, ?_⟩
    have hc := hcls w.inputPrimitiveClass h.keyset.primaryKeyId kps
        { primitiveClass := w.inputPrimitiveClass } rfl
    simp only [Registry.wrap, hw, psetOf, hc, ne_eq, not_true_eq_false, if_false]
    exact h3

omit [DecidableEq C]

theorem pfi_append (s : PrimitiveSet P C) (e : Entry P) (id : Bytes) :
    (s.append e).primitiveFromIdentifier id =
      s.primitiveFromIdentifier id ++ (if e.identifier = id then [e] else []) := by
  simp only [PrimitiveSet.pfi_eq, PrimitiveSet.append, PyDict.get?_set]
  by_cases hc : e.identifier = id
  · simp [hc]
  · simp [hc]

theorem pfi_psetStep (pid : UInt32) (s : PrimitiveSet P C) (q : Key × P) (id : Bytes) :
    (psetStep pid s q).primitiveFromIdentifier id =
      s.primitiveFromIdentifier id ++ (if prefixOf q.1 = id then [entryOf q] else []) := by
  unfold psetStep
  have h : (s.append (entryOf q)).primitiveFromIdentifier id = _ := pfi_append s (entryOf q) id
  split
  · exact h
  · exact h

theorem pfi_foldl (pid : UInt32) (kps : List (Key × P)) (s : PrimitiveSet P C) (id : Bytes) :
    (kps.foldl (psetStep pid) s).primitiveFromIdentifier id =
      s.primitiveFromIdentifier id ++
        (kps.filter (fun q => prefixOf q.1 = id)).map entryOf := by
  induction kps generalizing s with
  | nil => simp
  | cons q kps ih =>
    rw [List.foldl_cons, ih, pfi_psetStep]
    by_cases h : prefixOf q.1 = id <;> simp [h]

theorem pfi_psetOf (c : C) (pid : UInt32) (kps : List (Key × P)) (id : Bytes) :
    (psetOf c pid kps).primitiveFromIdentifier id =
      (kps.filter (fun q => prefixOf q.1 = id)).map entryOf := by
  unfold psetOf
  rw [pfi_foldl]
  simp [PrimitiveSet.primitiveFromIdentifier]

theorem primary_foldl (pid : UInt32) (kps : List (Key × P)) (s : PrimitiveSet P C) :
    (kps.foldl (psetStep pid) s).primary? =
      match (kps.filter (fun q => q.1.keyId = pid)).getLast? with
      | some q => some (entryOf q)
      | none => s.primary? := by
  induction kps generalizing s with
  | nil => simp
  | cons q kps ih =>
    rw [List.foldl_cons, ih]
    by_cases h : q.1.keyId = pid
    · rw [List.filter_cons_of_pos (by simpa using h)]
      rw [List.getLast?_cons]
      cases hl : (kps.filter (fun q => q.1.keyId = pid)).getLast? with
      | none => simp [psetStep, h, PrimitiveSet.setPrimary]
      | some q' => simp
    · rw [List.filter_cons_of_neg (by simpa using h)]
      cases hl : (kps.filter (fun q => q.1.keyId = pid)).getLast? with
      | none => simp [psetStep, h, PrimitiveSet.append]
      | some q' => simp

theorem primary_psetOf (c : C) (ks : Keyset) (kps : List (Key × P)) (q : Key × P) :
    (psetOf c ks.primaryKeyId kps).primary = .ok (entryOf q) → 
    ∃ q', IsPrimary ks kps q' ∧ entryOf q' = entryOf q := by
  unfold psetOf PrimitiveSet.primary IsPrimary
  rw [primary_foldl]
  cases (kps.filter (fun q => q.1.keyId = ks.primaryKeyId)).getLast? with
  | none => simp
  | some q' => simp

theorem primary_psetOf_some {c : C} {ks : Keyset} {kps : List (Key × P)} {q : Key × P}
    (h : IsPrimary ks kps q) : (psetOf c ks.primaryKeyId kps).primary = .ok (entryOf q) := by
  unfold psetOf PrimitiveSet.primary
  unfold IsPrimary at h
  rw [primary_foldl, h]

theorem primary_psetOf_none {c : C} {ks : Keyset} {kps : List (Key × P)}
    (h : ∀ q, ¬ IsPrimary ks kps q) :
    (psetOf c ks.primaryKeyId kps).primary = .error .tinkError := by
  unfold psetOf PrimitiveSet.primary
  rw [primary_foldl]
  unfold IsPrimary at h
  cases hl : (kps.filter (fun q => q.1.keyId = ks.primaryKeyId)).getLast? with
  | none => rfl
  | some q => exact absurd hl (h q)

end Tink
