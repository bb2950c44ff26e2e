import Verif.Wrap.Lemmas

/-!
# Going through all entries of a primitive set
-/

namespace Tink
open Spec
variable {P C : Type}

theorem forM_ok_iff {α : Type} (f : α → Py Unit) (l : List α) :
    l.forM f = .ok () ↔ ∀ a ∈ l, f a = .ok () := by
  induction l with
  | nil => simp [pure, Except.pure]
  | cons a l ih =>
    simp only [List.mem_cons, forall_eq_or_imp, ← ih]
    show (f a >>= fun _ => l.forM f) = _ ↔ _
    cases f a with
    | error e => simp [bind, Except.bind]
    | ok u => simp [bind, Except.bind]

theorem all_map {A : Type} (f : P → A) (s : PrimitiveSet P C) :
    (s.map f).all = s.all.map (·.map (Entry.map f)) := by
  simp [PrimitiveSet.all, PrimitiveSet.map, PyDict.values]

theorem psetOf_all_mem (c : C) (pid : UInt32) (kps : List (Key × P)) (e : Entry P) :
    e ∈ (psetOf c pid kps).all.flatten ↔ e ∈ kps.map entryOf := by
  have h : ∀ (kps : List (Key × P)) (s : PrimitiveSet P C),
      (kps.foldl (psetStep pid) s).all.flatten.Perm (s.all.flatten ++ kps.map entryOf) := by
    intro kps
    induction kps with
    | nil => intro s; simp
    | cons q kps ih =>
      intro s
      rw [List.foldl_cons]
      refine (ih _).trans ?_
      have : (psetStep pid s q).all = (s.append (entryOf q)).all := by
        unfold psetStep; split <;> rfl
      rw [this]
      refine ((PrimitiveSet.all_append s (entryOf q)).append_right _).trans ?_
      simp
  have := (h kps { primitiveClass := c }).mem_iff (a := e)
  simpa [psetOf, PrimitiveSet.all, PyDict.values] using this

theorem keys_foldl (pid : UInt32) (kps : List (Key × P)) (s : PrimitiveSet P C) :
    PyDict.keys (kps.foldl (psetStep pid) s).primitives = PyDict.keys s.primitives ++
      ((kps.map (fun q => prefixOf q.1)).filter (· ∉ PyDict.keys s.primitives)).eraseDups := by
  induction kps generalizing s with
  | nil => simp
  | cons q kps ih =>
    rw [List.foldl_cons, ih]
    have hs : PyDict.keys (psetStep pid s q).primitives =
        if prefixOf q.1 ∈ PyDict.keys s.primitives then PyDict.keys s.primitives
        else PyDict.keys s.primitives ++ [prefixOf q.1] := by
      have : (psetStep pid s q).primitives = (s.append (entryOf q)).primitives := by
        unfold psetStep; split <;> rfl
      rw [this]
      unfold PrimitiveSet.append
      simp only
      rw [PyDict.keys_set]
      have hid : (entryOf q).identifier = prefixOf q.1 := rfl
      rw [hid]
      by_cases hh : prefixOf q.1 ∈ PyDict.keys s.primitives
      · rw [if_pos hh, if_pos hh]
      · rw [if_neg hh, if_neg hh]
    by_cases h : prefixOf q.1 ∈ PyDict.keys s.primitives
    · rw [hs, if_pos h]
      simp [h]
    · rw [hs, if_neg h]
      rw [List.map_cons, List.filter_cons_of_pos (by simpa using h), List.eraseDups_cons,
        List.filter_filter, List.append_assoc, List.singleton_append]
      congr 3
      apply List.filter_congr
      intro x _
      by_cases hx : x = prefixOf q.1 <;> simp [hx, h]

theorem wf_foldl (pid : UInt32) (kps : List (Key × P)) (s : PrimitiveSet P C)
    (h : PyDict.WF s.primitives) : PyDict.WF (kps.foldl (psetStep pid) s).primitives := by
  induction kps generalizing s with
  | nil => exact h
  | cons q kps ih =>
    refine ih _ ?_
    have : (psetStep pid s q).primitives = (s.append (entryOf q)).primitives := by
      unfold psetStep; split <;> rfl
    rw [this]
    exact PrimitiveSet.wf_append h _

theorem all_psetOf (c : C) (pid : UInt32) (kps : List (Key × P))
    (hk : ∀ q ∈ kps, ∃ id, outputPrefix q.1 = .ok id) :
    (psetOf c pid kps).all.flatten = (groupOrder kps).map entryOf := by
  have hwf : PyDict.WF (psetOf c pid kps).primitives := wf_foldl _ _ _ PyDict.WF_nil
  have hvals : (psetOf c pid kps).all = (PyDict.keys (psetOf c pid kps).primitives).map
      (fun id => (psetOf c pid kps).primitiveFromIdentifier id) := by
    unfold PrimitiveSet.all PyDict.values PyDict.keys
    rw [List.map_map]
    apply List.map_congr_left
    intro kv hkv
    simp only [Function.comp, PrimitiveSet.pfi_eq]
    rw [PyDict.mem_get? _ hwf kv.1 kv.2 hkv]
    rfl
  have hkeys : PyDict.keys (psetOf c pid kps).primitives =
      (kps.map (fun q => prefixOf q.1)).eraseDups := by
    unfold psetOf
    rw [keys_foldl]
    simp [PyDict.keys, List.filter_eq_self.mpr]
  have hpre : kps.filterMap (fun q => (outputPrefix q.1).toOption) =
      kps.map (fun q => prefixOf q.1) := by
    clear hvals hkeys hwf
    induction kps with
    | nil => rfl
    | cons q kps ih =>
      obtain ⟨id, hid⟩ := hk q (by simp)
      rw [List.map_cons, ← ih (fun q hq => hk q (by simp [hq])), prefixOf_eq hid,
        List.filterMap_cons_some (b := id) (by rw [hid]; rfl)]
  unfold groupOrder
  rw [hvals, hkeys, hpre, List.map_flatMap, List.flatten_eq_flatMap, List.flatMap_map]
  congr 1
  funext id
  rw [pfi_psetOf]
  refine congrArg (List.map entryOf) ?_
  refine List.filter_congr ?_
  intro q hq
  obtain ⟨id', hid'⟩ := hk q hq
  rw [prefixOf_eq hid', hid']
  simp [Except.toOption]

theorem mem_groupOrder {kps : List (Key × P)} {q : Key × P}
    (hk : ∀ q ∈ kps, ∃ id, outputPrefix q.1 = .ok id) : q ∈ groupOrder kps ↔ q ∈ kps := by
  unfold groupOrder
  simp only [List.mem_flatMap, List.mem_filter, decide_eq_true_eq]
  constructor
  · rintro ⟨id, _, hq, _⟩; exact hq
  · intro hq
    obtain ⟨id, hid⟩ := hk q hq
    refine ⟨id, ?_, hq, by rw [hid]; rfl⟩
    rw [List.mem_eraseDups, List.mem_filterMap]
    exact ⟨q, hq, by rw [hid]; rfl⟩

end Tink
