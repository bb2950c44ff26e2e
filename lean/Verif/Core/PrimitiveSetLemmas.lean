import Verif.Core.PrimitiveSet
import Verif.Py.DictLemmas

namespace Tink

/-- The entry that `add_primitive` makes. -/
def mkEntry {P : Type} (p : P) (k : Key) (id : Bytes) : Entry P :=
  { primitive := p, identifier := id, status := k.status,
    outputPrefixType := k.outputPrefixType, keyId := k.keyId }

namespace PrimitiveSet
variable {P C : Type}

/-- Appending an entry to its list. -/
def append (s : PrimitiveSet P C) (e : Entry P) : PrimitiveSet P C :=
  let l := (PyDict.get? s.primitives e.identifier).getD []
  { s with primitives := PyDict.set s.primitives e.identifier (l ++ [e]) }

theorem addPrimitive_ok {isInst : P → C → Bool} {s : PrimitiveSet P C} {p : P} {k : Key}
    {s' : PrimitiveSet P C} {e : Entry P} (h : s.addPrimitive isInst p k = .ok (s', e)) :
    isInst p s.primitiveClass = true ∧
    ∃ id, outputPrefix k = .ok id ∧ e = mkEntry p k id ∧
      s' = s.append e := by
  unfold addPrimitive at h
  split at h
  · cases h
  · rename_i hi
    split at h
    · cases h
    · rename_i id hid
      simp only [Except.ok.injEq, Prod.mk.injEq] at h
      refine ⟨by simpa using hi, id, hid, ?_, ?_⟩
      · exact h.2.symm
      · rw [← h.1, ← h.2]; rfl

theorem addPrimitive_of {isInst : P → C → Bool} {s : PrimitiveSet P C} {p : P} {k : Key}
    {id : Bytes} (hi : isInst p s.primitiveClass = true) (hid : outputPrefix k = .ok id) :
    s.addPrimitive isInst p k = .ok (s.append (mkEntry p k id), mkEntry p k id) := by
  unfold addPrimitive
  simp [hi, hid, mkEntry, append]

theorem pfi_eq (s : PrimitiveSet P C) (id : Bytes) :
    s.primitiveFromIdentifier id = (PyDict.get? s.primitives id).getD [] := by
  unfold primitiveFromIdentifier
  cases PyDict.get? s.primitives id <;> rfl

theorem pfi_add {isInst : P → C → Bool} {s : PrimitiveSet P C} {p : P} {k : Key}
    {s' : PrimitiveSet P C} {e : Entry P} (h : s.addPrimitive isInst p k = .ok (s', e))
    (id : Bytes) :
    s'.primitiveFromIdentifier id =
      s.primitiveFromIdentifier id ++ (if e.identifier = id then [e] else []) := by
  obtain ⟨_, id', hid, he, hs⟩ := addPrimitive_ok h
  subst he hs
  simp only [pfi_eq, PyDict.get?_set, mkEntry, append]
  by_cases hc : id' = id
  · subst hc; simp
  · simp [hc]

end PrimitiveSet
end Tink

namespace Tink
namespace PrimitiveSet
variable {P C : Type}

theorem flatten_values_set {K V : Type} [DecidableEq K] (d : PyDict K (List V)) (k : K) (e : V) :
    (PyDict.values (PyDict.set d k ((PyDict.get? d k).getD [] ++ [e]))).flatten.Perm
      ((PyDict.values d).flatten ++ [e]) := by
  induction d with
  | nil => simp [PyDict.set, PyDict.values, PyDict.get?]
  | cons p d ih =>
    obtain ⟨k', v⟩ := p
    by_cases h : k' = k
    · simp only [PyDict.get?, h, if_true, Option.getD_some, PyDict.set, PyDict.values,
        List.map_cons, List.flatten_cons, List.append_assoc]
      exact List.Perm.append_left v List.perm_append_comm
    · simp only [PyDict.get?, h, if_false, PyDict.set, PyDict.values,
        List.map_cons, List.flatten_cons, List.append_assoc]
      exact List.Perm.append_left v ih

theorem all_append (s : PrimitiveSet P C) (e : Entry P) :
    (s.append e).all.flatten.Perm (s.all.flatten ++ [e]) :=
  flatten_values_set s.primitives e.identifier e

theorem wf_append {s : PrimitiveSet P C} (h : PyDict.WF s.primitives) (e : Entry P) :
    PyDict.WF (s.append e).primitives := PyDict.WF_set h _ _

/-- Every entry is stored under its own identifier, and no list is empty. -/
def Grouped (s : PrimitiveSet P C) : Prop :=
  ∀ kv ∈ s.primitives, kv.2 ≠ [] ∧ ∀ e ∈ kv.2, e.identifier = kv.1

theorem mem_set {K V : Type} [DecidableEq K] {d : PyDict K V} {k : K} {v : V} {kv : K × V}
    (h : kv ∈ PyDict.set d k v) : kv = (k, v) ∨ kv ∈ d := by
  induction d with
  | nil => simp only [PyDict.set, List.mem_singleton] at h; exact .inl h
  | cons p d ih =>
    obtain ⟨k', v'⟩ := p
    simp only [PyDict.set] at h
    split at h
    · rename_i hk
      rcases List.mem_cons.1 h with rfl | h
      · left; rw [hk]
      · right; exact List.mem_cons_of_mem _ h
    · rcases List.mem_cons.1 h with rfl | h
      · right; simp
      · rcases ih h with h | h
        · exact .inl h
        · exact .inr (List.mem_cons_of_mem _ h)

theorem grouped_append {s : PrimitiveSet P C} (h : Grouped s) (e : Entry P) :
    Grouped (s.append e) := by
  intro kv hkv
  rcases mem_set hkv with rfl | hkv
  · refine ⟨by simp, ?_⟩
    intro e' he'
    simp only [List.mem_append, List.mem_singleton] at he'
    rcases he' with he' | rfl
    · cases hg : PyDict.get? s.primitives e.identifier with
      | none => simp [hg] at he'
      | some l =>
        rw [hg] at he'
        exact (h _ (PyDict.get?_mem _ _ _ hg)).2 e' he'
    · rfl
  · exact h kv hkv

end PrimitiveSet
end Tink
