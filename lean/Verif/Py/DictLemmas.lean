import Verif.Py.Dict

namespace Tink.PyDict
variable {K : Type u} {V : Type v} [DecidableEq K]

@[simp] theorem get?_nil (k : K) : get? ([] : PyDict K V) k = none := rfl

theorem get?_cons (k' : K) (v : V) (d : PyDict K V) (k : K) :
    get? ((k', v) :: d) k = if k' = k then some v else get? d k := rfl

theorem get?_set (d : PyDict K V) (k : K) (v : V) (j : K) :
    get? (set d k v) j = if k = j then some v else get? d j := by
  induction d with
  | nil => simp [set, get?]
  | cons p d ih =>
    obtain ⟨k', v'⟩ := p
    by_cases h : k' = k
    · subst h; simp only [set, if_true, get?]; split <;> rfl
    · simp only [set, h, if_false, get?, ih]
      by_cases h2 : k' = j
      · subst h2; simp [Ne.symm h]
      · simp [h2]

theorem get?_set_self (d : PyDict K V) (k : K) (v : V) : get? (set d k v) k = some v := by
  simp [get?_set]

theorem get?_set_ne (d : PyDict K V) {k j : K} (v : V) (h : k ≠ j) :
    get? (set d k v) j = get? d j := by simp [get?_set, h]

theorem get?_isSome_iff (d : PyDict K V) (k : K) : (get? d k).isSome ↔ k ∈ keys d := by
  induction d with
  | nil => simp [keys]
  | cons p d ih =>
    obtain ⟨k', v'⟩ := p
    simp only [get?, keys, List.map_cons, List.mem_cons] at ih ⊢
    by_cases h : k' = k
    · simp [h]
    · simp only [h, if_false, ih, Ne.symm h, false_or]

theorem get?_eq_none_iff (d : PyDict K V) (k : K) : get? d k = none ↔ k ∉ keys d := by
  rw [← get?_isSome_iff]; cases get? d k <;> simp

theorem get?_mem (d : PyDict K V) (k : K) (v : V) (h : get? d k = some v) : (k, v) ∈ d := by
  induction d with
  | nil => simp at h
  | cons p d ih =>
    obtain ⟨k', v'⟩ := p
    rw [get?_cons] at h
    by_cases h' : k' = k
    · subst h'; simp at h; simp [h]
    · rw [if_neg h'] at h; simp [ih h]

theorem mem_get? (d : PyDict K V) (hd : WF d) (k : K) (v : V) (h : (k, v) ∈ d) :
    get? d k = some v := by
  induction d with
  | nil => simp at h
  | cons p d ih =>
    obtain ⟨k', v'⟩ := p
    simp only [WF, keys, List.map_cons, List.nodup_cons] at hd
    rw [get?_cons]
    rcases List.mem_cons.1 h with h | h
    · cases h; simp
    · have : k' ≠ k := by
        rintro rfl; exact hd.1 (List.mem_map.2 ⟨_, h, rfl⟩)
      rw [if_neg this]; exact ih hd.2 h

theorem keys_set (d : PyDict K V) (k : K) (v : V) :
    keys (set d k v) = if k ∈ keys d then keys d else keys d ++ [k] := by
  induction d with
  | nil => simp [set, keys]
  | cons p d ih =>
    obtain ⟨k', v'⟩ := p
    by_cases h : k' = k
    · subst h; simp [set, keys]
    · simp only [keys] at ih
      simp only [set, h, if_false, keys, List.map_cons, ih, List.mem_cons, Ne.symm h, false_or]
      split <;> simp_all

omit [DecidableEq K] in
theorem WF_nil : WF ([] : PyDict K V) := List.nodup_nil

theorem WF_set {d : PyDict K V} (hd : WF d) (k : K) (v : V) : WF (set d k v) := by
  unfold WF at *
  rw [keys_set]
  split
  · exact hd
  · rename_i h
    rw [List.nodup_append]
    refine ⟨hd, by simp, ?_⟩
    rintro a ha b hb rfl
    simp at hb; subst hb; exact h ha

end Tink.PyDict
