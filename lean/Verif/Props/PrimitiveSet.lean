import Verif.Wrap.AllLemmas
import Verif.Examples.Toy

/-!
# C10, C11, C14: output prefixes, primitive sets, PRF sets
-/

namespace Tink.Props
open Spec

/-! ## C11 -/

theorem be32_inj {m n : Nat} (hm : m < 4294967296) (hn : n < 4294967296)
    (h : be32 m = be32 n) : m = n := by
  unfold be32 at h
  simp only [List.cons.injEq, and_true] at h
  obtain ⟨h1, h2, h3, h4⟩ := h
  have e1 := congrArg UInt8.toNat h1
  have e2 := congrArg UInt8.toNat h2
  have e3 := congrArg UInt8.toNat h3
  have e4 := congrArg UInt8.toNat h4
  simp only [UInt8.toNat_ofNat'] at e1 e2 e3 e4
  omega

/-- C11.  The prefix, for every id and every prefix type number. -/
theorem C11_prefix_cases (k : Key) :
    (k.outputPrefixType = OutputPrefixType.TINK ∧
      outputPrefix k = .ok (1 :: be32 k.keyId.toNat)) ∨
    ((k.outputPrefixType = OutputPrefixType.LEGACY ∨
        k.outputPrefixType = OutputPrefixType.CRUNCHY) ∧
      outputPrefix k = .ok (0 :: be32 k.keyId.toNat)) ∨
    (k.outputPrefixType = OutputPrefixType.RAW ∧ outputPrefix k = .ok []) ∨
    (k.outputPrefixType ≠ OutputPrefixType.TINK ∧ k.outputPrefixType ≠ OutputPrefixType.LEGACY ∧
      k.outputPrefixType ≠ OutputPrefixType.CRUNCHY ∧
      k.outputPrefixType ≠ OutputPrefixType.RAW ∧ outputPrefix k = .error .tinkError) := by
  unfold outputPrefix TINK_START_BYTE LEGACY_START_BYTE
  by_cases h1 : k.outputPrefixType = OutputPrefixType.TINK
  · simp [h1]
  · by_cases h2 : k.outputPrefixType = OutputPrefixType.CRUNCHY ∨
        k.outputPrefixType = OutputPrefixType.LEGACY
    · right; left; rw [if_neg h1, if_pos h2]; exact ⟨h2.symm, rfl⟩
    · right; right
      rw [if_neg h1, if_neg h2]
      by_cases h3 : k.outputPrefixType = OutputPrefixType.RAW
      · left; exact ⟨h3, if_pos h3⟩
      · right
        exact ⟨h1, fun h => h2 (.inr h), fun h => h2 (.inl h), h3, if_neg h3⟩

/-- C11.  Prefixes have 5 bytes, except for RAW keys. -/
theorem C11_prefix_length {k : Key} {pre : Bytes} (h : outputPrefix k = .ok pre) :
    pre.length = if k.outputPrefixType = OutputPrefixType.RAW then 0 else 5 := by
  split
  · rename_i hr; rw [(raw_iff_prefix_nil h).1 hr]; rfl
  · rename_i hr; exact outputPrefix_nonraw h hr

/-- A prefix type whose prefix starts with 0. -/
def LegacyLike (k : Key) : Prop :=
  k.outputPrefixType = OutputPrefixType.LEGACY ∨ k.outputPrefixType = OutputPrefixType.CRUNCHY

/-- C11.  Two non-RAW keys share a prefix exactly when they have the same id and are both TINK or
both LEGACY/CRUNCHY. -/
theorem C11_prefix_eq_iff {k k' : Key} {pre pre' : Bytes} (h : outputPrefix k = .ok pre)
    (h' : outputPrefix k' = .ok pre') (hr : k.outputPrefixType ≠ OutputPrefixType.RAW)
    (hr' : k'.outputPrefixType ≠ OutputPrefixType.RAW) :
    pre = pre' ↔ k.keyId = k'.keyId ∧
      ((k.outputPrefixType = OutputPrefixType.TINK ∧ k'.outputPrefixType = OutputPrefixType.TINK) ∨
       (LegacyLike k ∧ LegacyLike k')) := by
  have hid : be32 k.keyId.toNat = be32 k'.keyId.toNat ↔ k.keyId = k'.keyId := by
    constructor
    · intro e
      exact UInt32.toNat_inj.1 (be32_inj k.keyId.toNat_lt k'.keyId.toNat_lt e)
    · intro e; rw [e]
  have h01 : ¬ LegacyLike k ∨ k.outputPrefixType ≠ OutputPrefixType.TINK := by
    by_cases hl : k.outputPrefixType = OutputPrefixType.TINK
    · left; unfold LegacyLike; rw [hl]; decide
    · right; exact hl
  have h01' : ¬ LegacyLike k' ∨ k'.outputPrefixType ≠ OutputPrefixType.TINK := by
    by_cases hl : k'.outputPrefixType = OutputPrefixType.TINK
    · left; unfold LegacyLike; rw [hl]; decide
    · right; exact hl
  rcases C11_prefix_cases k with ⟨ht, hp⟩ | ⟨ht, hp⟩ | ⟨ht, hp⟩ | ⟨_, _, _, _, hp⟩
  · rcases C11_prefix_cases k' with ⟨ht', hp'⟩ | ⟨ht', hp'⟩ | ⟨ht', hp'⟩ | ⟨_, _, _, _, hp'⟩
    · rw [h] at hp; rw [h'] at hp'; cases hp; cases hp'
      simp [hid, ht, ht']
    · rw [h] at hp; rw [h'] at hp'; cases hp; cases hp'
      have : k'.outputPrefixType ≠ OutputPrefixType.TINK := by
        rcases h01' with h | h; exact absurd ht' h; exact h
      have : ¬ LegacyLike k := by rcases h01 with h | h; exact h; exact absurd ht h
      simp [*]
    · exact absurd ht' hr'
    · rw [h'] at hp'; cases hp'
  · rcases C11_prefix_cases k' with ⟨ht', hp'⟩ | ⟨ht', hp'⟩ | ⟨ht', hp'⟩ | ⟨_, _, _, _, hp'⟩
    · rw [h] at hp; rw [h'] at hp'; cases hp; cases hp'
      have : k.outputPrefixType ≠ OutputPrefixType.TINK := by
        rcases h01 with h | h; exact absurd ht h; exact h
      have : ¬ LegacyLike k' := by rcases h01' with h | h; exact h; exact absurd ht' h
      simp [*]
    · rw [h] at hp; rw [h'] at hp'; cases hp; cases hp'
      have : LegacyLike k := ht
      have : LegacyLike k' := ht'
      simp [*]
    · exact absurd ht' hr'
    · rw [h'] at hp'; cases hp'
  · exact absurd ht hr
  · rw [h] at hp; cases hp

/-- Two different keys whose prefixes coincide. -/
example : outputPrefix { keyId := 258, outputPrefixType := OutputPrefixType.LEGACY } =
    .ok [0, 0, 0, 1, 2] ∧
    outputPrefix { keyId := 258, outputPrefixType := OutputPrefixType.CRUNCHY } =
    .ok [0, 0, 0, 1, 2] := ⟨rfl, rfl⟩

/-! ## C14 -/

section
variable {P C : Type}

/-- A history of `add_primitive` calls on one primitive set; a failing call leaves it as it is. -/
def addAll (isInst : P → C → Bool) (s : PrimitiveSet P C) (ops : List (P × Key)) :
    PrimitiveSet P C :=
  ops.foldl (fun s op => match s.addPrimitive isInst op.1 op.2 with
    | .ok (s', _) => s'
    | .error _ => s) s

/-- Specification: the entries that a history adds, in order.  A call adds an entry iff the
primitive is of the right class and the key has a prefix. -/
def added (isInst : P → C → Bool) (c : C) (ops : List (P × Key)) : List (Entry P) :=
  ops.filterMap fun op =>
    match isInst op.1 c, outputPrefix op.2 with
    | true, .ok id => some ⟨op.1, id, op.2.status, op.2.outputPrefixType, op.2.keyId⟩
    | _, _ => none

theorem addAll_step (isInst : P → C → Bool) (s : PrimitiveSet P C) (op : P × Key) :
    (match s.addPrimitive isInst op.1 op.2 with
      | .ok (s', _) => s'
      | .error _ => s) =
    match (added isInst s.primitiveClass [op]) with
    | [e] => s.append e
    | _ => s := by
  unfold added
  simp only [List.filterMap_cons, List.filterMap_nil]
  cases hi : isInst op.1 s.primitiveClass with
  | false =>
    unfold PrimitiveSet.addPrimitive
    simp [hi]
  | true =>
    cases hid : outputPrefix op.2 with
    | error e =>
      unfold PrimitiveSet.addPrimitive
      simp [hi, hid]
    | ok id =>
      rw [PrimitiveSet.addPrimitive_of hi hid]
      rfl

theorem addAll_eq (isInst : P → C → Bool) (c : C) (ops : List (P × Key)) (s : PrimitiveSet P C)
    (hs : s.primitiveClass = c) :
    addAll isInst s ops = (added isInst c ops).foldl PrimitiveSet.append s ∧
    (addAll isInst s ops).primitiveClass = c := by
  induction ops generalizing s with
  | nil => exact ⟨rfl, hs⟩
  | cons op ops ih =>
    have hstep := addAll_step isInst s op
    have hcons : addAll isInst s (op :: ops) = addAll isInst
      (match s.addPrimitive isInst op.1 op.2 with
        | .ok (s', _) => s'
        | .error _ => s) ops := rfl
    have hadd : added isInst c (op :: ops) = added isInst c [op] ++ added isInst c ops := by
      unfold added; rw [← List.filterMap_append]; rfl
    rw [hcons, hstep, hadd, List.foldl_append, hs]
    have hl : added isInst c [op] = [] ∨ ∃ e, added isInst c [op] = [e] := by
      have : (added isInst c [op]).length ≤ 1 := by
        unfold added; exact List.length_filterMap_le _ _
      match h : added isInst c [op] with
      | [] => exact .inl rfl
      | [e] => exact .inr ⟨e, rfl⟩
      | _ :: _ :: _ => rw [h] at this; simp at this
    rcases hl with h | ⟨e, h⟩
    · rw [h]; exact ih s hs
    · rw [h]
      exact ih (s.append e) hs

private theorem foldl_append_pfi (es : List (Entry P)) (s : PrimitiveSet P C) (id : Bytes) :
    (es.foldl PrimitiveSet.append s).primitiveFromIdentifier id =
      s.primitiveFromIdentifier id ++ es.filter (fun e => e.identifier = id) := by
  induction es generalizing s with
  | nil => simp
  | cons e es ih =>
    rw [List.foldl_cons, ih, pfi_append]
    by_cases h : e.identifier = id <;> simp [h]

/-- C14.  Looking up an identifier returns exactly the entries added with it, in order. -/
theorem C14_lookup (isInst : P → C → Bool) (c : C) (ops : List (P × Key)) (id : Bytes) :
    (addAll isInst { primitiveClass := c } ops).primitiveFromIdentifier id =
      (added isInst c ops).filter (fun e => e.identifier = id) := by
  rw [(addAll_eq isInst c ops _ rfl).1, foldl_append_pfi]
  simp [PrimitiveSet.primitiveFromIdentifier]

/-- C14.  `primitive(key)` returns the entries added under the key's prefix. -/
theorem C14_primitive (isInst : P → C → Bool) (c : C) (ops : List (P × Key)) {k : Key}
    {id : Bytes} (h : outputPrefix k = .ok id) :
    (addAll isInst { primitiveClass := c } ops).primitive k =
      .ok ((added isInst c ops).filter (fun e => e.identifier = id)) := by
  unfold PrimitiveSet.primitive
  rw [h, ← C14_lookup]
  rfl

/-- C14.  The RAW primitives are the entries with the empty identifier. -/
theorem C14_raw (isInst : P → C → Bool) (c : C) (ops : List (P × Key)) :
    (addAll isInst { primitiveClass := c } ops).rawPrimitives =
      (added isInst c ops).filter (fun e => e.outputPrefixType = OutputPrefixType.RAW) := by
  show PrimitiveSet.primitiveFromIdentifier _ [] = _
  rw [C14_lookup]
  apply List.filter_congr
  intro e he
  unfold added at he
  obtain ⟨op, _, h⟩ := List.mem_filterMap.1 he
  split at h
  · rename_i id _ hid
    cases h
    simp only [raw_iff_prefix_nil hid]
  · cases h

/-- C14.  `all()` lists every added entry exactly once (grouped by identifier). -/
theorem C14_all (isInst : P → C → Bool) (c : C) (ops : List (P × Key)) :
    (addAll isInst { primitiveClass := c } ops).all.flatten.Perm (added isInst c ops) := by
  rw [(addAll_eq isInst c ops _ rfl).1]
  have h : ∀ (es : List (Entry P)) (s : PrimitiveSet P C),
      (es.foldl PrimitiveSet.append s).all.flatten.Perm (s.all.flatten ++ es) := by
    intro es
    induction es with
    | nil => intro s; simp
    | cons e es ih =>
      intro s
      rw [List.foldl_cons]
      refine (ih _).trans ?_
      refine ((PrimitiveSet.all_append s e).append_right es).trans ?_
      simp
  have := h (added isInst c ops) { primitiveClass := c }
  simpa [PrimitiveSet.all, PyDict.values] using this

/-- C14.  The groups of `all()` are the non-empty classes of equal identifier. -/
theorem C14_all_grouped (isInst : P → C → Bool) (c : C) (ops : List (P × Key)) :
    ∀ es ∈ (addAll isInst { primitiveClass := c } ops).all, es ≠ [] ∧
      ∃ id, es = (added isInst c ops).filter (fun e => e.identifier = id) := by
  have hg : ∀ (es : List (Entry P)) (s : PrimitiveSet P C), PrimitiveSet.Grouped s →
      PyDict.WF s.primitives →
      PrimitiveSet.Grouped (es.foldl PrimitiveSet.append s) ∧
      PyDict.WF (es.foldl PrimitiveSet.append s).primitives := by
    intro es
    induction es with
    | nil => intro s h h'; exact ⟨h, h'⟩
    | cons e es ih =>
      intro s h h'
      exact ih _ (PrimitiveSet.grouped_append h e) (PrimitiveSet.wf_append h' e)
  have h := hg (added isInst c ops) { primitiveClass := c }
    (by intro kv hkv; simp at hkv) PyDict.WF_nil
  rw [← (addAll_eq isInst c ops { primitiveClass := c } rfl).1] at h
  intro es hes
  unfold PrimitiveSet.all PyDict.values at hes
  obtain ⟨kv, hkv, rfl⟩ := List.mem_map.1 hes
  refine ⟨(h.1 kv hkv).1, kv.1, ?_⟩
  rw [← C14_lookup, PrimitiveSet.pfi_eq, PyDict.mem_get? _ h.2 kv.1 kv.2 hkv]
  rfl

/-- A failed `add_primitive` raises `TinkError`. -/
theorem C14_add_fails_iff (isInst : P → C → Bool) (s : PrimitiveSet P C) (p : P) (k : Key) :
    (∃ e, s.addPrimitive isInst p k = .error e) ↔
      isInst p s.primitiveClass = false ∨ outputPrefix k = .error .tinkError := by
  unfold PrimitiveSet.addPrimitive
  cases hi : isInst p s.primitiveClass with
  | false => simp
  | true =>
    rcases C11_prefix_cases k with ⟨_, h⟩ | ⟨_, h⟩ | ⟨_, h⟩ | ⟨_, _, _, _, h⟩ <;> simp [h]

end

/-- A history with a failing call in the middle and two entries sharing an identifier. -/
example : ((addAll (fun (p : Nat) (c : Nat) => p % 2 = c) { primitiveClass := 0 }
    [(2, { keyId := 5, outputPrefixType := OutputPrefixType.LEGACY }),
     (3, { keyId := 5, outputPrefixType := OutputPrefixType.LEGACY }),
     (4, { keyId := 5, outputPrefixType := OutputPrefixType.CRUNCHY }),
     (6, { keyId := 6, outputPrefixType := OutputPrefixType.RAW })]).primitiveFromIdentifier
       [0, 0, 0, 0, 5]).map (·.primitive) = [2, 4] := by rfl

/-! ## C10 -/

section
variable {P C : Type} [DecidableEq C] {V : View P Prf} {W : View P PrfSet} {t : Nat} {ci c : C}
  {isInst : P → C → Bool} {r : Registry P C} {h : KeysetHandle} {kps : List (Key × P)} {p : P}

theorem prf_validate_iff (pid : UInt32) (kps : List (Key × P)) :
    WrappedPrfSet.validatePrimitiveSet ((psetOf ci pid kps).map V.view) = .ok () ↔
      ∀ q ∈ kps, q.1.outputPrefixType = OutputPrefixType.RAW := by
  unfold WrappedPrfSet.validatePrimitiveSet
  simp only [forM_ok_iff, all_map]
  constructor
  · intro h q hq
    have hm := (psetOf_all_mem ci pid kps (entryOf q)).2 (List.mem_map_of_mem hq)
    obtain ⟨es, hes, he⟩ := List.mem_flatten.1 hm
    have := h (es.map (Entry.map V.view)) (List.mem_map_of_mem hes) _ (List.mem_map_of_mem he)
    split at this
    · cases this
    · rename_i hne
      simpa [Entry.map, entryOf, mkEntry] using hne
  · intro h es hes e he
    obtain ⟨es', hes', rfl⟩ := List.mem_map.1 hes
    obtain ⟨e', he', rfl⟩ := List.mem_map.1 he
    have hm := (psetOf_all_mem ci pid kps e').1 (List.mem_flatten.2 ⟨es', hes', he'⟩)
    obtain ⟨q, hq, rfl⟩ := List.mem_map.1 hm
    rw [if_neg]
    simpa [Entry.map, entryOf, mkEntry] using h q hq

theorem validate_error (s : PrimitiveSet Prf C) :
    WrappedPrfSet.validatePrimitiveSet s = .ok () ∨
    WrappedPrfSet.validatePrimitiveSet s = .error .tinkError := by
  unfold WrappedPrfSet.validatePrimitiveSet
  have hone : ∀ {α : Type} (f : α → Py Unit) (l : List α),
      (∀ a, f a = .ok () ∨ f a = .error .tinkError) →
      l.forM f = .ok () ∨ l.forM f = .error .tinkError := by
    intro α f l hf
    induction l with
    | nil => exact .inl rfl
    | cons a l ih =>
      show (f a >>= fun _ => l.forM f) = _ ∨ (f a >>= fun _ => l.forM f) = _
      rcases hf a with h | h
      · rw [h]; exact ih
      · rw [h]; exact .inr rfl
  apply hone
  intro es
  apply hone
  intro e
  split
  · exact .inr rfl
  · exact .inl rfl

/-- C10.  A PRF set can be had only if all enabled keys are RAW, and then: `primary_id` is the
keyset's primary id, `primary` its PRF, and `all` maps every id to the PRF of the (last) enabled
key with that id. -/
theorem C10_prf_set (H : Obtained isInst (prfSetWrapper V W t ci c) r h c kps p) :
    (∀ q ∈ kps, q.1.outputPrefixType = OutputPrefixType.RAW) ∧
    (∀ k o, IsPrimary h.keyset kps (k, o) →
      (W.view p).primaryId = .ok h.keyset.primaryKeyId ∧
      (W.view p).primary = .ok (V.view o)) ∧
    (∃ all, (W.view p).all = .ok all ∧ ∀ id, PyDict.get? all id =
      ((kps.filter (fun q => q.1.keyId = id)).getLast?).map (fun q => V.view q.2)) := by
  obtain ⟨hw, hk⟩ := H.prop
  simp only [prfSetWrapper] at hw
  obtain ⟨set, hset, hp⟩ := bind_ok_iff.1 hw
  cases hp
  rw [W.view_inj]
  unfold WrappedPrfSet.wrap at hset
  obtain ⟨⟨⟩, hv, hset⟩ := bind_ok_iff.1 hset
  cases hset
  have hraw := (prf_validate_iff _ _).1 hv
  refine ⟨hraw, ?_, _, rfl, ?_⟩
  · intro k o hk
    have hid : k.keyId = h.keyset.primaryKeyId := by
      have := List.mem_of_getLast? hk
      simpa using (List.mem_filter.1 this).2
    constructor
    · show WrappedPrfSet.primaryId _ = _
      unfold WrappedPrfSet.primaryId
      rw [primary_map, primary_psetOf_some hk, ← hid]; rfl
    · show WrappedPrfSet.primary _ = _
      unfold WrappedPrfSet.primary
      rw [primary_map, primary_psetOf_some hk]; rfl
  · intro id
    unfold WrappedPrfSet.all PrimitiveSet.rawPrimitives
    rw [pfi_map, pfi_psetOf]
    show PyDict.get? (List.foldl _ [] (List.map _ (List.map entryOf
      (kps.filter (fun q => prefixOf q.1 = []))))) id = _
    rw [filter_congr_prefix hk, List.filter_eq_self.2 (by simpa using hraw)]
    have : ∀ (l : List (Key × P)) (d : PyDict UInt32 Prf),
        PyDict.get? (List.foldl (fun d e => PyDict.set d e.keyId e.primitive) d
          ((l.map entryOf).map (Entry.map V.view))) id =
        match (l.filter (fun q => q.1.keyId = id)).getLast? with
        | some q => some (V.view q.2)
        | none => PyDict.get? d id := by
      intro l
      induction l with
      | nil => intro d; rfl
      | cons q l ih =>
        intro d
        simp only [List.map_cons, List.foldl_cons]
        rw [ih]
        by_cases hq : q.1.keyId = id
        · rw [List.filter_cons_of_pos (by simpa using hq), List.getLast?_cons]
          cases (l.filter (fun q => q.1.keyId = id)).getLast? with
          | none => simp [entryOf, mkEntry, Entry.map, hq, PyDict.get?_set]
          | some q' => simp
        · rw [List.filter_cons_of_neg (by simpa using hq)]
          cases (l.filter (fun q => q.1.keyId = id)).getLast? with
          | none => simp [entryOf, mkEntry, Entry.map, hq, PyDict.get?_set]
          | some q' => simp
    rw [this]
    cases (kps.filter (fun q => q.1.keyId = id)).getLast? with
    | none => rfl
    | some q => rfl

/-- C10.  If key ids are distinct, `all` exposes exactly the PRF of each enabled key. -/
theorem C10_prf_set_distinct (H : Obtained isInst (prfSetWrapper V W t ci c) r h c kps p)
    (hd : (kps.map (fun q => q.1.keyId)).Nodup) {all : PyDict UInt32 Prf}
    (hall : (W.view p).all = .ok all) (id : UInt32) (f : Prf) :
    PyDict.get? all id = some f ↔ ∃ q ∈ kps, q.1.keyId = id ∧ V.view q.2 = f := by
  obtain ⟨-, -, all', ha, hget⟩ := C10_prf_set H
  rw [hall] at ha
  cases ha
  rw [hget]
  constructor
  · intro hf
    obtain ⟨q, hq, rfl⟩ := Option.map_eq_some_iff.1 hf
    have := List.mem_filter.1 (List.mem_of_getLast? hq)
    exact ⟨q, this.1, by simpa using this.2, rfl⟩
  · rintro ⟨q, hq, hid, rfl⟩
    have : kps.filter (fun q => q.1.keyId = id) = [q] := by
      clear H hall hget
      induction kps with
      | nil => simp at hq
      | cons q' kps ih =>
        simp only [List.map_cons, List.nodup_cons] at hd
        rcases List.mem_cons.1 hq with rfl | hq
        · rw [List.filter_cons_of_pos (by simpa using hid)]
          congr 1
          rw [List.filter_eq_nil_iff]
          intro q' hq'
          simp only [decide_eq_true_eq]
          intro he
          apply hd.1
          rw [hid, ← he]
          exact List.mem_map_of_mem (f := fun q : Key × P => q.1.keyId) hq'
        · rw [List.filter_cons_of_neg]
          · exact ih hd.2 hq
          · simp only [decide_eq_true_eq]
            intro he
            apply hd.1
            rw [he, ← hid]
            exact List.mem_map_of_mem (f := fun q : Key × P => q.1.keyId) hq
    rw [this]
    rfl

/-- C10.  A keyset with an enabled key that is not RAW is refused with `TinkError` (the other
conditions for obtaining a primitive being met). -/
theorem C10_prf_non_raw_rejected
    (hw : PyDict.get? r.wrappers c = some (prfSetWrapper V W t ci c))
    (hv : validateKeyset h.keyset = .ok ()) (hk : EnabledPrimitives r ci h.keyset kps)
    (hi : ∀ q ∈ kps, isInst q.2 ci = true ∧ ∃ id, outputPrefix q.1 = .ok id)
    {q : Key × P} (hq : q ∈ kps) (hn : q.1.outputPrefixType ≠ OutputPrefixType.RAW) :
    h.primitive isInst r c = .error .tinkError := by
  unfold KeysetHandle.primitive
  rw [hv]
  have h1 : Registry.inputPrimitiveClass r c = .ok ci := by
    unfold Registry.inputPrimitiveClass; rw [hw]; rfl
  have h2 := primitiveSet_ok_iff (isInst := isInst).2 ⟨kps, hk, hi, rfl⟩
  show (do
    let inputClass ← Registry.inputPrimitiveClass r c
    let pset ← KeysetHandle.primitiveSet isInst r inputClass h.keyset
    r.wrap pset c) = _
  rw [h1]
  show (do
    let pset ← KeysetHandle.primitiveSet isInst r ci h.keyset
    r.wrap pset c) = _
  rw [h2]
  show r.wrap _ c = _
  unfold Registry.wrap
  rw [hw]
  have hcls : (psetOf ci h.keyset.primaryKeyId kps).primitiveClass = ci := by
    have : ∀ (kps : List (Key × P)) (s : PrimitiveSet P C), s.primitiveClass = ci →
        (kps.foldl (psetStep h.keyset.primaryKeyId) s).primitiveClass = ci := by
      intro kps
      induction kps with
      | nil => intro s h; exact h
      | cons q kps ih => intro s h; exact ih _ (by rw [psetStep_class, h])
    exact this kps _ rfl
  simp only [prfSetWrapper, hcls, ne_eq, not_true_eq_false, if_false]
  have hne : WrappedPrfSet.validatePrimitiveSet
      ((psetOf ci h.keyset.primaryKeyId kps).map V.view) = .error .tinkError := by
    rcases validate_error ((psetOf ci h.keyset.primaryKeyId kps).map V.view) with he | he
    · exact absurd ((prf_validate_iff _ _).1 he q hq) hn
    · exact he
  unfold WrappedPrfSet.wrap
  rw [hne]
  rfl

end

namespace PrfExample
open Toy

def ks : Keyset :=
  { primaryKeyId := 7
    key := [key .prf [5] 8 OutputPrefixType.RAW, key .prf [6] 7 OutputPrefixType.RAW,
            key .prf [6] 9 OutputPrefixType.TINK KeyStatusType.DISABLED] }
def kps : List (Key × Prim) :=
  [(key .prf [5] 8 OutputPrefixType.RAW, obj .prf [5]),
   (key .prf [6] 7 OutputPrefixType.RAW, obj .prf [6])]
def prim : Prim :=
  match WrappedPrfSet.wrap ((psetOf Cls.prf 7 kps).map prfView.view) with
  | .ok s => .prfSet s
  | .error _ => obj .prf []

/-- The hypotheses of `C10_prf_set` and `C10_prf_set_distinct` hold here. -/
example : Obtained isInst (prfSetWrapper prfView prfSetView 17 .prf .prfSet) registry ⟨ks⟩ .prfSet
    kps prim ∧ (kps.map (fun q => q.1.keyId)).Nodup :=
  ⟨⟨rfl, rfl, rfl, by
    intro q hq
    simp only [kps, List.mem_cons, List.not_mem_nil, or_false] at hq
    rcases hq with rfl | rfl <;> rfl⟩, by decide⟩

/-- A TINK key is refused. -/
example : (match (⟨{ ks with key := ks.key ++ [key .prf [6] 10 OutputPrefixType.TINK] }⟩ :
    KeysetHandle).primitive isInst registry .prfSet with
    | .ok _ => none | .error e => some e) = some .tinkError := by rfl

end PrfExample
end Tink.Props
