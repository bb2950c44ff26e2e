import Verif.Wrap.Registered
import Verif.Keyset.HandleLemmas

namespace Tink
open Spec
variable {P C : Type}

/-! ## Output prefixes -/

theorem be32_length (n : Nat) : (be32 n).length = 4 := rfl

theorem outputPrefix_raw {k : Key} (h : k.outputPrefixType = OutputPrefixType.RAW) :
    outputPrefix k = .ok [] := by
  unfold outputPrefix
  rw [h]
  rfl

theorem outputPrefix_nonraw {k : Key} {id : Bytes} (hid : outputPrefix k = .ok id)
    (h : k.outputPrefixType ≠ OutputPrefixType.RAW) : id.length = 5 := by
  unfold outputPrefix at hid
  split at hid
  · cases hid; rfl
  · split at hid
    · cases hid; rfl
    · cases hid

theorem raw_iff_prefix_nil {k : Key} {id : Bytes} (hid : outputPrefix k = .ok id) :
    k.outputPrefixType = OutputPrefixType.RAW ↔ id = [] := by
  constructor
  · intro h
    rw [outputPrefix_raw h] at hid; cases hid; rfl
  · intro h
    by_cases hr : k.outputPrefixType = OutputPrefixType.RAW
    · exact hr
    · have := outputPrefix_nonraw hid hr
      subst h; simp at this

theorem payload_raw {k : Key} (h : k.outputPrefixType = OutputPrefixType.RAW) (x : Bytes) :
    payload k x = some x := by
  unfold payload; rw [outputPrefix_raw h]

theorem payload_nonraw {k : Key} {id : Bytes} (hid : outputPrefix k = .ok id)
    (h : k.outputPrefixType ≠ OutputPrefixType.RAW) (x : Bytes) :
    payload k x = if x.length > 5 ∧ id = x.take 5 then some (x.drop 5) else none := by
  have hl := outputPrefix_nonraw hid h
  have hne : id ≠ [] := by intro e; subst e; simp at hl
  unfold payload
  rw [hid]
  cases id with
  | nil => exact absurd rfl hne
  | cons a id =>
    simp only [hl]
    have : (a :: id <+: x) ↔ (a :: id = x.take 5) := by
      rw [List.prefix_iff_eq_take, hl]
    simp only [this]
    by_cases h5 : x.length > 5
    · simp [h5]
    · simp [h5]

/-- The ciphertext a key produces is given back to it. -/
theorem payload_append {k : Key} {id : Bytes} (hid : outputPrefix k = .ok id) (body : Bytes)
    (hb : k.outputPrefixType = OutputPrefixType.RAW ∨ body ≠ []) :
    payload k (id ++ body) = some body := by
  by_cases hr : k.outputPrefixType = OutputPrefixType.RAW
  · rw [payload_raw hr, (raw_iff_prefix_nil hid).1 hr]; rfl
  · have hl := outputPrefix_nonraw hid hr
    rw [payload_nonraw hid hr]
    have hne : body ≠ [] := by rcases hb with h | h; exact absurd h hr; exact h
    have : 0 < body.length := List.length_pos_iff.2 hne
    rw [if_pos]
    · rw [← hl, List.drop_left]
    · constructor
      · rw [List.length_append]; omega
      · rw [← hl, List.take_left]

/-! ## The trial loop -/

theorem firstNonTink_append {E α : Type} (f : E → Py α) (es : List E) (xs : List (Py α)) :
    firstNonTink (es.map f ++ xs) = tryEntries f es (firstNonTink xs) := by
  induction es with
  | nil => rfl
  | cons e es ih =>
    simp only [List.map_cons, List.cons_append, tryEntries]
    cases h : f e with
    | ok a => rfl
    | error x => simp only [firstNonTink]; rw [ih]

theorem firstNonTink_map {E α : Type} (f : E → Py α) (es : List E) :
    firstNonTink (es.map f) = tryEntries f es (.error .tinkError) := by
  have := firstNonTink_append f es []
  simpa [firstNonTink] using this

theorem firstNonTink_ok {α : Type} {xs : List (Py α)} {a : α} (h : firstNonTink xs = .ok a) :
    ∃ pre post, xs = pre ++ .ok a :: post ∧ ∀ x ∈ pre, Rejects x := by
  induction xs with
  | nil => cases h
  | cons x xs ih =>
    cases x with
    | ok b => cases h; exact ⟨[], xs, rfl, by simp⟩
    | error e =>
      simp only [firstNonTink] at h
      split at h
      · rename_i he
        obtain ⟨pre, post, rfl, hp⟩ := ih h
        refine ⟨.error e :: pre, post, rfl, ?_⟩
        intro x hx
        rcases List.mem_cons.1 hx with rfl | hx
        · exact ⟨e, rfl, he⟩
        · exact hp x hx
      · cases h

theorem firstNonTink_skip {α : Type} {pre post : List (Py α)} (h : ∀ x ∈ pre, Rejects x) :
    firstNonTink (pre ++ post) = firstNonTink post := by
  induction pre with
  | nil => rfl
  | cons x pre ih =>
    obtain ⟨e, rfl, he⟩ := h x (by simp)
    simp only [List.cons_append, firstNonTink, he, if_true]
    exact ih (fun x hx => h x (by simp [hx]))

theorem firstNonTink_rejects {α : Type} (xs : List (Py α)) :
    firstNonTink xs = .error .tinkError ∨ ¬ Rejects (firstNonTink xs) := by
  induction xs with
  | nil => exact .inl rfl
  | cons x xs ih =>
    cases x with
    | ok a => right; rintro ⟨e, h, _⟩; cases h
    | error e =>
      simp only [firstNonTink]
      split
      · exact ih
      · rename_i he
        right; rintro ⟨e', h, h'⟩
        simp only [Except.error.injEq] at h
        subst h; exact he h'

theorem firstNonTink_rejects_iff {α : Type} (xs : List (Py α)) :
    Rejects (firstNonTink xs) ↔ ∀ x ∈ xs, Rejects x := by
  induction xs with
  | nil => simp [firstNonTink, Rejects, Exc.isTink]
  | cons x xs ih =>
    cases x with
    | ok a =>
      simp only [firstNonTink, List.mem_cons, forall_eq_or_imp]
      constructor
      · intro h; exact absurd h (by rintro ⟨_, h, _⟩; cases h)
      · rintro ⟨h, _⟩; exact h
    | error e =>
      simp only [firstNonTink, List.mem_cons, forall_eq_or_imp]
      split
      · rename_i he
        rw [ih]
        exact ⟨fun h => ⟨⟨e, rfl, he⟩, h⟩, fun h => h.2⟩
      · rename_i he
        constructor
        · rintro ⟨e', h, h'⟩
          simp only [Except.error.injEq] at h
          subst h; exact absurd h' he
        · exact fun h => h.1

/-- If the outcomes that are not refusals all equal `y` and there is one, the result is `y`. -/
theorem firstNonTink_of_mem {α : Type} {xs : List (Py α)} {y : Py α} (hy : y ∈ xs)
    (h : ∀ x ∈ xs, x = y ∨ Rejects x) (hn : ¬ Rejects y) : firstNonTink xs = y := by
  induction xs with
  | nil => simp at hy
  | cons x xs ih =>
    rcases h x (by simp) with rfl | ⟨e, rfl, he⟩
    · cases x with
      | ok a => rfl
      | error e =>
        simp only [firstNonTink]
        rw [if_neg]
        intro he; exact hn ⟨e, rfl, he⟩
    · simp only [firstNonTink, he, if_true]
      apply ih
      · rcases List.mem_cons.1 hy with rfl | h'
        · exact absurd ⟨e, rfl, he⟩ hn
        · exact h'
      · intro x hx; exact h x (by simp [hx])

/-! ## Mapping primitive sets -/

theorem PyDict.get?_mapVal {K V W : Type} [DecidableEq K] (f : V → W) (d : PyDict K V) (k : K) :
    PyDict.get? (d.map fun kv => (kv.1, f kv.2)) k = (PyDict.get? d k).map f := by
  induction d with
  | nil => rfl
  | cons p d ih =>
    obtain ⟨k', v⟩ := p
    simp only [List.map_cons, PyDict.get?]
    by_cases h : k' = k <;> simp [h, ih]

theorem pfi_map {A : Type} (f : P → A) (s : PrimitiveSet P C) (id : Bytes) :
    (s.map f).primitiveFromIdentifier id = (s.primitiveFromIdentifier id).map (Entry.map f) := by
  simp only [PrimitiveSet.pfi_eq, PrimitiveSet.map]
  rw [PyDict.get?_mapVal]
  cases PyDict.get? s.primitives id <;> rfl

theorem primary_map {A : Type} (f : P → A) (s : PrimitiveSet P C) :
    (s.map f).primary = match s.primary with
      | .ok e => .ok (Entry.map f e)
      | .error e => .error e := by
  unfold PrimitiveSet.primary PrimitiveSet.map
  cases s.primary? <;> rfl

/-! ## The generic wrapper search -/

theorem filter_congr_prefix {kps : List (Key × P)}
    (hk : ∀ q ∈ kps, ∃ id, outputPrefix q.1 = .ok id) :
    kps.filter (fun q => prefixOf q.1 = []) =
      kps.filter (fun q => q.1.outputPrefixType = OutputPrefixType.RAW) := by
  apply List.filter_congr
  intro q hq
  obtain ⟨id, hid⟩ := hk q hq
  rw [prefixOf_eq hid]
  simp [raw_iff_prefix_nil hid]

theorem outcomes_raw {A α : Type} (F : Key → A → Bytes → Py α) (kps : List (Key × A)) (x : Bytes) :
    (kps.filter (fun q => q.1.outputPrefixType = OutputPrefixType.RAW)).filterMap
      (fun q => (payload q.1 x).map (F q.1 q.2)) =
    (kps.filter (fun q => q.1.outputPrefixType = OutputPrefixType.RAW)).map
      (fun q => F q.1 q.2 x) := by
  induction kps with
  | nil => rfl
  | cons q kps ih =>
    by_cases h : q.1.outputPrefixType = OutputPrefixType.RAW
    · simp only [decide_eq_true_eq, h, List.filter_cons_of_pos, List.filterMap_cons,
        payload_raw h, Option.map_some, List.map_cons, ih]
    · simp only [List.filter_cons_of_neg (p := fun q : Key × A =>
        decide (q.1.outputPrefixType = OutputPrefixType.RAW)) (l := kps) (by simpa using h), ih]

theorem outcomes_nonraw {A α : Type} (F : Key → A → Bytes → Py α) (kps : List (Key × A))
    (hk : ∀ q ∈ kps, ∃ id, outputPrefix q.1 = .ok id) (x : Bytes) :
    (kps.filter (fun q => q.1.outputPrefixType ≠ OutputPrefixType.RAW)).filterMap
      (fun q => (payload q.1 x).map (F q.1 q.2)) =
    if x.length > 5 then
      (kps.filter (fun q => prefixOf q.1 = x.take 5)).map (fun q => F q.1 q.2 (x.drop 5))
    else [] := by
  induction kps with
  | nil => simp
  | cons q kps ih =>
    have ih := ih (fun q hq => hk q (by simp [hq]))
    obtain ⟨id, hid⟩ := hk q (by simp)
    by_cases h : q.1.outputPrefixType = OutputPrefixType.RAW
    · rw [List.filter_cons_of_neg (by simpa using h), ih]
      split
      · rename_i hx
        rw [List.filter_cons_of_neg]
        have := (raw_iff_prefix_nil hid).1 h
        rw [prefixOf_eq hid, this]
        simp only [decide_eq_true_eq]
        intro e
        have := congrArg List.length e
        simp at this
        omega
      · rfl
    · rw [List.filter_cons_of_pos (by simpa using h), List.filterMap_cons, ih,
        payload_nonraw hid h]
      by_cases hx : x.length > 5
      · by_cases he : id = x.take 5
        · simp [hx, ← he, prefixOf_eq hid]
        · simp [hx, he, prefixOf_eq hid]
      · simp [hx]

/-- The search of the decrypting wrappers over the primitive set of a keyset. -/
theorem search_eq {A α : Type} (c : C) (pid : UInt32) (view : P → A) (kps : List (Key × P))
    (hk : ∀ q ∈ kps, ∃ id, outputPrefix q.1 = .ok id)
    (f g : Entry A → Bytes → Py α) (F : Key → P → Bytes → Py α)
    (hf : ∀ q : Key × P, ∀ b, f (Entry.map view (entryOf q)) b = F q.1 q.2 b)
    (hg : ∀ q : Key × P, q.1.outputPrefixType = OutputPrefixType.RAW →
      ∀ b, g (Entry.map view (entryOf q)) b = F q.1 q.2 b) (x : Bytes) :
    (if x.length > NON_RAW_PREFIX_SIZE then
      tryEntries (fun e => f e (x.drop NON_RAW_PREFIX_SIZE))
        (((psetOf c pid kps).map view).primitiveFromIdentifier (x.take NON_RAW_PREFIX_SIZE))
        (tryEntries (fun e => g e x) ((psetOf c pid kps).map view).rawPrimitives
          (.error .tinkError))
     else
      tryEntries (fun e => g e x) ((psetOf c pid kps).map view).rawPrimitives
        (.error .tinkError)) =
    firstNonTink (outcomes F kps x) := by
  have hraw : tryEntries (fun e => g e x) ((psetOf c pid kps).map view).rawPrimitives
      (.error .tinkError) = firstNonTink
        ((kps.filter (fun q => q.1.outputPrefixType = OutputPrefixType.RAW)).map
          (fun q => F q.1 q.2 x)) := by
    rw [← firstNonTink_map]
    congr 1
    unfold PrimitiveSet.rawPrimitives
    rw [pfi_map, pfi_psetOf, List.map_map, List.map_map]
    show (kps.filter (fun q => prefixOf q.1 = [])).map _ = _
    rw [filter_congr_prefix hk]
    apply List.map_congr_left
    intro q hq
    exact hg q (by simpa using (List.mem_filter.1 hq).2) x
  rw [hraw]
  unfold outcomes tryOrder
  rw [List.filterMap_append, outcomes_raw, outcomes_nonraw F kps hk]
  by_cases hx : x.length > NON_RAW_PREFIX_SIZE
  · rw [if_pos hx, if_pos (show x.length > 5 from hx), ← firstNonTink_append, pfi_map, pfi_psetOf,
      List.map_map, List.map_map]
    congr 2
    apply List.map_congr_left
    intro q _
    exact hf q _
  · rw [if_neg hx, if_neg (show ¬ x.length > 5 from hx)]; rfl

end Tink

namespace Tink
open Spec
variable {P C : Type} [DecidableEq C]

theorem EnabledPrimitives.unique {r : Registry P C} {c : C} {ks : Keyset} {a b : List (Key × P)}
    (ha : EnabledPrimitives r c ks a) (hb : EnabledPrimitives r c ks b) : a = b := by
  obtain ⟨ha1, ha2⟩ := ha
  obtain ⟨hb1, hb2⟩ := hb
  have h : a.map Prod.fst = b.map Prod.fst := by rw [ha1, hb1]
  clear ha1 hb1
  induction a generalizing b with
  | nil =>
    cases b with
    | nil => rfl
    | cons q b => simp at h
  | cons q a ih =>
    cases b with
    | nil => simp at h
    | cons q' b =>
      simp only [List.map_cons, List.cons.injEq] at h
      have h1 := ha2 q (by simp)
      have h2 := hb2 q' (by simp)
      rw [h.1, h2] at h1
      obtain ⟨k, p⟩ := q
      obtain ⟨k', p'⟩ := q'
      simp only [Except.ok.injEq] at h1
      obtain ⟨h3, h4⟩ := h
      simp only at h1 h3
      subst h1 h3
      rw [ih (fun q hq => ha2 q (by simp [hq])) (fun q hq => hb2 q (by simp [hq])) h4]

theorem Spec.Obtained.prop {isInst : P → C → Bool} {W : PrimitiveWrapper P C}
    {r : Registry P C} {h : KeysetHandle} {c : C} {kps : List (Key × P)} {p : P}
    (H : Obtained isInst W r h c kps p) :
    W.wrap (psetOf W.inputPrimitiveClass h.keyset.primaryKeyId kps) = .ok p ∧
    (∀ q ∈ kps, ∃ id, outputPrefix q.1 = .ok id) := by
  obtain ⟨hw, hp, hk⟩ := H
  obtain ⟨_, w, kps', hw', hk', hi, hp'⟩ := primitive_ok_iff.1 hp
  rw [hw] at hw'
  cases hw'
  have := EnabledPrimitives.unique hk hk'
  subst this
  exact ⟨hp', fun q hq => (hi q hq).2⟩

omit [DecidableEq C] in
/-- One key accepts and every key tried before it refuses: the search ends with that key. -/
theorem firstNonTink_outcomes {A α : Type} {F : Key → A → Bytes → Py α} {kps : List (Key × A)}
    {x : Bytes} {pre post : List (Key × A)} {q : Key × A} {b : Bytes} {a : α}
    (hs : tryOrder kps = pre ++ q :: post) (hb : payload q.1 x = some b)
    (hq : F q.1 q.2 b = .ok a)
    (hpre : ∀ q' ∈ pre, ∀ b', payload q'.1 x = some b' → Rejects (F q'.1 q'.2 b')) :
    firstNonTink (outcomes F kps x) = .ok a := by
  unfold outcomes
  rw [hs, List.filterMap_append, List.filterMap_cons, hb, Option.map_some, firstNonTink_skip]
  · simp only [hq, firstNonTink]
  · intro y hy
    obtain ⟨q', hq', h⟩ := List.mem_filterMap.1 hy
    cases hp : payload q'.1 x with
    | none => simp [hp] at h
    | some b' =>
      simp only [hp, Option.map_some, Option.some.injEq] at h
      rw [← h]
      exact hpre q' hq' b' hp

theorem mem_tryOrder {A : Type} {kps : List (Key × A)} {q : Key × A} :
    q ∈ tryOrder kps ↔ q ∈ kps := by
  unfold tryOrder
  by_cases h : q.1.outputPrefixType = OutputPrefixType.RAW <;> simp [h]

theorem mem_outcomes {A α : Type} {F : Key → A → Bytes → Py α} {kps : List (Key × A)}
    {x : Bytes} {y : Py α} :
    y ∈ outcomes F kps x ↔ ∃ q ∈ kps, ∃ b, payload q.1 x = some b ∧ F q.1 q.2 b = y := by
  unfold outcomes
  simp only [List.mem_filterMap, mem_tryOrder, Option.map_eq_some_iff]

end Tink

namespace Tink
open Spec

theorem Spec.IsPrimary.mem {A : Type} {ks : Keyset} {kps : List (Key × A)} {q : Key × A}
    (h : IsPrimary ks kps q) : q ∈ kps :=
  (List.mem_filter.1 (List.mem_of_getLast? h)).1

theorem firstNonTink_tink_iff {α : Type} (xs : List (Py α)) :
    firstNonTink xs = .error .tinkError ↔ ∀ x ∈ xs, Rejects x := by
  rw [← firstNonTink_rejects_iff]
  constructor
  · intro h; rw [h]; exact ⟨_, rfl, rfl⟩
  · intro h
    rcases firstNonTink_rejects xs with h' | h'
    · exact h'
    · exact absurd h h'

theorem firstNonTink_error {α : Type} {xs : List (Py α)} {e : Exc}
    (h : firstNonTink xs = .error e) :
    e = .tinkError ∨ (e.isTink = false ∧ .error e ∈ xs) := by
  induction xs with
  | nil => cases h; exact .inl rfl
  | cons x xs ih =>
    cases x with
    | ok a => cases h
    | error e' =>
      simp only [firstNonTink] at h
      split at h
      · rcases ih h with h | h
        · exact .inl h
        · exact .inr ⟨h.1, List.mem_cons_of_mem _ h.2⟩
      · rename_i he
        cases h
        exact .inr ⟨by simpa using he, by simp⟩

theorem outcomes_tink_iff {A α : Type} {F : Key → A → Bytes → Py α} {kps : List (Key × A)}
    {x : Bytes} :
    firstNonTink (outcomes F kps x) = .error .tinkError ↔
      ∀ q ∈ kps, ∀ b, payload q.1 x = some b → Rejects (F q.1 q.2 b) := by
  rw [firstNonTink_tink_iff]
  constructor
  · intro h q hq b hb; exact h _ (mem_outcomes.2 ⟨q, hq, b, hb, rfl⟩)
  · intro h x hx
    obtain ⟨q, hq, b, hb, rfl⟩ := mem_outcomes.1 hx
    exact h q hq b hb

theorem outcomes_ok {A α : Type} {F : Key → A → Bytes → Py α} {kps : List (Key × A)}
    {x : Bytes} {a : α} (h : firstNonTink (outcomes F kps x) = .ok a) :
    ∃ q ∈ kps, ∃ b, payload q.1 x = some b ∧ F q.1 q.2 b = .ok a := by
  obtain ⟨pre, post, he, _⟩ := firstNonTink_ok h
  apply mem_outcomes.1
  rw [he]
  simp

theorem outcomes_error {A α : Type} {F : Key → A → Bytes → Py α} {kps : List (Key × A)}
    {x : Bytes} {e : Exc} (h : firstNonTink (outcomes F kps x) = .error e) :
    e = .tinkError ∨ (e.isTink = false ∧
      ∃ q ∈ kps, ∃ b, payload q.1 x = some b ∧ F q.1 q.2 b = .error e) := by
  rcases firstNonTink_error h with h | ⟨h1, h2⟩
  · exact .inl h
  · exact .inr ⟨h1, mem_outcomes.1 h2⟩

theorem outcomes_of_mem {A α : Type} {F : Key → A → Bytes → Py α} {kps : List (Key × A)}
    {x : Bytes} {a : α}
    (honly : ∀ q ∈ kps, ∀ b, payload q.1 x = some b → F q.1 q.2 b = .ok a ∨ Rejects (F q.1 q.2 b))
    {q : Key × A} {b : Bytes} (hq : q ∈ kps) (hb : payload q.1 x = some b)
    (ha : F q.1 q.2 b = .ok a) : firstNonTink (outcomes F kps x) = .ok a := by
  apply firstNonTink_of_mem
  · exact mem_outcomes.2 ⟨q, hq, b, hb, ha⟩
  · intro x hx
    obtain ⟨q, hq, b, hb, rfl⟩ := mem_outcomes.1 hx
    exact honly q hq b hb
  · rintro ⟨e, h, _⟩; cases h

/-- A key with a payload is RAW and gets everything, or its prefix was stripped. -/
theorem payload_cases {k : Key} {x b : Bytes} (h : payload k x = some b) :
    (k.outputPrefixType = OutputPrefixType.RAW ∧ b = x) ∨
    (k.outputPrefixType ≠ OutputPrefixType.RAW ∧
      ∃ pre, outputPrefix k = .ok pre ∧ pre.length = 5 ∧ x = pre ++ b ∧ b ≠ []) := by
  by_cases hr : k.outputPrefixType = OutputPrefixType.RAW
  · left
    rw [payload_raw hr] at h
    cases h
    exact ⟨hr, rfl⟩
  · right
    refine ⟨hr, ?_⟩
    cases hid : outputPrefix k with
    | error e => unfold payload at h; rw [hid] at h; cases h
    | ok id =>
      rw [payload_nonraw hid hr] at h
      split at h
      · rename_i hx
        cases h
        refine ⟨id, rfl, outputPrefix_nonraw hid hr, ?_, ?_⟩
        · rw [hx.2, List.take_append_drop]
        · intro e
          have := congrArg List.length e
          simp at this
          omega
      · cases h

end Tink
