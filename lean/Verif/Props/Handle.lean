import Verif.Spec.Valid
import Verif.Keyset.HandleLemmas
import Verif.Wrap.Lemmas
import Verif.Props.Registry
import Verif.Props.PrimitiveSet
import Verif.Examples.Toy

/-!
# C19-C21, C23, C27: keyset handles
-/

namespace Tink.Props
open Spec

/-! ## C20 -/

theorem validateKey_iff {k : Key} : validateKey k = .ok () ↔
    k.keyData ≠ none ∧ k.outputPrefixType ≠ OutputPrefixType.UNKNOWN_PREFIX ∧
    k.status ≠ KeyStatusType.UNKNOWN_STATUS := by
  unfold validateKey
  cases hk : k.keyData with
  | none => simp
  | some d =>
    by_cases h1 : k.outputPrefixType = OutputPrefixType.UNKNOWN_PREFIX <;>
    by_cases h2 : k.status = KeyStatusType.UNKNOWN_STATUS <;> simp [h1, h2]

theorem validateKey_cases (k : Key) :
    validateKey k = .ok () ∨ validateKey k = .error .tinkError := by
  unfold validateKey
  repeat' split
  all_goals simp

theorem forM_tink {α : Type} (f : α → Py Unit) (l : List α)
    (hf : ∀ a, f a = .ok () ∨ f a = .error .tinkError) :
    l.forM f = .ok () ∨ l.forM f = .error .tinkError := by
  induction l with
  | nil => exact .inl rfl
  | cons a l ih =>
    show (f a >>= fun _ => l.forM f) = _ ∨ (f a >>= fun _ => l.forM f) = _
    rcases hf a with h | h
    · rw [h]; exact ih
    · rw [h]; exact .inr rfl

theorem countP_le_one_iff {α : Type} (p : α → Bool) (l : List α) :
    l.countP p ≤ 1 ↔ ∀ pre a mid b post, l = pre ++ a :: (mid ++ b :: post) →
      ¬ (p a = true ∧ p b = true) := by
  constructor
  · rintro h pre a mid b post rfl ⟨ha, hb⟩
    simp [List.countP_append, List.countP_cons, ha, hb] at h
    omega
  · intro h
    induction l with
    | nil => simp
    | cons x l ih =>
      have ih := ih (fun pre a mid b post he => h (x :: pre) a mid b post (by rw [he]; rfl))
      by_cases hx : p x = true
      · have : l.countP p = 0 := by
          rw [List.countP_eq_zero]
          intro b hb hpb
          obtain ⟨mid, post, rfl⟩ := List.append_of_mem hb
          exact h [] x mid b post rfl ⟨hx, hpb⟩
        rw [List.countP_cons_of_pos hx, this]
        omega
      · rw [List.countP_cons_of_neg hx]; exact ih

/-- C20.  Validation accepts exactly the valid keysets. -/
theorem C20_validate_iff (ks : Keyset) : validateKeyset ks = .ok () ↔ Valid ks := by
  unfold validateKeyset
  rw [bind_ok_iff]
  have h1 : (ks.key.forM fun key =>
      if key.status ≠ KeyStatusType.DESTROYED then validateKey key else .ok ()) = .ok () ↔
      ∀ k ∈ ks.key, k.status ≠ KeyStatusType.DESTROYED →
        k.keyData ≠ none ∧ k.outputPrefixType ≠ OutputPrefixType.UNKNOWN_PREFIX ∧
        k.status ≠ KeyStatusType.UNKNOWN_STATUS := by
    rw [forM_ok_iff]
    constructor
    · intro h k hk hd
      have := h k hk
      rw [if_pos hd] at this
      exact validateKey_iff.1 this
    · intro h k hk
      by_cases hd : k.status ≠ KeyStatusType.DESTROYED
      · rw [if_pos hd]; exact validateKey_iff.2 (h k hk hd)
      · rw [if_neg hd]
  have h2 : ks.key.countP (fun key => decide (key.status ≠ KeyStatusType.DESTROYED)) = 0 ↔
      ¬ ∃ k ∈ ks.key, k.status ≠ KeyStatusType.DESTROYED := by
    rw [List.countP_eq_zero]
    simp
  have h3 := countP_le_one_iff
    (fun k : Key => decide (k.status = KeyStatusType.ENABLED ∧ k.keyId = ks.primaryKeyId)) ks.key
  have h4 : ks.key.countP (fun k : Key =>
      decide (k.status = KeyStatusType.ENABLED ∧ k.keyId = ks.primaryKeyId)) = 0 ↔
      ¬ ∃ k ∈ ks.key, IsPrimaryKey ks k := by
    rw [List.countP_eq_zero]
    simp [IsPrimaryKey, Enabled]
  have h5 : ks.key.countP (fun k : Key =>
      decide (k.data.keyMaterialType ≠ KeyMaterialType.ASYMMETRIC_PUBLIC)) = 0 ↔
      ∀ k ∈ ks.key, k.data.keyMaterialType = KeyMaterialType.ASYMMETRIC_PUBLIC := by
    rw [List.countP_eq_zero]
    simp
  constructor
  · rintro ⟨⟨⟩, ha, hb⟩
    simp only at hb
    split at hb
    · cases hb
    · rename_i hn
      split at hb
      · cases hb
      · rename_i hle
        split at hb
        · cases hb
        · rename_i hp
          refine ⟨Decidable.not_not.1 (fun h => hn (h2.2 h)), h1.1 ha, ?_, ?_⟩
          · have := h3.1 (by omega)
            intro pre a mid b post he
            have := this pre a mid b post he
            simpa [IsPrimaryKey, Enabled] using this
          · by_cases hpr : ∃ k ∈ ks.key, IsPrimaryKey ks k
            · exact .inl hpr
            · right
              rw [← h5]
              have := h4.2 hpr
              omega
  · rintro ⟨hv1, hv2, hv3, hv4⟩
    refine ⟨(), h1.2 hv2, ?_⟩
    simp only
    rw [if_neg (fun h => h2.1 h hv1), if_neg, if_neg]
    · rintro ⟨ha, hb⟩
      rcases hv4 with hv4 | hv4
      · exact h4.1 ha hv4
      · rw [h5.2 hv4] at hb
        omega
    · have := h3.2 (by
        intro pre a mid b post he
        have := hv3 pre a mid b post he
        simpa [IsPrimaryKey, Enabled] using this)
      omega

theorem validateKeyset_cases (ks : Keyset) :
    validateKeyset ks = .ok () ∨ validateKeyset ks = .error .tinkError := by
  unfold validateKeyset
  rcases forM_tink (fun key : Key =>
    if key.status ≠ KeyStatusType.DESTROYED then validateKey key else .ok ()) ks.key (by
      intro k
      by_cases hd : k.status ≠ KeyStatusType.DESTROYED
      · simp only [if_pos hd]; exact validateKey_cases k
      · simp only [if_neg hd]; exact .inl trivial) with h | h
  · rw [h]
    simp only [bind, Except.bind]
    repeat' split
    all_goals simp
  · rw [h]; exact .inr rfl

/-- C20.  Invalid keysets are refused with `TinkError`, when a handle is created … -/
theorem C20_create_iff (ks : Keyset) :
    (Valid ks ∧ KeysetHandle.create ks = .ok ⟨ks⟩) ∨
    (¬ Valid ks ∧ KeysetHandle.create ks = .error .tinkError) := by
  unfold KeysetHandle.create
  rcases validateKeyset_cases ks with h | h
  · left; rw [h]; exact ⟨(C20_validate_iff ks).1 h, rfl⟩
  · right
    rw [h]
    refine ⟨fun hv => ?_, rfl⟩
    rw [(C20_validate_iff ks).2 hv] at h; cases h

/-- … and when a primitive is obtained. -/
theorem C20_primitive_invalid {P C : Type} [DecidableEq C] (isInst : P → C → Bool)
    (r : Registry P C) {h : KeysetHandle} (hv : ¬ Valid h.keyset) (c : C) :
    h.primitive isInst r c = .error .tinkError := by
  unfold KeysetHandle.primitive
  rcases validateKeyset_cases h.keyset with hx | hx
  · exact absurd ((C20_validate_iff _).1 hx) hv
  · rw [hx]; rfl

theorem C20_primitive_valid {P C : Type} [DecidableEq C] {isInst : P → C → Bool}
    {r : Registry P C} {h : KeysetHandle} {c : C} {p : P} (hp : h.primitive isInst r c = .ok p) :
    Valid h.keyset :=
  (C20_validate_iff _).1 (primitive_ok_iff.1 hp).1

/-! ## C19 -/

section
variable {P C : Type}

/-- C19.  What `generate_new` returns: one key, enabled and primary, with a drawn id, the
template's prefix type and the registry's key data; it is a valid keyset. -/
theorem C19_generate_new {r : Registry P C} {seed : Seed} {draws : List UInt32}
    {template : KeyTemplate} {h : KeysetHandle}
    (hdraws : ∀ d ∈ draws, 1 ≤ d.toNat ∧ d.toNat ≤ 2 ^ 31 - 1)
    (hg : KeysetHandle.generateNew r seed draws template = some (.ok h)) :
    ∃ kd id, r.newKeyData seed template = .ok kd ∧ 1 ≤ id.toNat ∧ id.toNat ≤ 2 ^ 31 - 1 ∧
      h.keyset = ⟨id, [⟨some kd, KeyStatusType.ENABLED, id, template.outputPrefixType⟩]⟩ ∧
      Valid h.keyset := by
  unfold KeysetHandle.generateNew at hg
  split at hg
  · cases hg
  · rename_i kd hkd
    cases draws with
    | nil => cases hg
    | cons d draws =>
      have hid : generateUnusedKeyId (d :: draws) {} = some d := by
        simp [generateUnusedKeyId]
      rw [hid] at hg
      simp only [Option.some.injEq] at hg
      rcases C20_create_iff
        ⟨d, [⟨some kd, KeyStatusType.ENABLED, d, template.outputPrefixType⟩]⟩ with
        ⟨hv, hc⟩ | ⟨_, hc⟩
      · rw [hc] at hg
        cases hg
        exact ⟨kd, d, hkd, (hdraws d (by simp)).1, (hdraws d (by simp)).2, rfl, hv⟩
      · rw [hc] at hg
        cases hg

/-- C19.  `generate_new` succeeds (with the first drawn id) whenever the key data can be
generated and the template has a known prefix type. -/
theorem C19_generate_new_ok {r : Registry P C} {seed : Seed} {d : UInt32} {draws : List UInt32}
    {template : KeyTemplate} {kd : KeyData} (hkd : r.newKeyData seed template = .ok kd)
    (hp : template.outputPrefixType ≠ OutputPrefixType.UNKNOWN_PREFIX) :
    KeysetHandle.generateNew r seed (d :: draws) template = some (.ok
      ⟨⟨d, [⟨some kd, KeyStatusType.ENABLED, d, template.outputPrefixType⟩]⟩⟩) := by
  have hid : generateUnusedKeyId (d :: draws) {} = some d := by simp [generateUnusedKeyId]
  have hv : Valid ⟨d, [⟨some kd, KeyStatusType.ENABLED, d, template.outputPrefixType⟩]⟩ := by
    refine ⟨⟨_, List.mem_singleton.2 rfl, by simp [KeyStatusType.ENABLED,
      KeyStatusType.DESTROYED]⟩, ?_, ?_, ?_⟩
    · intro k hk _
      rw [List.mem_singleton.1 hk]
      exact ⟨by simp, hp, by simp [KeyStatusType.ENABLED, KeyStatusType.UNKNOWN_STATUS]⟩
    · intro pre k₁ mid k₂ post he
      exfalso
      have := congrArg List.length he
      simp at this
      omega
    · left
      exact ⟨_, List.mem_singleton.2 rfl, rfl, rfl⟩
  unfold KeysetHandle.generateNew
  rw [hkd]
  simp only [hid]
  rcases C20_create_iff ⟨d, [⟨some kd, KeyStatusType.ENABLED, d, template.outputPrefixType⟩]⟩ with
    ⟨_, h⟩ | ⟨h, _⟩
  · exact congrArg some h
  · exact absurd hv h

/-- C19.  Failures: the registry's, or `TinkError` for a template of unknown prefix type. -/
theorem C19_generate_new_error {r : Registry P C} {seed : Seed} {draws : List UInt32}
    {template : KeyTemplate} {e : Exc}
    (hg : KeysetHandle.generateNew r seed draws template = some (.error e)) :
    r.newKeyData seed template = .error e ∨
    (e = .tinkError ∧ template.outputPrefixType = OutputPrefixType.UNKNOWN_PREFIX) := by
  cases hkd : r.newKeyData seed template with
  | error e' => unfold KeysetHandle.generateNew at hg; rw [hkd] at hg; cases hg; exact .inl rfl
  | ok kd =>
    right
    cases draws with
    | nil => unfold KeysetHandle.generateNew at hg; rw [hkd] at hg; cases hg
    | cons d draws =>
      by_cases hp : template.outputPrefixType = OutputPrefixType.UNKNOWN_PREFIX
      · refine ⟨?_, hp⟩
        unfold KeysetHandle.generateNew at hg
        rw [hkd] at hg
        have hid : generateUnusedKeyId (d :: draws) {} = some d := by simp [generateUnusedKeyId]
        rw [hid] at hg
        simp only [Option.some.injEq] at hg
        rcases C20_create_iff
          ⟨d, [⟨some kd, KeyStatusType.ENABLED, d, template.outputPrefixType⟩]⟩ with
          ⟨_, hc⟩ | ⟨_, hc⟩ <;> (rw [hc] at hg; cases hg)
        rfl
      · rw [C19_generate_new_ok hkd hp] at hg
        cases hg

end

/-! ## C21 -/

section
variable {P C : Type} [DecidableEq C]

/-- C21.  The primitive of a handle: the wrapper registered for the class is given exactly the
enabled keys, in keyset order, each with the registry's primitive for its key data (under its own
output prefix and id), the primary being the one with the primary id. -/
theorem C21_primitive_from_enabled {isInst : P → C → Bool} {r : Registry P C} {h : KeysetHandle}
    {c : C} {p : P} (hp : h.primitive isInst r c = .ok p) :
    ∃ w kps pset, PyDict.get? r.wrappers c = some w ∧
      EnabledPrimitives r w.inputPrimitiveClass h.keyset kps ∧ w.wrap pset = .ok p ∧
      (∀ id, pset.primitiveFromIdentifier id =
        (kps.filter (fun q => outputPrefix q.1 = .ok id)).map fun q =>
          ⟨q.2, id, q.1.status, q.1.outputPrefixType, q.1.keyId⟩) ∧
      (pset.all.flatten.map Entry.keyId).Perm
        ((h.keyset.key.filter (fun k => Enabled k)).map Key.keyId) ∧
      pset.primary?.map Entry.primitive =
        ((kps.filter (fun q => q.1.keyId = h.keyset.primaryKeyId)).getLast?).map Prod.snd := by
  obtain ⟨_, w, kps, hw, hk, hi, hwrap⟩ := primitive_ok_iff.1 hp
  refine ⟨w, kps, _, hw, hk, hwrap, ?_, ?_, ?_⟩
  · intro id
    rw [pfi_psetOf]
    have : kps.filter (fun q => prefixOf q.1 = id) =
        kps.filter (fun q => outputPrefix q.1 = .ok id) := by
      apply List.filter_congr
      intro q hq
      obtain ⟨id', hid'⟩ := (hi q hq).2
      rw [prefixOf_eq hid', hid']
      simp
    rw [this]
    apply List.map_congr_left
    intro q hq
    have := (List.mem_filter.1 hq).2
    simp only [decide_eq_true_eq] at this
    simp [entryOf, mkEntry, prefixOf_eq this]
  · have : ∀ (kps : List (Key × P)) (s : PrimitiveSet P C),
        ((kps.foldl (psetStep h.keyset.primaryKeyId) s).all.flatten.map Entry.keyId).Perm
          (s.all.flatten.map Entry.keyId ++ kps.map (fun q => q.1.keyId)) := by
      intro kps
      induction kps with
      | nil => intro s; simp
      | cons q kps ih =>
        intro s
        rw [List.foldl_cons]
        refine (ih _).trans ?_
        have e : (psetStep h.keyset.primaryKeyId s q).all = (s.append (entryOf q)).all := by
          unfold psetStep; split <;> rfl
        rw [e]
        have := (PrimitiveSet.all_append s (entryOf q)).map Entry.keyId
        refine (this.append_right _).trans ?_
        simp [entryOf, mkEntry]
    have := this kps { primitiveClass := w.inputPrimitiveClass }
    have e : kps.map (fun q => q.1.keyId) =
        (h.keyset.key.filter (fun k => Enabled k)).map Key.keyId := by
      rw [← hk.1, List.map_map]; rfl
    rw [e] at this
    simpa [psetOf, PrimitiveSet.all, PyDict.values] using this
  · unfold psetOf
    rw [primary_foldl]
    cases (kps.filter (fun q => q.1.keyId = h.keyset.primaryKeyId)).getLast? with
    | none => rfl
    | some q => rfl

theorem primitiveSet_filter (isInst : P → C → Bool) (r : Registry P C) (ic : C) (pid : UInt32)
    (keys : List Key) (s : PrimitiveSet P C) :
    keys.foldlM (KeysetHandle.addKey isInst r ic pid) s =
      (keys.filter (fun k => Enabled k)).foldlM (KeysetHandle.addKey isInst r ic pid) s := by
  induction keys generalizing s with
  | nil => rfl
  | cons k keys ih =>
    by_cases hk : Enabled k
    · rw [List.filter_cons_of_pos (by simpa using hk), List.foldlM_cons, List.foldlM_cons]
      congr
      funext s'
      exact ih s'
    · rw [List.filter_cons_of_neg (by simpa using hk), List.foldlM_cons, addKey_disabled hk]
      exact ih s

/-- C21.  Valid keysets with the same primary id and the same enabled keys give the same
primitive (or the same failure), whatever their other keys are. -/
theorem C21_depends_only_on_enabled (isInst : P → C → Bool) (r : Registry P C)
    {h h' : KeysetHandle} (hv : Valid h.keyset) (hv' : Valid h'.keyset)
    (hp : h.keyset.primaryKeyId = h'.keyset.primaryKeyId)
    (hk : h.keyset.key.filter (fun k => Enabled k) = h'.keyset.key.filter (fun k => Enabled k))
    (c : C) : h.primitive isInst r c = h'.primitive isInst r c := by
  unfold KeysetHandle.primitive
  rw [(C20_validate_iff _).2 hv, (C20_validate_iff _).2 hv']
  have : ∀ ic, KeysetHandle.primitiveSet isInst r ic h.keyset =
      KeysetHandle.primitiveSet isInst r ic h'.keyset := by
    intro ic
    unfold KeysetHandle.primitiveSet
    rw [primitiveSet_filter, primitiveSet_filter (keys := h'.keyset.key), hp, hk]
  simp only [this]

/-- Replaces the type URL and bytes of a key that is not enabled. -/
def scrambleKey (f : Key → PStr × Bytes) (k : Key) : Key :=
  if Enabled k then k else
    ⟨k.keyData.map fun d => ⟨(f k).1, (f k).2, d.keyMaterialType⟩, k.status, k.keyId,
      k.outputPrefixType⟩

/-- Replaces the type URL and bytes of every key that is not enabled. -/
def scramble (f : Key → PStr × Bytes) (ks : Keyset) : Keyset :=
  ⟨ks.primaryKeyId, ks.key.map (scrambleKey f)⟩

theorem scrambleKey_facts (f : Key → PStr × Bytes) (k : Key) :
    (scrambleKey f k).status = k.status ∧ (scrambleKey f k).keyId = k.keyId ∧
    (scrambleKey f k).data.keyMaterialType = k.data.keyMaterialType ∧
    validateKey (scrambleKey f k) = validateKey k := by
  unfold scrambleKey
  split
  · exact ⟨rfl, rfl, rfl, rfl⟩
  · refine ⟨rfl, rfl, ?_, ?_⟩
    · unfold Key.data; cases k.keyData <;> rfl
    · unfold validateKey; simp

/-- C21.  The key data of disabled and destroyed keys does not matter at all: not for success,
not for the result. -/
theorem C21_other_key_data_irrelevant (isInst : P → C → Bool) (r : Registry P C) (ks : Keyset)
    (f : Key → PStr × Bytes) (c : C) :
    (KeysetHandle.mk (scramble f ks)).primitive isInst r c =
      (KeysetHandle.mk ks).primitive isInst r c := by
  have hval : validateKeyset (scramble f ks) = validateKeyset ks := by
    unfold validateKeyset scramble
    simp only [List.countP_map]
    have hfor : ∀ l : List Key, (l.map (scrambleKey f)).forM (fun key : Key =>
        if key.status ≠ KeyStatusType.DESTROYED then validateKey key else .ok ()) =
      l.forM (fun key : Key =>
        if key.status ≠ KeyStatusType.DESTROYED then validateKey key else .ok ()) := by
      intro l
      induction l with
      | nil => rfl
      | cons k l ih =>
        show ((if (scrambleKey f k).status ≠ KeyStatusType.DESTROYED then
            validateKey (scrambleKey f k) else .ok ()) >>= fun _ => List.forM _ _) =
          ((if k.status ≠ KeyStatusType.DESTROYED then validateKey k else .ok ()) >>=
            fun _ => List.forM _ _)
        rw [ih, (scrambleKey_facts f k).1, (scrambleKey_facts f k).2.2.2]
    rw [hfor]
    simp only [Function.comp_def, (scrambleKey_facts f _).1, (scrambleKey_facts f _).2.1,
      (scrambleKey_facts f _).2.2.1]
  have hfil : (scramble f ks).key.filter (fun k => Enabled k) =
      ks.key.filter (fun k => Enabled k) := by
    unfold scramble
    simp only
    generalize ks.key = l
    induction l with
    | nil => rfl
    | cons k l ih =>
      rw [List.map_cons]
      by_cases hk : Enabled k
      · have : scrambleKey f k = k := if_pos hk
        rw [this, List.filter_cons_of_pos (by simpa using hk),
          List.filter_cons_of_pos (by simpa using hk), ih]
      · have : ¬ Enabled (scrambleKey f k) := by
          unfold Enabled; rw [(scrambleKey_facts f k).1]; exact hk
        rw [List.filter_cons_of_neg (by simpa using this),
          List.filter_cons_of_neg (by simpa using hk), ih]
  rcases validateKeyset_cases ks with hv | hv
  · have hv' : validateKeyset (scramble f ks) = .ok () := by rw [hval]; exact hv
    exact C21_depends_only_on_enabled isInst r (h := ⟨scramble f ks⟩) (h' := ⟨ks⟩)
      ((C20_validate_iff _).1 hv') ((C20_validate_iff _).1 hv) rfl hfil c
  · unfold KeysetHandle.primitive
    rw [hval, hv]
    rfl

end

/-! ## C23 -/

/-- C23.  The info lists the metadata of every key in order, and nothing else: it is a function
of the primary id and the metadata. -/
theorem C23_info_only_metadata {ks ks' : Keyset} (hp : ks.primaryKeyId = ks'.primaryKeyId)
    (hl : ks.key.length = ks'.key.length)
    (hm : ∀ q ∈ ks.key.zip ks'.key, SameMetadata q.1 q.2) : keysetInfo ks = keysetInfo ks' := by
  unfold keysetInfo
  rw [hp]
  congr 1
  generalize ks.key = l at hl hm
  generalize ks'.key = l' at hl hm
  induction l generalizing l' with
  | nil => cases l' with
    | nil => rfl
    | cons => simp at hl
  | cons k l ih =>
    cases l' with
    | nil => simp at hl
    | cons k' l' =>
      simp only [List.map_cons]
      obtain ⟨h1, h2, h3, h4⟩ := hm (k, k') (by simp)
      rw [ih l' (by simpa using hl) (fun q hq => hm q (by simp [hq])), h1, h2, h3, h4]

/-- C23.  The info determines the metadata: every key is listed, in order. -/
theorem C23_info_lists_every_key (ks : Keyset) :
    (keysetInfo ks).primaryKeyId = ks.primaryKeyId ∧
    (keysetInfo ks).keyInfo = ks.key.map fun k =>
      ⟨k.data.typeUrl, k.status, k.keyId, k.outputPrefixType⟩ := ⟨rfl, rfl⟩

/-- C23.  Replacing all key bytes and material types leaves the info of a handle unchanged. -/
theorem C23_info_hides_key_bytes (ks : Keyset) (f : Key → Bytes × EnumVal) :
    (KeysetHandle.mk ⟨ks.primaryKeyId, ks.key.map fun k =>
      ⟨k.keyData.map fun d => ⟨d.typeUrl, (f k).1, (f k).2⟩, k.status, k.keyId,
        k.outputPrefixType⟩⟩).info = (KeysetHandle.mk ks).info := by
  unfold KeysetHandle.info
  simp only [keysetInfo, List.map_map]
  congr 1
  apply List.map_congr_left
  intro k _
  cases hk : k.keyData <;> simp [Key.data, hk]

/-- C23.  The unencrypted part of an encrypted keyset is the info only; the rest is what the
master AEAD returned. -/
theorem C23_encrypted_keyset_parts {ks : Keyset} {aead : Aead} {seed : Seed} {ad : Bytes}
    {e : EncryptedKeyset} (h : encryptKeyset ks aead seed ad = .ok e) :
    e.keysetInfo = some (keysetInfo ks) ∧
    ∃ s, ks.serializeToString = .ok s ∧ aead.encrypt seed s ad = .ok e.encryptedKeyset := by
  unfold encryptKeyset at h
  obtain ⟨s, hs, h⟩ := bind_ok_iff.1 h
  obtain ⟨ct, hct, h⟩ := bind_ok_iff.1 h
  obtain ⟨⟨⟩, _, h⟩ := bind_ok_iff.1 h
  cases h
  exact ⟨rfl, s, hs, hct⟩

/-! ## C27 -/

section
variable {P C : Type}

theorem mapM_ok_iff {α β : Type} (f : α → Py β) (l : List α) (l' : List β) :
    l.mapM f = .ok l' ↔ l.length = l'.length ∧ ∀ q ∈ l.zip l', f q.1 = .ok q.2 := by
  induction l generalizing l' with
  | nil =>
    cases l' with
    | nil => simp [pure, Except.pure]
    | cons => simp [pure, Except.pure]
  | cons a l ih =>
    rw [List.mapM_cons, bind_ok_iff]
    constructor
    · rintro ⟨b, hb, h⟩
      obtain ⟨l1, hl1, h⟩ := bind_ok_iff.1 h
      cases h
      obtain ⟨h1, h2⟩ := (ih l1).1 hl1
      refine ⟨by simp [h1], ?_⟩
      intro q hq
      simp only [List.zip_cons_cons, List.mem_cons] at hq
      rcases hq with rfl | hq
      · exact hb
      · exact h2 q hq
    · rintro ⟨h1, h2⟩
      cases l' with
      | nil => simp at h1
      | cons b l' =>
        refine ⟨b, h2 (a, b) (by simp), ?_⟩
        rw [bind_ok_iff]
        refine ⟨l', (ih l').2 ⟨by simpa using h1, fun q hq => h2 q (by simp [hq])⟩, rfl⟩

/-- The keyset with the key data replaced, key by key. -/
def withKeyData (ks : Keyset) (kds : List KeyData) : Keyset :=
  ⟨ks.primaryKeyId, (ks.key.zip kds).map fun q =>
    ⟨some q.2, q.1.status, q.1.keyId, q.1.outputPrefixType⟩⟩

/-- C27.  If `public_keyset_handle` succeeds, every key is private, a private key manager is bound
to its type URL, and the public keyset has, key by key in order, the same id, status and prefix
type, with the manager's key data, and the same primary id; it is valid. -/
theorem C27_public_keyset {r : Registry P C} {h pub : KeysetHandle}
    (hp : h.publicKeysetHandle r = .ok pub) :
    ∃ kds : List KeyData, kds.length = h.keyset.key.length ∧
      (∀ q ∈ h.keyset.key.zip kds,
        q.1.data.keyMaterialType = KeyMaterialType.ASYMMETRIC_PRIVATE ∧
        ∃ m f, r.keyManager q.1.data.typeUrl = .ok m ∧ m.publicKeyData = some f ∧
          f q.1.data = .ok q.2) ∧
      pub.keyset = withKeyData h.keyset kds ∧ Valid pub.keyset := by
  unfold KeysetHandle.publicKeysetHandle at hp
  obtain ⟨keys, hkeys, hc⟩ := bind_ok_iff.1 hp
  rw [mapM_ok_iff] at hkeys
  obtain ⟨hlen, hall⟩ := hkeys
  have hkey : ∀ q ∈ h.keyset.key.zip keys, ∃ kd, r.publicKeyData q.1.data = .ok kd ∧
      q.2 = ⟨some kd, q.1.status, q.1.keyId, q.1.outputPrefixType⟩ := by
    intro q hq
    obtain ⟨kd, hkd, h2⟩ := bind_ok_iff.1 (hall q hq)
    obtain ⟨⟨⟩, _, h3⟩ := bind_ok_iff.1 h2
    simp only [pure, Except.pure, Except.ok.injEq] at h3
    exact ⟨kd, hkd, h3.symm⟩
  clear hall
  rcases C20_create_iff ⟨h.keyset.primaryKeyId, keys⟩ with ⟨hv, hc'⟩ | ⟨_, hc'⟩
  · rw [hc'] at hc
    cases hc
    refine ⟨keys.map Key.data, by simp [hlen], ?_, ?_, hv⟩
    · intro q hq
      rw [List.zip_map_right] at hq
      obtain ⟨q', hq', rfl⟩ := List.mem_map.1 hq
      obtain ⟨kd, hkd, he⟩ := hkey q' hq'
      have := C18_public_key_data_iff.1 hkd
      simp only [Prod.map_fst, Prod.map_snd, he, id]
      exact this
    · unfold withKeyData
      simp only [Keyset.mk.injEq, true_and]
      generalize h.keyset.key = l at hlen hkey
      clear hv hc' hp
      induction l generalizing keys with
      | nil => cases keys with
        | nil => rfl
        | cons => simp at hlen
      | cons k l ih =>
        cases keys with
        | nil => simp at hlen
        | cons k' keys =>
          simp only [List.map_cons, List.zip_cons_cons, List.cons.injEq]
          obtain ⟨kd, _, he⟩ := hkey (k, k') (by simp)
          refine ⟨?_, ih keys (by simpa using hlen) (fun q hq => hkey q (by simp [hq]))⟩
          simp only at he
          rw [he]
          rfl
  · rw [hc'] at hc; cases hc

theorem assertNoSecret_iff (ks : Keyset) :
    assertNoSecretKeyMaterial ks = .ok () ↔ NoSecret ks := by
  unfold assertNoSecretKeyMaterial
  rw [forM_ok_iff]
  constructor
  · intro h k hk hs
    have := h k hk
    unfold Secret at hs
    rw [if_pos hs] at this
    cases this
  · intro h k hk
    have := h k hk
    unfold Secret at this
    rw [if_neg this]

theorem assertNoSecret_cases (ks : Keyset) :
    (NoSecret ks ∧ assertNoSecretKeyMaterial ks = .ok ()) ∨
    (¬ NoSecret ks ∧ assertNoSecretKeyMaterial ks = .error .tinkError) := by
  have : assertNoSecretKeyMaterial ks = .ok () ∨
      assertNoSecretKeyMaterial ks = .error .tinkError := by
    unfold assertNoSecretKeyMaterial
    apply forM_tink
    intro k
    split
    · exact .inr rfl
    · exact .inl rfl
  rcases this with h | h
  · exact .inl ⟨(assertNoSecret_iff ks).1 h, h⟩
  · right
    refine ⟨fun hn => ?_, h⟩
    rw [(assertNoSecret_iff ks).2 hn] at h
    cases h

/-- C27.  If the managers return public key data, the public keyset contains no secrets. -/
theorem C27_public_keyset_no_secret {r : Registry P C} {h pub : KeysetHandle}
    (hp : h.publicKeysetHandle r = .ok pub)
    (hm : ∀ k ∈ h.keyset.key, ∀ m f kd, r.keyManager k.data.typeUrl = .ok m →
      m.publicKeyData = some f → f k.data = .ok kd →
      kd.keyMaterialType = KeyMaterialType.ASYMMETRIC_PUBLIC) :
    NoSecret pub.keyset := by
  obtain ⟨kds, hl, hq, he, _⟩ := C27_public_keyset hp
  rw [he]
  intro k hk
  unfold withKeyData at hk
  obtain ⟨q, hq', rfl⟩ := List.mem_map.1 hk
  obtain ⟨_, m, f, h1, h2, h3⟩ := hq q hq'
  have hmem : q.1 ∈ h.keyset.key := (List.of_mem_zip hq').1
  have := hm q.1 hmem m f q.2 h1 h2 h3
  unfold Secret Key.data
  simp only [Option.getD_some, this]
  decide

/-- C27.  A single key that is not private (destroyed or not) makes it fail with the
registry's exception, if the keys before it are fine. -/
theorem C27_not_private_rejected {r : Registry P C} {h : KeysetHandle} {k : Key}
    (hk : k ∈ h.keyset.key)
    (hn : k.data.keyMaterialType ≠ KeyMaterialType.ASYMMETRIC_PRIVATE) (pub : KeysetHandle) :
    h.publicKeysetHandle r ≠ .ok pub := by
  intro hp
  obtain ⟨kds, hl, hq, _, _⟩ := C27_public_keyset hp
  obtain ⟨i, hi, rfl⟩ := List.getElem_of_mem hk
  have : (h.keyset.key[i], kds[i]'(by omega)) ∈ h.keyset.key.zip kds := by
    rw [List.mem_iff_getElem]
    exact ⟨i, by simp [hl, hi], by simp⟩
  exact hn (hq _ this).1

/-- C27.  Sufficient conditions for success: a valid keyset whose keys all have a public
counterpart, none being of unknown prefix type or status. -/
theorem C27_public_keyset_ok {r : Registry P C} {h : KeysetHandle} {kds : List KeyData}
    (hl : kds.length = h.keyset.key.length)
    (hq : ∀ q ∈ h.keyset.key.zip kds, r.publicKeyData q.1.data = .ok q.2)
    (hk : ∀ k ∈ h.keyset.key, k.outputPrefixType ≠ OutputPrefixType.UNKNOWN_PREFIX ∧
      k.status ≠ KeyStatusType.UNKNOWN_STATUS)
    (hv : Valid (withKeyData h.keyset kds)) :
    h.publicKeysetHandle r = .ok ⟨withKeyData h.keyset kds⟩ := by
  unfold KeysetHandle.publicKeysetHandle
  rw [bind_ok_iff]
  refine ⟨(withKeyData h.keyset kds).key, ?_, ?_⟩
  · rw [mapM_ok_iff]
    refine ⟨by simp [withKeyData, hl], ?_⟩
    unfold withKeyData
    simp only
    generalize h.keyset.key = l at hl hq hk
    clear hv
    induction l generalizing kds with
    | nil => simp
    | cons k l ih =>
      cases kds with
      | nil => simp at hl
      | cons kd kds =>
        intro q hq'
        simp only [List.zip_cons_cons, List.map_cons, List.mem_cons] at hq'
        rcases hq' with rfl | hq'
        · have := hq (k, kd) (by simp)
          simp only at this ⊢
          rw [this]
          show (validateKey ⟨some kd, k.status, k.keyId, k.outputPrefixType⟩ >>= _) = _
          have hvk : validateKey ⟨some kd, k.status, k.keyId, k.outputPrefixType⟩ = .ok () :=
            validateKey_iff.2 ⟨by simp, (hk k (by simp)).1, (hk k (by simp)).2⟩
          rw [hvk]
          rfl
        · exact ih (by simpa using hl) (fun q h => hq q (by simp [h]))
            (fun k h => hk k (by simp [h])) q hq'
  · rcases C20_create_iff (withKeyData h.keyset kds) with ⟨_, h'⟩ | ⟨h', _⟩
    · exact h'
    · exact absurd hv h'

end

namespace HandleExample
open Toy

/-- Three keys: an enabled primary, a disabled and a destroyed one. -/
def ks : Keyset :=
  { primaryKeyId := 7
    key := [key .sign [5] 8 OutputPrefixType.RAW KeyStatusType.DISABLED,
            key .sign [6] 7 OutputPrefixType.TINK,
            key .sign [9] 3 OutputPrefixType.RAW KeyStatusType.DESTROYED] }

example : Valid ks := (C20_validate_iff ks).1 (by decide)

/-- Two enabled keys with the primary id, no key, only destroyed keys, a missing primary, an
incomplete key: all invalid. -/
example : ¬ Valid { ks with key := ks.key ++ [key .sign [1] 7 OutputPrefixType.RAW] } := by
  rw [← C20_validate_iff]; decide
example : ¬ Valid {} := by rw [← C20_validate_iff]; decide
example : ¬ Valid { ks with key := ks.key.drop 2 } := by rw [← C20_validate_iff]; decide
example : ¬ Valid { ks with primaryKeyId := 8 } := by rw [← C20_validate_iff]; decide
example : ¬ Valid { ks with key := {} :: ks.key } := by rw [← C20_validate_iff]; decide

/-- A public keyset without a primary is valid. -/
example : Valid { primaryKeyId := 1, key := [key .verify [5] 8 OutputPrefixType.RAW] } := by
  rw [← C20_validate_iff]; decide

example : (KeysetHandle.mk ks).publicKeysetHandle registry = .ok ⟨
    { primaryKeyId := 7
      key := [key .verify [5] 8 OutputPrefixType.RAW KeyStatusType.DISABLED,
              key .verify [6] 7 OutputPrefixType.TINK,
              key .verify [9] 3 OutputPrefixType.RAW KeyStatusType.DESTROYED] }⟩ := rfl

example : KeysetHandle.generateNew registry 77 [1234, 5]
    { typeUrl := url .aead, outputPrefixType := OutputPrefixType.TINK } =
    some (.ok ⟨{ primaryKeyId := 1234, key := [key .aead [77] 1234 OutputPrefixType.TINK] }⟩) := rfl

/-- The primitive of `ks` can be obtained, and scrambling its unused keys changes them. -/
example : (match (KeysetHandle.mk ks).primitive isInst registry .sign with
    | .ok _ => true | .error _ => false) = true := rfl
example : scramble (fun _ => (['?'], [0])) ks ≠ ks := by decide

end HandleExample
end Tink.Props
