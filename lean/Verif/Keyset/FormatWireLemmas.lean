import Verif.Keyset.FormatReadLemmas

/-!
# The binary reader reads every encoding of a keyset
-/

namespace Tink
open Spec Spec.KeysetFormat

/-- A field of the model. -/
def toField (p : Nat × Payload) : Field := ⟨p.1, p.2.val⟩

/-- What `Encodes` says of the fields. -/
def FieldFits (ps : List (Nat × Payload)) : WireField → Prop
  | .single n value omitted => (∀ p ∈ ps, p.1 = n → value p.2) ∧ (omitted ∨ ∃ p ∈ ps, p.1 = n) ∧
      (ps.filter fun p => p.1 = n).length ≤ 1
  | .repeated n values => Pairwise (fun value p => value p.2) values (ps.filter fun p => p.1 = n)

theorem encodes_parse {fs : List WireField} {b : Bytes} (h : Encodes fs b) :
    ∃ ps, parseFields b = some (ps.map toField) ∧ ∀ f ∈ fs, FieldFits ps f := by
  obtain ⟨ps, rfl, hs, hf⟩ := h
  refine ⟨ps, ?_, fun f h => ?_⟩
  · have e : ps.flatMap (fun p => onWire p.1 p.2) = encodeFields (ps.map toField) := by
      unfold encodeFields
      rw [List.flatMap_map]
      congr 1
      funext p
      exact onWire_eq _ _
    rw [e]
    apply parseFields_encode
    intro f hf
    obtain ⟨p, hp, rfl⟩ := List.mem_map.1 hf
    obtain ⟨h1, h2, h3⟩ := hs p hp
    obtain ⟨n, q⟩ := p
    refine ⟨h1, h2, ?_⟩
    cases q <;> exact h3
  · have := hf f h
    cases f <;> exact this

/-- Is there a field of the number. -/
def hasField (n : Nat) (ps : List (Nat × Payload)) : Bool := ps.any fun p => p.1 == n

theorem hasField_cons (n : Nat) (p : Nat × Payload) (ps : List (Nat × Payload)) :
    hasField n (p :: ps) = (p.1 == n || hasField n ps) := rfl

/-- A field is left as it is, or set to the value encoded. -/
theorem single_omitted_or {α : Type} {ps : List (Nat × Payload)} {n : Nat} {value : Payload → Prop}
    {omitted : Prop} (h : FieldFits ps (.single n value omitted)) {a b : α} (ho : omitted → b = a) :
    (if hasField n ps then a else b) = a := by
  cases hh : hasField n ps with
  | true => rfl
  | false =>
    rcases h.2.1 with h | ⟨p, hp, hn⟩
    · simp [ho h]
    · exfalso
      have : hasField n ps = true := by
        unfold hasField
        rw [List.any_eq_true]
        exact ⟨p, hp, by simp [hn]⟩
      rw [hh] at this
      cases this

theorem ofNat_mod {n : Nat} {v : UInt32} (h : n % 2 ^ 32 = v.toNat) : UInt32.ofNat n = v := by
  apply UInt32.toNat_inj.1
  rw [UInt32.toNat_ofNat']
  exact h

theorem decode_utf8 (s : PStr) : pstrDecode? (utf8 s) = some s := by
  rw [utf8_eq, pstrDecode_encode]

theorem fold_keyData (t : KeyData) (ps : List (Nat × Payload))
    (h1 : ∀ p ∈ ps, p.1 = 1 → p.2 = .bytes (utf8 t.typeUrl))
    (h2 : ∀ p ∈ ps, p.1 = 2 → p.2 = .bytes t.value)
    (h3 : ∀ p ∈ ps, p.1 = 3 → ∃ x, p.2 = .number x ∧ x % 2 ^ 32 = t.keyMaterialType.toNat)
    : ∀ m : KeyData,  (ps.map toField).foldlM KeyData.mergeField m = some {
      typeUrl := if hasField 1 ps then t.typeUrl else m.typeUrl
      value := if hasField 2 ps then t.value else m.value
      keyMaterialType := if hasField 3 ps then t.keyMaterialType else m.keyMaterialType } := by
  induction ps with
  | nil => intro m; rfl
  | cons p ps ih =>
    intro m
    have ih' := ih (fun p hp => h1 p (List.mem_cons_of_mem _ hp)) (fun p hp => h2 p (List.mem_cons_of_mem _ hp)) (fun p hp => h3 p (List.mem_cons_of_mem _ hp))
    have a1 := h1 p (List.mem_cons_self ..)
    have a2 := h2 p (List.mem_cons_self ..)
    have a3 := h3 p (List.mem_cons_self ..)
    clear ih h1 h2 h3
    obtain ⟨n, q⟩ := p
    rw [List.map_cons, List.foldlM_cons]
    by_cases hn : n = 1
    · subst hn
      cases (show q = _ from a1 rfl)
      have hs : KeyData.mergeField m (toField (1, .bytes (utf8 t.typeUrl))) = some { m with typeUrl := t.typeUrl } := by
        show (pstrDecode? (utf8 t.typeUrl)).map _ = _; rw [decode_utf8]; rfl
      rw [hs]
      simp only [Option.bind_eq_bind, Option.bind_some]
      rw [ih' _]
      simp [hasField_cons]
    have n1 := hn; clear hn
    by_cases hn : n = 2
    · subst hn
      cases (show q = _ from a2 rfl)
      have hs : KeyData.mergeField m (toField (2, .bytes t.value)) = some { m with value := t.value } := by
        rfl
      rw [hs]
      simp only [Option.bind_eq_bind, Option.bind_some]
      rw [ih' _]
      simp [hasField_cons]
    have n2 := hn; clear hn
    by_cases hn : n = 3
    · subst hn
      obtain ⟨x, rfl, hx⟩ := (show ∃ x, q = .number x ∧ _ from a3 rfl)
      have hs : KeyData.mergeField m (toField (3, .number x)) = some { m with keyMaterialType := t.keyMaterialType } := by
        rw [← ofNat_mod hx]; rfl
      rw [hs]
      simp only [Option.bind_eq_bind, Option.bind_some]
      rw [ih' _]
      simp [hasField_cons]
    have n3 := hn; clear hn
    have hs : KeyData.mergeField m (toField (n, q)) = some m := by
      unfold KeyData.mergeField toField
      split <;> first | rfl | (rename_i e _; simp only at e; omega)
    rw [hs]
    simp only [Option.bind_eq_bind, Option.bind_some]
    rw [ih' _]
    simp [hasField_cons, n1, n2, n3]

theorem encodes_keyData {t : KeyData} {b : Bytes} (h : Encodes (keyDataMessage anyWire t) b)
    {m : KeyData} (hm : m = {} ∨ m = t) : KeyData.merge m b = some t := by
  obtain ⟨ps, hp, hf⟩ := encodes_parse h
  have f1 := hf _ (.head _)
  have f2 := hf _ (.tail _ (.head _))
  have f3 := hf _ (.tail _ (.tail _ (.head _)))
  unfold KeyData.merge
  rw [hp]
  simp only
  rw [fold_keyData t ps f1.1 f2.1 f3.1 m]
  rcases hm with rfl | rfl
  · have e : ∀ x y : KeyData, x.typeUrl = y.typeUrl → x.value = y.value → x.keyMaterialType = y.keyMaterialType → x = y := by
      intro x y h0 h1 h2
      cases x; cases y; simp_all
    congr 1
    apply e
    · exact single_omitted_or f1 Eq.symm
    · exact single_omitted_or f2 Eq.symm
    · exact single_omitted_or f3 Eq.symm
  · simp

theorem merge_optional_keyData {m t : Key} {fs : List WireField} {b : Bytes}
    (hm : m.keyData = none ∨ m.keyData = t.keyData)
    (he : t.keyData.map (keyDataMessage anyWire) = some fs) (hb : Encodes fs b) :
    Key.mergeField m (toField (1, .bytes b)) = some { m with keyData := t.keyData } := by
  show (KeyData.merge m.data b).map _ = _
  cases ht : t.keyData with
  | none => rw [ht] at he; cases he
  | some d =>
    rw [ht] at he hm
    cases he
    rw [encodes_keyData hb (t := d) (by rcases hm with h | h <;> simp [Key.data, h])]
    rfl

theorem fold_key (t : Key) (ps : List (Nat × Payload))
    (h1 : ∀ p ∈ ps, p.1 = 1 → ∃ fs b, t.keyData.map (keyDataMessage anyWire) = some fs ∧ p.2 = .bytes b ∧ Encodes fs b)
    (h2 : ∀ p ∈ ps, p.1 = 2 → ∃ x, p.2 = .number x ∧ x % 2 ^ 32 = t.status.toNat)
    (h3 : ∀ p ∈ ps, p.1 = 3 → ∃ x, p.2 = .number x ∧ x % 2 ^ 32 = t.keyId.toNat)
    (h4 : ∀ p ∈ ps, p.1 = 4 → ∃ x, p.2 = .number x ∧ x % 2 ^ 32 = t.outputPrefixType.toNat)
    : ∀ m : Key, (m.keyData = none ∨ m.keyData = t.keyData) → (ps.map toField).foldlM Key.mergeField m = some {
      keyData := if hasField 1 ps then t.keyData else m.keyData
      status := if hasField 2 ps then t.status else m.status
      keyId := if hasField 3 ps then t.keyId else m.keyId
      outputPrefixType := if hasField 4 ps then t.outputPrefixType else m.outputPrefixType } := by
  induction ps with
  | nil => intro m _; rfl
  | cons p ps ih =>
    intro m hm
    have ih' := ih (fun p hp => h1 p (List.mem_cons_of_mem _ hp)) (fun p hp => h2 p (List.mem_cons_of_mem _ hp)) (fun p hp => h3 p (List.mem_cons_of_mem _ hp)) (fun p hp => h4 p (List.mem_cons_of_mem _ hp))
    have a1 := h1 p (List.mem_cons_self ..)
    have a2 := h2 p (List.mem_cons_self ..)
    have a3 := h3 p (List.mem_cons_self ..)
    have a4 := h4 p (List.mem_cons_self ..)
    clear ih h1 h2 h3 h4
    obtain ⟨n, q⟩ := p
    rw [List.map_cons, List.foldlM_cons]
    by_cases hn : n = 1
    · subst hn
      obtain ⟨fs, b, he, rfl, hb⟩ := (show ∃ fs b, _ ∧ q = .bytes b ∧ _ from a1 rfl)
      have hs : Key.mergeField m (toField (1, .bytes b)) = some { m with keyData := t.keyData } := by
        exact merge_optional_keyData hm he hb
      rw [hs]
      simp only [Option.bind_eq_bind, Option.bind_some]
      rw [ih' _ (by first | exact hm | exact .inr rfl)]
      simp [hasField_cons]
    have n1 := hn; clear hn
    by_cases hn : n = 2
    · subst hn
      obtain ⟨x, rfl, hx⟩ := (show ∃ x, q = .number x ∧ _ from a2 rfl)
      have hs : Key.mergeField m (toField (2, .number x)) = some { m with status := t.status } := by
        rw [← ofNat_mod hx]; rfl
      rw [hs]
      simp only [Option.bind_eq_bind, Option.bind_some]
      rw [ih' _ (by first | exact hm | exact .inr rfl)]
      simp [hasField_cons]
    have n2 := hn; clear hn
    by_cases hn : n = 3
    · subst hn
      obtain ⟨x, rfl, hx⟩ := (show ∃ x, q = .number x ∧ _ from a3 rfl)
      have hs : Key.mergeField m (toField (3, .number x)) = some { m with keyId := t.keyId } := by
        rw [← ofNat_mod hx]; rfl
      rw [hs]
      simp only [Option.bind_eq_bind, Option.bind_some]
      rw [ih' _ (by first | exact hm | exact .inr rfl)]
      simp [hasField_cons]
    have n3 := hn; clear hn
    by_cases hn : n = 4
    · subst hn
      obtain ⟨x, rfl, hx⟩ := (show ∃ x, q = .number x ∧ _ from a4 rfl)
      have hs : Key.mergeField m (toField (4, .number x)) = some { m with outputPrefixType := t.outputPrefixType } := by
        rw [← ofNat_mod hx]; rfl
      rw [hs]
      simp only [Option.bind_eq_bind, Option.bind_some]
      rw [ih' _ (by first | exact hm | exact .inr rfl)]
      simp [hasField_cons]
    have n4 := hn; clear hn
    have hs : Key.mergeField m (toField (n, q)) = some m := by
      unfold Key.mergeField toField
      split <;> first | rfl | (rename_i e _; simp only at e; omega)
    rw [hs]
    simp only [Option.bind_eq_bind, Option.bind_some]
    rw [ih' _ hm]
    simp [hasField_cons, n1, n2, n3, n4]

theorem encodes_key {t : Key} {b : Bytes} (h : Encodes (keyMessage anyWire t) b)
    {m : Key} (hm : m = {} ∨ m = t) : Key.merge m b = some t := by
  obtain ⟨ps, hp, hf⟩ := encodes_parse h
  have f1 := hf _ (.head _)
  have f2 := hf _ (.tail _ (.head _))
  have f3 := hf _ (.tail _ (.tail _ (.head _)))
  have f4 := hf _ (.tail _ (.tail _ (.tail _ (.head _))))
  unfold Key.merge
  rw [hp]
  simp only
  rw [fold_key t ps f1.1 f2.1 f3.1 f4.1 m (by rcases hm with rfl | rfl <;> simp)]
  rcases hm with rfl | rfl
  · have e : ∀ x y : Key, x.keyData = y.keyData → x.status = y.status → x.keyId = y.keyId → x.outputPrefixType = y.outputPrefixType → x = y := by
      intro x y h0 h1 h2 h3
      cases x; cases y; simp_all
    congr 1
    apply e
    · exact single_omitted_or f1 omitNone
    · exact single_omitted_or f2 Eq.symm
    · exact single_omitted_or f3 Eq.symm
    · exact single_omitted_or f4 Eq.symm
  · simp

theorem fold_keyset (t : Keyset) (ps : List (Nat × Payload)) (ts : List Key)
    (h1 : ∀ p ∈ ps, p.1 = 1 → ∃ x, p.2 = .number x ∧ x % 2 ^ 32 = t.primaryKeyId.toNat)
    (h2 : Pairwise (fun value p => value p.2)
      ((ts.map (keyMessage anyWire)).map fun fs p => ∃ b, p = Payload.bytes b ∧ Encodes fs b)
      (ps.filter fun p => p.1 = 2)) :
    ∀ m : Keyset, (ps.map toField).foldlM Keyset.mergeField m = some {
      primaryKeyId := if hasField 1 ps then t.primaryKeyId else m.primaryKeyId
      key := m.key ++ ts } := by
  induction ps generalizing ts with
  | nil =>
    intro m
    cases ts with
    | nil => simp [hasField]
    | cons _ _ => cases h2
  | cons p ps ih =>
    intro m
    have ih' := fun ts => ih ts (fun p hp => h1 p (List.mem_cons_of_mem _ hp))
    have a1 := h1 p (List.mem_cons_self ..)
    clear ih h1
    obtain ⟨n, q⟩ := p
    rw [List.map_cons, List.foldlM_cons]
    by_cases n1 : n = 1
    · subst n1
      obtain ⟨x, rfl, hx⟩ := (show ∃ x, q = .number x ∧ _ from a1 rfl)
      have hs : Keyset.mergeField m (toField (1, .number x)) =
          some { m with primaryKeyId := t.primaryKeyId } := by
        rw [← ofNat_mod hx]; rfl
      rw [hs]
      simp only [Option.bind_eq_bind, Option.bind_some]
      rw [ih' ts (by simpa using h2)]
      simp [hasField_cons]
    by_cases n2 : n = 2
    · subst n2
      cases ts with
      | nil => simp [Pairwise] at h2
      | cons k ts =>
        simp only [decide_true, List.filter_cons_of_pos, List.map_cons] at h2
        obtain ⟨⟨b, he, hb⟩, hr⟩ := h2
        simp only at he
        subst he
        have hs : Keyset.mergeField m (toField (2, .bytes b)) = some { m with key := m.key ++ [k] } := by
          show (Key.merge {} b).map _ = _
          rw [encodes_key hb (.inl rfl)]
          rfl
        rw [hs]
        simp only [Option.bind_eq_bind, Option.bind_some]
        rw [ih' ts hr]
        simp [hasField_cons]
    have hs : Keyset.mergeField m (toField (n, q)) = some m := by
      unfold Keyset.mergeField toField
      split <;> first | rfl | (rename_i e _; simp only at e; omega)
    rw [hs]
    simp only [Option.bind_eq_bind, Option.bind_some]
    rw [ih' ts (by simpa [n2] using h2)]
    simp [hasField_cons, n1]

theorem encodes_keyset {t : Keyset} {b : Bytes} (h : Encodes (keysetMessage anyWire t) b) :
    Keyset.merge {} b = some t := by
  obtain ⟨ps, hp, hf⟩ := encodes_parse h
  have f1 := hf _ (.head _)
  have f2 := hf _ (.tail _ (.head _))
  unfold Keyset.merge
  rw [hp]
  simp only
  rw [fold_keyset t ps t.key f1.1 f2]
  obtain ⟨i, ks⟩ := t
  congr 2
  exact single_omitted_or f1 Eq.symm

theorem fold_keyInfo (t : KeyInfo) (ps : List (Nat × Payload))
    (h1 : ∀ p ∈ ps, p.1 = 1 → p.2 = .bytes (utf8 t.typeUrl))
    (h2 : ∀ p ∈ ps, p.1 = 2 → ∃ x, p.2 = .number x ∧ x % 2 ^ 32 = t.status.toNat)
    (h3 : ∀ p ∈ ps, p.1 = 3 → ∃ x, p.2 = .number x ∧ x % 2 ^ 32 = t.keyId.toNat)
    (h4 : ∀ p ∈ ps, p.1 = 4 → ∃ x, p.2 = .number x ∧ x % 2 ^ 32 = t.outputPrefixType.toNat)
    : ∀ m : KeyInfo,  (ps.map toField).foldlM KeyInfo.mergeField m = some {
      typeUrl := if hasField 1 ps then t.typeUrl else m.typeUrl
      status := if hasField 2 ps then t.status else m.status
      keyId := if hasField 3 ps then t.keyId else m.keyId
      outputPrefixType := if hasField 4 ps then t.outputPrefixType else m.outputPrefixType } := by
  induction ps with
  | nil => intro m; rfl
  | cons p ps ih =>
    intro m
    have ih' := ih (fun p hp => h1 p (List.mem_cons_of_mem _ hp)) (fun p hp => h2 p (List.mem_cons_of_mem _ hp)) (fun p hp => h3 p (List.mem_cons_of_mem _ hp)) (fun p hp => h4 p (List.mem_cons_of_mem _ hp))
    have a1 := h1 p (List.mem_cons_self ..)
    have a2 := h2 p (List.mem_cons_self ..)
    have a3 := h3 p (List.mem_cons_self ..)
    have a4 := h4 p (List.mem_cons_self ..)
    clear ih h1 h2 h3 h4
    obtain ⟨n, q⟩ := p
    rw [List.map_cons, List.foldlM_cons]
    by_cases hn : n = 1
    · subst hn
      cases (show q = _ from a1 rfl)
      have hs : KeyInfo.mergeField m (toField (1, .bytes (utf8 t.typeUrl))) = some { m with typeUrl := t.typeUrl } := by
        show (pstrDecode? (utf8 t.typeUrl)).map _ = _; rw [decode_utf8]; rfl
      rw [hs]
      simp only [Option.bind_eq_bind, Option.bind_some]
      rw [ih' _]
      simp [hasField_cons]
    have n1 := hn; clear hn
    by_cases hn : n = 2
    · subst hn
      obtain ⟨x, rfl, hx⟩ := (show ∃ x, q = .number x ∧ _ from a2 rfl)
      have hs : KeyInfo.mergeField m (toField (2, .number x)) = some { m with status := t.status } := by
        rw [← ofNat_mod hx]; rfl
      rw [hs]
      simp only [Option.bind_eq_bind, Option.bind_some]
      rw [ih' _]
      simp [hasField_cons]
    have n2 := hn; clear hn
    by_cases hn : n = 3
    · subst hn
      obtain ⟨x, rfl, hx⟩ := (show ∃ x, q = .number x ∧ _ from a3 rfl)
      have hs : KeyInfo.mergeField m (toField (3, .number x)) = some { m with keyId := t.keyId } := by
        rw [← ofNat_mod hx]; rfl
      rw [hs]
      simp only [Option.bind_eq_bind, Option.bind_some]
      rw [ih' _]
      simp [hasField_cons]
    have n3 := hn; clear hn
    by_cases hn : n = 4
    · subst hn
      obtain ⟨x, rfl, hx⟩ := (show ∃ x, q = .number x ∧ _ from a4 rfl)
      have hs : KeyInfo.mergeField m (toField (4, .number x)) = some { m with outputPrefixType := t.outputPrefixType } := by
        rw [← ofNat_mod hx]; rfl
      rw [hs]
      simp only [Option.bind_eq_bind, Option.bind_some]
      rw [ih' _]
      simp [hasField_cons]
    have n4 := hn; clear hn
    have hs : KeyInfo.mergeField m (toField (n, q)) = some m := by
      unfold KeyInfo.mergeField toField
      split <;> first | rfl | (rename_i e _; simp only at e; omega)
    rw [hs]
    simp only [Option.bind_eq_bind, Option.bind_some]
    rw [ih' _]
    simp [hasField_cons, n1, n2, n3, n4]

theorem encodes_keyInfo {t : KeyInfo} {b : Bytes} (h : Encodes (keyInfoMessage anyWire t) b)
    {m : KeyInfo} (hm : m = {} ∨ m = t) : KeyInfo.merge m b = some t := by
  obtain ⟨ps, hp, hf⟩ := encodes_parse h
  have f1 := hf _ (.head _)
  have f2 := hf _ (.tail _ (.head _))
  have f3 := hf _ (.tail _ (.tail _ (.head _)))
  have f4 := hf _ (.tail _ (.tail _ (.tail _ (.head _))))
  unfold KeyInfo.merge
  rw [hp]
  simp only
  rw [fold_keyInfo t ps f1.1 f2.1 f3.1 f4.1 m]
  rcases hm with rfl | rfl
  · have e : ∀ x y : KeyInfo, x.typeUrl = y.typeUrl → x.status = y.status → x.keyId = y.keyId → x.outputPrefixType = y.outputPrefixType → x = y := by
      intro x y h0 h1 h2 h3
      cases x; cases y; simp_all
    congr 1
    apply e
    · exact single_omitted_or f1 Eq.symm
    · exact single_omitted_or f2 Eq.symm
    · exact single_omitted_or f3 Eq.symm
    · exact single_omitted_or f4 Eq.symm
  · simp

theorem fold_keysetInfo (t : KeysetInfo) (ps : List (Nat × Payload)) (ts : List KeyInfo)
    (h1 : ∀ p ∈ ps, p.1 = 1 → ∃ x, p.2 = .number x ∧ x % 2 ^ 32 = t.primaryKeyId.toNat)
    (h2 : Pairwise (fun value p => value p.2)
      ((ts.map (keyInfoMessage anyWire)).map fun fs p => ∃ b, p = Payload.bytes b ∧ Encodes fs b)
      (ps.filter fun p => p.1 = 2)) :
    ∀ m : KeysetInfo, (ps.map toField).foldlM KeysetInfo.mergeField m = some {
      primaryKeyId := if hasField 1 ps then t.primaryKeyId else m.primaryKeyId
      keyInfo := m.keyInfo ++ ts } := by
  induction ps generalizing ts with
  | nil =>
    intro m
    cases ts with
    | nil => simp [hasField]
    | cons _ _ => cases h2
  | cons p ps ih =>
    intro m
    have ih' := fun ts => ih ts (fun p hp => h1 p (List.mem_cons_of_mem _ hp))
    have a1 := h1 p (List.mem_cons_self ..)
    clear ih h1
    obtain ⟨n, q⟩ := p
    rw [List.map_cons, List.foldlM_cons]
    by_cases n1 : n = 1
    · subst n1
      obtain ⟨x, rfl, hx⟩ := (show ∃ x, q = .number x ∧ _ from a1 rfl)
      have hs : KeysetInfo.mergeField m (toField (1, .number x)) =
          some { m with primaryKeyId := t.primaryKeyId } := by
        rw [← ofNat_mod hx]; rfl
      rw [hs]
      simp only [Option.bind_eq_bind, Option.bind_some]
      rw [ih' ts (by simpa using h2)]
      simp [hasField_cons]
    by_cases n2 : n = 2
    · subst n2
      cases ts with
      | nil => simp [Pairwise] at h2
      | cons k ts =>
        simp only [decide_true, List.filter_cons_of_pos, List.map_cons] at h2
        obtain ⟨⟨b, he, hb⟩, hr⟩ := h2
        simp only at he
        subst he
        have hs : KeysetInfo.mergeField m (toField (2, .bytes b)) = some { m with keyInfo := m.keyInfo ++ [k] } := by
          show (KeyInfo.merge {} b).map _ = _
          rw [encodes_keyInfo hb (.inl rfl)]
          rfl
        rw [hs]
        simp only [Option.bind_eq_bind, Option.bind_some]
        rw [ih' ts hr]
        simp [hasField_cons]
    have hs : KeysetInfo.mergeField m (toField (n, q)) = some m := by
      unfold KeysetInfo.mergeField toField
      split <;> first | rfl | (rename_i e _; simp only at e; omega)
    rw [hs]
    simp only [Option.bind_eq_bind, Option.bind_some]
    rw [ih' ts (by simpa [n2] using h2)]
    simp [hasField_cons, n1]

theorem encodes_keysetInfo {t : KeysetInfo} {b : Bytes} (h : Encodes (keysetInfoMessage anyWire t) b) :
    KeysetInfo.merge {} b = some t := by
  obtain ⟨ps, hp, hf⟩ := encodes_parse h
  have f1 := hf _ (.head _)
  have f2 := hf _ (.tail _ (.head _))
  unfold KeysetInfo.merge
  rw [hp]
  simp only
  rw [fold_keysetInfo t ps t.keyInfo f1.1 f2]
  obtain ⟨i, ks⟩ := t
  congr 2
  exact single_omitted_or f1 Eq.symm

theorem fold_encryptedKeyset (t : EncryptedKeyset) (ps : List (Nat × Payload))
    (h2 : ∀ p ∈ ps, p.1 = 2 → p.2 = .bytes t.encryptedKeyset)
    (h3 : ∀ p ∈ ps, p.1 = 3 → ∃ fs b, t.keysetInfo.map (keysetInfoMessage anyWire) = some fs ∧
      p.2 = .bytes b ∧ Encodes fs b) :
    ∀ m : EncryptedKeyset, ((m.keysetInfo = none ∧ (ps.filter fun p => p.1 = 3).length ≤ 1) ∨
        (ps.filter fun p => p.1 = 3).length = 0) →
      (ps.map toField).foldlM EncryptedKeyset.mergeField m = some {
        encryptedKeyset := if hasField 2 ps then t.encryptedKeyset else m.encryptedKeyset
        keysetInfo := if hasField 3 ps then t.keysetInfo else m.keysetInfo } := by
  induction ps with
  | nil => intro m _; rfl
  | cons p ps ih =>
    intro m hm
    have ih' := ih (fun p hp => h2 p (List.mem_cons_of_mem _ hp))
      (fun p hp => h3 p (List.mem_cons_of_mem _ hp))
    have a2 := h2 p (List.mem_cons_self ..)
    have a3 := h3 p (List.mem_cons_self ..)
    clear ih h2 h3
    obtain ⟨n, q⟩ := p
    rw [List.map_cons, List.foldlM_cons]
    by_cases n2 : n = 2
    · subst n2
      cases (show q = _ from a2 rfl)
      have hs : EncryptedKeyset.mergeField m (toField (2, .bytes t.encryptedKeyset)) =
          some { m with encryptedKeyset := t.encryptedKeyset } := rfl
      rw [hs]
      simp only [Option.bind_eq_bind, Option.bind_some]
      rw [ih' _ (by simpa using hm)]
      simp [hasField_cons]
    by_cases n3 : n = 3
    · subst n3
      obtain ⟨fs, b, he, rfl, hb⟩ := (show ∃ fs b, _ ∧ q = .bytes b ∧ _ from a3 rfl)
      simp only [decide_true, List.filter_cons_of_pos, List.length_cons] at hm
      have hm' : m.keysetInfo = none ∧ (ps.filter fun p => p.1 = 3).length = 0 := by
        rcases hm with h | h
        · exact ⟨h.1, by omega⟩
        · omega
      have hs : EncryptedKeyset.mergeField m (toField (3, .bytes b)) =
          some { m with keysetInfo := t.keysetInfo } := by
        show (KeysetInfo.merge (m.keysetInfo.getD {}) b).map _ = _
        cases ht : t.keysetInfo with
        | none => rw [ht] at he; cases he
        | some i =>
          rw [ht] at he
          cases he
          rw [hm'.1, Option.getD_none, encodes_keysetInfo hb (t := i)]
          rfl
      rw [hs]
      simp only [Option.bind_eq_bind, Option.bind_some]
      rw [ih' _ (.inr hm'.2)]
      simp [hasField_cons]
    have hs : EncryptedKeyset.mergeField m (toField (n, q)) = some m := by
      unfold EncryptedKeyset.mergeField toField
      split <;> first | rfl | (rename_i e _; simp only at e; omega)
    rw [hs]
    simp only [Option.bind_eq_bind, Option.bind_some]
    rw [ih' _ (by simpa [n3] using hm)]
    simp [hasField_cons, n2, n3]

theorem encodes_encryptedKeyset {t : EncryptedKeyset} {b : Bytes}
    (h : Encodes (encryptedKeysetMessage anyWire t) b) : EncryptedKeyset.merge {} b = some t := by
  obtain ⟨ps, hp, hf⟩ := encodes_parse h
  have f2 := hf _ (.head _)
  have f3 := hf _ (.tail _ (.head _))
  unfold EncryptedKeyset.merge
  rw [hp]
  simp only
  rw [fold_encryptedKeyset t ps f2.1 f3.1 _ (.inl ⟨rfl, f3.2.2⟩)]
  obtain ⟨e, i⟩ := t
  congr 2
  · exact single_omitted_or f2 Eq.symm
  · exact single_omitted_or f3 omitNone

end Tink
