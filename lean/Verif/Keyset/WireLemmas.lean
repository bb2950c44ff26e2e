import Verif.Keyset.Wire
import Verif.Py.Utf8Lemmas

namespace Tink

theorem decodeVarintAux_encode (k : Nat) : ∀ (n : Nat), n < 128 ^ (k + 1) → ∀ (r : Bytes),
    decodeVarintAux (k + 1) (encodeVarint n ++ r) = some (n, r) := by
  induction k with
  | zero =>
    intro n h r
    have h : n < 128 := by simpa using h
    rw [encodeVarint, if_pos h]
    simp [decodeVarintAux, toNat_ofNat8 (show n < 256 by omega), h]
  | succ k ih =>
    intro n h r
    rw [encodeVarint]
    by_cases hn : n < 128
    · rw [if_pos hn]
      simp [decodeVarintAux, toNat_ofNat8 (show n < 256 by omega), hn]
    · rw [if_neg hn]
      have e : (UInt8.ofNat (128 + n % 128)).toNat = 128 + n % 128 := toNat_ofNat8 (by omega)
      have hd : n / 128 < 128 ^ (k + 1) := by
        rw [Nat.div_lt_iff_lt_mul (by omega)]
        rw [Nat.pow_succ] at h; exact h
      rw [List.cons_append, decodeVarintAux, e, if_neg (by omega), ih _ hd]
      simp only [Option.some.injEq, Prod.mk.injEq, and_true]
      omega

theorem decodeVarint_encode (n : Nat) (h : n < 18446744073709551616) (r : Bytes) :
    decodeVarint (encodeVarint n ++ r) = some (n, r) := by
  have h' : n < 128 ^ (9 + 1) := Nat.lt_of_lt_of_le h (by decide)
  rw [decodeVarint, decodeVarintAux_encode 9 n h']
  simp [Nat.mod_eq_of_lt h]

theorem encodeVarint_ne_nil (n : Nat) : encodeVarint n ≠ [] := by
  rw [encodeVarint]; split <;> simp

/-- A field that the encoder can produce. -/
def Field.WF (f : Field) : Prop :=
  1 ≤ f.num ∧ f.num < 536870912 ∧
  match f.val with
  | .varint n => n < 18446744073709551616
  | .i64 b => b.length = 8
  | .len b => b.length < 18446744073709551616
  | .i32 b => b.length = 4

theorem splitBytes_append (b r : Bytes) : splitBytes b.length (b ++ r) = some (b, r) := by
  simp [splitBytes]

theorem Field.encode_ne_nil (f : Field) : f.encode ≠ [] := by
  unfold Field.encode
  have := encodeVarint_ne_nil (f.num * 8 + f.val.wireType)
  simp [this]

theorem parseFieldsAux_step (fuel : Nat) (bs : Bytes) (f : Field) (hf : f.WF) :
    parseFieldsAux (fuel + 1) [] (f.encode ++ bs) =
      (parseFieldsAux fuel [] bs).map (f :: ·) := by
  have hne : f.encode ++ bs ≠ [] := by simp [Field.encode_ne_nil]
  obtain ⟨b, t, hbt⟩ := List.exists_cons_of_ne_nil hne
  rw [hbt, parseFieldsAux, ← hbt]
  obtain ⟨h1, h2, h3⟩ := hf
  obtain ⟨num, val⟩ := f
  simp only at h1 h2 h3
  have htag : num * 8 + val.wireType < 4294967296 := by
    cases val <;> simp [WireVal.wireType] <;> omega
  have e1 : decodeVarint (Field.encode ⟨num, val⟩ ++ bs)
      = some (num * 8 + val.wireType, val.encode ++ bs) := by
    rw [Field.encode, List.append_assoc, decodeVarint_encode _ (show num * 8 + val.wireType < _ by omega)]
  rw [e1]
  have ediv : (num * 8 + val.wireType) / 8 = num := by
    cases val <;> simp [WireVal.wireType] <;> omega
  have emod : (num * 8 + val.wireType) % 8 = val.wireType := by
    cases val <;> simp [WireVal.wireType] <;> omega
  simp only [ediv, emod]
  rw [if_neg (by omega)]
  cases val with
  | varint n =>
    simp only [WireVal.wireType, WireVal.encode, if_true] at *
    rw [decodeVarint_encode n h3]
    simp only
    cases parseFieldsAux fuel [] bs <;> rfl
  | i64 b =>
    simp only [WireVal.wireType, WireVal.encode] at *
    rw [if_neg (by decide), if_pos (by trivial), ← h3, splitBytes_append]
    simp only
    cases parseFieldsAux fuel [] bs <;> rfl
  | len b =>
    simp only [WireVal.wireType, WireVal.encode] at *
    rw [if_neg (by decide), if_neg (by decide), if_pos (by trivial), List.append_assoc,
      decodeVarint_encode _ h3]
    simp only [splitBytes_append]
    cases parseFieldsAux fuel [] bs <;> rfl
  | i32 b =>
    simp only [WireVal.wireType, WireVal.encode] at *
    rw [if_neg (by decide), if_neg (by decide), if_neg (by decide), if_neg (by decide),
      if_neg (by decide), if_pos (by trivial), ← h3, splitBytes_append]
    simp only
    cases parseFieldsAux fuel [] bs <;> rfl

theorem parseFieldsAux_encode (fs : List Field) (h : ∀ f ∈ fs, f.WF) :
    ∀ fuel, fs.length < fuel → parseFieldsAux fuel [] (encodeFields fs) = some fs := by
  induction fs with
  | nil =>
    intro fuel hf
    obtain ⟨k, rfl⟩ : ∃ k, fuel = k + 1 := ⟨fuel - 1, by simp at hf; omega⟩
    simp [encodeFields, parseFieldsAux]
  | cons f fs ih =>
    intro fuel hf
    obtain ⟨k, rfl⟩ : ∃ k, fuel = k + 1 := ⟨fuel - 1, by simp at hf; omega⟩
    have e : encodeFields (f :: fs) = f.encode ++ encodeFields fs := by simp [encodeFields]
    rw [e, parseFieldsAux_step _ _ _ (h f (by simp)),
      ih (fun g hg => h g (by simp [hg])) k (by simp at hf; omega)]
    rfl

theorem length_le_encodeFields (fs : List Field) : fs.length ≤ (encodeFields fs).length := by
  induction fs with
  | nil => simp
  | cons f fs ih =>
    have e : encodeFields (f :: fs) = f.encode ++ encodeFields fs := by simp [encodeFields]
    have := List.length_pos_iff.2 f.encode_ne_nil
    rw [e, List.length_append, List.length_cons]; omega

/-- Parsing inverts encoding on sequences of well-formed fields. -/
theorem parseFields_encode (fs : List Field) (h : ∀ f ∈ fs, f.WF) :
    parseFields (encodeFields fs) = some fs := by
  apply parseFieldsAux_encode fs h
  have := length_le_encodeFields fs
  omega

theorem len_le_encodeFields {fs : List Field} {num : Nat} {b : Bytes}
    (h : (⟨num, .len b⟩ : Field) ∈ fs) : b.length ≤ (encodeFields fs).length := by
  induction fs with
  | nil => simp at h
  | cons f fs ih =>
    have e : encodeFields (f :: fs) = f.encode ++ encodeFields fs := by simp [encodeFields]
    rw [e, List.length_append]
    rcases List.mem_cons.1 h with h | h
    · subst h; simp [Field.encode, WireVal.encode]; omega
    · have := ih h; omega

theorem enumToVarint_lt (e : EnumVal) : enumToVarint e < 18446744073709551616 := by
  unfold enumToVarint
  have : e.toNat < 4294967296 := e.toNat_lt
  split <;> omega

theorem ofNat_enumToVarint (e : EnumVal) : UInt32.ofNat (enumToVarint e) = e := by
  apply UInt32.toNat_inj.1
  unfold enumToVarint
  have : e.toNat < 4294967296 := e.toNat_lt
  split
  · simp
  · rw [UInt32.toNat_ofNat']; omega

theorem uint32_toNat_lt64 (n : UInt32) : n.toNat < 18446744073709551616 := by
  have : n.toNat < 4294967296 := n.toNat_lt
  omega

/-- All fields of a list have well-formed numbers and values, provided the
length-delimited ones are short enough. -/
def Field.Shape (f : Field) : Prop :=
  1 ≤ f.num ∧ f.num < 536870912 ∧
  match f.val with
  | .varint n => n < 18446744073709551616
  | .i64 b => b.length = 8
  | .len _ => True
  | .i32 b => b.length = 4

theorem wf_of_shape {fs : List Field} (h : ∀ f ∈ fs, f.Shape)
    (hl : (encodeFields fs).length < 18446744073709551616) : ∀ f ∈ fs, f.WF := by
  intro f hf
  obtain ⟨num, val⟩ := f
  obtain ⟨h1, h2, h3⟩ := h _ hf
  refine ⟨h1, h2, ?_⟩
  cases val with
  | len b => exact Nat.lt_of_le_of_lt (len_le_encodeFields hf) hl
  | varint n => exact h3
  | i64 b => exact h3
  | i32 b => exact h3

theorem shape_strField {n : Nat} (s : PStr) (h : 1 ≤ n ∧ n < 536870912) :
    ∀ f ∈ strField n s, f.Shape := by
  intro f hf; unfold strField at hf; split at hf
  · simp at hf
  · simp at hf; subst hf; exact ⟨h.1, h.2, trivial⟩

theorem shape_bytesField {n : Nat} (b : Bytes) (h : 1 ≤ n ∧ n < 536870912) :
    ∀ f ∈ bytesField n b, f.Shape := by
  intro f hf; unfold bytesField at hf; split at hf
  · simp at hf
  · simp at hf; subst hf; exact ⟨h.1, h.2, trivial⟩

theorem shape_uint32Field {n : Nat} (v : UInt32) (h : 1 ≤ n ∧ n < 536870912) :
    ∀ f ∈ uint32Field n v, f.Shape := by
  intro f hf; unfold uint32Field at hf; split at hf
  · simp at hf
  · simp at hf; subst hf; exact ⟨h.1, h.2, uint32_toNat_lt64 v⟩

theorem shape_enumField {n : Nat} (v : EnumVal) (h : 1 ≤ n ∧ n < 536870912) :
    ∀ f ∈ enumField n v, f.Shape := by
  intro f hf; unfold enumField at hf; split at hf
  · simp at hf
  · simp at hf; subst hf; exact ⟨h.1, h.2, enumToVarint_lt v⟩

theorem shape_msgField {n : Nat} (o : Option (List Field)) (h : 1 ≤ n ∧ n < 536870912) :
    ∀ f ∈ msgField n o, f.Shape := by
  intro f hf; unfold msgField at hf; split at hf
  · simp at hf
  · simp at hf; subst hf; exact ⟨h.1, h.2, trivial⟩

theorem shape_append {a b : List Field} (ha : ∀ f ∈ a, f.Shape) (hb : ∀ f ∈ b, f.Shape) :
    ∀ f ∈ a ++ b, f.Shape := by
  intro f hf; rcases List.mem_append.1 hf with h | h
  · exact ha f h
  · exact hb f h

/-! ## Merging the fields of an optional part -/

theorem foldlM_append' {α β : Type} (f : β → α → Option β) (b : β) (l1 l2 : List α) :
    (l1 ++ l2).foldlM f b = (l1.foldlM f b).bind fun b' => l2.foldlM f b' := by
  simp [List.foldlM_append]

theorem foldlM_strField {β : Type} (f : β → Field → Option β) (b : β) (n : Nat) (s : PStr)
    (upd : PStr → β) (h : ∀ x, f b ⟨n, .len x⟩ = (pstrDecode? x).map upd)
    (h0 : upd [] = b) : (strField n s).foldlM f b = some (upd s) := by
  unfold strField
  split
  · rename_i hs; subst hs; simp [h0]
  · simp [h, pstrDecode_encode]

theorem foldlM_bytesField {β : Type} (f : β → Field → Option β) (b : β) (n : Nat) (x : Bytes)
    (upd : Bytes → β) (h : ∀ x, f b ⟨n, .len x⟩ = some (upd x))
    (h0 : upd [] = b) : (bytesField n x).foldlM f b = some (upd x) := by
  unfold bytesField
  split
  · rename_i hs; subst hs; simp [h0]
  · simp [h]

theorem foldlM_uint32Field {β : Type} (f : β → Field → Option β) (b : β) (n : Nat) (v : UInt32)
    (upd : UInt32 → β) (h : ∀ x, f b ⟨n, .varint x⟩ = some (upd (UInt32.ofNat x)))
    (h0 : upd 0 = b) : (uint32Field n v).foldlM f b = some (upd v) := by
  unfold uint32Field
  split
  · rename_i hs; subst hs; simp [h0]
  · simp [h]

theorem foldlM_enumField {β : Type} (f : β → Field → Option β) (b : β) (n : Nat) (v : EnumVal)
    (upd : EnumVal → β) (h : ∀ x, f b ⟨n, .varint x⟩ = some (upd (UInt32.ofNat x)))
    (h0 : upd 0 = b) : (enumField n v).foldlM f b = some (upd v) := by
  unfold enumField
  split
  · rename_i hs; subst hs; simp [h0]
  · simp [h, ofNat_enumToVarint]

/-! ## Messages -/

theorem KeyData.shape (d : KeyData) : ∀ f ∈ d.fields, f.Shape :=
  shape_append (shape_append (shape_strField _ (by decide)) (shape_bytesField _ (by decide)))
    (shape_enumField _ (by decide))

theorem KeyData.merge_fields (d : KeyData) (h : (encodeFields d.fields).length < 2147483648) :
    KeyData.merge {} (encodeFields d.fields) = some d := by
  rw [KeyData.merge, parseFields_encode _ (wf_of_shape d.shape (by omega))]
  simp only [KeyData.fields, foldlM_append']
  rw [foldlM_strField KeyData.mergeField {} 1 d.typeUrl (fun s => { typeUrl := s }) (fun _ => rfl) rfl,
    Option.bind_some,
    foldlM_bytesField KeyData.mergeField _ 2 d.value (fun s => { typeUrl := d.typeUrl, value := s })
      (fun _ => rfl) rfl, Option.bind_some]
  exact foldlM_enumField KeyData.mergeField _ 3 d.keyMaterialType
      (fun s => { typeUrl := d.typeUrl, value := d.value, keyMaterialType := s })
      (fun _ => rfl) rfl

theorem KeyTemplate.shape (d : KeyTemplate) : ∀ f ∈ d.fields, f.Shape :=
  shape_append (shape_append (shape_strField _ (by decide)) (shape_bytesField _ (by decide)))
    (shape_enumField _ (by decide))

theorem KeyTemplate.merge_fields (d : KeyTemplate)
    (h : (encodeFields d.fields).length < 2147483648) :
    KeyTemplate.merge {} (encodeFields d.fields) = some d := by
  rw [KeyTemplate.merge, parseFields_encode _ (wf_of_shape d.shape (by omega))]
  simp only [KeyTemplate.fields, foldlM_append']
  rw [foldlM_strField KeyTemplate.mergeField {} 1 d.typeUrl (fun s => { typeUrl := s }) (fun _ => rfl) rfl,
    Option.bind_some,
    foldlM_bytesField KeyTemplate.mergeField _ 2 d.value (fun s => { typeUrl := d.typeUrl, value := s })
      (fun _ => rfl) rfl, Option.bind_some]
  exact foldlM_enumField KeyTemplate.mergeField _ 3 d.outputPrefixType
      (fun s => { typeUrl := d.typeUrl, value := d.value, outputPrefixType := s })
      (fun _ => rfl) rfl

theorem Key.shape (k : Key) : ∀ f ∈ k.fields, f.Shape := by
  exact shape_append (shape_append (shape_append (shape_msgField _ (by decide))
    (shape_enumField _ (by decide)))
    (shape_uint32Field _ (by decide))) (shape_enumField _ (by decide))

theorem Key.merge_fields (k : Key) (h : (encodeFields k.fields).length < 2147483648) :
    Key.merge {} (encodeFields k.fields) = some k := by
  rw [Key.merge, parseFields_encode _ (wf_of_shape k.shape (by omega))]
  have hd : (msgField 1 (k.keyData.map KeyData.fields)).foldlM Key.mergeField {} =
      some { keyData := k.keyData } := by
    cases hk : k.keyData with
    | none => rfl
    | some d =>
      have hl : (encodeFields d.fields).length < 2147483648 := by
        refine Nat.lt_of_le_of_lt (len_le_encodeFields (num := 1) ?_) h
        simp [Key.fields, hk, msgField]
      simp only [Option.map_some, msgField, List.foldlM_cons, List.foldlM_nil, Key.mergeField, Key.data, Option.getD_none,
        KeyData.merge_fields d hl]
      rfl
  simp only [Key.fields, foldlM_append']
  rw [hd, Option.bind_some,
    foldlM_enumField Key.mergeField _ 2 k.status (fun s => { keyData := k.keyData, status := s })
      (fun _ => rfl) rfl, Option.bind_some,
    foldlM_uint32Field Key.mergeField _ 3 k.keyId
      (fun s => { keyData := k.keyData, status := k.status, keyId := s })
      (fun _ => rfl) rfl, Option.bind_some]
  exact foldlM_enumField Key.mergeField _ 4 k.outputPrefixType
      (fun s => { keyData := k.keyData, status := k.status, keyId := k.keyId,
                  outputPrefixType := s })
      (fun _ => rfl) rfl

theorem Keyset.shape (k : Keyset) : ∀ f ∈ k.fields, f.Shape := by
  refine shape_append (shape_uint32Field _ (by decide)) ?_
  intro f hf
  obtain ⟨x, _, rfl⟩ := List.mem_map.1 hf
  exact ⟨by simp, by simp, trivial⟩

theorem Keyset.foldl_keys (l : List Key) (base : Keyset)
    (h : ∀ k ∈ l, (encodeFields k.fields).length < 2147483648) :
    (l.map fun k => (⟨2, .len (encodeFields k.fields)⟩ : Field)).foldlM Keyset.mergeField base =
      some { base with key := base.key ++ l } := by
  induction l generalizing base with
  | nil => simp
  | cons k l ih =>
    simp only [List.map_cons, List.foldlM_cons, Keyset.mergeField,
      Key.merge_fields k (h k (by simp)), Option.map_some]
    exact (ih _ (fun k' hk' => h k' (by simp [hk']))).trans (by simp)

theorem Keyset.merge_fields (ks : Keyset) (h : (encodeFields ks.fields).length < 2147483648) :
    Keyset.merge {} (encodeFields ks.fields) = some ks := by
  rw [Keyset.merge, parseFields_encode _ (wf_of_shape ks.shape (by omega))]
  simp only [Keyset.fields, foldlM_append']
  rw [foldlM_uint32Field Keyset.mergeField {} 1 ks.primaryKeyId (fun s => { primaryKeyId := s })
      (fun _ => rfl) rfl, Option.bind_some, Keyset.foldl_keys]
  · simp
  · intro k hk
    refine Nat.lt_of_le_of_lt (len_le_encodeFields (num := 2) ?_) h
    simp only [Keyset.fields, List.mem_append, List.mem_map]
    exact Or.inr ⟨k, hk, rfl⟩

theorem KeyInfo.shape (k : KeyInfo) : ∀ f ∈ k.fields, f.Shape :=
  shape_append (shape_append (shape_append (shape_strField _ (by decide))
    (shape_enumField _ (by decide))) (shape_uint32Field _ (by decide)))
    (shape_enumField _ (by decide))

theorem KeyInfo.merge_fields (k : KeyInfo) (h : (encodeFields k.fields).length < 2147483648) :
    KeyInfo.merge {} (encodeFields k.fields) = some k := by
  rw [KeyInfo.merge, parseFields_encode _ (wf_of_shape k.shape (by omega))]
  simp only [KeyInfo.fields, foldlM_append']
  rw [foldlM_strField KeyInfo.mergeField {} 1 k.typeUrl (fun s => { typeUrl := s }) (fun _ => rfl) rfl,
    Option.bind_some,
    foldlM_enumField KeyInfo.mergeField _ 2 k.status (fun s => { typeUrl := k.typeUrl, status := s })
      (fun _ => rfl) rfl, Option.bind_some,
    foldlM_uint32Field KeyInfo.mergeField _ 3 k.keyId
      (fun s => { typeUrl := k.typeUrl, status := k.status, keyId := s })
      (fun _ => rfl) rfl, Option.bind_some]
  exact foldlM_enumField KeyInfo.mergeField _ 4 k.outputPrefixType
      (fun s => { typeUrl := k.typeUrl, status := k.status, keyId := k.keyId,
                  outputPrefixType := s })
      (fun _ => rfl) rfl

theorem KeysetInfo.shape (k : KeysetInfo) : ∀ f ∈ k.fields, f.Shape := by
  refine shape_append (shape_uint32Field _ (by decide)) ?_
  intro f hf
  obtain ⟨x, _, rfl⟩ := List.mem_map.1 hf
  exact ⟨by simp, by simp, trivial⟩

theorem KeysetInfo.foldl_keys (l : List KeyInfo) (base : KeysetInfo)
    (h : ∀ k ∈ l, (encodeFields k.fields).length < 2147483648) :
    (l.map fun k => (⟨2, .len (encodeFields k.fields)⟩ : Field)).foldlM
      KeysetInfo.mergeField base = some { base with keyInfo := base.keyInfo ++ l } := by
  induction l generalizing base with
  | nil => simp
  | cons k l ih =>
    simp only [List.map_cons, List.foldlM_cons, KeysetInfo.mergeField,
      KeyInfo.merge_fields k (h k (by simp)), Option.map_some]
    exact (ih _ (fun k' hk' => h k' (by simp [hk']))).trans (by simp)

theorem KeysetInfo.merge_fields (ks : KeysetInfo)
    (h : (encodeFields ks.fields).length < 2147483648) :
    KeysetInfo.merge {} (encodeFields ks.fields) = some ks := by
  rw [KeysetInfo.merge, parseFields_encode _ (wf_of_shape ks.shape (by omega))]
  simp only [KeysetInfo.fields, foldlM_append']
  rw [foldlM_uint32Field KeysetInfo.mergeField {} 1 ks.primaryKeyId (fun s => { primaryKeyId := s })
      (fun _ => rfl) rfl, Option.bind_some, KeysetInfo.foldl_keys]
  · simp
  · intro k hk
    refine Nat.lt_of_le_of_lt (len_le_encodeFields (num := 2) ?_) h
    simp only [KeysetInfo.fields, List.mem_append, List.mem_map]
    exact Or.inr ⟨k, hk, rfl⟩

theorem EncryptedKeyset.shape (k : EncryptedKeyset) : ∀ f ∈ k.fields, f.Shape := by
  exact shape_append (shape_bytesField _ (by decide)) (shape_msgField _ (by decide))

theorem EncryptedKeyset.merge_fields (e : EncryptedKeyset)
    (h : (encodeFields e.fields).length < 2147483648) :
    EncryptedKeyset.merge {} (encodeFields e.fields) = some e := by
  rw [EncryptedKeyset.merge, parseFields_encode _ (wf_of_shape e.shape (by omega))]
  simp only [EncryptedKeyset.fields, foldlM_append']
  rw [foldlM_bytesField EncryptedKeyset.mergeField {} 2 e.encryptedKeyset (fun s => { encryptedKeyset := s })
      (fun _ => rfl) rfl, Option.bind_some]
  cases hk : e.keysetInfo with
  | none => cases e; simp_all [msgField]
  | some i =>
    have hl : (encodeFields i.fields).length < 2147483648 := by
      refine Nat.lt_of_le_of_lt (len_le_encodeFields (num := 3) ?_) h
      simp [EncryptedKeyset.fields, hk, msgField]
    simp only [Option.map_some, msgField, List.foldlM_cons, List.foldlM_nil, EncryptedKeyset.mergeField, Option.getD_none,
      KeysetInfo.merge_fields i hl]
    cases e; simp_all

theorem serializeFields_ok {fs : List Field} {b : Bytes} (h : serializeFields fs = .ok b) :
    b = encodeFields fs ∧ (encodeFields fs).length < 2147483648 := by
  unfold serializeFields at h
  simp only at h
  split at h
  · cases h; exact ⟨rfl, by assumption⟩
  · cases h

end Tink

namespace Tink

theorem Keyset.fromString_serializeToString {ks : Keyset} {b : Bytes}
    (h : ks.serializeToString = .ok b) : Keyset.fromString b = .ok ks := by
  obtain ⟨h2, h1⟩ := serializeFields_ok h
  subst h2
  unfold Keyset.fromString
  rw [Keyset.merge_fields ks h1]
  rfl

theorem EncryptedKeyset.fromString_serializeToString {e : EncryptedKeyset} {b : Bytes}
    (h : e.serializeToString = .ok b) : EncryptedKeyset.fromString b = .ok e := by
  obtain ⟨h2, h1⟩ := serializeFields_ok h
  subst h2
  unfold EncryptedKeyset.fromString
  rw [EncryptedKeyset.merge_fields e h1]
  rfl

theorem KeyTemplate.fromString_serializeToString {t : KeyTemplate} {b : Bytes}
    (h : t.serializeToString = .ok b) : KeyTemplate.fromString b = .ok t := by
  obtain ⟨h2, h1⟩ := serializeFields_ok h
  subst h2
  unfold KeyTemplate.fromString
  rw [KeyTemplate.merge_fields t h1]
  rfl

theorem KeyData.fromString_serializeToString {t : KeyData} {b : Bytes}
    (h : t.serializeToString = .ok b) : KeyData.fromString b = .ok t := by
  obtain ⟨h2, h1⟩ := serializeFields_ok h
  subst h2
  unfold KeyData.fromString
  rw [KeyData.merge_fields t h1]
  rfl

end Tink
