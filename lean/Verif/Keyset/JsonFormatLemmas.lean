import Verif.Keyset.JsonFormat
import Verif.Jwt.RawText
import Verif.Json.Hooks
import Verif.Py.Base64Lemmas

/-!
# What `json_format` wrote is read back
-/

namespace Tink
namespace JsonFormat
open Spec Json Jwt

variable {F : Type}

/-! ## Bytes -/

theorem b64Char_table : ∀ v < 64, stdChar (b64Char v) = b64Char v ∧ (b64Char v).toNat < 128 := by
  decide +kernel

theorem b64encode_chars (b : Bytes) : ∀ c ∈ b64encode b, stdChar c = c ∧ c.toNat < 128 := by
  have pad : stdChar 61 = 61 ∧ (61 : UInt8).toNat < 128 := by decide
  fun_induction b64encode b with
  | case1 => simp
  | case2 a =>
    have ha := a.toNat_lt
    intro c hc
    simp only [List.mem_cons, List.not_mem_nil, or_false] at hc
    rcases hc with rfl | rfl | rfl | rfl
    · exact b64Char_table _ (by omega)
    · exact b64Char_table _ (by omega)
    · exact pad
    · exact pad
  | case3 a b =>
    have ha := a.toNat_lt
    have hb := b.toNat_lt
    intro c hc
    simp only [List.mem_cons, List.not_mem_nil, or_false] at hc
    rcases hc with rfl | rfl | rfl | rfl
    · exact b64Char_table _ (by omega)
    · exact b64Char_table _ (by omega)
    · exact b64Char_table _ (by omega)
    · exact pad
  | case4 a b c r ih =>
    have ha := a.toNat_lt
    have hb := b.toNat_lt
    have hc := c.toNat_lt
    intro x hx
    simp only [List.mem_cons] at hx
    rcases hx with rfl | rfl | rfl | rfl | hx
    · exact b64Char_table _ (by omega)
    · exact b64Char_table _ (by omega)
    · exact b64Char_table _ (by omega)
    · exact b64Char_table _ (by omega)
    · exact ih x hx

theorem a2b_pads (k : Nat) : a2bBase64 0 0 0 (List.replicate k 61) = .ok [] := by
  induction k with
  | zero => rfl
  | succ k ih => rw [List.replicate_succ]; unfold a2bBase64; rw [if_pos rfl, if_neg (by omega), ih]

theorem a2b_pad2' (left : Nat) (r : Bytes) : a2bBase64 2 left 0 (61 :: 61 :: r) = .ok [] := by
  simp [a2bBase64]
theorem a2b_pad1' (left : Nat) (r : Bytes) : a2bBase64 3 left 0 (61 :: r) = .ok [] := by
  simp [a2bBase64]

/-- More padding than necessary is ignored. -/
theorem b64decode_encode_pads (b : Bytes) (k : Nat) :
    b64decode (b64encode b ++ List.replicate k 61) = .ok b := by
  unfold b64decode
  fun_induction b64encode b with
  | case1 => exact a2b_pads k
  | case2 a =>
    have ha := a.toNat_lt
    simp only [List.cons_append, List.nil_append]
    rw [a2b_step (by omega), a2b_step1 (by omega), a2b_pad2']
    simp only [bind, Except.bind, pure, Except.pure, Except.ok.injEq,
      List.cons.injEq, and_true]
    exact ofNat_eq (by omega)
  | case3 a b =>
    have ha := a.toNat_lt
    have hb := b.toNat_lt
    simp only [List.cons_append, List.nil_append]
    rw [a2b_step (by omega), a2b_step1 (by omega), a2b_step2 (by omega), a2b_pad1']
    simp only [bind, Except.bind, pure, Except.pure, Except.ok.injEq,
      List.cons.injEq, and_true]
    exact ⟨ofNat_eq (by omega), ofNat_eq (by omega)⟩
  | case4 a b c r ih =>
    have ha := a.toNat_lt
    have hb := b.toNat_lt
    have hc := c.toNat_lt
    simp only [List.cons_append]
    rw [a2b_step (by omega), a2b_step1 (by omega), a2b_step2 (by omega), a2b_step3 (by omega), ih]
    simp only [bind, Except.bind, pure, Except.pure, Except.ok.injEq, List.cons.injEq, and_true]
    exact ⟨ofNat_eq (by omega), ofNat_eq (by omega), ofNat_eq (by omega)⟩

theorem isScalar_ascii {n : Nat} (h : n < 128) : isScalar n = true := by
  unfold isScalar; simp only [Bool.or_eq_true, decide_eq_true_eq]; left; omega

theorem b64_text (b : Bytes) : ValidText ((b64encode b).map (·.toNat)) := by
  intro c hc
  obtain ⟨x, hx, rfl⟩ := List.mem_map.1 hc
  exact isScalar_ascii (b64encode_chars b x hx).2

theorem utf8Encode_ascii (l : Bytes) (h : ∀ c ∈ l, c.toNat < 128) :
    utf8Encode (l.map (·.toNat)) = .ok l := by
  have h1 : (l.map (·.toNat)).all isScalar = true := by
    rw [List.all_eq_true]
    intro c hc
    obtain ⟨x, hx, rfl⟩ := List.mem_map.1 hc
    exact isScalar_ascii (h x hx)
  unfold utf8Encode
  rw [if_pos h1]
  congr 1
  clear h1
  induction l with
  | nil => rfl
  | cons c l ih =>
    have hc := h c (by simp)
    rw [List.map_cons, List.flatMap_cons, ih (fun x hx => h x (by simp [hx]))]
    unfold utf8EncodeCp
    rw [if_pos (by omega), UInt8.ofNat_toNat]
    rfl

theorem convertBytes_bytesToJson (b : Bytes) : convertBytes (bytesToJson b : JVal F) = .ok b := by
  unfold bytesToJson convertBytes
  simp only
  rw [utf8Encode_ascii _ (fun c hc => (b64encode_chars b c hc).2)]
  show urlsafeB64decode _ = _
  unfold urlsafeB64decode
  have : (b64encode b ++ List.replicate (4 - (b64encode b).length % 4) 61).map stdChar =
      b64encode b ++ List.replicate (4 - (b64encode b).length % 4) 61 := by
    rw [List.map_append]
    congr 1
    · rw [List.map_congr_left (fun c hc => (b64encode_chars b c hc).1)]; simp
    · rw [List.map_replicate]; rfl
  rw [this]
  exact b64decode_encode_pads b _

/-! ## Numbers and names -/

theorem uint32OfNumber_toNat (n : UInt32) : uint32OfNumber n.toNat = .ok n := by
  have := n.toNat_lt
  have h : (0 : Int) ≤ n.toNat ∧ (n.toNat : Int) < 4294967296 := ⟨by omega, by omega⟩
  unfold uint32OfNumber
  rw [if_pos h, Int.toNat_natCast, UInt32.ofNat_toNat]

theorem convertUint32_toNat (E : JsonFormatEnv F) (n : UInt32) :
    convertUint32 E (.int n.toNat) = .ok n := uint32OfNumber_toNat n

theorem enumOfNumber_enumNumber (v : EnumVal) : enumOfNumber (enumNumber v) = .ok v := by
  have := v.toNat_lt
  unfold enumOfNumber enumNumber
  by_cases h : v.toNat < 2 ^ 31
  · rw [if_pos h, if_pos (by omega)]
    have : ((v.toNat : Int) % 2 ^ 32).toNat = v.toNat := by omega
    rw [this, UInt32.ofNat_toNat]
  · rw [if_neg h, if_pos (by omega)]
    have : (((v.toNat : Int) - 2 ^ 32) % 2 ^ 32).toNat = v.toNat := by omega
    rw [this, UInt32.ofNat_toNat]

/-- Names and numbers determine each other. -/
def Distinct (names : List (PyStr × EnumVal)) : Prop :=
  ∀ p ∈ names, names.find? (fun q => q.1 == p.1) = some p

theorem convertEnum_enumToJson (E : JsonFormatEnv F) {names : List (PyStr × EnumVal)}
    (h : Distinct names) (v : EnumVal) : convertEnum E names (enumToJson names v) = .ok v := by
  unfold enumToJson
  cases hf : names.find? (fun p => p.2 == v) with
  | none => exact enumOfNumber_enumNumber v
  | some p =>
    have h1 := List.mem_of_find?_eq_some hf
    have h2 := List.find?_some hf
    simp only [convertEnum, h p h1]
    simp only [beq_iff_eq] at h2
    rw [h2]

theorem distinct_status : Distinct statusNames := by unfold Distinct; decide +kernel
theorem distinct_prefix : Distinct prefixNames := by unfold Distinct; decide +kernel
theorem distinct_material : Distinct materialNames := by unfold Distinct; decide +kernel

/-- The JSON values of fields are not `null`. -/
theorem convertScalar_some {α : Type} {conv : JVal F → Py α} {d : α} {v : JVal F} (h : v ≠ .null) :
    convertScalar conv d v = conv v := by
  cases v <;> first | rfl | exact absurd rfl h

theorem enumToJson_ne (names : List (PyStr × EnumVal)) (v : EnumVal) :
    (enumToJson names v : JVal F) ≠ .null := by
  unfold enumToJson
  split <;> simp

theorem scalarEnum (E : JsonFormatEnv F) {names : List (PyStr × EnumVal)} (h : Distinct names)
    (v : EnumVal) : convertScalar (convertEnum E names) 0 (enumToJson names v) = .ok v := by
  rw [convertScalar_some (enumToJson_ne _ _), convertEnum_enumToJson E h]

theorem scalarBytes (b : Bytes) : convertScalar convertBytes [] (bytesToJson b : JVal F) = .ok b := by
  rw [convertScalar_some (by unfold bytesToJson; simp), convertBytes_bytesToJson]

theorem scalarUint32 (E : JsonFormatEnv F) (n : UInt32) :
    convertScalar (convertUint32 E) 0 (.int n.toNat) = .ok n := by
  rw [convertScalar_some (by simp), convertUint32_toNat]

theorem scalarString (s : PStr) :
    convertScalar (F := F) convertString [] (.str s.toPy) = .ok s := toProto_toPy s

/-! ## Messages -/

theorem convertPairs_field {M : Type} {f : M → PyStr → JVal F → Py M} {m m' : M} {c : Bool}
    {k : PyStr} {v : JVal F} {r : List (PyStr × JVal F)} (h0 : c = false → m' = m)
    (h1 : c = true → f m k v = .ok m') :
    convertPairs f m (field c k v ++ r) = convertPairs f m' r := by
  cases c with
  | false => rw [h0 rfl]; rfl
  | true =>
    show convertPairs f m ((k, v) :: r) = _
    rw [convertPairs, h1 rfl]
    rfl

theorem convertPairs_last {M : Type} {f : M → PyStr → JVal F → Py M} {m m' : M} {c : Bool}
    {k : PyStr} {v : JVal F} (h0 : c = false → m' = m)
    (h1 : c = true → f m k v = .ok m') : convertPairs f m (field c k v) = .ok m' := by
  have := convertPairs_field (r := []) h0 h1
  rw [List.append_nil] at this
  rw [this]; rfl

theorem bne_false {α : Type} [BEq α] [LawfulBEq α] {a b : α} (h : (a != b) = false) : a = b := by
  simpa using h

/-- The name of a field is not the JSON or proto name of another one. -/
theorem ite_neg {M : Type} {json proto name : PyStr} {a b : Py M} (h : named json proto name = false) :
    (if named json proto name = true then a else b) = b := if_neg (by rw [h]; decide)

/-- Reading a `KeyData` back, into one that is empty. -/
theorem read_keyData (E : JsonFormatEnv F) (d : KeyData) :
    convertMessage (keyDataField E) {} (keyDataToJson d) = .ok d := by
  show convertPairs _ _ _ = _
  rw [convertPairs_field (m' := { typeUrl := d.typeUrl }),
    convertPairs_field (m' := { typeUrl := d.typeUrl, value := d.value }),
    convertPairs_last (m' := d)]
  · intro h; rw [← bne_false h]
  · intro _
    unfold keyDataField
    rw [ite_neg (by decide), ite_neg (by decide), if_pos (by decide), scalarEnum E distinct_material]
    rfl
  · intro h; rw [bne_false h]
  · intro _
    unfold keyDataField
    rw [ite_neg (by decide), if_pos (by decide), scalarBytes]
    rfl
  · intro h; rw [bne_false h]
  · intro _
    unfold keyDataField
    rw [if_pos (by decide), scalarString]
    rfl

theorem read_key (E : JsonFormatEnv F) (k : Key) :
    convertMessage (keyField E) {} (keyToJson k) = .ok k := by
  show convertPairs _ _ _ = _
  rw [convertPairs_field (m' := { keyData := k.keyData }),
    convertPairs_field (m' := { keyData := k.keyData, status := k.status }),
    convertPairs_field (m' := { keyData := k.keyData, status := k.status, keyId := k.keyId }),
    convertPairs_last (m' := k)]
  · intro h; rw [← bne_false h]
  · intro _
    unfold keyField
    rw [ite_neg (by decide), ite_neg (by decide), ite_neg (by decide), if_pos (by decide),
      scalarEnum E distinct_prefix]
    rfl
  · intro h; rw [bne_false h]
  · intro _
    unfold keyField
    rw [ite_neg (by decide), ite_neg (by decide), if_pos (by decide), scalarUint32]
    rfl
  · intro h; rw [bne_false h]
  · intro _
    unfold keyField
    rw [ite_neg (by decide), if_pos (by decide), scalarEnum E distinct_status]
    rfl
  · intro h
    cases hk : k.keyData with
    | none => rfl
    | some d => rw [hk] at h; cases h
  · intro h
    cases hk : k.keyData with
    | none => rw [hk] at h; cases h
    | some d =>
      have hd : k.data = d := by unfold Key.data; rw [hk]; rfl
      unfold keyField
      rw [if_pos (by decide), hd]
      show ((convertMessage (keyDataField E) {} (keyDataToJson d) >>= fun m => pure (some m)) >>= _) = _
      rw [read_keyData]
      rfl

theorem convertItems_map {M : Type} (f : M → PyStr → JVal F → Py M) (empty : M) (g : M → JVal F)
    (hg : ∀ m, g m ≠ .null) (h : ∀ m, convertMessage f empty (g m) = .ok m) (l : List M) :
    convertItems f empty (l.map g) = .ok l := by
  induction l with
  | nil => rfl
  | cons m l ih =>
    rw [List.map_cons]
    have h1 := h m
    have h2 := hg m
    unfold convertItems
    split
    · rename_i h3; exact absurd h3 h2
    · rw [h1, ih]

theorem repeated_map {M : Type} (f : M → PyStr → JVal F → Py M) (empty : M) (g : M → JVal F)
    (hg : ∀ m, g m ≠ .null) (h : ∀ m, convertMessage f empty (g m) = .ok m) (l : List M) :
    convertRepeated f empty (.list (l.map g)) = .ok l := convertItems_map f empty g hg h l

theorem read_keyset (E : JsonFormatEnv F) (ks : Keyset) :
    convertMessage (keysetField E) {} (keysetToJson ks) = .ok ks := by
  show convertPairs _ _ _ = _
  rw [convertPairs_field (m' := { primaryKeyId := ks.primaryKeyId }),
    convertPairs_last (m' := ks)]
  · intro h; rw [← bne_false h]
  · intro _
    unfold keysetField
    rw [ite_neg (by decide), if_pos (by decide),
      repeated_map (keyField E) {} keyToJson (by intro m; unfold keyToJson; simp) (read_key E)]
    rfl
  · intro h; rw [bne_false h]
  · intro _
    unfold keysetField
    rw [if_pos (by decide), scalarUint32]
    rfl

theorem read_keyInfo (E : JsonFormatEnv F) (k : KeyInfo) :
    convertMessage (keyInfoField E) {} (keyInfoToJson k) = .ok k := by
  show convertPairs _ _ _ = _
  rw [convertPairs_field (m' := { typeUrl := k.typeUrl }),
    convertPairs_field (m' := { typeUrl := k.typeUrl, status := k.status }),
    convertPairs_field (m' := { typeUrl := k.typeUrl, status := k.status, keyId := k.keyId }),
    convertPairs_last (m' := k)]
  · intro h; rw [← bne_false h]
  · intro _
    unfold keyInfoField
    rw [ite_neg (by decide), ite_neg (by decide), ite_neg (by decide), if_pos (by decide),
      scalarEnum E distinct_prefix]
    rfl
  · intro h; rw [bne_false h]
  · intro _
    unfold keyInfoField
    rw [ite_neg (by decide), ite_neg (by decide), if_pos (by decide), scalarUint32]
    rfl
  · intro h; rw [bne_false h]
  · intro _
    unfold keyInfoField
    rw [ite_neg (by decide), if_pos (by decide), scalarEnum E distinct_status]
    rfl
  · intro h; rw [bne_false h]
  · intro _
    unfold keyInfoField
    rw [if_pos (by decide), scalarString]
    rfl

theorem read_keysetInfo (E : JsonFormatEnv F) (i : KeysetInfo) :
    convertMessage (keysetInfoField E) {} (keysetInfoToJson i) = .ok i := by
  show convertPairs _ _ _ = _
  rw [convertPairs_field (m' := { primaryKeyId := i.primaryKeyId }),
    convertPairs_last (m' := i)]
  · intro h; rw [← bne_false h]
  · intro _
    unfold keysetInfoField
    rw [ite_neg (by decide), if_pos (by decide),
      repeated_map (keyInfoField E) {} keyInfoToJson (by intro m; unfold keyInfoToJson; simp)
        (read_keyInfo E)]
    rfl
  · intro h; rw [bne_false h]
  · intro _
    unfold keysetInfoField
    rw [if_pos (by decide), scalarUint32]
    rfl

theorem read_encryptedKeyset (E : JsonFormatEnv F) (e : EncryptedKeyset) :
    convertMessage (encryptedKeysetField E) {} (encryptedKeysetToJson e) = .ok e := by
  show convertPairs _ _ _ = _
  rw [convertPairs_field (m' := { encryptedKeyset := e.encryptedKeyset }),
    convertPairs_last (m' := e)]
  · intro h
    obtain ⟨b, i⟩ := e
    cases i with
    | none => rfl
    | some i => cases h
  · intro h
    obtain ⟨b, i⟩ := e
    cases i with
    | none => cases h
    | some i =>
      unfold encryptedKeysetField
      rw [ite_neg (by decide), if_pos (by decide)]
      show ((convertMessage (keysetInfoField E) {} (keysetInfoToJson i) >>= fun m => pure (some m)) >>= _) = _
      rw [read_keysetInfo]
      rfl
  · intro h; rw [bne_false h]
  · intro _
    unfold encryptedKeysetField
    rw [if_pos (by decide), scalarBytes]
    rfl

/-! ## The text -/

theorem clean_bytes (b : Bytes) : Clean (bytesToJson b : JVal F) := clean_str (b64_text b).joined

theorem clean_pstr (s : PStr) : Clean (.str s.toPy : JVal F) := by
  refine clean_str (ValidText.joined ?_)
  have := toPy_scalar s
  rw [List.all_eq_true] at this
  exact this

def Ascii (s : PyStr) : Bool := s.all (· < 128)

theorem ascii_joined {s : PyStr} (h : Ascii s = true) : Joined s := by
  refine ValidText.joined fun c hc => isScalar_ascii ?_
  unfold Ascii at h
  rw [List.all_eq_true] at h
  simpa using h c hc

theorem clean_enum {names : List (PyStr × EnumVal)} (h : names.all (fun p => Ascii p.1) = true)
    (v : EnumVal) : Clean (enumToJson names v : JVal F) := by
  unfold enumToJson
  split
  · rename_i p hp
    rw [List.all_eq_true] at h
    exact clean_str (ascii_joined (h p (List.mem_of_find?_eq_some hp)))
  · exact clean_int _

/-- Optional fields with fixed names: the object has no repeated keys. -/
theorem clean_fields {names : List PyStr} (hn : names.Nodup) (ha : names.all Ascii = true)
    {d : List (PyStr × JVal F)} (hd : (d.map Prod.fst).Sublist names)
    (h : ∀ p ∈ d, Clean p.2) : Clean (.dict d) := by
  refine clean_dict (hd.nodup hn) fun p hp => ⟨ascii_joined ?_, h p hp⟩
  rw [List.all_eq_true] at ha
  exact ha _ (hd.subset (List.mem_map_of_mem hp))

theorem field_keys (c : Bool) (k : PyStr) (v : JVal F) :
    ((field c k v).map Prod.fst).Sublist [k] := by
  cases c
  · exact List.nil_sublist _
  · exact List.Sublist.refl _

theorem field_append_keys (c : Bool) (k : PyStr) (v : JVal F) {d : List (PyStr × JVal F)}
    {names : List PyStr} (h : (d.map Prod.fst).Sublist names) :
    ((field c k v ++ d).map Prod.fst).Sublist (k :: names) := by
  rw [List.map_append]
  exact (field_keys c k v).append h

theorem field_mem {c : Bool} {k : PyStr} {v : JVal F} {p : PyStr × JVal F} (h : p ∈ field c k v) :
    p = (k, v) := by
  unfold field at h
  split at h
  · simpa using h
  · cases h

theorem field_all {P : JVal F → Prop} {c : Bool} {k : PyStr} {v : JVal F} (h : P v) :
    ∀ p ∈ field c k v, P p.2 := by
  intro p hp
  rw [field_mem hp]; exact h

theorem field_append_all {P : JVal F → Prop} {c : Bool} {k : PyStr} {v : JVal F}
    {d : List (PyStr × JVal F)} (h : P v) (hd : ∀ p ∈ d, P p.2) :
    ∀ p ∈ field c k v ++ d, P p.2 := by
  intro p hp
  rcases List.mem_append.1 hp with hp | hp
  · exact field_all h p hp
  · exact hd p hp

theorem status_ascii : statusNames.all (fun p => Ascii p.1) = true := by decide +kernel
theorem prefix_ascii : prefixNames.all (fun p => Ascii p.1) = true := by decide +kernel
theorem material_ascii : materialNames.all (fun p => Ascii p.1) = true := by decide +kernel

theorem clean_keyData (d : KeyData) : Clean (keyDataToJson d : JVal F) :=
  clean_fields (names := [py! "typeUrl", py! "value", py! "keyMaterialType"]) (by decide) (by decide)
    (field_append_keys _ _ _ (field_append_keys _ _ _ (field_keys _ _ _)))
    (field_append_all (clean_pstr _) (field_append_all (clean_bytes _)
      (field_all (clean_enum material_ascii _))))

theorem clean_key (k : Key) : Clean (keyToJson k : JVal F) :=
  clean_fields (names := [py! "keyData", py! "status", py! "keyId", py! "outputPrefixType"])
    (by decide) (by decide)
    (field_append_keys _ _ _ (field_append_keys _ _ _ (field_append_keys _ _ _ (field_keys _ _ _))))
    (field_append_all (clean_keyData _) (field_append_all (clean_enum status_ascii _)
      (field_append_all (clean_int _) (field_all (clean_enum prefix_ascii _)))))

theorem clean_keyset (ks : Keyset) : Clean (keysetToJson ks : JVal F) := by
  refine clean_fields (names := [py! "primaryKeyId", py! "key"]) (by decide) (by decide)
    (field_append_keys _ _ _ (field_keys _ _ _))
    (field_append_all (clean_int _) (field_all (clean_list ?_)))
  intro x hx
  obtain ⟨k, _, rfl⟩ := List.mem_map.1 hx
  exact clean_key k

theorem clean_keyInfo (k : KeyInfo) : Clean (keyInfoToJson k : JVal F) :=
  clean_fields (names := [py! "typeUrl", py! "status", py! "keyId", py! "outputPrefixType"])
    (by decide) (by decide)
    (field_append_keys _ _ _ (field_append_keys _ _ _ (field_append_keys _ _ _ (field_keys _ _ _))))
    (field_append_all (clean_pstr _) (field_append_all (clean_enum status_ascii _)
      (field_append_all (clean_int _) (field_all (clean_enum prefix_ascii _)))))

theorem clean_keysetInfo (i : KeysetInfo) : Clean (keysetInfoToJson i : JVal F) := by
  refine clean_fields (names := [py! "primaryKeyId", py! "keyInfo"]) (by decide) (by decide)
    (field_append_keys _ _ _ (field_keys _ _ _))
    (field_append_all (clean_int _) (field_all (clean_list ?_)))
  intro x hx
  obtain ⟨k, _, rfl⟩ := List.mem_map.1 hx
  exact clean_keyInfo k

theorem clean_encryptedKeyset (e : EncryptedKeyset) : Clean (encryptedKeysetToJson e : JVal F) :=
  clean_fields (names := [py! "encryptedKeyset", py! "keysetInfo"]) (by decide) (by decide)
    (field_append_keys _ _ _ (field_keys _ _ _))
    (field_append_all (clean_bytes _) (field_all (clean_keysetInfo _)))

/-- What was written is read back. -/
theorem parse_dumps (E : JsonFormatEnv F) (hl : LawfulFloats E.json.floats) {M : Type}
    {f : M → PyStr → JVal F → Py M} {empty m : M} {v : JVal F} {t : PyStr}
    (ht : dumpsIndent E.json v = .ok t) (hv : Clean v) (hr : convertMessage f empty v = .ok m) :
    parse E f empty t = .ok m := by
  have h := loadsHook_dumpsIndent E.json hl duplicateChecker v t ht hv.2 (by
    intro d hd
    unfold duplicateChecker
    rw [if_pos]
    exact Decidable.byContradiction fun hn => hv.1 ⟨d, hd, hn⟩)
  unfold parse
  rw [h]
  show parseDictError _ (convertMessage f empty v) = _
  rw [hr]
  rfl

/-! ## Writing succeeds -/

theorem decimalAux_length (fuel n k : Nat) (acc : PyStr) (hk : n < 10 ^ (k + 1)) :
    (decimalAux fuel n acc).length ≤ acc.length + (k + 1) := by
  induction fuel generalizing n k acc with
  | zero => unfold decimalAux; omega
  | succ fuel ih =>
    unfold decimalAux
    split
    · simp only [List.length_cons]; omega
    · cases k with
      | zero => omega
      | succ k =>
        have := ih (n / 10) k ((48 + n % 10) :: acc) (by rw [Nat.pow_succ] at hk; omega)
        simp only [List.length_cons] at this
        omega

/-- A value can be written, at every level of indentation. -/
def Writable (env : JsonEnv F) (depth : Nat) (v : JVal F) : Prop :=
  ∀ level, ∃ t, dumpsIndentDepth env depth level v = .ok t

theorem writable_str (env : JsonEnv F) (depth : Nat) (s : PyStr) : Writable env depth (.str s) :=
  fun _ => ⟨_, by cases depth <;> rfl⟩

theorem writable_int {env : JsonEnv F} (h : ∀ n ≤ 10, env.digitsOk n = true) (depth : Nat) {n : Int}
    (hn : n.natAbs < 10 ^ 10) : Writable env depth (.int n) := by
  have hl := decimalAux_length (n.natAbs + 1) n.natAbs 9 [] hn
  have := h _ (show (decimal n.natAbs).length ≤ 10 by unfold decimal; simpa using hl)
  have hi : ∃ t, encodeInt env n = .ok t := by
    unfold encodeInt
    rw [this]
    exact ⟨_, rfl⟩
  intro level
  cases depth <;> exact hi

theorem mapPy_ok {α β : Type} {f : α → Py β} {l : List α} (h : ∀ a ∈ l, ∃ b, f a = .ok b) :
    ∃ bs, mapPy f l = .ok bs := by
  induction l with
  | nil => exact ⟨[], rfl⟩
  | cons a l ih =>
    obtain ⟨b, hb⟩ := h a (by simp)
    obtain ⟨bs, hbs⟩ := ih (fun x hx => h x (by simp [hx]))
    exact ⟨b :: bs, by unfold mapPy; rw [hb, hbs]⟩

theorem bracketIndent_ok (level l r : Nat) (ts : List PyStr) :
    ∃ t, bracketIndent level l r (.ok ts) = .ok t := by
  cases ts <;> exact ⟨_, rfl⟩

theorem writable_list {env : JsonEnv F} {depth : Nat} {l : List (JVal F)}
    (h : ∀ x ∈ l, Writable env depth x) : Writable env (depth + 1) (.list l) := by
  intro level
  obtain ⟨ts, hts⟩ := mapPy_ok (f := dumpsIndentDepth env depth (level + 1)) (l := l)
    (fun x hx => h x hx _)
  unfold dumpsIndentDepth
  rw [hts]
  exact bracketIndent_ok _ _ _ _

theorem writable_dict {env : JsonEnv F} {depth : Nat} {d : List (PyStr × JVal F)}
    (h : ∀ p ∈ d, Writable env depth p.2) : Writable env (depth + 1) (.dict d) := by
  intro level
  obtain ⟨ts, hts⟩ := mapPy_ok (f := encodePair [32] (dumpsIndentDepth env depth (level + 1))) (l := d)
    (fun p hp => by
      obtain ⟨t, ht⟩ := h p hp (level + 1)
      unfold encodePair
      rw [ht]
      exact ⟨_, rfl⟩)
  unfold dumpsIndentDepth
  rw [hts]
  exact bracketIndent_ok _ _ _ _

section
variable {env : JsonEnv F} (h : ∀ n ≤ 10, env.digitsOk n = true)
include h

theorem writable_uint32 (depth : Nat) (n : UInt32) : Writable env depth (.int n.toNat) :=
  writable_int h depth (by have := n.toNat_lt; omega)

theorem writable_enum (names : List (PyStr × EnumVal)) (depth : Nat) (v : EnumVal) :
    Writable env depth (enumToJson names v) := by
  unfold enumToJson
  split
  · exact writable_str env depth _
  · refine writable_int h depth ?_
    have := v.toNat_lt
    unfold enumNumber
    split <;> omega

theorem writable_keyset (depth : Nat) (ks : Keyset) : Writable env (depth + 4) (keysetToJson ks) := by
  refine writable_dict (field_append_all (writable_uint32 h _ _) (field_all (writable_list ?_)))
  intro x hx
  obtain ⟨k, _, rfl⟩ := List.mem_map.1 hx
  refine writable_dict (field_append_all (writable_dict ?_) (field_append_all (writable_enum h _ _ _)
    (field_append_all (writable_uint32 h _ _) (field_all (writable_enum h _ _ _)))))
  exact field_append_all (writable_str _ _ _) (field_append_all (writable_str _ _ _)
    (field_all (writable_enum h _ _ _)))

theorem writable_encryptedKeyset (depth : Nat) (e : EncryptedKeyset) :
    Writable env (depth + 4) (encryptedKeysetToJson e) := by
  refine writable_dict (field_append_all (writable_str _ _ _) (field_all (writable_dict
    (field_append_all (writable_uint32 h _ _) (field_all (writable_list ?_))))))
  intro x hx
  obtain ⟨k, _, rfl⟩ := List.mem_map.1 hx
  exact writable_dict (field_append_all (writable_str _ _ _) (field_append_all (writable_enum h _ _ _)
    (field_append_all (writable_uint32 h _ _) (field_all (writable_enum h _ _ _)))))

end

/-! ## Exceptions -/

/-- The exceptions of converting a value: `ParseError`, `TypeError`, a `ValueError` or
`OverflowError`. -/
def Converting (e : Exc) : Prop :=
  e = .parseError ∨ e = .typeError ∨ e.isValueError = true ∨ e = .overflowError

theorem bind_raises {α β : Type} {P : Exc → Prop} {m : Py α} {f : α → Py β} {e : Exc}
    (h : (m >>= f) = .error e) (hm : ∀ e, m = .error e → P e) (hf : ∀ a e, f a = .error e → P e) :
    P e := by
  cases m with
  | error e' => cases h; exact hm _ rfl
  | ok a => exact hf a e h

theorem fieldError_raises {α : Type} {r : Py α} {e : Exc} (h : fieldError r = .error e)
    (hr : ∀ e', r = .error e' → Converting e') : e = .parseError ∨ e = .overflowError := by
  cases r with
  | ok a => cases h
  | error e' =>
    have := hr e' rfl
    simp only [fieldError, Except.error.injEq] at h
    subst h
    rcases this with rfl | rfl | h1 | rfl
    · exact .inl (by decide)
    · exact .inl (by decide)
    · left; rw [if_pos (.inr h1)]
    · exact .inr (by decide)

theorem pyInt_raises {E : JsonFormatEnv F} {v : JVal F} {e : Exc} (h : pyInt E v = .error e) :
    Converting e := by
  unfold pyInt at h
  repeat' split at h
  all_goals first
    | (cases h; done)
    | (cases h; exact .inr (.inl rfl))
    | (cases h; exact .inr (.inr (.inl rfl)))
    | (cases h; exact .inr (.inr (.inr rfl)))

theorem convertInteger_raises {E : JsonFormatEnv F} {v : JVal F} {e : Exc}
    (h : convertInteger E v = .error e) : Converting e := by
  unfold convertInteger at h
  repeat' split at h
  all_goals first
    | (cases h; done)
    | (cases h; exact .inl rfl)
    | exact pyInt_raises h

theorem convertUint32_raises {E : JsonFormatEnv F} {v : JVal F} {e : Exc}
    (h : convertUint32 E v = .error e) : Converting e := by
  unfold convertUint32 at h
  split at h
  · rename_i h1; cases h; exact convertInteger_raises h1
  · unfold uint32OfNumber at h
    split at h
    · cases h
    · cases h; exact .inr (.inr (.inl rfl))

theorem a2b_raises (q l p : Nat) (s : Bytes) (e : Exc) (h : a2bBase64 q l p s = .error e) :
    e = .valueError := by
  induction s generalizing q l p e with
  | nil =>
    unfold a2bBase64 at h
    split at h <;> cases h
    rfl
  | cons c r ih =>
    have bd : ∀ {x : UInt8} {m : Py Bytes}, (m >>= fun rest => pure (x :: rest)) = .error e →
        m = .error e := by
      intro x m hm
      cases m with
      | error e' => cases hm; rfl
      | ok b => cases hm
    unfold a2bBase64 at h
    repeat' split at h
    all_goals first
      | (cases h; done)
      | exact ih _ _ _ _ h
      | exact ih _ _ _ _ (bd h)

theorem convertBytes_raises {v : JVal F} {e : Exc} (h : convertBytes v = .error e) :
    Converting e := by
  cases v with
  | str s =>
    unfold convertBytes at h
    refine bind_raises h ?_ ?_
    · intro e he
      unfold utf8Encode at he
      split at he
      · cases he
      · cases he; exact .inr (.inr (.inl rfl))
    · intro a e he
      have : e = .valueError := a2b_raises _ _ _ _ _ he
      subst this
      exact .inr (.inr (.inl rfl))
  | _ => cases h; exact .inr (.inl rfl)

theorem convertString_raises {v : JVal F} {e : Exc} (h : convertString v = .error e) :
    Converting e := by
  cases v with
  | str s =>
    have h : PyStr.toProto s = .error e := h
    unfold PyStr.toProto at h
    split at h
    · cases h
    · cases h; exact .inr (.inr (.inl rfl))
  | _ => cases h; exact .inr (.inl rfl)

theorem enumOfNumber_raises {n : Int} {e : Exc} (h : enumOfNumber n = .error e) : Converting e := by
  unfold enumOfNumber at h
  split at h
  · cases h
  · cases h; exact .inr (.inr (.inl rfl))

theorem convertEnum_raises {E : JsonFormatEnv F} {names : List (PyStr × EnumVal)} {v : JVal F}
    {e : Exc} (h : convertEnum E names v = .error e) : Converting e := by
  unfold convertEnum at h
  split at h
  · cases h; exact .inr (.inl rfl)
  · cases h; exact .inr (.inl rfl)
  · split at h
    · cases h
    · split at h
      · exact enumOfNumber_raises h
      · cases h; exact .inl rfl
  · split at h
    · exact enumOfNumber_raises h
    · rename_i h1
      cases h
      split
      · exact .inl rfl
      · exact pyInt_raises h1

theorem convertScalar_raises {α : Type} {conv : JVal F → Py α} {d : α} {v : JVal F} {e : Exc}
    (hc : ∀ v e, conv v = .error e → Converting e) (h : convertScalar conv d v = .error e) :
    Converting e := by
  unfold convertScalar at h
  split at h
  · cases h
  · exact hc _ _ h

section
variable {M : Type} {f : M → PyStr → JVal F → Py M}
  (hf : ∀ m k v e, f m k v = .error e → Converting e)
include hf

theorem convertPairs_raises (m : M) (d : List (PyStr × JVal F)) (e : Exc)
    (h : convertPairs f m d = .error e) : e = .parseError ∨ e = .overflowError := by
  induction d generalizing m with
  | nil => cases h
  | cons p d ih =>
    obtain ⟨k, v⟩ := p
    unfold convertPairs at h
    split at h
    · rename_i h1; cases h; exact fieldError_raises h1 (hf m k v)
    · exact ih _ h

theorem convertMessage_raises (m : M) (v : JVal F) (e : Exc)
    (h : convertMessage f m v = .error e) : e = .parseError ∨ e = .typeError ∨ e = .overflowError := by
  unfold convertMessage at h
  split at h
  · exact (convertPairs_raises hf _ _ _ h).imp_right .inr
  · cases h
  · cases h; exact .inl rfl
  · cases h
  · cases h; exact .inl rfl
  · cases h; exact .inr (.inl rfl)

theorem converting_message (m : M) (v : JVal F) (e : Exc)
    (h : convertMessage f m v = .error e) : Converting e := by
  rcases convertMessage_raises hf m v e h with h | h | h
  · exact .inl h
  · exact .inr (.inl h)
  · exact .inr (.inr (.inr h))

theorem convertItems_raises (empty : M) (l : List (JVal F)) (e : Exc)
    (h : convertItems f empty l = .error e) : Converting e := by
  induction l with
  | nil => cases h
  | cons v l ih =>
    unfold convertItems at h
    split at h
    · cases h; exact .inl rfl
    · split at h
      · rename_i h1; cases h; exact converting_message hf _ _ _ h1
      · split at h
        · rename_i h1; cases h; exact ih h1
        · cases h

theorem convertRepeated_raises (empty : M) (v : JVal F) (e : Exc)
    (h : convertRepeated f empty v = .error e) : Converting e := by
  unfold convertRepeated at h
  split at h
  · cases h
  · exact convertItems_raises hf _ _ _ h
  · cases h; exact .inl rfl

theorem convertSub_raises (empty : M) (old : Option M) (v : JVal F) (e : Exc)
    (h : convertSub f empty old v = .error e) : Converting e := by
  unfold convertSub at h
  split at h
  · cases h
  · exact bind_raises h (fun e => converting_message hf _ _ e) (fun a e h => by cases h)

end

theorem assign_raises {α M : Type} {m : Py α} {g : α → M} {e : Exc}
    (h : (do let x ← m; return g x) = .error e) (hm : ∀ e, m = .error e → Converting e) :
    Converting e := bind_raises h hm (fun a e h => by cases h)

theorem keyDataField_raises (E : JsonFormatEnv F) (m : KeyData) (k : PyStr) (v : JVal F) (e : Exc)
    (h : keyDataField E m k v = .error e) : Converting e := by
  unfold keyDataField at h
  repeat' split at h
  · exact assign_raises h fun e => convertScalar_raises fun _ _ => convertString_raises
  · exact assign_raises h fun e => convertScalar_raises fun _ _ => convertBytes_raises
  · exact assign_raises h fun e => convertScalar_raises fun _ _ => convertEnum_raises
  · cases h; exact .inl rfl

theorem keyField_raises (E : JsonFormatEnv F) (m : Key) (k : PyStr) (v : JVal F) (e : Exc)
    (h : keyField E m k v = .error e) : Converting e := by
  unfold keyField at h
  repeat' split at h
  · exact assign_raises h fun e => convertSub_raises (keyDataField_raises E) _ _ _ e
  · exact assign_raises h fun e => convertScalar_raises fun _ _ => convertEnum_raises
  · exact assign_raises h fun e => convertScalar_raises fun _ _ => convertUint32_raises
  · exact assign_raises h fun e => convertScalar_raises fun _ _ => convertEnum_raises
  · cases h; exact .inl rfl

theorem keysetField_raises (E : JsonFormatEnv F) (m : Keyset) (k : PyStr) (v : JVal F) (e : Exc)
    (h : keysetField E m k v = .error e) : Converting e := by
  unfold keysetField at h
  repeat' split at h
  · exact assign_raises h fun e => convertScalar_raises fun _ _ => convertUint32_raises
  · exact assign_raises h fun e => convertRepeated_raises (keyField_raises E) _ _ e
  · cases h; exact .inl rfl

theorem keyInfoField_raises (E : JsonFormatEnv F) (m : KeyInfo) (k : PyStr) (v : JVal F) (e : Exc)
    (h : keyInfoField E m k v = .error e) : Converting e := by
  unfold keyInfoField at h
  repeat' split at h
  · exact assign_raises h fun e => convertScalar_raises fun _ _ => convertString_raises
  · exact assign_raises h fun e => convertScalar_raises fun _ _ => convertEnum_raises
  · exact assign_raises h fun e => convertScalar_raises fun _ _ => convertUint32_raises
  · exact assign_raises h fun e => convertScalar_raises fun _ _ => convertEnum_raises
  · cases h; exact .inl rfl

theorem keysetInfoField_raises (E : JsonFormatEnv F) (m : KeysetInfo) (k : PyStr) (v : JVal F)
    (e : Exc) (h : keysetInfoField E m k v = .error e) : Converting e := by
  unfold keysetInfoField at h
  repeat' split at h
  · exact assign_raises h fun e => convertScalar_raises fun _ _ => convertUint32_raises
  · exact assign_raises h fun e => convertRepeated_raises (keyInfoField_raises E) _ _ e
  · cases h; exact .inl rfl

theorem encryptedKeysetField_raises (E : JsonFormatEnv F) (m : EncryptedKeyset) (k : PyStr)
    (v : JVal F) (e : Exc) (h : encryptedKeysetField E m k v = .error e) : Converting e := by
  unfold encryptedKeysetField at h
  repeat' split at h
  · exact assign_raises h fun e => convertScalar_raises fun _ _ => convertBytes_raises
  · exact assign_raises h fun e => convertSub_raises (keysetInfoField_raises E) _ _ _ e
  · cases h; exact .inl rfl

/-- What `Parse` raises: `ParseError`; without `wraps` also `TypeError`, `OverflowError` or
`RecursionError`. -/
theorem parse_raises {E : JsonFormatEnv F} {M : Type} {f : M → PyStr → JVal F → Py M} {empty : M}
    (hf : ∀ m k v e, f m k v = .error e → Converting e) {text : PyStr} {e : Exc}
    (h : parse E f empty text = .error e) :
    e = .parseError ∨
      (E.wraps = false ∧ (e = .typeError ∨ e = .overflowError ∨ e = .recursionError)) := by
  unfold parse at h
  refine bind_raises (P := fun e => e = .parseError ∨
    (E.wraps = false ∧ (e = .typeError ∨ e = .overflowError ∨ e = .recursionError))) h ?_ ?_
  · intro e he
    cases hl : loadsHook E.json duplicateChecker text with
    | ok v => rw [hl] at he; cases he
    | error e' =>
      rw [hl] at he
      simp only [loadError, Except.error.injEq] at he
      have := loadsHook_raises (P := fun e => e = .parseError ∨ JsonUtil.ScanError E.json e)
        (fun e he => .inr he) (by
          intro ps e he
          unfold duplicateChecker at he
          split at he
          · cases he
          · cases he; exact .inl rfl) hl
      subst he
      split
      · exact .inl rfl
      · rename_i h1
        have hw : E.wraps = false := by
          cases hw : E.wraps
          · rfl
          · exact absurd (.inr hw) h1
        rcases this with rfl | rfl | rfl | ⟨rfl, _⟩
        · exact .inl rfl
        · exact absurd (.inl rfl) h1
        · exact .inr ⟨hw, .inr (.inr rfl)⟩
        · exact absurd (.inl rfl) h1
  · intro v e he
    cases hc : convertMessage f empty v with
    | ok m => rw [hc] at he; cases he
    | error e' =>
      rw [hc] at he
      simp only [parseDictError, Except.error.injEq] at he
      have := convertMessage_raises hf _ _ _ hc
      subst he
      split
      · exact .inl rfl
      · rename_i h1
        have hw : E.wraps = false := by simpa using h1
        rcases this with rfl | rfl | rfl
        · exact .inl rfl
        · exact .inr ⟨hw, .inl rfl⟩
        · exact .inr ⟨hw, .inr (.inl rfl)⟩

/-- What `Parse` accepts has no repeated keys. -/
theorem parse_distinct {E : JsonFormatEnv F} {M : Type} {f : M → PyStr → JVal F → Py M} {empty m : M}
    {text : PyStr} (h : parse E f empty text = .ok m) :
    ∃ v, parseTree E.json text = .ok v ∧ ¬ RepeatsKey v ∧ convertMessage f empty v = .ok m := by
  unfold parse at h
  cases hl : loadsHook E.json duplicateChecker text with
  | error e => rw [hl] at h; cases h
  | ok v =>
    rw [hl] at h
    have hc : parseDictError E.wraps (convertMessage f empty v) = .ok m := h
    have hd : ∀ (ps : List (PyStr × JVal F)) (w : JVal F), duplicateChecker ps = .ok w →
        w = .dict ps ∧ (ps.map Prod.fst).Nodup := by
      intro ps w hw
      unfold duplicateChecker at hw
      split at hw
      · cases hw; exact ⟨rfl, by assumption⟩
      · cases hw
    refine ⟨v, loadsHook_parseTree (fun ps w hw => (hd ps w hw).1) hl, ?_, ?_⟩
    · refine loadsHook_inv (P := fun v => ¬ RepeatsKey v) ?_ ?_ ?_ ?_ text v hl
      · rintro s v r hs ⟨d, hw, _⟩
        rcases JsonUtil.scanScalar_ok hs with rfl | ⟨_, rfl⟩ | ⟨_, rfl⟩ | ⟨_, rfl⟩ <;> cases hw
      · rintro s ⟨d, hw, _⟩; cases hw
      · rintro l hl ⟨d, hw, hn⟩
        cases hw with
        | item hx hw => exact hl _ hx ⟨d, hw, hn⟩
      · intro ps w hw hp
        obtain ⟨rfl, hnd⟩ := hd ps w hw
        rintro ⟨d, hw, hn⟩
        cases hw with
        | here => exact hn hnd
        | value hx hw => exact hp _ hx ⟨d, hw, hn⟩
    · cases hm : convertMessage f empty v with
      | error e => rw [hm] at hc; cases hc
      | ok m' => rw [hm] at hc; exact hc

end JsonFormat
end Tink
