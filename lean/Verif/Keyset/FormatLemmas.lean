import Verif.Spec.KeysetFormat
import Verif.Keyset.JsonFormatLemmas
import Verif.Keyset.WireLemmas

/-!
# The readers and writers follow the table of formats
-/

namespace Tink
open Spec Spec.KeysetFormat

/-! ## The wire -/

theorem varint_eq (n : Nat) : varint n = encodeVarint n := by
  fun_induction varint n with
  | case1 n h => rw [encodeVarint, if_pos h]
  | case2 n h ih => rw [encodeVarint, if_neg h, ih, Nat.add_comm]

theorem utf8Char_eq (c : Char) : String.utf8EncodeChar c = utf8EncodeCp c.toNat := by
  have hv : c.val.toNat = c.toNat := rfl
  have hlt : c.toNat < 0x110000 := by
    have := c.valid
    rw [← hv]
    rcases this with h | h
    · have : c.val.toNat < 0xd800 := h
      omega
    · exact h.2
  unfold String.utf8EncodeChar utf8EncodeCp
  simp only [hv]
  generalize c.toNat = n at hlt
  by_cases h1 : n < 0x80
  · rw [if_pos (by omega), if_pos h1]
  rw [if_neg (by omega), if_neg h1]
  by_cases h2 : n < 0x800
  · rw [if_pos (by omega), if_pos h2]
    rw [show n / 64 % 0x20 + 0xc0 = 0xC0 + n / 64 by omega, Nat.add_comm (n % 64)]
  rw [if_neg (by omega), if_neg h2]
  by_cases h3 : n < 0x10000
  · rw [if_pos (by omega), if_pos h3]
    rw [show n / 4096 % 0x10 + 0xe0 = 0xE0 + n / 4096 by omega, Nat.add_comm (n % 64),
      Nat.add_comm (n / 64 % 64)]
  rw [if_neg (by omega), if_neg h3]
  rw [show n / 262144 % 0x08 + 0xf0 = 0xF0 + n / 262144 by omega, Nat.add_comm (n % 64),
    Nat.add_comm (n / 64 % 64), Nat.add_comm (n / 4096 % 64)]

theorem utf8_eq (s : PStr) : utf8 s = pstrEncode s := by
  unfold utf8 pstrEncode
  congr 1
  funext c
  exact utf8Char_eq c

/-- The payload of a field of the model. -/
def Spec.KeysetFormat.Payload.val : Payload → WireVal
  | .number n => .varint n
  | .fixed64 b => .i64 b
  | .bytes b => .len b
  | .fixed32 b => .i32 b

theorem onWire_eq (n : Nat) (p : Payload) : onWire n p = (⟨n, p.val⟩ : Field).encode := by
  cases p <;> simp [onWire, Payload.val, Field.encode, WireVal.wireType, WireVal.encode, varint_eq,
    Nat.mul_comm]

theorem encodeFields_append (a b : List Field) : encodeFields (a ++ b) = encodeFields a ++ encodeFields b := by
  simp [encodeFields]

theorem signExtended_eq (v : UInt32) : signExtended v = enumToVarint v := by
  unfold signExtended enumToVarint
  rfl

theorem wire_uint32 (f : FieldId) (v : UInt32) :
    wire.uint32 f v = encodeFields (uint32Field f.number v) := by
  by_cases h : v = 0
  · simp [wire, uint32Field, h, encodeFields]
  · simp [wire, uint32Field, h, encodeFields, onWire_eq, Payload.val]

theorem wire_text (f : FieldId) (s : PStr) :
    wire.text f s = encodeFields (strField f.number s) := by
  by_cases h : s = []
  · simp [wire, strField, h, encodeFields]
  · simp [wire, strField, h, encodeFields, onWire_eq, Payload.val, utf8_eq]

theorem wire_bytes (f : FieldId) (b : Bytes) :
    wire.bytes f b = encodeFields (bytesField f.number b) := by
  by_cases h : b = []
  · simp [wire, bytesField, h, encodeFields]
  · simp [wire, bytesField, h, encodeFields, onWire_eq, Payload.val]

theorem wire_enum (f : FieldId) (names : List (PyStr × Nat)) (v : UInt32) :
    wire.enum f names v = encodeFields (enumField f.number v) := by
  by_cases h : v = 0
  · simp [wire, enumField, h, encodeFields]
  · simp [wire, enumField, h, encodeFields, onWire_eq, Payload.val, signExtended_eq]

theorem wire_message (f : FieldId) (m : Option (List Field)) :
    wire.message f (m.map encodeFields) = encodeFields (msgField f.number m) := by
  cases m <;> simp [wire, msgField, encodeFields, onWire_eq, Payload.val]

theorem wire_repeated (f : FieldId) (ms : List (List Field)) :
    wire.repeated f (ms.map encodeFields) =
      encodeFields (ms.map fun fs => ⟨f.number, .len (encodeFields fs)⟩) := by
  induction ms with
  | nil => rfl
  | cons m ms ih =>
    simp only [wire, List.map_cons, List.flatMap_cons] at ih ⊢
    rw [ih, onWire_eq]
    rfl

theorem wire_keyData (d : KeyData) : keyDataMessage wire d = encodeFields d.fields := by
  simp only [keyDataMessage, KeyData.fields, encodeFields_append, wire_text, wire_bytes, wire_enum]

theorem wire_key (k : Key) : keyMessage wire k = encodeFields k.fields := by
  have h : k.keyData.map (keyDataMessage wire) = (k.keyData.map KeyData.fields).map encodeFields := by
    cases k.keyData <;> simp [wire_keyData]
  simp only [keyMessage, Key.fields, encodeFields_append, wire_enum, wire_uint32, h, wire_message]

theorem wire_keyset (ks : Keyset) : keysetMessage wire ks = encodeFields ks.fields := by
  have h : ks.key.map (keyMessage wire) = (ks.key.map Key.fields).map encodeFields := by
    simp [wire_key]
  simp only [keysetMessage, Keyset.fields, encodeFields_append, wire_uint32, h]
  rw [wire_repeated, List.map_map]
  rfl

theorem wire_keyInfo (k : KeyInfo) : keyInfoMessage wire k = encodeFields k.fields := by
  simp only [keyInfoMessage, KeyInfo.fields, encodeFields_append, wire_enum, wire_uint32, wire_text]

theorem wire_keysetInfo (ks : KeysetInfo) : keysetInfoMessage wire ks = encodeFields ks.fields := by
  have h : ks.keyInfo.map (keyInfoMessage wire) = (ks.keyInfo.map KeyInfo.fields).map encodeFields := by
    simp [wire_keyInfo]
  simp only [keysetInfoMessage, KeysetInfo.fields, encodeFields_append, wire_uint32, h]
  rw [wire_repeated, List.map_map]
  rfl

theorem wire_encryptedKeyset (e : EncryptedKeyset) :
    encryptedKeysetMessage wire e = encodeFields e.fields := by
  have h : e.keysetInfo.map (keysetInfoMessage wire) =
      (e.keysetInfo.map KeysetInfo.fields).map encodeFields := by
    cases e.keysetInfo <;> simp [wire_keysetInfo]
  simp only [encryptedKeysetMessage, EncryptedKeyset.fields, encodeFields_append, wire_bytes, h, wire_message]

/-! ## JSON -/

open JsonFormat

variable {F : Type}

theorem standard_table : ∀ v < 64, standard[v]! = (b64Char v).toNat := by decide +kernel

theorem base64_eq (b : Bytes) :
    base64 standard b ++ padding b.length = (b64encode b).map (·.toNat) := by
  fun_induction b64encode b with
  | case1 => rfl
  | case2 a =>
    have ha := a.toNat_lt
    simp only [base64, List.map_cons, List.map_nil, standard_table (a.toNat / 4) (by omega),
      standard_table (a.toNat % 4 * 16) (by omega)]
    rfl
  | case3 a b =>
    have ha := a.toNat_lt
    have hb := b.toNat_lt
    simp only [base64, List.map_cons, List.map_nil, standard_table (a.toNat / 4) (by omega),
      standard_table (a.toNat % 4 * 16 + b.toNat / 16) (by omega),
      standard_table (b.toNat % 16 * 4) (by omega)]
    rfl
  | case4 a b c r ih =>
    have ha := a.toNat_lt
    have hb := b.toNat_lt
    have hc := c.toNat_lt
    have hp : padding (a :: b :: c :: r).length = padding r.length := by
      have : (a :: b :: c :: r).length % 3 = r.length % 3 := by simp only [List.length_cons]; omega
      simp only [padding, this]
    rw [hp]
    simp only [base64, List.map_cons, List.cons_append, standard_table (a.toNat / 4) (by omega),
      standard_table (a.toNat % 4 * 16 + b.toNat / 16) (by omega),
      standard_table (b.toNat % 16 * 4 + c.toNat / 64) (by omega),
      standard_table (c.toNat % 64) (by omega), ih]

theorem signed_eq (v : UInt32) : signed v = enumNumber v := rfl

/-- The tables of names agree. -/
def SameNames (names : List (PyStr × Nat)) (names' : List (PyStr × EnumVal)) : Prop :=
  names'.map (fun p => (p.1, p.2.toNat)) = names

theorem enumValue_eq {names : List (PyStr × Nat)} {names' : List (PyStr × EnumVal)}
    (h : SameNames names names') (v : UInt32) :
    (enumValue names v : JVal F) = enumToJson names' v := by
  subst h
  unfold enumValue enumToJson
  rw [List.find?_map]
  have : ((fun p : PyStr × Nat => decide (p.2 = v.toNat)) ∘ fun p : PyStr × EnumVal => (p.1, p.2.toNat)) =
      fun p => p.2 == v := by
    funext p
    by_cases h : p.2 = v
    · simp [h]
    · have hn : UInt32.toNat p.2 ≠ v.toNat := fun e => h (UInt32.toNat_inj.1 e)
      simp [h, hn]
  rw [this]
  cases names'.find? (fun p => p.2 == v) <;> rfl

theorem sameNames_status : SameNames keyStatusType statusNames := by unfold SameNames; decide +kernel
theorem sameNames_prefix : SameNames outputPrefixType prefixNames := by unfold SameNames; decide +kernel
theorem sameNames_material : SameNames keyMaterialType materialNames := by
  unfold SameNames; decide +kernel

theorem json_uint32 (f : FieldId) (v : UInt32) :
    (json (F := F)).uint32 f v = field (v != 0) f.json (.int v.toNat) := by
  by_cases h : v = 0 <;> simp [json, field, h]

theorem json_text (f : FieldId) (s : PStr) :
    (json (F := F)).text f s = field (s != []) f.json (.str s.toPy) := by
  by_cases h : s = [] <;> simp [json, field, h, PStr.toPy]

theorem json_bytes (f : FieldId) (b : Bytes) :
    (json (F := F)).bytes f b = field (b != []) f.json (bytesToJson b) := by
  by_cases h : b = [] <;> simp [json, field, h, bytesToJson, base64_eq]

theorem json_enum {names : List (PyStr × Nat)} {names' : List (PyStr × EnumVal)}
    (hn : SameNames names names') (f : FieldId) (v : UInt32) :
    (json (F := F)).enum f names v = field (v != 0) f.json (enumToJson names' v) := by
  by_cases h : v = 0 <;> simp [json, field, h, enumValue_eq hn]

theorem json_keyData (d : KeyData) : (JVal.dict (keyDataMessage json d) : JVal F) = keyDataToJson d := by
  simp only [keyDataMessage, keyDataToJson, json_text, json_bytes, json_enum sameNames_material,
    List.append_assoc]

theorem json_key (k : Key) : (JVal.dict (keyMessage json k) : JVal F) = keyToJson k := by
  obtain ⟨d, s, i, p⟩ := k
  cases d with
  | none =>
    simp only [keyMessage, keyToJson, json_enum sameNames_status, json_enum sameNames_prefix, json_uint32,
      List.append_assoc]
    rfl
  | some d =>
    simp only [keyMessage, keyToJson, json_enum sameNames_status, json_enum sameNames_prefix, json_uint32,
      List.append_assoc, Option.map_some, Key.data, Option.getD_some, ← json_keyData]
    rfl

theorem json_keyset (ks : Keyset) : (JVal.dict (keysetMessage json ks) : JVal F) = keysetToJson ks := by
  have h : (ks.key.map (keyMessage (json (F := F)))).map JVal.dict = ks.key.map keyToJson := by
    simp [json_key]
  simp only [keysetMessage, keysetToJson, json_uint32]
  congr 2
  show (if _ then _ else _) = _
  rw [h]
  by_cases hk : ks.key = [] <;> simp [hk, field]

theorem json_keyInfo (k : KeyInfo) : (JVal.dict (keyInfoMessage json k) : JVal F) = keyInfoToJson k := by
  simp only [keyInfoMessage, keyInfoToJson, json_enum sameNames_status, json_enum sameNames_prefix,
    json_uint32, json_text, List.append_assoc]

theorem json_keysetInfo (ks : KeysetInfo) :
    (JVal.dict (keysetInfoMessage json ks) : JVal F) = keysetInfoToJson ks := by
  have h : (ks.keyInfo.map (keyInfoMessage (json (F := F)))).map JVal.dict = ks.keyInfo.map keyInfoToJson := by
    simp [json_keyInfo]
  simp only [keysetInfoMessage, keysetInfoToJson, json_uint32]
  congr 2
  show (if _ then _ else _) = _
  rw [h]
  by_cases hk : ks.keyInfo = [] <;> simp [hk, field]

theorem json_encryptedKeyset (e : EncryptedKeyset) :
    (JVal.dict (encryptedKeysetMessage json e) : JVal F) = encryptedKeysetToJson e := by
  obtain ⟨b, i⟩ := e
  simp only [encryptedKeysetMessage, encryptedKeysetToJson, json_bytes]
  congr 2
  cases i with
  | none => rfl
  | some i =>
    show [(_, _)] = _
    rw [json_keysetInfo]
    rfl

/-- What was written is what `json.loads` reads. -/
theorem loads_dumpsIndent (env : JsonEnv F) (hl : LawfulFloats env.floats) {v : JVal F} {t : PyStr}
    (ht : Json.dumpsIndent env v = .ok t) (hv : Jwt.Clean v) : Json.loads env t = .ok v := by
  unfold Json.loads
  refine Json.loadsHook_dumpsIndent env hl _ v t ht hv.2 fun d hd => ?_
  rw [Json.dictOf_nodup (Decidable.byContradiction fun hn => hv.1 ⟨d, hd, hn⟩)]

end Tink
