import Verif.Keyset.FormatWireLemmas
import Verif.Props.KeysetJson

/-!
# C74: the formats of serialized keysets

`Spec/KeysetFormat.lean` has the messages of `tink.proto` as one table, and four ways to read it.
-/

namespace Tink.Props
open Tink Spec Spec.KeysetFormat JsonFormat Json

variable {F : Type}

/-- C74.  The names of `tink.proto` stand for the numbers that the library compares with. -/
theorem C74_numbers :
    keyStatusType = [(py! "UNKNOWN_STATUS", KeyStatusType.UNKNOWN_STATUS.toNat),
      (py! "ENABLED", KeyStatusType.ENABLED.toNat), (py! "DISABLED", KeyStatusType.DISABLED.toNat),
      (py! "DESTROYED", KeyStatusType.DESTROYED.toNat)] ∧
    outputPrefixType = [(py! "UNKNOWN_PREFIX", OutputPrefixType.UNKNOWN_PREFIX.toNat),
      (py! "TINK", OutputPrefixType.TINK.toNat), (py! "LEGACY", OutputPrefixType.LEGACY.toNat),
      (py! "RAW", OutputPrefixType.RAW.toNat), (py! "CRUNCHY", OutputPrefixType.CRUNCHY.toNat)] ∧
    keyMaterialType = [(py! "UNKNOWN_KEYMATERIAL", KeyMaterialType.UNKNOWN_KEYMATERIAL.toNat),
      (py! "SYMMETRIC", KeyMaterialType.SYMMETRIC.toNat),
      (py! "ASYMMETRIC_PRIVATE", KeyMaterialType.ASYMMETRIC_PRIVATE.toNat),
      (py! "ASYMMETRIC_PUBLIC", KeyMaterialType.ASYMMETRIC_PUBLIC.toNat),
      (py! "REMOTE", KeyMaterialType.REMOTE.toNat)] := by decide +kernel

/-- C74.  What the binary writer writes: the protobuf encoding of the keyset, unless it is as long as
2 GiB. -/
theorem C74_binary_written (ks : Keyset) (s : Bytes) :
    binaryKeysetWriter.write s ks =
      if (keysetMessage wire ks).length < 2 ^ 31 then (s ++ keysetMessage wire ks, .ok ())
      else (s, .error .encodeError) := by
  rw [wire_keyset]
  simp only [binaryKeysetWriter, Keyset.serializeToString, serializeFields]
  by_cases h : (encodeFields ks.fields).length < 2 ^ 31
  · rw [if_pos h, if_pos h]
  · rw [if_neg h, if_neg h]

/-- C74.  What the binary writer writes of an encrypted keyset: the ciphertext alone. -/
theorem C74_binary_written_encrypted (e : EncryptedKeyset) (s : Bytes) :
    binaryKeysetWriter.writeEncrypted s e =
      if (encryptedKeysetMessage wire { e with keysetInfo := none }).length < 2 ^ 31 then
        (s ++ encryptedKeysetMessage wire { e with keysetInfo := none }, .ok ())
      else (s, .error .encodeError) := by
  rw [wire_encryptedKeyset]
  simp only [binaryKeysetWriter, EncryptedKeyset.serializeToString, serializeFields]
  by_cases h : (encodeFields (EncryptedKeyset.fields { e with keysetInfo := none })).length < 2 ^ 31
  · rw [if_pos h, if_pos h]
  · rw [if_neg h, if_neg h]

/-- C74.  What the JSON writer writes: a text that `json.loads` reads as the document prescribed by the
JSON mapping. -/
theorem C74_json_written (E : JsonFormatEnv F) (hl : LawfulFloats E.json.floats) {ks : Keyset}
    {s t : PyStr} (h : (jsonKeysetWriter E).write s ks = (t, .ok ())) :
    ∃ u, t = s ++ u ∧ loads E.json u = .ok (.dict (keysetMessage json ks)) := by
  obtain ⟨u, rfl, hu⟩ := json_write_ok h
  refine ⟨u, rfl, ?_⟩
  rw [json_keyset]
  exact loads_dumpsIndent E.json hl hu (clean_keyset ks)

/-- C74.  The same of encrypted keysets, with their keyset info. -/
theorem C74_json_written_encrypted (E : JsonFormatEnv F) (hl : LawfulFloats E.json.floats)
    {e : EncryptedKeyset} {s t : PyStr}
    (h : (jsonKeysetWriter E).writeEncrypted s e = (t, .ok ())) :
    ∃ u, t = s ++ u ∧ loads E.json u = .ok (.dict (encryptedKeysetMessage json e)) := by
  obtain ⟨u, rfl, hu⟩ := json_write_encrypted_ok h
  refine ⟨u, rfl, ?_⟩
  rw [json_encryptedKeyset]
  exact loads_dumpsIndent E.json hl hu (clean_encryptedKeyset e)

/-- C74.  The binary reader reads every encoding of a keyset: fields in any order, defaults written or
not, unknown fields.  (No bytes at all are refused; they would be the keyset without keys and primary
key.) -/
theorem C74_binary_read {ks : Keyset} {b : Bytes} (h : Encodes (keysetMessage anyWire ks) b)
    (hb : b ≠ []) : (binaryKeysetReader b).read = .ok ks := by
  simp only [binaryKeysetReader, if_neg hb, Keyset.fromString, encodes_keyset h]
  rfl

theorem C74_binary_read_encrypted {e : EncryptedKeyset} {b : Bytes}
    (h : Encodes (encryptedKeysetMessage anyWire e) b) (hb : b ≠ []) :
    (binaryKeysetReader b).readEncrypted = .ok e := by
  simp only [binaryKeysetReader, if_neg hb, EncryptedKeyset.fromString, encodes_encryptedKeyset h]
  rfl

/-- C74.  The JSON reader reads every text that says a document that describes a keyset: members in any
order and by either name, defaults written or not, either base64 alphabet, padding or not, enum values
by name or number. -/
theorem C74_json_read (E : JsonFormatEnv F) {ks : Keyset} {t : PyStr} {v : JVal F}
    (ht : parseTree E.json t = .ok v) (hv : IsMessage (keysetMessage (anyJson E.intOfStr) ks) v) :
    (jsonKeysetReader E t).read = .ok ks := by
  simp only [jsonKeysetReader]
  rw [parse_describes E (noRepeats_keyset _ ks) ht hv fun d hd => describes_keyset E hd (.inl rfl)]
  rfl

theorem C74_json_read_encrypted (E : JsonFormatEnv F) {e : EncryptedKeyset} {t : PyStr} {v : JVal F}
    (ht : parseTree E.json t = .ok v)
    (hv : IsMessage (encryptedKeysetMessage (anyJson E.intOfStr) e) v) :
    (jsonKeysetReader E t).readEncrypted = .ok e := by
  simp only [jsonKeysetReader]
  rw [parse_describes E (noRepeats_encryptedKeyset _ e) ht hv
    fun d hd => describes_encryptedKeyset E hd (.inl rfl)]
  rfl

/-! ## Examples -/

namespace KeysetFormatExample
open KeysetJsonExample

/-- A keyset with two keys. -/
def ks : Keyset :=
  { primaryKeyId := 300
    key := [{ keyData := some { typeUrl := ps! "t/é", value := [0xFB, 0xFF], keyMaterialType := 3 }
              status := KeyStatusType.DISABLED, keyId := 300, outputPrefixType := OutputPrefixType.RAW },
            { keyData := some {}, status := KeyStatusType.ENABLED }] }

/-- Its bytes, spelled out. -/
example : keysetMessage wire ks =
    [0x08, 0xAC, 0x02,
     0x12, 0x15, 0x0A, 0x0C, 0x0A, 4, 116, 47, 0xC3, 0xA9, 0x12, 2, 0xFB, 0xFF, 0x18, 3, 0x10, 2, 0x18, 0xAC,
       0x02, 0x20, 3,
     0x12, 4, 0x0A, 0, 0x10, 1] := by decide +kernel

/-- Its document. -/
example : (keysetMessage json ks : List (PyStr × JVal Nat)) =
    [(py! "primaryKeyId", .int 300),
     (py! "key", .list [
       .dict [(py! "keyData", .dict [(py! "typeUrl", .str (py! "t/é")), (py! "value", .str (py! "+/8=")),
           (py! "keyMaterialType", .str (py! "ASYMMETRIC_PUBLIC"))]),
         (py! "status", .str (py! "DISABLED")), (py! "keyId", .int 300),
         (py! "outputPrefixType", .str (py! "RAW"))],
       .dict [(py! "keyData", .dict []), (py! "status", .str (py! "ENABLED"))]])] := by rfl

/-- Bytes of another writer: the primary key last and as a number beyond `2^32`, a default value written
out, and a field that keysets do not have. -/
def otherBytes : Bytes :=
  [0x12, 6, 0x20, 0, 0x10, 1, 0x0A, 0,
   0x3D, 9, 9, 9, 9,
   0x08, 0x87, 0x80, 0x80, 0x80, 0x10]

theorem other_bytes : Encodes (keysetMessage anyWire
    { primaryKeyId := 7, key := [{ keyData := some {}, status := KeyStatusType.ENABLED }] }) otherBytes := by
  refine ⟨[(2, .bytes [0x20, 0, 0x10, 1, 0x0A, 0]), (7, .fixed32 [9, 9, 9, 9]), (1, .number 4294967303)],
    by decide +kernel, by simp [Payload.Sound], ?_⟩
  intro f hf
  simp only [keysetMessage, anyWire, List.cons_append, List.nil_append, List.mem_cons,
    List.not_mem_nil, or_false] at hf
  rcases hf with rfl | rfl
  · refine ⟨?_, .inr ⟨(1, .number 4294967303), by simp, rfl⟩, by simp⟩
    simp only [List.mem_cons, List.not_mem_nil, or_false]
    rintro p (rfl | rfl | rfl) hn
    · cases hn
    · cases hn
    · exact ⟨_, rfl, rfl⟩
  · refine ⟨⟨_, rfl, ?_⟩, trivial⟩
    refine ⟨[(4, .number 0), (2, .number 1), (1, .bytes [])], by decide +kernel, by simp [Payload.Sound], ?_⟩
    intro f hf
    simp only [keyMessage, List.cons_append, List.nil_append, List.mem_cons,
      List.not_mem_nil, or_false] at hf
    rcases hf with rfl | rfl | rfl | rfl
    · refine ⟨?_, .inr ⟨(1, .bytes []), by simp, rfl⟩, by simp⟩
      simp only [List.mem_cons, List.not_mem_nil, or_false]
      rintro p (rfl | rfl | rfl) hn
      · cases hn
      · cases hn
      · refine ⟨_, _, rfl, rfl, [], rfl, by simp, ?_⟩
        intro f hf
        simp only [keyDataMessage, List.cons_append, List.nil_append, List.mem_cons,
          List.not_mem_nil, or_false] at hf
        rcases hf with rfl | rfl | rfl <;> exact ⟨by simp, .inl (by decide), by simp⟩
    · refine ⟨?_, .inr ⟨(2, .number 1), by simp, rfl⟩, by simp⟩
      simp only [List.mem_cons, List.not_mem_nil, or_false]
      rintro p (rfl | rfl | rfl) hn
      · cases hn
      · exact ⟨_, rfl, rfl⟩
      · cases hn
    · exact ⟨by simp, .inl (by decide), by simp⟩
    · refine ⟨?_, .inl (by decide), by simp⟩
      simp only [List.mem_cons, List.not_mem_nil, or_false]
      rintro p (rfl | rfl | rfl) hn
      · exact ⟨_, rfl, rfl⟩
      · cases hn
      · cases hn

example : (binaryKeysetReader otherBytes).read =
    .ok { primaryKeyId := 7, key := [{ keyData := some {}, status := KeyStatusType.ENABLED }] } :=
  C74_binary_read other_bytes (by decide)

/-- A text of another writer. -/
def otherText : PyStr := py! "{\"key\": [{\"outputPrefixType\": 3, \"key_id\": \"300\", \"keyData\":
  {\"keyMaterialType\": \"ASYMMETRIC_PUBLIC\", \"value\": \"-_8\", \"type_url\": \"t/\\u00e9\"}, \"status\": \"DISABLED\"},
  {\"status\": 1, \"keyData\": {\"value\": null, \"typeUrl\": \"\"}, \"keyId\": 0}], \"primary_key_id\": 300}"

example : (jsonKeysetReader (jsonEnv true) otherText).read = .ok ks := by decide +kernel

/-- The document that it says. -/
def otherDocument : JVal Int :=
  .dict [(py! "key", .list [
    .dict [(py! "outputPrefixType", .int 3), (py! "key_id", .str (py! "300")),
      (py! "keyData", .dict [(py! "keyMaterialType", .str (py! "ASYMMETRIC_PUBLIC")),
        (py! "value", .str (py! "-_8")), (py! "type_url", .str (py! "t/é"))]),
      (py! "status", .str (py! "DISABLED"))],
    .dict [(py! "status", .int 1), (py! "keyData", .dict [(py! "value", .null), (py! "typeUrl", .str [])]),
      (py! "keyId", .int 0)]]),
    (py! "primary_key_id", .int 300)]

set_option maxRecDepth 20000 in
theorem other_document : parseTree (jsonEnv true).json otherText = .ok otherDocument := by rfl

theorem other_text : ∃ v, parseTree (jsonEnv true).json otherText = .ok v ∧
    IsMessage (keysetMessage (anyJson (jsonEnv true).intOfStr) ks) v := by
  refine ⟨_, other_document, _, rfl, by decide, ?_, ?_⟩
  · simp only [List.mem_cons, List.not_mem_nil, or_false]
    rintro p (rfl | rfl)
    · refine ⟨_, .tail _ (.head _), .inl rfl, .inl ⟨_, rfl, ?_⟩⟩
      refine ⟨⟨_, rfl, by decide, ?_, ?_⟩, ⟨_, rfl, by decide, ?_, ?_⟩, trivial⟩
      · simp only [List.mem_cons, List.not_mem_nil, or_false]
        rintro p (rfl | rfl | rfl | rfl)
        · exact ⟨_, .tail _ (.tail _ (.tail _ (.head _))), .inl rfl, .inr (.inl rfl)⟩
        · exact ⟨_, .tail _ (.tail _ (.head _)), .inr rfl, .inr (.inl ⟨_, rfl, by decide, by decide⟩)⟩
        · refine ⟨_, .head _, .inl rfl, _, rfl, by decide, ?_, ?_⟩
          · simp only [List.mem_cons, List.not_mem_nil, or_false]
            rintro p (rfl | rfl | rfl)
            · exact ⟨_, .tail _ (.tail _ (.head _)), .inl rfl, .inl ⟨_, by decide, rfl⟩⟩
            · exact ⟨_, .tail _ (.head _), .inl rfl, .inl ⟨urlSafe, [], .inr rfl, .inr rfl, rfl⟩⟩
            · exact ⟨_, .head _, .inr rfl, .inl rfl⟩
          · intro f hf
            simp only [keyDataMessage, anyJson, List.cons_append, List.nil_append, List.mem_cons,
              List.not_mem_nil, or_false] at hf
            right
            rcases hf with rfl | rfl | rfl <;> simp
        · exact ⟨_, .tail _ (.head _), .inl rfl, .inl ⟨_, by decide, rfl⟩⟩
      · intro f hf
        simp only [keyMessage, anyJson, List.cons_append, List.nil_append, List.mem_cons,
          List.not_mem_nil, or_false] at hf
        right
        rcases hf with rfl | rfl | rfl | rfl <;> simp
      · simp only [List.mem_cons, List.not_mem_nil, or_false]
        rintro p (rfl | rfl | rfl)
        · exact ⟨_, .tail _ (.head _), .inl rfl, .inr (.inl rfl)⟩
        · refine ⟨_, .head _, .inl rfl, _, rfl, by decide, ?_, ?_⟩
          · simp only [List.mem_cons, List.not_mem_nil, or_false]
            rintro p (rfl | rfl)
            · exact ⟨_, .tail _ (.head _), .inl rfl, .inr ⟨rfl, rfl⟩⟩
            · exact ⟨_, .head _, .inl rfl, .inl rfl⟩
          · intro f hf
            simp only [keyDataMessage, anyJson, List.cons_append, List.nil_append, List.mem_cons,
              List.not_mem_nil, or_false] at hf
            left
            rcases hf with rfl | rfl | rfl <;> trivial
        · exact ⟨_, .tail _ (.tail _ (.head _)), .inl rfl, .inl rfl⟩
      · intro f hf
        simp only [keyMessage, anyJson, List.cons_append, List.nil_append, List.mem_cons,
          List.not_mem_nil, or_false] at hf
        rcases hf with rfl | rfl | rfl | rfl
        · right; simp
        · right; simp
        · left; trivial
        · left; trivial
    · exact ⟨_, .head _, .inr rfl, .inl rfl⟩
  · intro f hf
    simp only [keysetMessage, anyJson, List.cons_append, List.nil_append, List.mem_cons,
      List.not_mem_nil, or_false] at hf
    right
    rcases hf with rfl | rfl <;> simp

example : (jsonKeysetReader (jsonEnv true) otherText).read = .ok ks := by
  obtain ⟨v, hv, hm⟩ := other_text
  exact C74_json_read _ hv hm

/-- An encrypted keyset. -/
def enc : EncryptedKeyset :=
  { encryptedKeyset := [1, 2, 0xFF]
    keysetInfo := some { primaryKeyId := 1, keyInfo := [{ typeUrl := ps! "t", status := 1, keyId := 1 }] } }

/-- In binary it is the ciphertext alone. -/
example : binaryKeysetWriter.writeEncrypted [] enc = ([0x12, 3, 1, 2, 0xFF], .ok ()) := by
  rw [C74_binary_written_encrypted]; decide +kernel

example : (encryptedKeysetMessage json enc : List (PyStr × JVal Nat)) =
    [(py! "encryptedKeyset", .str (py! "AQL/")),
     (py! "keysetInfo", .dict [(py! "primaryKeyId", .int 1), (py! "keyInfo", .list [
       .dict [(py! "typeUrl", .str (py! "t")), (py! "status", .str (py! "ENABLED")),
         (py! "keyId", .int 1)]])])] := by rfl

/-- A keyset written by the library, as the theorem has it. -/
example : ∃ u, loads (jsonEnv true).json u = .ok (.dict (keysetMessage json ks)) ∧
    (jsonKeysetWriter (jsonEnv true)).write [] ks = (u, .ok ()) := by
  obtain ⟨t, _, ht⟩ := C62_write_succeeds (jsonEnv true) (roomy true) ks []
  obtain ⟨u, hs, hu⟩ := C74_json_written (jsonEnv true) ToyJson.lawful ht
  exact ⟨u, hu, by rw [ht, hs]; rfl⟩

/-- Bytes of another writer, with an unknown field before the ciphertext. -/
theorem other_encrypted : Encodes (encryptedKeysetMessage anyWire { encryptedKeyset := [1, 2, 0xFF] })
    [0x48, 0x96, 0x01, 0x12, 3, 1, 2, 0xFF] := by
  refine ⟨[(9, .number 150), (2, .bytes [1, 2, 0xFF])], by decide +kernel, by simp [Payload.Sound], ?_⟩
  intro f hf
  simp only [encryptedKeysetMessage, anyWire, List.cons_append, List.nil_append, List.mem_cons,
    List.not_mem_nil, or_false] at hf
  rcases hf with rfl | rfl
  · refine ⟨?_, .inr ⟨(2, .bytes [1, 2, 0xFF]), by simp, rfl⟩, by simp⟩
    simp only [List.mem_cons, List.not_mem_nil, or_false]
    rintro p (rfl | rfl) hn
    · cases hn
    · rfl
  · exact ⟨by simp, .inl rfl, by simp⟩

example : (binaryKeysetReader [0x48, 0x96, 0x01, 0x12, 3, 1, 2, 0xFF]).readEncrypted =
    .ok { encryptedKeyset := [1, 2, 0xFF] } :=
  C74_binary_read_encrypted other_encrypted (by decide)

/-- A text of another writer, without keyset info and without padding. -/
theorem other_encrypted_text : ∃ v : JVal Int,
    parseTree (jsonEnv true).json (py! "{\"encrypted_keyset\": \"AQL_\"}") = .ok v ∧
    IsMessage (encryptedKeysetMessage (anyJson (jsonEnv true).intOfStr)
      { encryptedKeyset := [1, 2, 0xFF] }) v := by
  refine ⟨.dict [(py! "encrypted_keyset", .str (py! "AQL_"))], rfl, _, rfl, by decide, ?_, ?_⟩
  · simp only [List.mem_cons, List.not_mem_nil, or_false]
    rintro p rfl
    exact ⟨_, .head _, .inr rfl, .inl ⟨urlSafe, [], .inr rfl, .inr rfl, rfl⟩⟩
  · intro f hf
    simp only [encryptedKeysetMessage, anyJson, List.cons_append, List.nil_append, List.mem_cons,
      List.not_mem_nil, or_false] at hf
    rcases hf with rfl | rfl
    · right; simp
    · left; rfl

example : (jsonKeysetReader (jsonEnv true) (py! "{\"encrypted_keyset\": \"AQL_\"}")).readEncrypted =
    .ok { encryptedKeyset := [1, 2, 0xFF] } := by
  obtain ⟨v, hv, hm⟩ := other_encrypted_text
  exact C74_json_read_encrypted _ hv hm

end KeysetFormatExample
end Tink.Props
