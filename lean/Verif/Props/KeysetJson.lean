import Verif.Props.KeysetIO
import Verif.Keyset.JsonFormatLemmas
import Verif.Examples.ToyJson

/-!
# C62, C63: the JSON keyset format, and C22, C24, C25, C28 for it
-/

namespace Tink.Props
open Spec Json JsonFormat

variable {F : Type}

/-- The interpreter can write the numbers of a keyset, and is not nearly out of stack: integers of
ten digits may be written (Python's limit is never below 640), and four more levels of recursion are
possible. -/
structure Roomy (E : JsonFormatEnv F) : Prop where
  digits : ∀ n ≤ 10, E.json.digitsOk n = true
  depth : 4 ≤ E.json.depth

/-! ## C62 -/

theorem json_write_ok {E : JsonFormatEnv F} {ks : Keyset} {s t : PyStr}
    (h : (jsonKeysetWriter E).write s ks = (t, .ok ())) :
    ∃ u, t = s ++ u ∧ dumpsIndent E.json (keysetToJson ks) = .ok u := by
  simp only [jsonKeysetWriter] at h
  split at h
  · cases h
  · rename_i u hu; cases h; exact ⟨u, rfl, hu⟩

theorem json_write_encrypted_ok {E : JsonFormatEnv F} {e : EncryptedKeyset} {s t : PyStr}
    (h : (jsonKeysetWriter E).writeEncrypted s e = (t, .ok ())) :
    ∃ u, t = s ++ u ∧ dumpsIndent E.json (encryptedKeysetToJson e) = .ok u := by
  simp only [jsonKeysetWriter] at h
  split at h
  · cases h
  · rename_i u hu; cases h; exact ⟨u, rfl, hu⟩

/-- C62.  What the JSON writer writes, the JSON reader reads. -/
theorem C62_reader_writer (E : JsonFormatEnv F) (hl : LawfulFloats E.json.floats) {ks : Keyset}
    {t : PyStr} (h : (jsonKeysetWriter E).write [] ks = (t, .ok ())) :
    (jsonKeysetReader E t).read = .ok ks := by
  obtain ⟨u, rfl, hu⟩ := json_write_ok h
  simp only [jsonKeysetReader, List.nil_append]
  rw [parse_dumps E hl hu (clean_keyset ks) (read_keyset E ks)]
  rfl

/-- C62.  The same of encrypted keysets, with their keyset info. -/
theorem C62_reader_writer_encrypted (E : JsonFormatEnv F) (hl : LawfulFloats E.json.floats)
    {e : EncryptedKeyset} {t : PyStr}
    (h : (jsonKeysetWriter E).writeEncrypted [] e = (t, .ok ())) :
    (jsonKeysetReader E t).readEncrypted = .ok e := by
  obtain ⟨u, rfl, hu⟩ := json_write_encrypted_ok h
  simp only [jsonKeysetReader, List.nil_append]
  rw [parse_dumps E hl hu (clean_encryptedKeyset e) (read_encryptedKeyset E e)]
  rfl

/-- C62.  Writing succeeds for every keyset, and appends one text to the stream. -/
theorem C62_write_succeeds (E : JsonFormatEnv F) (hE : Roomy E) (ks : Keyset) (s : PyStr) :
    ∃ u, (jsonKeysetWriter E).write s ks = (s ++ u, .ok ()) ∧
      (jsonKeysetWriter E).write [] ks = (u, .ok ()) := by
  obtain ⟨d, hd⟩ : ∃ d, E.json.depth = d + 4 := ⟨E.json.depth - 4, by have := hE.depth; omega⟩
  obtain ⟨u, hu⟩ := writable_keyset hE.digits d ks 0
  have hu : dumpsIndent E.json (keysetToJson ks) = .ok u := by unfold dumpsIndent; rw [hd]; exact hu
  exact ⟨u, by simp only [jsonKeysetWriter, hu], by simp only [jsonKeysetWriter, hu, List.nil_append]⟩

theorem C62_write_encrypted_succeeds (E : JsonFormatEnv F) (hE : Roomy E) (e : EncryptedKeyset)
    (s : PyStr) : ∃ u, (jsonKeysetWriter E).writeEncrypted s e = (s ++ u, .ok ()) ∧
      (jsonKeysetWriter E).writeEncrypted [] e = (u, .ok ()) := by
  obtain ⟨d, hd⟩ : ∃ d, E.json.depth = d + 4 := ⟨E.json.depth - 4, by have := hE.depth; omega⟩
  obtain ⟨u, hu⟩ := writable_encryptedKeyset hE.digits d e 0
  have hu : dumpsIndent E.json (encryptedKeysetToJson e) = .ok u := by
    unfold dumpsIndent; rw [hd]; exact hu
  exact ⟨u, by simp only [jsonKeysetWriter, hu], by simp only [jsonKeysetWriter, hu, List.nil_append]⟩

/-- C62.  So writing is injective. -/
theorem C62_injective (E : JsonFormatEnv F) (hl : LawfulFloats E.json.floats) {ks ks' : Keyset}
    {t : PyStr} (h : (jsonKeysetWriter E).write [] ks = (t, .ok ()))
    (h' : (jsonKeysetWriter E).write [] ks' = (t, .ok ())) : ks = ks' := by
  have h1 := C62_reader_writer E hl h
  rw [C62_reader_writer E hl h'] at h1
  cases h1; rfl

theorem getvalue_ok {σ : Type} {x : σ × Py Unit} {b : σ} (h : getvalue x = .ok b) :
    x = (b, .ok ()) := by
  obtain ⟨b', o⟩ := x
  cases o with
  | error e => cases h
  | ok u => cases h; rfl

/-- C62.  With the token, serializing and parsing returns the handle. -/
theorem C62_handle_round_trip (E : JsonFormatEnv F) (hl : LawfulFloats E.json.floats)
    {h : KeysetHandle} (hv : Valid h.keyset) {t : PyStr}
    (hs : JsonProtoKeysetFormat.serialize E h .secretKeyAccess = .ok t) :
    JsonProtoKeysetFormat.parse E t .secretKeyAccess = .ok h := by
  have hs' : getvalue ((jsonKeysetWriter E).write [] h.keyset) = .ok t := hs
  unfold JsonProtoKeysetFormat.parse
  rw [C62_reader_writer E hl (getvalue_ok hs')]
  rcases C20_create_iff h.keyset with ⟨_, hc⟩ | ⟨h', _⟩
  · exact hc
  · exact absurd hv h'

/-- C62.  With the token, serializing succeeds. -/
theorem C62_serialize_succeeds (E : JsonFormatEnv F) (hE : Roomy E) (h : KeysetHandle) :
    ∃ t, JsonProtoKeysetFormat.serialize E h .secretKeyAccess = .ok t := by
  obtain ⟨u, _, hu⟩ := C62_write_succeeds E hE h.keyset []
  refine ⟨u, ?_⟩
  show getvalue ((jsonKeysetWriter E).write [] h.keyset) = _
  rw [hu]; rfl

/-! ## C63 -/

theorem convertParse_cases {α : Type} {r : Py α} {w : Bool}
    (h : ∀ e, r = .error e → e = .parseError ∨
      (w = false ∧ (e = .typeError ∨ e = .overflowError ∨ e = .recursionError))) :
    (∃ a, convertParseError r = .ok a) ∨ convertParseError r = .error .tinkError ∨
      (w = false ∧ (convertParseError r = .error .typeError ∨
        convertParseError r = .error .overflowError ∨ convertParseError r = .error .recursionError)) := by
  cases r with
  | ok a => exact .inl ⟨a, rfl⟩
  | error e =>
    rcases h e rfl with rfl | ⟨hw, rfl | rfl | rfl⟩
    · exact .inr (.inl rfl)
    · exact .inr (.inr ⟨hw, .inl rfl⟩)
    · exact .inr (.inr ⟨hw, .inr (.inl rfl)⟩)
    · exact .inr (.inr ⟨hw, .inr (.inr rfl)⟩)

/-- C63.  For every text, JSON reading returns a keyset or raises `TinkError`; with versions of
`json_format` that let other exceptions through, also `TypeError`, `OverflowError` or
`RecursionError`. -/
theorem C63_read_total (E : JsonFormatEnv F) (text : PyStr) :
    (∃ ks, (jsonKeysetReader E text).read = .ok ks) ∨
    (jsonKeysetReader E text).read = .error .tinkError ∨
    (E.wraps = false ∧ ((jsonKeysetReader E text).read = .error .typeError ∨
      (jsonKeysetReader E text).read = .error .overflowError ∨
      (jsonKeysetReader E text).read = .error .recursionError)) :=
  convertParse_cases fun _ h => parse_raises (keysetField_raises E) h

theorem C63_read_encrypted_total (E : JsonFormatEnv F) (text : PyStr) :
    (∃ e, (jsonKeysetReader E text).readEncrypted = .ok e) ∨
    (jsonKeysetReader E text).readEncrypted = .error .tinkError ∨
    (E.wraps = false ∧ ((jsonKeysetReader E text).readEncrypted = .error .typeError ∨
      (jsonKeysetReader E text).readEncrypted = .error .overflowError ∨
      (jsonKeysetReader E text).readEncrypted = .error .recursionError)) :=
  convertParse_cases fun _ h => parse_raises (encryptedKeysetField_raises E) h

theorem convertParse_ok {α : Type} {r : Py α} {a : α} (h : convertParseError r = .ok a) :
    r = .ok a := by
  unfold convertParseError at h
  split at h
  · cases h
  · exact h

/-- C63.  A text that repeats a key in some object, at any depth, is refused. -/
theorem C63_no_repeated_keys (E : JsonFormatEnv F) {text : PyStr} {v : JVal F}
    (ht : parseTree E.json text = .ok v) (hr : RepeatsKey v) :
    (∀ ks, (jsonKeysetReader E text).read ≠ .ok ks) ∧
    ∀ e, (jsonKeysetReader E text).readEncrypted ≠ .ok e := by
  constructor
  · intro ks h
    obtain ⟨w, h1, h2, _⟩ := parse_distinct (convertParse_ok h)
    rw [ht] at h1; cases h1
    exact h2 hr
  · intro ks h
    obtain ⟨w, h1, h2, _⟩ := parse_distinct (convertParse_ok h)
    rw [ht] at h1; cases h1
    exact h2 hr

/-- C63.  What is no JSON text is refused. -/
theorem C63_not_json (E : JsonFormatEnv F) {text : PyStr} {e : Exc}
    (ht : parseTree E.json text = .error e) :
    (∀ ks, (jsonKeysetReader E text).read ≠ .ok ks) ∧
    ∀ e, (jsonKeysetReader E text).readEncrypted ≠ .ok e := by
  constructor
  · intro ks h
    obtain ⟨w, h1, _⟩ := parse_distinct (convertParse_ok h)
    rw [ht] at h1; cases h1
  · intro ks h
    obtain ⟨w, h1, _⟩ := parse_distinct (convertParse_ok h)
    rw [ht] at h1; cases h1

/-- C63.  With the token or without, parsing a text gives a handle on a valid keyset or raises
`TinkError`, with versions of `json_format` that convert all exceptions. -/
theorem C63_parse_total (E : JsonFormatEnv F) (hw : E.wraps = true) (text : PyStr) (t : Token) :
    (∃ h, JsonProtoKeysetFormat.parse E text t = .ok h ∧ Valid h.keyset) ∨
    JsonProtoKeysetFormat.parse E text t = .error .tinkError := by
  unfold JsonProtoKeysetFormat.parse
  rcases C63_read_total E text with ⟨ks, h⟩ | h | ⟨h, _⟩
  · rw [h]
    show (∃ h, fromProtoKeyset ks t = .ok h ∧ _) ∨ fromProtoKeyset ks t = _
    unfold fromProtoKeyset
    split
    · exact .inr rfl
    · rcases C20_create_iff ks with ⟨hv, hc⟩ | ⟨_, hc⟩
      · exact .inl ⟨⟨ks⟩, hc, hv⟩
      · exact .inr hc
  · rw [h]; exact .inr rfl
  · rw [hw] at h; cases h

/-! ## C28 -/

/-- C28, JSON.  Any token other than a `SecretKeyAccess` is refused, whatever the text: with
`TinkError`, or with the exception that reading the text raised. -/
theorem C28_json_token_required (E : JsonFormatEnv F) {t : Token} (ht : t ≠ .secretKeyAccess)
    (text : PyStr) (h : KeysetHandle) :
    (JsonProtoKeysetFormat.parse E text t = .error .tinkError ∨
      (E.wraps = false ∧ ∃ e, (jsonKeysetReader E text).read = .error e ∧
        JsonProtoKeysetFormat.parse E text t = .error e)) ∧
    JsonProtoKeysetFormat.serialize E h t = .error .tinkError := by
  have h1 : ∀ ks, fromProtoKeyset ks t = .error .tinkError := by
    intro ks
    simp [fromProtoKeyset, hasSecretKeyAccess, ht]
  have h2 : toProtoKeyset h t = .error .tinkError := by
    simp [toProtoKeyset, hasSecretKeyAccess, ht]
  refine ⟨?_, by unfold JsonProtoKeysetFormat.serialize; rw [h2]; rfl⟩
  unfold JsonProtoKeysetFormat.parse
  rcases C63_read_total E text with ⟨ks, h⟩ | h | ⟨hw, h | h | h⟩
  · rw [h]; exact .inl (h1 ks)
  · rw [h]; exact .inl rfl
  · rw [h]; exact .inr ⟨hw, _, rfl, rfl⟩
  · rw [h]; exact .inr ⟨hw, _, rfl, rfl⟩
  · rw [h]; exact .inr ⟨hw, _, rfl, rfl⟩

/-! ## C22 -/

/-- C22, JSON.  `serialize_without_secret`: only keysets without secrets are serialized, and the text
parses back to exactly that keyset. -/
theorem C22_json_serialize_without_secret (E : JsonFormatEnv F) (hl : LawfulFloats E.json.floats)
    {h : KeysetHandle} {t : PyStr} (hs : JsonProtoKeysetFormat.serializeWithoutSecret E h = .ok t) :
    NoSecret h.keyset ∧ (jsonKeysetReader E t).read = .ok h.keyset := by
  have hs := getvalue_ok hs
  rcases C22_write_no_secret h (jsonKeysetWriter E) [] with ⟨hn, he⟩ | ⟨_, he⟩
  · exact ⟨hn, C62_reader_writer E hl (he ▸ hs)⟩
  · rw [he] at hs; cases hs

/-- C22, JSON.  It is refused with `TinkError` if there is a secret, and succeeds otherwise. -/
theorem C22_json_serialize_iff (E : JsonFormatEnv F) (hE : Roomy E) (h : KeysetHandle) :
    (NoSecret h.keyset ∧ ∃ t, JsonProtoKeysetFormat.serializeWithoutSecret E h = .ok t) ∨
    (¬ NoSecret h.keyset ∧ JsonProtoKeysetFormat.serializeWithoutSecret E h = .error .tinkError) := by
  unfold JsonProtoKeysetFormat.serializeWithoutSecret
  rcases C22_write_no_secret h (jsonKeysetWriter E) [] with ⟨hn, he⟩ | ⟨hn, he⟩
  · obtain ⟨u, _, hu⟩ := C62_write_succeeds E hE h.keyset []
    rw [he, hu]
    exact .inl ⟨hn, u, rfl⟩
  · rw [he]; exact .inr ⟨hn, rfl⟩

/-- C22, JSON.  `parse_without_secret` returns only keysets without secrets: exactly the valid ones
among those that are read. -/
theorem C22_json_parse_without_secret (E : JsonFormatEnv F) (t : PyStr) (h : KeysetHandle) :
    JsonProtoKeysetFormat.parseWithoutSecret E t = .ok h ↔
      (jsonKeysetReader E t).read = .ok h.keyset ∧ NoSecret h.keyset ∧ Valid h.keyset :=
  C22_read_no_secret _ _

/-- C22, JSON.  Round trip on the no-secret path. -/
theorem C22_json_round_trip (E : JsonFormatEnv F) (hl : LawfulFloats E.json.floats) {h : KeysetHandle}
    (hv : Valid h.keyset) {t : PyStr}
    (hs : JsonProtoKeysetFormat.serializeWithoutSecret E h = .ok t) :
    JsonProtoKeysetFormat.parseWithoutSecret E t = .ok h := by
  obtain ⟨hn, hr⟩ := C22_json_serialize_without_secret E hl hs
  exact (C22_json_parse_without_secret E t h).2 ⟨hr, hn, hv⟩

/-! ## C24, C25 -/

/-- C24, JSON.  Written under one AEAD, read under another one that decrypts its ciphertexts. -/
theorem C24_json_round_trip (E : JsonFormatEnv F) (hl : LawfulFloats E.json.floats)
    {h : KeysetHandle} (hv : Valid h.keyset) {aead aead' : Aead} {seed : Seed} {ad : Bytes}
    {t : PyStr} (hw : JsonProtoKeysetFormat.serializeEncrypted E h aead seed ad = .ok t)
    (hdec : ∀ pt ct, aead.encrypt seed pt ad = .ok ct → ct ≠ [] ∧ aead'.decrypt ct ad = .ok pt) :
    JsonProtoKeysetFormat.parseEncrypted E t aead' ad = .ok h :=
  C24_round_trip (w := jsonKeysetWriter E) (reader := jsonKeysetReader E) hv
    (fun e s' _ hs => ⟨e.keysetInfo, C62_reader_writer_encrypted E hl hs⟩) (getvalue_ok hw) hdec

/-- C24, JSON.  Writing does succeed with a correct AEAD, if the keyset is below 2 GiB. -/
theorem C24_json_write_succeeds (E : JsonFormatEnv F) (hE : Roomy E) {h : KeysetHandle} {aead : Aead}
    {seed : Seed} {ad s ct : Bytes} (hs : h.keyset.serializeToString = .ok s)
    (henc : aead.encrypt seed s ad = .ok ct) (hdec : aead.decrypt ct ad = .ok s) :
    ∃ t, JsonProtoKeysetFormat.serializeEncrypted E h aead seed ad = .ok t := by
  have he := encryptKeyset_ok_iff (e := ⟨ct, some (keysetInfo h.keyset)⟩).2
    ⟨s, s, hs, henc, hdec, C29_keyset_round_trip hs, rfl⟩
  obtain ⟨u, _, hu⟩ := C62_write_encrypted_succeeds E hE ⟨ct, some (keysetInfo h.keyset)⟩ []
  refine ⟨u, ?_⟩
  unfold JsonProtoKeysetFormat.serializeEncrypted KeysetHandle.writeWithAssociatedData
  rw [he]
  simp only [hu, getvalue]

/-- C25, JSON.  What was written successfully can be read back with the same AEAD and associated data,
however faulty the AEAD, except when its ciphertext is empty. -/
theorem C25_json_readable (E : JsonFormatEnv F) (hl : LawfulFloats E.json.floats) {h : KeysetHandle}
    (hv : Valid h.keyset) {aead : Aead} {seed : Seed} {ad : Bytes} {t : PyStr}
    (hw : JsonProtoKeysetFormat.serializeEncrypted E h aead seed ad = .ok t)
    (hne : ∀ s, h.keyset.serializeToString = .ok s → aead.encrypt seed s ad ≠ .ok []) :
    JsonProtoKeysetFormat.parseEncrypted E t aead ad = .ok h := by
  have hw' := getvalue_ok hw
  unfold KeysetHandle.writeWithAssociatedData at hw'
  split at hw'
  · cases hw'
  · rename_i e he
    obtain ⟨s, pt, h1, h2, h3, h4, h5⟩ := encryptKeyset_ok_iff.1 he
    have hct : e.encryptedKeyset ≠ [] := by
      intro h0; rw [h0] at h2; exact hne s h1 h2
    exact read_ok_iff.2 ⟨_, pt, C62_reader_writer_encrypted E hl hw', hct, h3, h4, hv⟩

/-! ## Examples and violations -/

namespace KeysetJsonExample
open Toy KeysetIOExample

/-- Decimal digits only, and floats that are integers. -/
def jsonEnv (wraps : Bool) : JsonFormatEnv Int where
  json := ToyJson.env
  intOfStr s := if s ≠ [] ∧ s.all isDigit = true then some (ofDigits 0 s) else none
  isInteger _ := true
  trunc x := x
  wraps := wraps

theorem roomy (w : Bool) : Roomy (jsonEnv w) where
  digits n hn := by
    simp only [jsonEnv, ToyJson.env, JsonEnv.digitsOk, decide_eq_true_eq]; omega
  depth := by simp only [jsonEnv, ToyJson.env]; omega

/-- A keyset with an unknown status number, one that is negative, key data that is present but
empty, and no key data at all. -/
def odd : Keyset :=
  { primaryKeyId := 4294967295
    key := [
      { keyData := some ⟨ps! "type.googleapis.com/\"é\"", [0, 255, 62, 63],
          KeyMaterialType.ASYMMETRIC_PUBLIC⟩,
        status := KeyStatusType.ENABLED, keyId := 4294967295,
        outputPrefixType := OutputPrefixType.TINK },
      { keyData := some {}, status := 77, outputPrefixType := 4294967295 },
      {}] }

/-- The text of a keyset. -/
example : (jsonKeysetWriter (jsonEnv true)).write [] odd = (py! "{
  \"primaryKeyId\": 4294967295,
  \"key\": [
    {
      \"keyData\": {
        \"typeUrl\": \"type.googleapis.com/\\\"\\u00e9\\\"\",
        \"value\": \"AP8+Pw==\",
        \"keyMaterialType\": \"ASYMMETRIC_PUBLIC\"
      },
      \"status\": \"ENABLED\",
      \"keyId\": 4294967295,
      \"outputPrefixType\": \"TINK\"
    },
    {
      \"keyData\": {},
      \"status\": 77,
      \"outputPrefixType\": -1
    },
    {}
  ]
}", .ok ()) := by decide +kernel

example : ∃ t, (jsonKeysetWriter (jsonEnv true)).write [] odd = (t, .ok ()) ∧
    (jsonKeysetReader (jsonEnv true) t).read = .ok odd := by
  obtain ⟨u, _, hu⟩ := C62_write_succeeds (jsonEnv true) (roomy true) odd []
  exact ⟨u, hu, C62_reader_writer _ ToyJson.lawful hu⟩

/-- The encrypted round trip runs. -/
example : (do
    let t ← JsonProtoKeysetFormat.serializeEncrypted (jsonEnv false) ⟨KeysetIOExample.ks⟩ master 9 [1, 2]
    JsonProtoKeysetFormat.parseEncrypted (jsonEnv false) t master [1, 2]) =
      .ok ⟨KeysetIOExample.ks⟩ := by decide +kernel

/-- Unlike in the binary format, the keyset info is written. -/
example : (do
    let t ← JsonProtoKeysetFormat.serializeEncrypted (jsonEnv false) ⟨KeysetIOExample.ks⟩ master 9 [1, 2]
    let e ← (jsonKeysetReader (jsonEnv false) t).readEncrypted
    return e.keysetInfo) = .ok (some (keysetInfo KeysetIOExample.ks)) := by decide +kernel

/-- A public keyset passes the no-secret path; the keyset `ks` does not. -/
example : (do
    let b ← JsonProtoKeysetFormat.serializeWithoutSecret (jsonEnv true)
      ⟨{ primaryKeyId := 8, key := [key .verify [5] 8 OutputPrefixType.RAW] }⟩
    JsonProtoKeysetFormat.parseWithoutSecret (jsonEnv true) b) =
    .ok ⟨{ primaryKeyId := 8, key := [key .verify [5] 8 OutputPrefixType.RAW] }⟩ := by
  decide +kernel
example : JsonProtoKeysetFormat.serializeWithoutSecret (jsonEnv true) ⟨KeysetIOExample.ks⟩ =
    .error .tinkError := by decide +kernel

/-- C63, why other exceptions are listed: a text that is a number raises `TypeError`, an enum that is
infinite `OverflowError`, a text nested deeply `RecursionError`. -/
theorem C63_other_exceptions_escape :
    (jsonKeysetReader (jsonEnv false) (py! "5")).read = .error .typeError ∧
    (jsonKeysetReader (jsonEnv false) (py! "{\"key\":[{\"status\":Infinity}]}")).read =
      .error .overflowError ∧
    (jsonKeysetReader (jsonEnv false) (List.replicate 30 91)).read = .error .recursionError := by
  decide +kernel

/-- C28, why the exception of the reader is mentioned. -/
theorem C28_json_type_error_escapes :
    JsonProtoKeysetFormat.parse (jsonEnv false) (py! "5") .publicKeyAccess = .error .typeError := by
  decide +kernel

/-- With later versions all of these are `TinkError`. -/
example : (jsonKeysetReader (jsonEnv true) (py! "5")).read = .error .tinkError ∧
    (jsonKeysetReader (jsonEnv true) (py! "{\"key\":[{\"status\":Infinity}]}")).read =
      .error .tinkError ∧
    (jsonKeysetReader (jsonEnv true) (List.replicate 30 91)).read = .error .tinkError ∧
    (jsonKeysetReader (jsonEnv true) []).read = .error .tinkError ∧
    (jsonKeysetReader (jsonEnv true) (py! "{\"keys\":[]}")).read = .error .tinkError ∧
    (jsonKeysetReader (jsonEnv true) (py! "{\"primaryKeyId\":4294967296}")).read = .error .tinkError := by
  decide +kernel

/-- C63.  Repeated keys are refused, as spelled: the two spellings of one field are not the same key,
and the later one counts. -/
theorem C63_two_spellings :
    (jsonKeysetReader (jsonEnv true) (py! "{\"primaryKeyId\":1,\"primaryKeyId\":2}")).read =
      .error .tinkError ∧
    (jsonKeysetReader (jsonEnv true) (py! "{\"primaryKeyId\":1,\"primary_key_id\":2}")).read =
      .ok { primaryKeyId := 2 } := by decide +kernel

/-- C63.  A status may be given as `true`, a number or a text of digits; all of these are `ENABLED`. -/
theorem C63_enabled_spellings :
    ∀ t ∈ [py! "\"ENABLED\"", py! "1", py! "\"1\"", py! "1.0", py! "true"],
      (jsonKeysetReader (jsonEnv true) (py! "{\"key\":[{\"status\":" ++ t ++ py! "}]}")).read =
        .ok { key := [{ status := KeyStatusType.ENABLED }] } := by decide +kernel

/-- The hypothesis of `C63_no_repeated_keys` can be met. -/
example : ∃ v, parseTree ToyJson.env (py! "{\"key\":[{\"keyId\":1,\"keyId\":1}]}") = .ok v ∧
    RepeatsKey v :=
  ⟨_, rfl, _, .value (List.mem_singleton.2 rfl) (.item (List.mem_singleton.2 rfl) .here), by decide⟩

end KeysetJsonExample
end Tink.Props
