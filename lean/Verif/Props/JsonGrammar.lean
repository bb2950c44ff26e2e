import Verif.Json.Grammar
import Verif.Json.Indent
import Verif.Props.KeysetFormat
import Verif.Props.JwkSet

/-!
# C81: what texts are JSON, and what they say
-/

namespace Tink
namespace Props
open Jwt Spec Json JsonUtil
open Spec.KeysetFormat JsonFormat

variable {F : Type}

/-- C81.  `json_loads` accepts exactly the JSON texts in which no object repeats a key and the strings of objects
are valid Unicode, and returns what they say. -/
theorem C81_read (env : JsonEnv F) (text : PyStr) (v : JVal F) :
    jsonLoads env text = .ok v ↔ JsonText env text v ∧ ¬ RepeatsKey v ∧ ValidObjects v := by
  rw [C49_accepts, parseTree_iff]

/-- C81.  What is no JSON text is refused. -/
theorem C81_not_json (env : JsonEnv F) (text : PyStr) (h : ¬ ∃ v, JsonText env text v) :
    jsonLoads env text = .error .jwtInvalidError ∨
      jsonLoads env text = .error .valueError ∧ LongInt env text := by
  rcases C49_total env text with ⟨v, hv⟩ | h'
  · exact absurd ⟨v, ((C81_read env text v).1 hv).1⟩ h
  · exact h'

/-- C81.  A text says one thing. -/
theorem C81_unambiguous (env : JsonEnv F) {text : PyStr} {v w : JVal F} (hv : JsonText env text v)
    (hw : JsonText env text w) : v = w := by
  have := (parseTree_iff env text v).2 hv
  rw [(parseTree_iff env text w).2 hw] at this
  exact (Except.ok.inj this).symm

/-- C81.  What `json_dumps` writes is a JSON text that says the value. -/
theorem C81_written (env : JsonEnv F) (hl : LawfulFloats env.floats) {v : JVal F} {text : PyStr}
    (h : jsonDumps env v = .ok text) (hj : AllTextJoined v) : JsonText env text v :=
  (parseTree_iff env text v).1 (loadsHook_dumpsDepth env hl _ [] (by simp) v text h hj fun _ _ => rfl)

/-- C81.  The same for `json.loads` without Tink's checks: the JSON texts, of which the last of several pairs with
one name counts. -/
theorem C81_plain_read (env : JsonEnv F) (text : PyStr) (v : JVal F) :
    loads env text = .ok v ↔ ∃ w, JsonText env text w ∧ v = lastWins w := loads_iff env text v

/-- C81.  JWK sets are JSON texts of objects with a list as `keys`. -/
theorem C81_jwk_set (env : JsonEnv F) (text : PyStr) (jwks : List (JVal F)) :
    IsJwkSet env text jwks ↔ ∃ w d, JsonText env text w ∧ lastWins w = .dict d ∧
      PyDict.get? d (py! "keys") = some (.list jwks) := by
  unfold IsJwkSet
  constructor
  · rintro ⟨d, h1, h2⟩
    obtain ⟨w, h3, h4⟩ := (loads_iff ..).1 h1
    exact ⟨w, d, h3, h4.symm, h2⟩
  · rintro ⟨w, d, h1, h2, h3⟩
    exact ⟨d, (loads_iff ..).2 ⟨w, h1, h2.symm⟩, h3⟩

/-! ## Keysets -/

/-- C81.  A keyset that is written as JSON: a JSON text of the document that the JSON mapping prescribes. -/
theorem C81_keyset_written (E : JsonFormatEnv F) (hl : LawfulFloats E.json.floats) {ks : Keyset} {s t : PyStr}
    (h : (jsonKeysetWriter E).write s ks = (t, .ok ())) :
    ∃ u, t = s ++ u ∧ JsonText E.json u (.dict (keysetMessage json ks)) := by
  obtain ⟨u, rfl, hu⟩ := json_write_ok h
  refine ⟨u, rfl, (parseTree_iff ..).1 ?_⟩
  rw [json_keyset]
  exact loadsHook_dumpsIndent E.json hl _ _ u hu (clean_keyset ks).2 fun _ _ => rfl

theorem C81_keyset_written_encrypted (E : JsonFormatEnv F) (hl : LawfulFloats E.json.floats) {e : EncryptedKeyset}
    {s t : PyStr} (h : (jsonKeysetWriter E).writeEncrypted s e = (t, .ok ())) :
    ∃ u, t = s ++ u ∧ JsonText E.json u (.dict (encryptedKeysetMessage json e)) := by
  obtain ⟨u, rfl, hu⟩ := json_write_encrypted_ok h
  refine ⟨u, rfl, (parseTree_iff ..).1 ?_⟩
  rw [json_encryptedKeyset]
  exact loadsHook_dumpsIndent E.json hl _ _ u hu (clean_encryptedKeyset e).2 fun _ _ => rfl

/-- C81.  Every JSON text of a document that describes a keyset is read. -/
theorem C81_keyset_read (E : JsonFormatEnv F) {ks : Keyset} {t : PyStr} {v : JVal F} (ht : JsonText E.json t v)
    (hv : IsMessage (keysetMessage (anyJson E.intOfStr) ks) v) : (jsonKeysetReader E t).read = .ok ks :=
  C74_json_read E ((parseTree_iff ..).2 ht) hv

theorem C81_keyset_read_encrypted (E : JsonFormatEnv F) {e : EncryptedKeyset} {t : PyStr} {v : JVal F}
    (ht : JsonText E.json t v) (hv : IsMessage (encryptedKeysetMessage (anyJson E.intOfStr) e) v) :
    (jsonKeysetReader E t).readEncrypted = .ok e :=
  C74_json_read_encrypted E ((parseTree_iff ..).2 ht) hv

/-- C81.  What the keyset readers accept is a JSON text that repeats no key. -/
theorem C81_keyset_only (E : JsonFormatEnv F) {text : PyStr}
    (h : (∃ ks, (jsonKeysetReader E text).read = .ok ks) ∨ ∃ e, (jsonKeysetReader E text).readEncrypted = .ok e) :
    ∃ v, JsonText E.json text v ∧ ¬ RepeatsKey v := by
  rcases h with ⟨ks, h⟩ | ⟨e, h⟩
  · obtain ⟨w, h1, h2, _⟩ := parse_distinct (convertParse_ok h)
    exact ⟨w, (parseTree_iff ..).1 h1, h2⟩
  · obtain ⟨w, h1, h2, _⟩ := parse_distinct (convertParse_ok h)
    exact ⟨w, (parseTree_iff ..).1 h1, h2⟩

/-! ## Examples -/

section Examples
open KeysetFormatExample KeysetJsonExample

/-- A text and its value, by the grammar. -/
theorem small_text : JsonText ToyJson.env (py! "[ -7,\n{ \"a\\u0062\\n\" :true }] ")
    (.list [.int (-7), .dict [([97, 98, 10], .bool true)]]) := by
  refine ⟨[], py! "[ -7,\n{ \"a\\u0062\\n\" :true }]", [32], rfl, by simp [Blank], ?_, by simp [Blank]⟩
  refine .inr (.inl ⟨py! " -7,\n{ \"a\\u0062\\n\" :true }", _, rfl, rfl, .inr ?_⟩)
  refine .more (w1 := [32]) (t := py! "-7") (w2 := []) (by simp [Blank])
    (.inl (.negative (i := [55]) ?_ rfl)) (by simp [Blank]) ?_
  · exact .inr ⟨55, [], rfl, by decide, by decide, by intro c hc; cases hc⟩
  refine .one (w1 := [10]) (t := py! "{ \"a\\u0062\\n\" :true }") (w2 := []) (by simp [Blank]) ?_ (by simp [Blank])
  refine .inr (.inr ⟨py! " \"a\\u0062\\n\" :true ", _, rfl, rfl, .inr ?_⟩)
  refine .one (w1 := [32]) (t := py! "\"a\\u0062\\n\" :true") (w2 := [32]) (by simp [Blank]) ?_ (by simp [Blank])
  refine ⟨py! "\"a\\u0062\\n\"", [32], [], py! "true", rfl, ⟨py! "a\\u0062\\n", rfl, ?_⟩, by simp [Blank],
    by simp [Blank], .inl .true⟩
  refine .plain (by decide) (by decide) (by decide) ?_
  refine .code (u := py! "\\u0062") (b := py! "\\n") (c := 98)
    ⟨48, 48, 54, 50, 0, 0, 6, 2, rfl, ?_, ?_, ?_, ?_, rfl⟩ ?_ (.letter (e := 110) (by decide) .nil)
  all_goals first | (left; exact ⟨by decide, rfl⟩) | (rintro ⟨⟨h, _⟩, _⟩; exact absurd h (by decide))

example : jsonLoads ToyJson.env (py! "[ -7,\n{ \"a\\u0062\\n\" :true }] ") =
    .ok (.list [.int (-7), .dict [([97, 98, 10], .bool true)]]) :=
  (C81_read ..).2 ⟨small_text, ((C49_accepts ToyJson.env (py! "[ -7,\n{ \"a\\u0062\\n\" :true }] ") _).1 (by rfl)).2⟩

/-- Texts that are not JSON: with a vertical tab as white space, a comma at the end, a leading zero, a string
with a line feed, nothing at all. -/
example : ∀ text ∈ [[11, 49], py! "[1,]", py! "01", py! "\"\n\"", py! " "],
    (¬ ∃ v, JsonText ToyJson.env text v) ∧ jsonLoads ToyJson.env text = .error .jwtInvalidError := by
  have no : ∀ text, parseTree ToyJson.env text = .error .jsonDecodeError →
      ¬ ∃ v, JsonText ToyJson.env text v := by
    rintro text h ⟨v, hv⟩
    rw [(parseTree_iff ..).2 hv] at h
    cases h
  intro text ht
  simp only [List.mem_cons, List.not_mem_nil, or_false] at ht
  rcases ht with rfl | rfl | rfl | rfl | rfl <;> exact ⟨no _ rfl, rfl⟩

/-- A pair with a name that comes again. -/
example : loads ToyJson.env (py! "{\"a\": 1, \"a\": 2}") = .ok (.dict [([97], .int 2)]) :=
  (C81_plain_read ..).2 ⟨.dict [([97], .int 1), ([97], .int 2)], (parseTree_iff ..).1 rfl, rfl⟩

example : IsJwkSet ToyJson.env (py! "{\"keys\": [ ], \"x\":0}") [] :=
  (C81_jwk_set ..).2 ⟨.dict [(py! "keys", .list []), ([120], .int 0)], _, (parseTree_iff ..).1 rfl, rfl, rfl⟩

/-- What is written. -/
example : ∃ text, jsonDumps ToyJson.env (.list [.str [97, 0xe4, 10], .float (.fin 3)] : JVal Int) = .ok text ∧
    JsonText ToyJson.env text (.list [.str [97, 0xe4, 10], .float (.fin 3)]) := by
  refine ⟨_, rfl, C81_written _ ToyJson.lawful rfl (valid_enough ⟨?_, ?_⟩).2⟩
  · intro s hs
    cases hs with
    | item hm hs =>
      simp only [List.mem_cons, List.not_mem_nil, or_false] at hm
      rcases hm with rfl | rfl
      · cases hs; exact List.all_eq_true.1 (by decide)
      · cases hs
  · intro d hd
    cases hd with
    | item hm hs =>
      simp only [List.mem_cons, List.not_mem_nil, or_false] at hm
      rcases hm with rfl | rfl <;> cases hs

/-- A keyset written by the library, and one written by another program. -/
example : ∃ u, (jsonKeysetWriter (jsonEnv true)).write [] ks = (u, .ok ()) ∧
    JsonText (jsonEnv true).json u (.dict (keysetMessage json ks)) := by
  obtain ⟨t, _, ht⟩ := C62_write_succeeds (jsonEnv true) (roomy true) ks []
  obtain ⟨u, hs, hu⟩ := C81_keyset_written (jsonEnv true) ToyJson.lawful ht
  exact ⟨u, by rw [ht, hs]; rfl, hu⟩

example : JsonText (jsonEnv true).json otherText otherDocument ∧
    (jsonKeysetReader (jsonEnv true) otherText).read = .ok ks := by
  have h := (parseTree_iff ..).1 other_document
  obtain ⟨v, hv, hm⟩ := other_text
  rw [other_document] at hv
  cases hv
  exact ⟨h, C81_keyset_read (jsonEnv true) h hm⟩

example : ∃ v, JsonText (jsonEnv true).json otherText v ∧ ¬ RepeatsKey v := by
  obtain ⟨v, hv, hm⟩ := other_text
  exact C81_keyset_only _ (.inl ⟨_, C74_json_read _ hv hm⟩)

example : (jsonKeysetReader (jsonEnv true) (py! "{\"encrypted_keyset\": \"AQL_\"}")).readEncrypted =
    .ok { encryptedKeyset := [1, 2, 0xFF] } := by
  obtain ⟨v, hv, hm⟩ := other_encrypted_text
  exact C81_keyset_read_encrypted _ ((parseTree_iff ..).1 hv) hm

end Examples

end Props
end Tink
