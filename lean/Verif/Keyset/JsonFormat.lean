import Verif.Json.Indent
import Verif.Py.Base64
import Verif.Py.Utf8
import Verif.Keyset.Formats

/-!
# The JSON keyset format

`JsonKeysetReader`, `JsonKeysetWriter` (`/repo/python/tink/_keyset_reader.py:42-60`,
`_keyset_writer.py:42-64`) and `_json_proto_keyset_format.py`, over a model of the parts of
`google.protobuf.json_format` they use: `MessageToJson` and `Parse` for the messages `Keyset` and
`EncryptedKeyset` of `tink.proto`.  `json_format` is no part of the repository; it is modelled after
its documentation and code (versions 3.20.2 to 4, `/repo/python/requirements.in:2`).
-/

namespace Tink

/-- The Python interpreter as far as `json_format` depends on it, beyond `json`: `int(s)` of a `str`
(`none` is `ValueError`), `x.is_integer()` and `int(x)` of a finite `float`.  `wraps`: does `Parse`
turn every exception into a `ParseError`; only later versions of `json_format` do. -/
structure JsonFormatEnv (F : Type) where
  json : JsonEnv F
  intOfStr : PyStr → Option Int
  isInteger : F → Bool
  trunc : F → Int
  wraps : Bool

namespace JsonFormat
open Json

variable {F : Type}

/-! ## Enums -/

/-- `values_by_name` of `enum KeyStatusType`, `tink.proto:67-72`. -/
def statusNames : List (PyStr × EnumVal) :=
  [(py! "UNKNOWN_STATUS", 0), (py! "ENABLED", 1), (py! "DISABLED", 2), (py! "DESTROYED", 3)]

/-- `values_by_name` of `enum OutputPrefixType`, `tink.proto:88-94`. -/
def prefixNames : List (PyStr × EnumVal) :=
  [(py! "UNKNOWN_PREFIX", 0), (py! "TINK", 1), (py! "LEGACY", 2), (py! "RAW", 3), (py! "CRUNCHY", 4)]

/-- `values_by_name` of `enum KeyMaterialType`, `tink.proto:120-126`. -/
def materialNames : List (PyStr × EnumVal) :=
  [(py! "UNKNOWN_KEYMATERIAL", 0), (py! "SYMMETRIC", 1), (py! "ASYMMETRIC_PRIVATE", 2),
    (py! "ASYMMETRIC_PUBLIC", 3), (py! "REMOTE", 4)]

/-- The number of an enum value, an `int32`. -/
def enumNumber (v : EnumVal) : Int :=
  if v.toNat < 2 ^ 31 then v.toNat else (v.toNat : Int) - 2 ^ 32

/-- Assigning a number to an enum field: `ValueError` if it is no `int32`. -/
def enumOfNumber (n : Int) : Py EnumVal :=
  if -2 ^ 31 ≤ n ∧ n < 2 ^ 31 then .ok (UInt32.ofNat (n % 2 ^ 32).toNat) else .error .valueError

/-! ## `MessageToJson` -/

/-- A field is written if it is present. -/
def field (present : Bool) (name : PyStr) (v : JVal F) : List (PyStr × JVal F) :=
  if present then [(name, v)] else []

/-- An enum value: its name, or its number if it has none. -/
def enumToJson (names : List (PyStr × EnumVal)) (v : EnumVal) : JVal F :=
  match names.find? (fun p => p.2 == v) with
  | some p => .str p.1
  | none => .int (enumNumber v)

/-- `base64.b64encode(value).decode('utf-8')`. -/
def bytesToJson (b : Bytes) : JVal F := .str ((b64encode b).map (·.toNat))

/-- The fields of a `KeyData`, `tink.proto:114-129`. -/
def keyDataToJson (d : KeyData) : JVal F :=
  .dict (field (d.typeUrl != []) (py! "typeUrl") (.str d.typeUrl.toPy) ++
    (field (d.value != []) (py! "value") (bytesToJson d.value) ++
    field (d.keyMaterialType != 0) (py! "keyMaterialType") (enumToJson materialNames d.keyMaterialType)))

/-- The fields of a `Keyset.Key`, `tink.proto:135-159`. -/
def keyToJson (k : Key) : JVal F :=
  .dict (field k.keyData.isSome (py! "keyData") (keyDataToJson k.data) ++
    (field (k.status != 0) (py! "status") (enumToJson statusNames k.status) ++
    (field (k.keyId != 0) (py! "keyId") (.int k.keyId.toNat) ++
    field (k.outputPrefixType != 0) (py! "outputPrefixType")
      (enumToJson prefixNames k.outputPrefixType))))

/-- The fields of a `Keyset`, `tink.proto:135-159`. -/
def keysetToJson (ks : Keyset) : JVal F :=
  .dict (field (ks.primaryKeyId != 0) (py! "primaryKeyId") (.int ks.primaryKeyId.toNat) ++
    field (ks.key != []) (py! "key") (.list (ks.key.map keyToJson)))

/-- The fields of a `KeysetInfo.KeyInfo`, `tink.proto:164-186`. -/
def keyInfoToJson (k : KeyInfo) : JVal F :=
  .dict (field (k.typeUrl != []) (py! "typeUrl") (.str k.typeUrl.toPy) ++
    (field (k.status != 0) (py! "status") (enumToJson statusNames k.status) ++
    (field (k.keyId != 0) (py! "keyId") (.int k.keyId.toNat) ++
    field (k.outputPrefixType != 0) (py! "outputPrefixType")
      (enumToJson prefixNames k.outputPrefixType))))

/-- The fields of a `KeysetInfo`, `tink.proto:164-186`. -/
def keysetInfoToJson (i : KeysetInfo) : JVal F :=
  .dict (field (i.primaryKeyId != 0) (py! "primaryKeyId") (.int i.primaryKeyId.toNat) ++
    field (i.keyInfo != []) (py! "keyInfo") (.list (i.keyInfo.map keyInfoToJson)))

/-- The fields of an `EncryptedKeyset`, `tink.proto:189-194`. -/
def encryptedKeysetToJson (e : EncryptedKeyset) : JVal F :=
  .dict (field (e.encryptedKeyset != []) (py! "encryptedKeyset") (bytesToJson e.encryptedKeyset) ++
    field e.keysetInfo.isSome (py! "keysetInfo") (keysetInfoToJson (e.keysetInfo.getD {})))

/-! ## `Parse` -/

/-- `int(value)`. -/
def pyInt (E : JsonFormatEnv F) : JVal F → Py Int
  | .null => .error .typeError
  | .bool b => .ok (if b then 1 else 0)
  | .int n => .ok n
  | .float .nan => .error .valueError
  | .float .inf => .error .overflowError
  | .float .ninf => .error .overflowError
  | .float (.fin x) => .ok (E.trunc x)
  | .str s => match E.intOfStr s with
    | some n => .ok n
    | none => .error .valueError
  | .list _ => .error .typeError
  | .dict _ => .error .typeError

/-- `_ConvertInteger`. -/
def convertInteger (E : JsonFormatEnv F) : JVal F → Py Int
  | .float .nan => .error .parseError
  | .float .inf => .error .parseError
  | .float .ninf => .error .parseError
  | .float (.fin x) => if E.isInteger x then .ok (E.trunc x) else .error .parseError
  | .str s => if s.contains 32 then .error .parseError else pyInt E (.str s)
  | .bool _ => .error .parseError
  | v => pyInt E v

/-- Assigning to a `uint32` field: `ValueError` if the number is out of range. -/
def uint32OfNumber (n : Int) : Py UInt32 :=
  if 0 ≤ n ∧ n < 4294967296 then .ok (UInt32.ofNat n.toNat) else .error .valueError

/-- A `uint32` field. -/
def convertUint32 (E : JsonFormatEnv F) (v : JVal F) : Py UInt32 :=
  match convertInteger E v with
  | .error e => .error e
  | .ok n => uint32OfNumber n

/-- A `bytes` field: base64 in the standard or the URL-safe alphabet, padding optional. -/
def convertBytes : JVal F → Py Bytes
  | .str s => do
    let encoded ← utf8Encode s
    urlsafeB64decode (encoded ++ List.replicate (4 - encoded.length % 4) 61)
  | _ => .error .typeError

/-- A `string` field.  (Lone surrogates are a `ParseError`, paired ones a `ValueError` on assignment;
both become `ParseError`.) -/
def convertString : JVal F → Py PStr
  | .str s => PyStr.toProto s
  | _ => .error .typeError

/-- An enum field: by name, else by number.  Lists and dicts are not hashable. -/
def convertEnum (E : JsonFormatEnv F) (names : List (PyStr × EnumVal)) : JVal F → Py EnumVal
  | .list _ => .error .typeError
  | .dict _ => .error .typeError
  | .str s =>
    match names.find? (fun p => p.1 == s) with
    | some p => .ok p.2
    | none =>
      match pyInt E (.str s) with
      | .ok n => enumOfNumber n
      | .error _ => .error .parseError
  | v =>
    match pyInt E v with
    | .ok n => enumOfNumber n
    | .error e => .error (if e.isValueError then .parseError else e)

/-- The `except` clauses of `_ConvertFieldValuePair`: `ParseError`, `ValueError` and `TypeError`
become `ParseError`. -/
def fieldError {α : Type} : Py α → Py α
  | .ok a => .ok a
  | .error e => .error (if e = .typeError ∨ e.isValueError then .parseError else e)

/-- The loop of `_ConvertFieldValuePair`; `f` assigns one field. -/
def convertPairs {M : Type} (f : M → PyStr → JVal F → Py M) : M → List (PyStr × JVal F) → Py M
  | m, [] => .ok m
  | m, (name, v) :: r =>
    match fieldError (f m name v) with
    | .error e => .error e
    | .ok m' => convertPairs f m' r

/-- `ConvertMessage`.  A list or a `str` that is not empty has an item that is no name of a field, or
cannot be indexed by it; a value that is not iterable raises `TypeError`. -/
def convertMessage {M : Type} (f : M → PyStr → JVal F → Py M) (m : M) : JVal F → Py M
  | .dict d => convertPairs f m d
  | .list [] => .ok m
  | .list (_ :: _) => .error .parseError
  | .str [] => .ok m
  | .str (_ :: _) => .error .parseError
  | _ => .error .typeError

/-- The items of a repeated message field. -/
def convertItems {M : Type} (f : M → PyStr → JVal F → Py M) (empty : M) :
    List (JVal F) → Py (List M)
  | [] => .ok []
  | v :: r =>
    match v with
    | .null => .error .parseError
    | v =>
      match convertMessage f empty v with
      | .error e => .error e
      | .ok m =>
        match convertItems f empty r with
        | .error e => .error e
        | .ok ms => .ok (m :: ms)

/-- A repeated message field. -/
def convertRepeated {M : Type} (f : M → PyStr → JVal F → Py M) (empty : M) : JVal F → Py (List M)
  | .null => .ok []
  | .list l => convertItems f empty l
  | _ => .error .parseError

/-- A message field: `null` clears it; otherwise the value is merged into what is there. -/
def convertSub {M : Type} (f : M → PyStr → JVal F → Py M) (empty : M) (old : Option M) :
    JVal F → Py (Option M)
  | .null => .ok none
  | v => do
    let m ← convertMessage f (old.getD empty) v
    return some m

/-- A scalar field: `null` clears it. -/
def convertScalar {α : Type} (conv : JVal F → Py α) (dflt : α) : JVal F → Py α
  | .null => .ok dflt
  | v => conv v

/-- Is a name that of a field, by its JSON name or its name in the `.proto` file. -/
def named (json proto name : PyStr) : Bool := name == json || name == proto

/-- The fields of a `KeyData`. -/
def keyDataField (E : JsonFormatEnv F) (m : KeyData) (name : PyStr) (v : JVal F) : Py KeyData :=
  if named (py! "typeUrl") (py! "type_url") name then do
    let x ← convertScalar convertString [] v
    return { m with typeUrl := x }
  else if named (py! "value") (py! "value") name then do
    let x ← convertScalar convertBytes [] v
    return { m with value := x }
  else if named (py! "keyMaterialType") (py! "key_material_type") name then do
    let x ← convertScalar (convertEnum E materialNames) 0 v
    return { m with keyMaterialType := x }
  else .error .parseError

/-- The fields of a `Keyset.Key`. -/
def keyField (E : JsonFormatEnv F) (m : Key) (name : PyStr) (v : JVal F) : Py Key :=
  if named (py! "keyData") (py! "key_data") name then do
    let x ← convertSub (keyDataField E) {} m.keyData v
    return { m with keyData := x }
  else if named (py! "status") (py! "status") name then do
    let x ← convertScalar (convertEnum E statusNames) 0 v
    return { m with status := x }
  else if named (py! "keyId") (py! "key_id") name then do
    let x ← convertScalar (convertUint32 E) 0 v
    return { m with keyId := x }
  else if named (py! "outputPrefixType") (py! "output_prefix_type") name then do
    let x ← convertScalar (convertEnum E prefixNames) 0 v
    return { m with outputPrefixType := x }
  else .error .parseError

/-- The fields of a `Keyset`. -/
def keysetField (E : JsonFormatEnv F) (m : Keyset) (name : PyStr) (v : JVal F) : Py Keyset :=
  if named (py! "primaryKeyId") (py! "primary_key_id") name then do
    let x ← convertScalar (convertUint32 E) 0 v
    return { m with primaryKeyId := x }
  else if named (py! "key") (py! "key") name then do
    let x ← convertRepeated (keyField E) {} v
    return { m with key := x }
  else .error .parseError

/-- The fields of a `KeysetInfo.KeyInfo`. -/
def keyInfoField (E : JsonFormatEnv F) (m : KeyInfo) (name : PyStr) (v : JVal F) : Py KeyInfo :=
  if named (py! "typeUrl") (py! "type_url") name then do
    let x ← convertScalar convertString [] v
    return { m with typeUrl := x }
  else if named (py! "status") (py! "status") name then do
    let x ← convertScalar (convertEnum E statusNames) 0 v
    return { m with status := x }
  else if named (py! "keyId") (py! "key_id") name then do
    let x ← convertScalar (convertUint32 E) 0 v
    return { m with keyId := x }
  else if named (py! "outputPrefixType") (py! "output_prefix_type") name then do
    let x ← convertScalar (convertEnum E prefixNames) 0 v
    return { m with outputPrefixType := x }
  else .error .parseError

/-- The fields of a `KeysetInfo`. -/
def keysetInfoField (E : JsonFormatEnv F) (m : KeysetInfo) (name : PyStr) (v : JVal F) :
    Py KeysetInfo :=
  if named (py! "primaryKeyId") (py! "primary_key_id") name then do
    let x ← convertScalar (convertUint32 E) 0 v
    return { m with primaryKeyId := x }
  else if named (py! "keyInfo") (py! "key_info") name then do
    let x ← convertRepeated (keyInfoField E) {} v
    return { m with keyInfo := x }
  else .error .parseError

/-- The fields of an `EncryptedKeyset`. -/
def encryptedKeysetField (E : JsonFormatEnv F) (m : EncryptedKeyset) (name : PyStr) (v : JVal F) :
    Py EncryptedKeyset :=
  if named (py! "encryptedKeyset") (py! "encrypted_keyset") name then do
    let x ← convertScalar convertBytes [] v
    return { m with encryptedKeyset := x }
  else if named (py! "keysetInfo") (py! "keyset_info") name then do
    let x ← convertSub (keysetInfoField E) {} m.keysetInfo v
    return { m with keysetInfo := x }
  else .error .parseError

/-- `_DuplicateChecker`. -/
def duplicateChecker (ps : List (PyStr × JVal F)) : Py (JVal F) :=
  if (ps.map Prod.fst).Nodup then .ok (.dict ps) else .error .parseError

/-- The `except` clause around `json.loads`: `ValueError`, or everything in later versions. -/
def loadError {α : Type} (wraps : Bool) : Py α → Py α
  | .ok a => .ok a
  | .error e => .error (if e.isValueError ∨ wraps = true then .parseError else e)

/-- The `except` clause around `ParseDict`, in later versions. -/
def parseDictError {α : Type} (wraps : Bool) : Py α → Py α
  | .ok a => .ok a
  | .error e => .error (if wraps = true then .parseError else e)

/-- `json_format.Parse(text, message)`. -/
def parse {M : Type} (E : JsonFormatEnv F) (f : M → PyStr → JVal F → Py M) (empty : M)
    (text : PyStr) : Py M := do
  let js ← loadError E.wraps (loadsHook E.json duplicateChecker text)
  parseDictError E.wraps (convertMessage f empty js)

end JsonFormat

open JsonFormat

variable {F : Type}

/-- `except json_format.ParseError as e: raise core.TinkError(e)`, `_keyset_reader.py:52-53` and
`59-60`. -/
def convertParseError {α : Type} : Py α → Py α
  | .error .parseError => .error .tinkError
  | r => r

/-- `JsonKeysetReader`, `_keyset_reader.py:42-60`. -/
def jsonKeysetReader (E : JsonFormatEnv F) (serialized : PyStr) : KeysetReader where
  read := convertParseError (JsonFormat.parse E (keysetField E) {} serialized)
  readEncrypted := convertParseError (JsonFormat.parse E (encryptedKeysetField E) {} serialized)

/-- `JsonKeysetWriter`, `_keyset_writer.py:42-64`.  The state is the content of the text stream,
which is assumed to accept whole writes (as `io.StringIO` and text files do).  The `isinstance` test
of the argument always succeeds here.  Unlike the binary writer, this one keeps `keyset_info`. -/
def jsonKeysetWriter (E : JsonFormatEnv F) : KeysetWriter PyStr where
  write s ks :=
    match Json.dumpsIndent E.json (keysetToJson ks) with
    | .error e => (s, .error e)
    | .ok t => (s ++ t, .ok ())
  writeEncrypted s e :=
    match Json.dumpsIndent E.json (encryptedKeysetToJson e) with
    | .error e => (s, .error e)
    | .ok t => (s ++ t, .ok ())

namespace JsonProtoKeysetFormat

/-- `parse`, `_json_proto_keyset_format.py:26-31`. -/
def parse (E : JsonFormatEnv F) (serialized : PyStr) (token : Token) : Py KeysetHandle := do
  let ks ← (jsonKeysetReader E serialized).read
  fromProtoKeyset ks token

/-- `serialize`, `_json_proto_keyset_format.py:34-41`. -/
def serialize (E : JsonFormatEnv F) (h : KeysetHandle) (token : Token) : Py PyStr := do
  let ks ← toProtoKeyset h token
  getvalue ((jsonKeysetWriter E).write [] ks)

/-- `parse_without_secret`, `_json_proto_keyset_format.py:44-50`. -/
def parseWithoutSecret (E : JsonFormatEnv F) (serialized : PyStr) : Py KeysetHandle :=
  KeysetHandle.readNoSecret (jsonKeysetReader E serialized)

/-- `serialize_without_secret`, `_json_proto_keyset_format.py:53-60`. -/
def serializeWithoutSecret (E : JsonFormatEnv F) (h : KeysetHandle) : Py PyStr :=
  getvalue (h.writeNoSecret (jsonKeysetWriter E) [])

/-- `parse_encrypted`, `_json_proto_keyset_format.py:63-73`. -/
def parseEncrypted (E : JsonFormatEnv F) (serialized : PyStr) (aead : Aead) (ad : Bytes) :
    Py KeysetHandle :=
  KeysetHandle.readWithAssociatedData (jsonKeysetReader E serialized) aead ad

/-- `serialize_encrypted`, `_json_proto_keyset_format.py:76-89`. -/
def serializeEncrypted (E : JsonFormatEnv F) (h : KeysetHandle) (aead : Aead) (seed : Seed)
    (ad : Bytes) : Py PyStr :=
  getvalue (h.writeWithAssociatedData (jsonKeysetWriter E) [] aead seed ad)

end JsonProtoKeysetFormat

end Tink
