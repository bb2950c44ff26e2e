import Verif.Core.Proto
import Verif.Py.Utf8

/-!
# The protobuf wire format

`SerializeToString` and `FromString` of the messages in `tink.proto`, following
the protobuf encoding specification and the behaviour of the Python runtime:
* scalar fields with default value are not written, fields are written in order
  of field number;
* parsing accepts any field order, the last occurrence of a scalar wins,
  repeated occurrences of a submessage are merged;
* unknown fields, groups and fields with an unexpected wire type are skipped;
* `string` fields must be valid UTF-8;
* a message of 2 GiB or more cannot be serialized (`EncodeError`).

Simplifications: unknown fields are dropped instead of preserved; the recursion
limit of the parser (100 nested groups) is not modelled; a varint of up to ten
bytes is reduced modulo `2^64`.
-/

namespace Tink

/-- Base-128 varint encoding. -/
def encodeVarint (n : Nat) : Bytes :=
  if n < 128 then [UInt8.ofNat n] else UInt8.ofNat (128 + n % 128) :: encodeVarint (n / 128)

/-- Reads a varint of at most `k` bytes. -/
def decodeVarintAux : Nat → Bytes → Option (Nat × Bytes)
  | 0, _ => none
  | _ + 1, [] => none
  | k + 1, b :: r =>
    if b.toNat < 128 then some (b.toNat, r)
    else
      match decodeVarintAux k r with
      | none => none
      | some (v, r') => some (b.toNat - 128 + 128 * v, r')

/-- Reads a varint: at most ten bytes, modulo `2^64`. -/
def decodeVarint (bs : Bytes) : Option (Nat × Bytes) :=
  match decodeVarintAux 10 bs with
  | none => none
  | some (v, r) => some (v % 18446744073709551616, r)

/-- The payload of a field. -/
inductive WireVal where
  | varint (n : Nat)
  | i64 (b : Bytes)
  | len (b : Bytes)
  | i32 (b : Bytes)
  deriving DecidableEq, Repr

/-- A field as it appears on the wire. -/
structure Field where
  num : Nat
  val : WireVal
  deriving DecidableEq, Repr

/-- Wire type numbers. -/
def WireVal.wireType : WireVal → Nat
  | .varint _ => 0
  | .i64 _ => 1
  | .len _ => 2
  | .i32 _ => 5

/-- The bytes of a payload. -/
def WireVal.encode : WireVal → Bytes
  | .varint n => encodeVarint n
  | .i64 b => b
  | .len b => encodeVarint b.length ++ b
  | .i32 b => b

/-- The bytes of a field. -/
def Field.encode (f : Field) : Bytes :=
  encodeVarint (f.num * 8 + f.val.wireType) ++ f.val.encode

/-- The bytes of a sequence of fields. -/
def encodeFields (fs : List Field) : Bytes := fs.flatMap Field.encode

/-- Splits off `n` bytes, if there are that many. -/
def splitBytes (n : Nat) (bs : Bytes) : Option (Bytes × Bytes) :=
  if n ≤ bs.length then some (bs.take n, bs.drop n) else none

/-- Parses a sequence of fields.  `stack` holds the numbers of the groups that
are currently open; the fields inside groups are skipped.  `fuel` bounds the
number of fields; `parseFields` supplies enough. -/
def parseFieldsAux : Nat → List Nat → Bytes → Option (List Field)
  | 0, _, _ => none
  | _ + 1, stack, [] => if stack = [] then some [] else none
  | fuel + 1, stack, b :: bs =>
    match decodeVarint (b :: bs) with
    | none => none
    | some (tag, r) =>
      let num := tag / 8
      let emit (v : WireVal) (r : Bytes) : Option (List Field) :=
        match parseFieldsAux fuel stack r with
        | none => none
        | some rest => some (if stack = [] then ⟨num, v⟩ :: rest else rest)
      if tag ≥ 4294967296 ∨ num = 0 then none
      else if tag % 8 = 0 then
        match decodeVarint r with
        | none => none
        | some (v, r) => emit (.varint v) r
      else if tag % 8 = 1 then
        match splitBytes 8 r with
        | none => none
        | some (v, r) => emit (.i64 v) r
      else if tag % 8 = 2 then
        match decodeVarint r with
        | none => none
        | some (n, r) =>
          match splitBytes n r with
          | none => none
          | some (v, r) => emit (.len v) r
      else if tag % 8 = 3 then parseFieldsAux fuel (num :: stack) r
      else if tag % 8 = 4 then
        match stack with
        | [] => none
        | top :: stack' => if top = num then parseFieldsAux fuel stack' r else none
      else if tag % 8 = 5 then
        match splitBytes 4 r with
        | none => none
        | some (v, r) => emit (.i32 v) r
      else none

/-- Parses a sequence of fields; `none` is a `DecodeError`. -/
def parseFields (bs : Bytes) : Option (List Field) := parseFieldsAux (bs.length + 1) [] bs

/-- Wire value of an enum: the `int32` sign-extended to 64 bits. -/
def enumToVarint (e : EnumVal) : Nat :=
  if e.toNat < 2147483648 then e.toNat else e.toNat + 18446744069414584320

/-! ## Field lists of messages -/

/-- A `string` field. -/
def strField (num : Nat) (s : PStr) : List Field :=
  if s = [] then [] else [⟨num, .len (pstrEncode s)⟩]

/-- A `bytes` field. -/
def bytesField (num : Nat) (b : Bytes) : List Field :=
  if b = [] then [] else [⟨num, .len b⟩]

/-- A `uint32` field. -/
def uint32Field (num : Nat) (n : UInt32) : List Field :=
  if n = 0 then [] else [⟨num, .varint n.toNat⟩]

/-- An enum field. -/
def enumField (num : Nat) (e : EnumVal) : List Field :=
  if e = 0 then [] else [⟨num, .varint (enumToVarint e)⟩]

/-- A singular submessage field. -/
def msgField (num : Nat) : Option (List Field) → List Field
  | none => []
  | some fs => [⟨num, .len (encodeFields fs)⟩]

/-- Fields of `KeyData`, `tink.proto:110-129`. -/
def KeyData.fields (d : KeyData) : List Field :=
  strField 1 d.typeUrl ++ bytesField 2 d.value ++ enumField 3 d.keyMaterialType

/-- Merging one field into a `KeyData`. -/
def KeyData.mergeField (d : KeyData) (f : Field) : Option KeyData :=
  match f.num, f.val with
  | 1, .len b => (pstrDecode? b).map fun s => { d with typeUrl := s }
  | 2, .len b => some { d with value := b }
  | 3, .varint v => some { d with keyMaterialType := UInt32.ofNat v }
  | _, _ => some d

/-- Merging serialized bytes into a `KeyData`. -/
def KeyData.merge (d : KeyData) (b : Bytes) : Option KeyData :=
  match parseFields b with
  | none => none
  | some fs => fs.foldlM KeyData.mergeField d

/-- Fields of `KeyTemplate`, `tink.proto:50-65`. -/
def KeyTemplate.fields (t : KeyTemplate) : List Field :=
  strField 1 t.typeUrl ++ bytesField 2 t.value ++ enumField 3 t.outputPrefixType

/-- Merging one field into a `KeyTemplate`. -/
def KeyTemplate.mergeField (t : KeyTemplate) (f : Field) : Option KeyTemplate :=
  match f.num, f.val with
  | 1, .len b => (pstrDecode? b).map fun s => { t with typeUrl := s }
  | 2, .len b => some { t with value := b }
  | 3, .varint v => some { t with outputPrefixType := UInt32.ofNat v }
  | _, _ => some t

/-- Merging serialized bytes into a `KeyTemplate`. -/
def KeyTemplate.merge (t : KeyTemplate) (b : Bytes) : Option KeyTemplate :=
  match parseFields b with
  | none => none
  | some fs => fs.foldlM KeyTemplate.mergeField t

/-- Fields of `Keyset.Key`, `tink.proto:136-150`. -/
def Key.fields (k : Key) : List Field :=
  msgField 1 (k.keyData.map KeyData.fields) ++
  enumField 2 k.status ++ uint32Field 3 k.keyId ++ enumField 4 k.outputPrefixType

/-- Merging one field into a `Keyset.Key`. -/
def Key.mergeField (k : Key) (f : Field) : Option Key :=
  match f.num, f.val with
  | 1, .len b => (KeyData.merge k.data b).map fun d => { k with keyData := some d }
  | 2, .varint v => some { k with status := UInt32.ofNat v }
  | 3, .varint v => some { k with keyId := UInt32.ofNat v }
  | 4, .varint v => some { k with outputPrefixType := UInt32.ofNat v }
  | _, _ => some k

/-- Merging serialized bytes into a `Keyset.Key`. -/
def Key.merge (k : Key) (b : Bytes) : Option Key :=
  match parseFields b with
  | none => none
  | some fs => fs.foldlM Key.mergeField k

/-- Fields of `Keyset`, `tink.proto:135-159`. -/
def Keyset.fields (ks : Keyset) : List Field :=
  uint32Field 1 ks.primaryKeyId ++ ks.key.map fun k => ⟨2, .len (encodeFields k.fields)⟩

/-- Merging one field into a `Keyset`. -/
def Keyset.mergeField (ks : Keyset) (f : Field) : Option Keyset :=
  match f.num, f.val with
  | 1, .varint v => some { ks with primaryKeyId := UInt32.ofNat v }
  | 2, .len b => (Key.merge {} b).map fun k => { ks with key := ks.key ++ [k] }
  | _, _ => some ks

/-- Merging serialized bytes into a `Keyset`. -/
def Keyset.merge (ks : Keyset) (b : Bytes) : Option Keyset :=
  match parseFields b with
  | none => none
  | some fs => fs.foldlM Keyset.mergeField ks

/-- Fields of `KeysetInfo.KeyInfo`, `tink.proto:166-178`. -/
def KeyInfo.fields (i : KeyInfo) : List Field :=
  strField 1 i.typeUrl ++ enumField 2 i.status ++ uint32Field 3 i.keyId ++
    enumField 4 i.outputPrefixType

/-- Merging one field into a `KeyInfo`. -/
def KeyInfo.mergeField (i : KeyInfo) (f : Field) : Option KeyInfo :=
  match f.num, f.val with
  | 1, .len b => (pstrDecode? b).map fun s => { i with typeUrl := s }
  | 2, .varint v => some { i with status := UInt32.ofNat v }
  | 3, .varint v => some { i with keyId := UInt32.ofNat v }
  | 4, .varint v => some { i with outputPrefixType := UInt32.ofNat v }
  | _, _ => some i

/-- Merging serialized bytes into a `KeyInfo`. -/
def KeyInfo.merge (i : KeyInfo) (b : Bytes) : Option KeyInfo :=
  match parseFields b with
  | none => none
  | some fs => fs.foldlM KeyInfo.mergeField i

/-- Fields of `KeysetInfo`, `tink.proto:165-186`. -/
def KeysetInfo.fields (i : KeysetInfo) : List Field :=
  uint32Field 1 i.primaryKeyId ++ i.keyInfo.map fun k => ⟨2, .len (encodeFields k.fields)⟩

/-- Merging one field into a `KeysetInfo`. -/
def KeysetInfo.mergeField (i : KeysetInfo) (f : Field) : Option KeysetInfo :=
  match f.num, f.val with
  | 1, .varint v => some { i with primaryKeyId := UInt32.ofNat v }
  | 2, .len b => (KeyInfo.merge {} b).map fun k => { i with keyInfo := i.keyInfo ++ [k] }
  | _, _ => some i

/-- Merging serialized bytes into a `KeysetInfo`. -/
def KeysetInfo.merge (i : KeysetInfo) (b : Bytes) : Option KeysetInfo :=
  match parseFields b with
  | none => none
  | some fs => fs.foldlM KeysetInfo.mergeField i

/-- Fields of `EncryptedKeyset`, `tink.proto:189-194`. -/
def EncryptedKeyset.fields (e : EncryptedKeyset) : List Field :=
  bytesField 2 e.encryptedKeyset ++
  msgField 3 (e.keysetInfo.map KeysetInfo.fields)

/-- Merging one field into an `EncryptedKeyset`. -/
def EncryptedKeyset.mergeField (e : EncryptedKeyset) (f : Field) : Option EncryptedKeyset :=
  match f.num, f.val with
  | 2, .len b => some { e with encryptedKeyset := b }
  | 3, .len b =>
    (KeysetInfo.merge (e.keysetInfo.getD {}) b).map fun i => { e with keysetInfo := some i }
  | _, _ => some e

/-- Merging serialized bytes into an `EncryptedKeyset`. -/
def EncryptedKeyset.merge (e : EncryptedKeyset) (b : Bytes) : Option EncryptedKeyset :=
  match parseFields b with
  | none => none
  | some fs => fs.foldlM EncryptedKeyset.mergeField e

/-! ## `SerializeToString` and `FromString` -/

/-- Protobuf refuses to serialize messages of 2 GiB or more. -/
def serializeFields (fs : List Field) : Py Bytes :=
  let b := encodeFields fs
  if b.length < 2147483648 then .ok b else .error .encodeError

/-- `FromString` given the merge function's result. -/
def ofMerge {α : Type} : Option α → Py α
  | some a => .ok a
  | none => .error .decodeError

def Keyset.serializeToString (ks : Keyset) : Py Bytes := serializeFields ks.fields
def Keyset.fromString (b : Bytes) : Py Keyset := ofMerge (Keyset.merge {} b)
def EncryptedKeyset.serializeToString (e : EncryptedKeyset) : Py Bytes := serializeFields e.fields
def EncryptedKeyset.fromString (b : Bytes) : Py EncryptedKeyset := ofMerge (EncryptedKeyset.merge {} b)
def KeyData.serializeToString (d : KeyData) : Py Bytes := serializeFields d.fields
def KeyData.fromString (b : Bytes) : Py KeyData := ofMerge (KeyData.merge {} b)
def KeyTemplate.serializeToString (t : KeyTemplate) : Py Bytes := serializeFields t.fields
def KeyTemplate.fromString (b : Bytes) : Py KeyTemplate := ofMerge (KeyTemplate.merge {} b)

end Tink
