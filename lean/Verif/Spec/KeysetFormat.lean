import Verif.Core.Proto
import Verif.Json.Decode

/-!
# The formats of serialized keysets

`tink.proto` as one table, `/repo/proto/tink.proto:67-194`, which is read in four ways: the bytes that
the protobuf encoding prescribes, the document that the protobuf JSON mapping prescribes, and, more
liberally, the bytes and the documents that any writer of these formats may produce.
-/

namespace Tink
namespace Spec
namespace KeysetFormat

/-! ## The table -/

/-- A field: its number, its name in the `.proto` file and its name in JSON. -/
structure FieldId where
  number : Nat
  name : PyStr
  json : PyStr

/-- A way to read the fields of a message.  A message is read as a list of `α`. -/
structure Reading (α : Type) where
  uint32 : FieldId → UInt32 → List α
  text : FieldId → PStr → List α
  bytes : FieldId → Bytes → List α
  enum : FieldId → List (PyStr × Nat) → UInt32 → List α
  message : FieldId → Option (List α) → List α
  repeated : FieldId → List (List α) → List α

/-- `enum KeyStatusType`. -/
def keyStatusType : List (PyStr × Nat) :=
  [(py! "UNKNOWN_STATUS", 0), (py! "ENABLED", 1), (py! "DISABLED", 2), (py! "DESTROYED", 3)]

/-- `enum OutputPrefixType`. -/
def outputPrefixType : List (PyStr × Nat) :=
  [(py! "UNKNOWN_PREFIX", 0), (py! "TINK", 1), (py! "LEGACY", 2), (py! "RAW", 3), (py! "CRUNCHY", 4)]

/-- `enum KeyMaterialType`. -/
def keyMaterialType : List (PyStr × Nat) :=
  [(py! "UNKNOWN_KEYMATERIAL", 0), (py! "SYMMETRIC", 1), (py! "ASYMMETRIC_PRIVATE", 2),
    (py! "ASYMMETRIC_PUBLIC", 3), (py! "REMOTE", 4)]

variable {α : Type}

/-- `message KeyData`. -/
def keyDataMessage (R : Reading α) (d : KeyData) : List α :=
  R.text ⟨1, py! "type_url", py! "typeUrl"⟩ d.typeUrl ++
  R.bytes ⟨2, py! "value", py! "value"⟩ d.value ++
  R.enum ⟨3, py! "key_material_type", py! "keyMaterialType"⟩ keyMaterialType d.keyMaterialType

/-- `message Keyset.Key`. -/
def keyMessage (R : Reading α) (k : Key) : List α :=
  R.message ⟨1, py! "key_data", py! "keyData"⟩ (k.keyData.map (keyDataMessage R)) ++
  R.enum ⟨2, py! "status", py! "status"⟩ keyStatusType k.status ++
  R.uint32 ⟨3, py! "key_id", py! "keyId"⟩ k.keyId ++
  R.enum ⟨4, py! "output_prefix_type", py! "outputPrefixType"⟩ outputPrefixType k.outputPrefixType

/-- `message Keyset`. -/
def keysetMessage (R : Reading α) (ks : Keyset) : List α :=
  R.uint32 ⟨1, py! "primary_key_id", py! "primaryKeyId"⟩ ks.primaryKeyId ++
  R.repeated ⟨2, py! "key", py! "key"⟩ (ks.key.map (keyMessage R))

/-- `message KeysetInfo.KeyInfo`. -/
def keyInfoMessage (R : Reading α) (k : KeyInfo) : List α :=
  R.text ⟨1, py! "type_url", py! "typeUrl"⟩ k.typeUrl ++
  R.enum ⟨2, py! "status", py! "status"⟩ keyStatusType k.status ++
  R.uint32 ⟨3, py! "key_id", py! "keyId"⟩ k.keyId ++
  R.enum ⟨4, py! "output_prefix_type", py! "outputPrefixType"⟩ outputPrefixType k.outputPrefixType

/-- `message KeysetInfo`. -/
def keysetInfoMessage (R : Reading α) (i : KeysetInfo) : List α :=
  R.uint32 ⟨1, py! "primary_key_id", py! "primaryKeyId"⟩ i.primaryKeyId ++
  R.repeated ⟨2, py! "key_info", py! "keyInfo"⟩ (i.keyInfo.map (keyInfoMessage R))

/-- `message EncryptedKeyset`. -/
def encryptedKeysetMessage (R : Reading α) (e : EncryptedKeyset) : List α :=
  R.bytes ⟨2, py! "encrypted_keyset", py! "encryptedKeyset"⟩ e.encryptedKeyset ++
  R.message ⟨3, py! "keyset_info", py! "keysetInfo"⟩ (e.keysetInfo.map (keysetInfoMessage R))

/-! ## The protobuf encoding -/

/-- A number in base 128, the least significant digit first; all digits but the last have their high
bit set. -/
def varint (n : Nat) : Bytes :=
  if n < 128 then [UInt8.ofNat n] else UInt8.ofNat (n % 128 + 128) :: varint (n / 128)

/-- What a field carries on the wire. -/
inductive Payload where
  | number (n : Nat)
  | fixed64 (b : Bytes)
  | bytes (b : Bytes)
  | fixed32 (b : Bytes)

/-- A field on the wire: its number and wire type, then what it carries. -/
def onWire (number : Nat) : Payload → Bytes
  | .number n => varint (8 * number) ++ varint n
  | .fixed64 b => varint (8 * number + 1) ++ b
  | .bytes b => varint (8 * number + 2) ++ varint b.length ++ b
  | .fixed32 b => varint (8 * number + 5) ++ b

/-- UTF-8. -/
def utf8 (s : PStr) : Bytes := s.flatMap String.utf8EncodeChar

/-- An `int32` as a 64-bit number, in two's complement. -/
def signExtended (v : UInt32) : Nat :=
  if v.toNat < 2 ^ 31 then v.toNat else v.toNat + (2 ^ 64 - 2 ^ 32)

/-- The bytes of a message: its fields in the order of their numbers, without those that have their
default value. -/
def wire : Reading UInt8 where
  uint32 f v := if v = 0 then [] else onWire f.number (.number v.toNat)
  text f s := if s = [] then [] else onWire f.number (.bytes (utf8 s))
  bytes f b := if b = [] then [] else onWire f.number (.bytes b)
  enum f _ v := if v = 0 then [] else onWire f.number (.number (signExtended v))
  message f m := match m with
    | none => []
    | some b => onWire f.number (.bytes b)
  repeated f ms := ms.flatMap fun b => onWire f.number (.bytes b)

/-! ## The JSON mapping -/

variable {F : Type}

/-- The alphabet of base64, RFC 4648, section 4. -/
def standard : PyStr := py! "ABCDEFGHIJKLMNOPQRSTUVWXYZabcdefghijklmnopqrstuvwxyz0123456789+/"

/-- The URL-safe alphabet, RFC 4648, section 5. -/
def urlSafe : PyStr := py! "ABCDEFGHIJKLMNOPQRSTUVWXYZabcdefghijklmnopqrstuvwxyz0123456789-_"

/-- Base64 without padding. -/
def base64 (alphabet : PyStr) : Bytes → PyStr
  | [] => []
  | [a] => [alphabet[a.toNat / 4]!, alphabet[a.toNat % 4 * 16]!]
  | [a, b] =>
    [alphabet[a.toNat / 4]!, alphabet[a.toNat % 4 * 16 + b.toNat / 16]!,
      alphabet[b.toNat % 16 * 4]!]
  | a :: b :: c :: r =>
    alphabet[a.toNat / 4]! :: alphabet[a.toNat % 4 * 16 + b.toNat / 16]! ::
      alphabet[b.toNat % 16 * 4 + c.toNat / 64]! :: alphabet[c.toNat % 64]! :: base64 alphabet r

/-- The padding of the base64 encoding of `n` bytes. -/
def padding (n : Nat) : PyStr :=
  if n % 3 = 1 then py! "==" else if n % 3 = 2 then py! "=" else []

/-- The number of an enum value. -/
def signed (v : UInt32) : Int :=
  if v.toNat < 2 ^ 31 then (v.toNat : Int) else (v.toNat : Int) - 2 ^ 32

/-- An enum value is written as its name, or as its number if it has none. -/
def enumValue (names : List (PyStr × Nat)) (v : UInt32) : JVal F :=
  match names.find? (fun p => p.2 = v.toNat) with
  | some p => .str p.1
  | none => .int (signed v)

/-- The members of the object that stands for a message: its fields by their JSON names, in the order
of their numbers, without those that have their default value. -/
def json : Reading (PyStr × JVal F) where
  uint32 f v := if v = 0 then [] else [(f.json, .int v.toNat)]
  text f s := if s = [] then [] else [(f.json, .str (s.map Char.toNat))]
  bytes f b := if b = [] then [] else [(f.json, .str (base64 standard b ++ padding b.length))]
  enum f names v := if v = 0 then [] else [(f.json, enumValue names v)]
  message f m := match m with
    | none => []
    | some d => [(f.json, .dict d)]
  repeated f ms := if ms = [] then [] else [(f.json, .list (ms.map .dict))]

/-! ## What other writers may write -/

/-- The items of two lists correspond. -/
def Pairwise {β γ : Type} (r : β → γ → Prop) : List β → List γ → Prop
  | [], [] => True
  | b :: bs, c :: cs => r b c ∧ Pairwise r bs cs
  | _, _ => False

/-- What a field of a message may be in a JSON document: which values stand for its value, and whether
it may be left out. -/
structure JsonField (F : Type) where
  id : FieldId
  value : JVal F → Prop
  omitted : Prop

/-- The members of an object describe a message: every member is one of its fields, by either of its
names, and has a value that stands for the field's; the fields that are missing may be left out.
Members may come in any order, but not twice. -/
def Describes (fs : List (JsonField F)) (d : List (PyStr × JVal F)) : Prop :=
  (d.map Prod.fst).Nodup ∧
  (∀ p ∈ d, ∃ f ∈ fs, (p.1 = f.id.json ∨ p.1 = f.id.name) ∧ f.value p.2) ∧
  (∀ f ∈ fs, f.omitted ∨ ∃ p ∈ d, p.1 = f.id.json ∨ p.1 = f.id.name)

/-- A number is a JSON number or, as far as `intOfStr` reads it, a string; 0 may be `null`. -/
def IsNumber (intOfStr : PyStr → Option Int) (v : UInt32) (x : JVal F) : Prop :=
  x = .int v.toNat ∨ (∃ s, x = .str s ∧ 32 ∉ s ∧ intOfStr s = some (v.toNat : Int)) ∨
    (x = .null ∧ v = 0)

/-- A text is a string; the empty one may be `null`. -/
def IsText (s : PStr) (x : JVal F) : Prop := x = .str (s.map Char.toNat) ∨ (x = .null ∧ s = [])

/-- Bytes are a string in either base64 alphabet, with or without padding; no bytes may be `null`. -/
def IsBytes (b : Bytes) (x : JVal F) : Prop :=
  (∃ alphabet pad, (alphabet = standard ∨ alphabet = urlSafe) ∧ (pad = padding b.length ∨ pad = []) ∧
    x = .str (base64 alphabet b ++ pad)) ∨ (x = .null ∧ b = [])

/-- An enum value is its name or its number; 0 may be `null`. -/
def IsEnum (names : List (PyStr × Nat)) (v : UInt32) (x : JVal F) : Prop :=
  (∃ name, (name, v.toNat) ∈ names ∧ x = .str name) ∨ x = .int (signed v) ∨ (x = .null ∧ v = 0)

/-- A message is an object that describes it. -/
def IsMessage (fs : List (JsonField F)) (x : JVal F) : Prop := ∃ d, x = .dict d ∧ Describes fs d

/-- A missing message may be `null`. -/
def IsOptional (m : Option (List (JsonField F))) (x : JVal F) : Prop :=
  match m with
  | none => x = .null
  | some fs => IsMessage fs x

/-- Several messages are a list of objects; none may be `null`. -/
def IsRepeated (ms : List (List (JsonField F))) (x : JVal F) : Prop :=
  (∃ l, x = .list l ∧ Pairwise IsMessage ms l) ∨ (x = .null ∧ ms = [])

/-- Documents that stand for a message.  Fields that have their default value may be left out. -/
def anyJson (intOfStr : PyStr → Option Int) : Reading (JsonField F) where
  uint32 f v := [⟨f, IsNumber intOfStr v, v = 0⟩]
  text f s := [⟨f, IsText s, s = []⟩]
  bytes f b := [⟨f, IsBytes b, b = []⟩]
  enum f names v := [⟨f, IsEnum names v, v = 0⟩]
  message f m := [⟨f, IsOptional m, m = none⟩]
  repeated f ms := [⟨f, IsRepeated ms, ms = []⟩]

/-- What a field of a message may be on the wire: which payloads stand for its value and whether it
may be left out; or, for a repeated field, which payloads stand for its items. -/
inductive WireField where
  | single (number : Nat) (value : Payload → Prop) (omitted : Prop)
  | repeated (number : Nat) (values : List (Payload → Prop))

/-- A payload that a field of the number can carry. -/
def Payload.Sound : Payload → Prop
  | .number n => n < 2 ^ 64
  | .fixed64 b => b.length = 8
  | .bytes b => b.length < 2 ^ 64
  | .fixed32 b => b.length = 4

/-- The bytes `b` encode a message: they are fields in any order, in which each field of the message
that is there has a payload that stands for its value and is there once, those that are missing may be
left out, and items of a repeated field are in their order.  There may be fields that the message does
not have. -/
def Encodes (fs : List WireField) (b : Bytes) : Prop :=
  ∃ ps : List (Nat × Payload),
    b = ps.flatMap (fun p => onWire p.1 p.2) ∧
    (∀ p ∈ ps, 1 ≤ p.1 ∧ p.1 < 2 ^ 29 ∧ p.2.Sound) ∧
    ∀ f ∈ fs, match f with
      | .single n value omitted =>
        (∀ p ∈ ps, p.1 = n → value p.2) ∧ (omitted ∨ ∃ p ∈ ps, p.1 = n) ∧
          (ps.filter fun p => p.1 = n).length ≤ 1
      | .repeated n values =>
        Pairwise (fun value p => value p.2) values (ps.filter fun p => p.1 = n)

/-- Bytes that stand for a message.  Numbers count modulo `2^32`; fields with their default value may
be written or left out. -/
def anyWire : Reading WireField where
  uint32 f v := [.single f.number (fun p => ∃ n, p = .number n ∧ n % 2 ^ 32 = v.toNat) (v = 0)]
  text f s := [.single f.number (fun p => p = .bytes (utf8 s)) (s = [])]
  bytes f b := [.single f.number (fun p => p = .bytes b) (b = [])]
  enum f _ v := [.single f.number (fun p => ∃ n, p = .number n ∧ n % 2 ^ 32 = v.toNat) (v = 0)]
  message f m := [.single f.number
    (fun p => ∃ fs b, m = some fs ∧ p = .bytes b ∧ Encodes fs b) (m = none)]
  repeated f ms := [.repeated f.number (ms.map fun fs p => ∃ b, p = .bytes b ∧ Encodes fs b)]

end KeysetFormat
end Spec
end Tink
