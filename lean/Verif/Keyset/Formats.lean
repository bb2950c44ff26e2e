import Verif.Keyset.Handle

/-!
# Binary readers, writers and keyset formats

`/repo/python/tink/_keyset_reader.py`, `_keyset_writer.py`,
`_proto_keyset_format.py`, `_insecure_keyset_handle.py`,
`cleartext_keyset_handle.py`.
-/

namespace Tink

/-- `BinaryKeysetReader`, `_keyset_reader.py:64-85`. -/
def binaryKeysetReader (serialized : Bytes) : KeysetReader where
  read :=
    if serialized = [] then .error .tinkError
    else convertDecodeError (Keyset.fromString serialized)
  readEncrypted :=
    if serialized = [] then .error .tinkError
    else convertDecodeError (EncryptedKeyset.fromString serialized)

/-- `BinaryKeysetWriter`, `_keyset_writer.py:68-93`.  The state is the content of the
output stream, which is assumed to accept whole writes (as `io.BytesIO` and
buffered files do).  The `isinstance` test of the argument always succeeds here. -/
def binaryKeysetWriter : KeysetWriter Bytes where
  write s ks :=
    match ks.serializeToString with
    | .error e => (s, .error e)
    | .ok b => (s ++ b, .ok ())
  writeEncrypted s e :=
    match ({ encryptedKeyset := e.encryptedKeyset } : EncryptedKeyset).serializeToString with
    | .error e => (s, .error e)
    | .ok b => (s ++ b, .ok ())

/-- Objects passed as a `KeyAccess` token: `SecretKeyAccess` instances
(`_secret_key_access.py:25-27`), `PublicKeyAccess` instances
(`_keyset_handle.py:32-33`) and anything else. -/
inductive Token where
  | secretKeyAccess
  | publicKeyAccess
  | other (n : Nat)
  deriving DecidableEq, Repr

/-- `has_secret_key_access`, `_keyset_handle.py:40-42`. -/
def hasSecretKeyAccess (t : Token) : Bool := t = .secretKeyAccess

/-- `from_proto_keyset`, `_insecure_keyset_handle.py:22-27`. -/
def fromProtoKeyset (ks : Keyset) (token : Token) : Py KeysetHandle :=
  if !hasSecretKeyAccess token then .error .tinkError else KeysetHandle.create ks

/-- `to_proto_keyset`, `_insecure_keyset_handle.py:30-35`. -/
def toProtoKeyset (h : KeysetHandle) (token : Token) : Py Keyset :=
  if !hasSecretKeyAccess token then .error .tinkError else .ok h.keyset

namespace CleartextKeysetHandle
/-- `from_keyset`, `cleartext_keyset_handle.py:27-29`. -/
def fromKeyset (ks : Keyset) : Py KeysetHandle := KeysetHandle.create ks
/-- `read`, `cleartext_keyset_handle.py:32-35`. -/
def read (reader : KeysetReader) : Py KeysetHandle := do
  let ks ← reader.read
  KeysetHandle.create ks
/-- `write`, `cleartext_keyset_handle.py:38-41`. -/
def write {σ : Type} (w : KeysetWriter σ) (s : σ) (h : KeysetHandle) : σ × Py Unit :=
  w.write s h.keyset
end CleartextKeysetHandle

/-- The final `return output_stream.getvalue()` after a write to a fresh stream. -/
def getvalue {σ : Type} : σ × Py Unit → Py σ
  | (b, .ok ()) => .ok b
  | (_, .error e) => .error e

namespace ProtoKeysetFormat
/-- `parse`, `_proto_keyset_format.py:26-31`. -/
def parse (serialized : Bytes) (token : Token) : Py KeysetHandle := do
  let ks ← (binaryKeysetReader serialized).read
  fromProtoKeyset ks token

/-- `serialize`, `_proto_keyset_format.py:34-41`. -/
def serialize (h : KeysetHandle) (token : Token) : Py Bytes := do
  let ks ← toProtoKeyset h token
  getvalue (binaryKeysetWriter.write [] ks)

/-- `parse_without_secret`, `_proto_keyset_format.py:44-50`. -/
def parseWithoutSecret (serialized : Bytes) : Py KeysetHandle :=
  KeysetHandle.readNoSecret (binaryKeysetReader serialized)

/-- `serialize_without_secret`, `_proto_keyset_format.py:53-60`. -/
def serializeWithoutSecret (h : KeysetHandle) : Py Bytes :=
  getvalue (h.writeNoSecret binaryKeysetWriter [])

/-- `parse_encrypted`, `_proto_keyset_format.py:63-73`. -/
def parseEncrypted (serialized : Bytes) (aead : Aead) (ad : Bytes) : Py KeysetHandle :=
  KeysetHandle.readWithAssociatedData (binaryKeysetReader serialized) aead ad

/-- `serialize_encrypted`, `_proto_keyset_format.py:76-89`. -/
def serializeEncrypted (h : KeysetHandle) (aead : Aead) (seed : Seed) (ad : Bytes) : Py Bytes :=
  getvalue (h.writeWithAssociatedData binaryKeysetWriter [] aead seed ad)
end ProtoKeysetFormat

end Tink
