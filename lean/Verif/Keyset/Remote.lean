import Verif.Keyset.JsonFormat
import Verif.Kms.Remote

/-!
# Keysets encrypted by a server

The functions `_encrypt` and `_decrypt` of `/repo/python/tink/_keyset_handle.py` and their callers again,
for an AEAD that is a server with a state (or anything else with one); in `Keyset/Handle.lean` the AEAD
has none.  That the two agree is shown in `Props/CliEncryptedKeyset.lean`.
-/

namespace Tink
variable {κ F : Type}

/-- `encrypt` or `decrypt` of an AEAD, with the associated data filled in. -/
abbrev RemoteCall (κ : Type) := κ → Bytes → κ × Py Bytes

/-- `_encrypt`, `_keyset_handle.py:240-255`. -/
def encryptKeysetRemotely (ks : Keyset) (encrypt decrypt : RemoteCall κ) (s : κ) : κ × Py EncryptedKeyset :=
  match ks.serializeToString with
  | .error e => (s, .error e)
  | .ok serialized =>
    match encrypt s serialized with
    | (s1, .error e) => (s1, .error e)
    | (s1, .ok encrypted) =>
      let (s2, x) := decrypt s1 encrypted
      (s2, do
        convertDecodeError do
          let decrypted ← x
          let ks2 ← Keyset.fromString decrypted
          if ks ≠ ks2 then .error .tinkError else .ok ()
        return { encryptedKeyset := encrypted, keysetInfo := some (keysetInfo ks) })

/-- `_decrypt`, `_keyset_handle.py:258-270`. -/
def decryptKeysetRemotely (e : EncryptedKeyset) (decrypt : RemoteCall κ) (s : κ) : κ × Py Keyset :=
  let (s1, x) := decrypt s e.encryptedKeyset
  (s1, convertDecodeError do
    let decrypted ← x
    let ks ← Keyset.fromString decrypted
    assertEnoughKeyMaterial ks
    return ks)

/-- `serialize_encrypted`, `_json_proto_keyset_format.py:76-89`, with `write_with_associated_data`,
`_keyset_handle.py:144-151`. -/
def serializeEncryptedRemotely (E : JsonFormatEnv F) (h : KeysetHandle) (encrypt decrypt : RemoteCall κ)
    (s : κ) : κ × Py PyStr :=
  let (s1, x) := encryptKeysetRemotely h.keyset encrypt decrypt s
  (s1, do
    let encrypted ← x
    getvalue ((jsonKeysetWriter E).writeEncrypted [] encrypted))

/-- `parse_encrypted`, `_json_proto_keyset_format.py:63-73`, with `read_with_associated_data`,
`_keyset_handle.py:102-110`. -/
def parseEncryptedRemotely (E : JsonFormatEnv F) (text : PyStr) (decrypt : RemoteCall κ) (s : κ) :
    κ × Py KeysetHandle :=
  let encrypted : Py EncryptedKeyset := do
    let encrypted ← (jsonKeysetReader E text).readEncrypted
    assertEnoughEncryptedKeyMaterial encrypted
    return encrypted
  match encrypted with
  | .error e => (s, .error e)
  | .ok encrypted =>
    let (s1, x) := decryptKeysetRemotely encrypted decrypt s
    (s1, do
      let ks ← x
      KeysetHandle.create ks)

end Tink
