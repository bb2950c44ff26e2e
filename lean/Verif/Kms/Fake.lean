import Verif.Kms.Remote
import Verif.Keyset.Formats
import Verif.Py.Base64
import Verif.Py.Utf8

/-!
# A KMS for tests

`/repo/python/tink/testing/fake_kms.py`.  The keyset of a key of this KMS is a part of the key's URI.
-/

namespace Tink.FakeKms
variable {P C : Type} [DecidableEq C]

/-- `FAKE_KMS_PREFIX`, `fake_kms.py:24`. -/
def FAKE_KMS_PREFIX : PyStr := py! "fake-kms://"

/-- `FakeKmsClient.__init__`, `fake_kms.py:30-36`: the value of `_key_uri`. -/
def initKeyUri : Option PyStr → Py (Option PyStr)
  | none => .ok none
  | some uri =>
    if uri = [] then .ok none
    else if startsWith uri FAKE_KMS_PREFIX then .ok (some uri)
    else .error .tinkError

/-- `does_support`, `fake_kms.py:38-43`. -/
def doesSupport (bound : Option PyStr) (uri : PyStr) : Bool :=
  if !startsWith uri FAKE_KMS_PREFIX then false
  else match bound with
    | none => true
    | some b => decide (uri = b)

/-- `get_aead`, `fake_kms.py:45-53`.  `r` is the global registry at the time of the call, `c` the class
`Aead`, `V` reads its objects.  A client that is bound to a URI does not compare it here. -/
def getAead (V : View P Aead) (isInst : P → C → Bool) (c : C) (r : Registry P C) (uri : PyStr) : Py Aead :=
  if !startsWith uri FAKE_KMS_PREFIX then .error .tinkError
  else do
    let keyId := uri.drop FAKE_KMS_PREFIX.length
    let encoded ← utf8Encode keyId
    let serializedKey ← urlsafeB64decode (encoded ++ by! "===")
    let handle ← ProtoKeysetFormat.parse serializedKey .secretKeyAccess
    let p ← handle.primitive isInst r c
    return V.view p

/-- `FakeKmsClient(key_uri)`. -/
def FakeKmsClient.create (V : View P Aead) (isInst : P → C → Bool) (c : C) (r : Registry P C)
    (keyUri : Option PyStr) : Py (KmsClient Aead) := do
  let bound ← initKeyUri keyUri
  return { doesSupport := fun uri => .ok (doesSupport bound uri), getAead := getAead V isInst c r }

/-- `register_client`, `fake_kms.py:56-59`. -/
def registerClient (V : View P Aead) (isInst : P → C → Bool) (c : C) (r : Registry P C)
    (clients : KmsClients Aead) (keyUri : Option PyStr) : Py (KmsClients Aead) := do
  let client ← FakeKmsClient.create V isInst c r keyUri
  return registerKmsClient clients client

end Tink.FakeKms
