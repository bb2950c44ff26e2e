import Verif.Kms.Envelope
import Verif.Proto.Gen

/-!
# Key managers for KMS keys

`/repo/python/tink/aead/_kms_aead_key_manager.py`.  The managers use the global registry and the
global list of KMS clients; both are parameters, standing for their contents at the time of the
call.  KMS AEADs are `Aead` objects here (`A := Aead`).
-/

namespace Tink
variable {P C : Type} [DecidableEq C]

/-- `_KMS_AEAD_KEY_TYPE_URL`, `_kms_aead_key_manager.py:29`. -/
def KMS_AEAD_KEY_TYPE_URL : PStr := ps! "type.googleapis.com/google.crypto.tink.KmsAeadKey"

/-- `_KMS_ENVELOPE_AEAD_KEY_TYPE_URL`, `_kms_aead_key_manager.py:30-32`. -/
def KMS_ENVELOPE_AEAD_KEY_TYPE_URL : PStr :=
  ps! "type.googleapis.com/google.crypto.tink.KmsEnvelopeAeadKey"

/-- `KmsAeadKeyManager.primitive`, `_kms_aead_key_manager.py:41-46`. -/
def KmsAeadKeyManager.primitive (clients : KmsClients Aead) (keyData : KeyData) : Py Aead :=
  if keyData.typeUrl ≠ KMS_AEAD_KEY_TYPE_URL then .error .tinkError
  else do
    let kmsKey ← KmsAeadKey.fromString keyData.value
    let client ← kmsClientFromUri clients kmsKey.getParams.keyUri.toPy
    client.getAead kmsKey.getParams.keyUri.toPy

/-- `KmsAeadKeyManager.new_key_data`, `_kms_aead_key_manager.py:51-64`. -/
def KmsAeadKeyManager.newKeyData (template : KeyTemplate) : Py KeyData :=
  if template.typeUrl ≠ KMS_AEAD_KEY_TYPE_URL then .error .tinkError
  else do
    let params ← KmsAeadKeyFormat.fromString template.value
    let value ← KmsAeadKey.serializeToString { version := 0, params := some params }
    return { typeUrl := KMS_AEAD_KEY_TYPE_URL, value := value,
             keyMaterialType := KeyMaterialType.REMOTE }

/-- `KmsAeadKeyManager`, `_kms_aead_key_manager.py:35-67`; `t` is its Python type, `c` the class
`Aead`. -/
def kmsAeadKeyManager (V : View P Aead) (t : Nat) (c : C) (clients : KmsClients Aead) :
    KeyManager P C where
  pyType := t
  primitiveClass := c
  keyType := KMS_AEAD_KEY_TYPE_URL
  doesSupport url := decide (KMS_AEAD_KEY_TYPE_URL = url)
  primitive keyData := do
    let a ← KmsAeadKeyManager.primitive clients keyData
    return V.inj a
  newKeyData _ template := KmsAeadKeyManager.newKeyData template

/-- `KmsEnvelopeAeadKeyManager.primitive`, `_kms_aead_key_manager.py:76-85`.  `seed` feeds the key
that the constructor of `KmsEnvelopeAead` generates and discards. -/
def KmsEnvelopeAeadKeyManager.primitive (r : Registry P C) (clients : KmsClients Aead) (seed : Seed)
    (keyData : KeyData) : Py (KmsEnvelopeAead Seed) :=
  if keyData.typeUrl ≠ KMS_ENVELOPE_AEAD_KEY_TYPE_URL then .error .tinkError
  else do
    let envKey ← KmsEnvelopeAeadKey.fromString keyData.value
    let client ← kmsClientFromUri clients envKey.getParams.kekUri.toPy
    let remote ← client.getAead envKey.getParams.kekUri.toPy
    KmsEnvelopeAead.create r seed envKey.getParams.getDekTemplate (RemoteAead.ofAead remote)

/-- `KmsEnvelopeAeadKeyManager.new_key_data`, `_kms_aead_key_manager.py:90-112`. -/
def KmsEnvelopeAeadKeyManager.newKeyData (template : KeyTemplate) : Py KeyData :=
  if template.typeUrl ≠ KMS_ENVELOPE_AEAD_KEY_TYPE_URL then .error .tinkError
  else do
    let params ← KmsEnvelopeAeadKeyFormat.fromString template.value
    if !isSupportedDekKeyType params.getDekTemplate.typeUrl then .error .tinkError
    else do
      let value ← KmsEnvelopeAeadKey.serializeToString { version := 0, params := some params }
      return { typeUrl := KMS_ENVELOPE_AEAD_KEY_TYPE_URL, value := value,
               keyMaterialType := KeyMaterialType.REMOTE }

/-- `KmsEnvelopeAeadKeyManager`, `_kms_aead_key_manager.py:70-115`. -/
def kmsEnvelopeAeadKeyManager (V : View P Aead) (t : Nat) (c : C) (r : Registry P C)
    (clients : KmsClients Aead) (seed : Seed) (split : Seed → Seed × Seed × Seed) :
    KeyManager P C where
  pyType := t
  primitiveClass := c
  keyType := KMS_ENVELOPE_AEAD_KEY_TYPE_URL
  doesSupport url := decide (KMS_ENVELOPE_AEAD_KEY_TYPE_URL = url)
  primitive keyData := do
    let env ← KmsEnvelopeAeadKeyManager.primitive r clients seed keyData
    return V.inj (env.toAead V c r split)
  newKeyData _ template := KmsEnvelopeAeadKeyManager.newKeyData template

/-! ## Templates -/

/-- `create_kms_aead_key_template`, `/repo/python/tink/aead/_aead_key_templates.py:118-149`.
Setting a proto string to a `str` with surrogates raises `UnicodeEncodeError`. -/
def createKmsAeadKeyTemplate (keyUri : PyStr) : Py KeyTemplate := do
  let uri ← PyStr.toProto keyUri
  let value ← KmsAeadKeyFormat.serializeToString { keyUri := uri }
  return { value := value, typeUrl := KMS_AEAD_KEY_TYPE_URL,
           outputPrefixType := OutputPrefixType.RAW }

/-- `create_kms_envelope_aead_key_template`,
`/repo/python/tink/aead/_aead_key_templates.py:152-189`. -/
def createKmsEnvelopeAeadKeyTemplate (kekUri : PyStr) (dekTemplate : KeyTemplate) :
    Py KeyTemplate := do
  let uri ← PyStr.toProto kekUri
  let value ← KmsEnvelopeAeadKeyFormat.serializeToString
    { kekUri := uri, dekTemplate := some dekTemplate }
  return { value := value, typeUrl := KMS_ENVELOPE_AEAD_KEY_TYPE_URL,
           outputPrefixType := OutputPrefixType.RAW }

end Tink
