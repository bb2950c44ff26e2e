import Verif.Core.Registry
import Verif.Keyset.Wire
import Verif.Wrap.Primitives

/-!
# Keyset handles

`/repo/python/tink/_keyset_handle.py`.  A handle is represented by its keyset.
Keysets are values here; `Heap/Keyset.lean` has them as objects that caller and handle can share.
-/

namespace Tink

/-- `_validate_key`, `_keyset_handle.py:294-301`. -/
def validateKey (key : Key) : Py Unit :=
  if key.keyData.isNone then .error .tinkError
  else if key.outputPrefixType = OutputPrefixType.UNKNOWN_PREFIX then .error .tinkError
  else if key.status = KeyStatusType.UNKNOWN_STATUS then .error .tinkError
  else .ok ()

/-- `_validate_keyset`, `_keyset_handle.py:273-291`. -/
def validateKeyset (ks : Keyset) : Py Unit := do
  ks.key.forM fun key =>
    if key.status ≠ KeyStatusType.DESTROYED then validateKey key else .ok ()
  let numNonDestroyedKeys := ks.key.countP fun key => key.status ≠ KeyStatusType.DESTROYED
  let numNonPublicKeyMaterial :=
    ks.key.countP fun key => key.data.keyMaterialType ≠ KeyMaterialType.ASYMMETRIC_PUBLIC
  let numPrimaryKeys :=
    ks.key.countP fun key => key.status = KeyStatusType.ENABLED ∧ key.keyId = ks.primaryKeyId
  if numNonDestroyedKeys = 0 then .error .tinkError
  else if numPrimaryKeys > 1 then .error .tinkError
  else if numPrimaryKeys = 0 ∧ numNonPublicKeyMaterial > 0 then .error .tinkError
  else .ok ()

/-- `_assert_no_secret_key_material`, `_keyset_handle.py:304-309`. -/
def assertNoSecretKeyMaterial (ks : Keyset) : Py Unit :=
  ks.key.forM fun key =>
    if key.data.keyMaterialType = KeyMaterialType.UNKNOWN_KEYMATERIAL ∨
       key.data.keyMaterialType = KeyMaterialType.SYMMETRIC ∨
       key.data.keyMaterialType = KeyMaterialType.ASYMMETRIC_PRIVATE then .error .tinkError
    else .ok ()

/-- `_assert_enough_key_material`, `_keyset_handle.py:312-314`.  A proto message is
always truthy. -/
def assertEnoughKeyMaterial (ks : Keyset) : Py Unit :=
  if ks.key = [] then .error .tinkError else .ok ()

/-- `_assert_enough_encrypted_key_material`, `_keyset_handle.py:317-320`. -/
def assertEnoughEncryptedKeyMaterial (e : EncryptedKeyset) : Py Unit :=
  if e.encryptedKeyset = [] then .error .tinkError else .ok ()

/-- `_generate_unused_key_id`, `_keyset_handle.py:323-327`.  `draws` are the successive
results of `random.randint(1, MAX_INT32)`; `none` means that the loop has consumed
all of them without finding an unused id and is still running. -/
def generateUnusedKeyId : List UInt32 → Keyset → Option UInt32
  | [], _ => none
  | keyId :: draws, ks =>
    if keyId ∉ ks.key.map Key.keyId then some keyId else generateUnusedKeyId draws ks

/-- `MAX_INT32`, `_keyset_handle.py:29`. -/
def MAX_INT32 : Nat := 2147483647

/-- A `KeysetHandle`; `keyset` is `_keyset`. -/
structure KeysetHandle where
  keyset : Keyset
  deriving DecidableEq, Repr

/-- `_create` and `__init__`, `_keyset_handle.py:56-58, 129-133`. -/
def KeysetHandle.create (ks : Keyset) : Py KeysetHandle := do
  validateKeyset ks
  return { keyset := ks }

/-- `KeysetHandle(...)` called directly: `__new__`, `_keyset_handle.py:53-54`. -/
def KeysetHandle.new : Py KeysetHandle := .error .tinkError

/-- `__getstate__`, `_keyset_handle.py:60-64`. -/
def KeysetHandle.getstate (_ : KeysetHandle) : Py Unit := .error .tinkError

section
variable {P C : Type}

/-- `generate_new`, `_keyset_handle.py:73-94`.  `none`: the search for a key id is still
running after the given draws. -/
def KeysetHandle.generateNew (r : Registry P C) (seed : Seed) (draws : List UInt32)
    (template : KeyTemplate) : Option (Py KeysetHandle) :=
  match r.newKeyData seed template with
  | .error e => some (.error e)
  | .ok keyData =>
    match generateUnusedKeyId draws {} with
    | none => none
    | some keyId =>
      let key : Key :=
        { keyData := some keyData, status := KeyStatusType.ENABLED, keyId := keyId,
          outputPrefixType := template.outputPrefixType }
      some (KeysetHandle.create { primaryKeyId := keyId, key := [key] })

/-- `public_keyset_handle`, `_keyset_handle.py:168-177`. -/
def KeysetHandle.publicKeysetHandle (r : Registry P C) (h : KeysetHandle) : Py KeysetHandle := do
  let keys ← h.keyset.key.mapM fun key => do
    let pkd ← r.publicKeyData key.data
    let publicKey : Key := { key with keyData := some pkd }
    validateKey publicKey
    return publicKey
  KeysetHandle.create { primaryKeyId := h.keyset.primaryKeyId, key := keys }

variable [DecidableEq C]

/-- The loop body of `primitive`, `_keyset_handle.py:199-204`. -/
def KeysetHandle.addKey (isInst : P → C → Bool) (r : Registry P C) (inputClass : C)
    (primaryKeyId : UInt32) (pset : PrimitiveSet P C) (key : Key) : Py (PrimitiveSet P C) :=
  if key.status = KeyStatusType.ENABLED then do
    let prim ← r.primitive key.data inputClass
    let (pset, entry) ← pset.addPrimitive isInst prim key
    return if key.keyId = primaryKeyId then pset.setPrimary entry else pset
  else .ok pset

/-- The primitive set that `primitive` builds, `_keyset_handle.py:198-204`. -/
def KeysetHandle.primitiveSet (isInst : P → C → Bool) (r : Registry P C) (inputClass : C)
    (ks : Keyset) : Py (PrimitiveSet P C) :=
  ks.key.foldlM (KeysetHandle.addKey isInst r inputClass ks.primaryKeyId)
    { primitiveClass := inputClass }

/-- `primitive`, `_keyset_handle.py:179-205`. -/
def KeysetHandle.primitive (isInst : P → C → Bool) (r : Registry P C) (h : KeysetHandle)
    (primitiveClass : C) : Py P := do
  validateKeyset h.keyset
  let inputClass ← r.inputPrimitiveClass primitiveClass
  let pset ← KeysetHandle.primitiveSet isInst r inputClass h.keyset
  r.wrap pset primitiveClass

end

/-- `_keyset_info`, `_keyset_handle.py:229-237`. -/
def keysetInfo (ks : Keyset) : KeysetInfo :=
  { primaryKeyId := ks.primaryKeyId
    keyInfo := ks.key.map fun key =>
      { typeUrl := key.data.typeUrl, status := key.status,
        outputPrefixType := key.outputPrefixType, keyId := key.keyId } }

/-- `except message.DecodeError: raise core.TinkError(...)` around a block. -/
def convertDecodeError {α : Type} : Py α → Py α
  | .error .decodeError => .error .tinkError
  | r => r

/-- `_encrypt`, `_keyset_handle.py:240-255`. -/
def encryptKeyset (ks : Keyset) (aead : Aead) (seed : Seed) (ad : Bytes) : Py EncryptedKeyset := do
  let serialized ← ks.serializeToString
  let encrypted ← aead.encrypt seed serialized ad
  convertDecodeError do
    let decrypted ← aead.decrypt encrypted ad
    let ks2 ← Keyset.fromString decrypted
    if ks ≠ ks2 then .error .tinkError else .ok ()
  return { encryptedKeyset := encrypted, keysetInfo := some (keysetInfo ks) }

/-- `_decrypt`, `_keyset_handle.py:258-270`. -/
def decryptKeyset (e : EncryptedKeyset) (aead : Aead) (ad : Bytes) : Py Keyset :=
  convertDecodeError do
    let decrypted ← aead.decrypt e.encryptedKeyset ad
    let ks ← Keyset.fromString decrypted
    assertEnoughKeyMaterial ks
    return ks

/-- `KeysetReader`, `/repo/python/tink/_keyset_reader.py:26-37`. -/
structure KeysetReader where
  read : Py Keyset
  readEncrypted : Py EncryptedKeyset

/-- `KeysetWriter`, `/repo/python/tink/_keyset_writer.py:26-37`.  `σ` is the state of the
storage system; a call returns the new state. -/
structure KeysetWriter (σ : Type) where
  write : σ → Keyset → σ × Py Unit
  writeEncrypted : σ → EncryptedKeyset → σ × Py Unit

namespace KeysetHandle
variable {σ : Type}

/-- `read_with_associated_data`, `_keyset_handle.py:102-110`. -/
def readWithAssociatedData (reader : KeysetReader) (aead : Aead) (ad : Bytes) :
    Py KeysetHandle := do
  let encrypted ← reader.readEncrypted
  assertEnoughEncryptedKeyMaterial encrypted
  let ks ← decryptKeyset encrypted aead ad
  create ks

/-- `read`, `_keyset_handle.py:96-100`. -/
def read (reader : KeysetReader) (aead : Aead) : Py KeysetHandle :=
  readWithAssociatedData reader aead []

/-- `read_no_secret`, `_keyset_handle.py:112-127`. -/
def readNoSecret (reader : KeysetReader) : Py KeysetHandle := do
  let ks ← reader.read
  assertNoSecretKeyMaterial ks
  create ks

/-- `write_with_associated_data`, `_keyset_handle.py:144-151`. -/
def writeWithAssociatedData (h : KeysetHandle) (w : KeysetWriter σ) (s : σ) (aead : Aead)
    (seed : Seed) (ad : Bytes) : σ × Py Unit :=
  match encryptKeyset h.keyset aead seed ad with
  | .error e => (s, .error e)
  | .ok encrypted => w.writeEncrypted s encrypted

/-- `write`, `_keyset_handle.py:139-142`. -/
def write (h : KeysetHandle) (w : KeysetWriter σ) (s : σ) (aead : Aead) (seed : Seed) :
    σ × Py Unit :=
  h.writeWithAssociatedData w s aead seed []

/-- `write_no_secret`, `_keyset_handle.py:153-166`. -/
def writeNoSecret (h : KeysetHandle) (w : KeysetWriter σ) (s : σ) : σ × Py Unit :=
  match assertNoSecretKeyMaterial h.keyset with
  | .error e => (s, .error e)
  | .ok () => w.write s h.keyset

/-- `keyset_info`, `_keyset_handle.py:135-137`. -/
def info (h : KeysetHandle) : KeysetInfo := keysetInfo h.keyset

end KeysetHandle
end Tink
