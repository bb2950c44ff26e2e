import Verif.Stream.CppInput
import Verif.Keyset.Wire
import Verif.Wrap.Registered

/-!
# C++ key managers and primitives in Python

`/repo/python/tink/cc/cc_key_manager.h`, `/repo/python/tink/cc/pybind/*.cc`,
`/repo/python/tink/core/_key_manager.py`, `/repo/python/tink/core/_tink_error.py` and the classes
`…CcToPyWrapper`.  The C++ objects are parameters; their methods return a `StatusOr`.
-/

namespace Tink

/-- `use_tink_errors`, `/repo/python/tink/core/_tink_error.py:29-37`.  `KNOWN_STATUS_NOT_OK_TYPES` is
as in line 19: `register_status_not_ok_type` is not called anywhere. -/
def useTinkErrors {α : Type} : Py α → Py α
  | .error .pythonTinkException => .error .tinkError
  | x => x

/-- `if (!result.ok()) throw TinkException(result.status());`, e.g.
`/repo/python/tink/cc/pybind/aead.cc:51-53`.  The exception arrives in Python as
`PythonTinkException`. -/
def throwTinkException {α : Type} : StatusOr α → Py α
  | .ok a => .ok a
  | .error _ => .error .pythonTinkException

/-! ## C++ primitives -/

namespace Cpp

/-- `Aead`, `/repo/cc/aead.h`. -/
structure Aead where
  encrypt : Seed → Bytes → Bytes → StatusOr Bytes
  decrypt : Bytes → Bytes → StatusOr Bytes

/-- `DeterministicAead`, `/repo/cc/deterministic_aead.h`. -/
structure DeterministicAead where
  encryptDeterministically : Bytes → Bytes → StatusOr Bytes
  decryptDeterministically : Bytes → Bytes → StatusOr Bytes

/-- `HybridEncrypt`, `/repo/cc/hybrid_encrypt.h`. -/
structure HybridEncrypt where
  encrypt : Seed → Bytes → Bytes → StatusOr Bytes

/-- `HybridDecrypt`, `/repo/cc/hybrid_decrypt.h`. -/
structure HybridDecrypt where
  decrypt : Bytes → Bytes → StatusOr Bytes

/-- `Mac`, `/repo/cc/mac.h`. -/
structure Mac where
  computeMac : Bytes → StatusOr Bytes
  verifyMac : Bytes → Bytes → StatusOr Unit

/-- `PublicKeySign`, `/repo/cc/public_key_sign.h`. -/
structure PublicKeySign where
  sign : Seed → Bytes → StatusOr Bytes

/-- `PublicKeyVerify`, `/repo/cc/public_key_verify.h`. -/
structure PublicKeyVerify where
  verify : Bytes → Bytes → StatusOr Unit

/-- `Prf`, `/repo/cc/prf/prf_set.h`. -/
structure Prf where
  compute : Bytes → Nat → StatusOr Bytes

/-- `KeyManager<P>`, `/repo/cc/key_manager.h`: `newKeyData` and `publicKeyData` are `NewKeyData` and
`GetPublicKeyData` of its key factory; `publicKeyData` is present iff that is a
`PrivateKeyFactory`. -/
structure KeyManager (B : Type) where
  keyType : PStr
  getPrimitive : KeyData → StatusOr B
  newKeyData : Seed → Bytes → StatusOr KeyData
  publicKeyData : Option (Bytes → StatusOr KeyData) := none

end Cpp

/-! ## `CcKeyManager` -/

namespace CcKeyManager
variable {B : Type}

/-- `GetFromCcRegistry`, `/repo/python/tink/cc/cc_key_manager.h:48-58`; the argument is what
`Registry::get_key_manager<P>(type_url)` finds. -/
def fromCcRegistry (found : Option (Cpp.KeyManager B)) : Py (Cpp.KeyManager B) :=
  match found with
  | none => .error .pythonTinkException
  | some m => .ok m

/-- `key_data.ParseFromString(serialized)`, lines 66-67, 108-109; the result is not checked.
Simplification: after a failure the message is empty here, whereas protobuf leaves what it has read
before.  Python passes serialized messages only. -/
def parseKeyData (serialized : Bytes) : KeyData :=
  match KeyData.fromString serialized with
  | .ok kd => kd
  | .error _ => {}

/-- The same for key templates, lines 78-79. -/
def parseKeyTemplate (serialized : Bytes) : KeyTemplate :=
  match KeyTemplate.fromString serialized with
  | .ok t => t
  | .error _ => {}

/-- `SerializeAsString`, lines 92, 114: the empty string if the message is too large. -/
def serializeAsString (kd : KeyData) : Bytes :=
  match kd.serializeToString with
  | .ok b => b
  | .error _ => []

/-- `GetPrimitive`, lines 64-74. -/
def primitive (m : Cpp.KeyManager B) (serialized : Bytes) : Py B :=
  throwTinkException (m.getPrimitive (parseKeyData serialized))

/-- `NewKeyData`, lines 77-93. -/
def newKeyData (m : Cpp.KeyManager B) (seed : Seed) (serialized : Bytes) : Py Bytes :=
  let template := parseKeyTemplate serialized
  if m.keyType ≠ template.typeUrl then .error .pythonTinkException
  else do
    let kd ← throwTinkException (m.newKeyData seed template.value)
    return serializeAsString kd

/-- `GetPublicKeyData`, lines 96-115. -/
def publicKeyData (m : Cpp.KeyManager B) (serialized : Bytes) : Py Bytes :=
  match m.publicKeyData with
  | none => .error .pythonTinkException
  | some f => do
    let kd ← throwTinkException (f (parseKeyData serialized).value)
    return serializeAsString kd

end CcKeyManager

/-! ## `KeyManagerCcToPyWrapper` and `PrivateKeyManagerCcToPyWrapper` -/

section
variable {A B P C : Type}

/-- `primitive` of both classes, `/repo/python/tink/core/_key_manager.py:110-113, 139-142`; `toPy` is
the constructor `_primitive_py_wrapper`. -/
def ccToPyPrimitive (V : View P A) (toPy : B → A) (m : Cpp.KeyManager B) (keyData : KeyData) : Py P :=
  useTinkErrors do
    let serialized ← keyData.serializeToString
    let p ← CcKeyManager.primitive m serialized
    return V.inj (toPy p)

/-- `new_key_data` of both classes, lines 118-122, 147-151. -/
def ccToPyNewKeyData (m : Cpp.KeyManager B) (seed : Seed) (template : KeyTemplate) : Py KeyData :=
  useTinkErrors do
    let serialized ← template.serializeToString
    let d ← CcKeyManager.newKeyData m seed serialized
    KeyData.fromString d

/-- `PrivateKeyManagerCcToPyWrapper.public_key_data`, lines 153-156. -/
def ccToPyPublicKeyData (m : Cpp.KeyManager B) (keyData : KeyData) : Py KeyData :=
  useTinkErrors do
    let serialized ← keyData.serializeToString
    let d ← CcKeyManager.publicKeyData m serialized
    KeyData.fromString d

/-- `KeyManagerCcToPyWrapper`, lines 96-122; `t` is this class, `c` the attribute
`_primitive_class`. -/
def keyManagerCcToPy (V : View P A) (toPy : B → A) (t : Nat) (c : C) (m : Cpp.KeyManager B) :
    KeyManager P C where
  pyType := t
  primitiveClass := c
  keyType := m.keyType
  doesSupport url := decide (m.keyType = url)
  primitive := ccToPyPrimitive V toPy m
  newKeyData := ccToPyNewKeyData m

/-- `PrivateKeyManagerCcToPyWrapper`, lines 125-156. -/
def privateKeyManagerCcToPy (V : View P A) (toPy : B → A) (t : Nat) (c : C) (m : Cpp.KeyManager B) :
    KeyManager P C where
  pyType := t
  primitiveClass := c
  keyType := m.keyType
  doesSupport url := decide (m.keyType = url)
  primitive := ccToPyPrimitive V toPy m
  newKeyData := ccToPyNewKeyData m
  publicKeyData := some (ccToPyPublicKeyData m)

end

/-! ## Primitives -/

/-- `AeadCcToPyWrapper`, `/repo/python/tink/aead/_aead_key_manager.py:24-36`, with
`/repo/python/tink/cc/pybind/aead.cc`. -/
def aeadCcToPy (a : Cpp.Aead) : Aead where
  encrypt seed plaintext ad := useTinkErrors (throwTinkException (a.encrypt seed plaintext ad))
  decrypt ciphertext ad := useTinkErrors (throwTinkException (a.decrypt ciphertext ad))

/-- `_DeterministicAeadCcToPyWrapper`,
`/repo/python/tink/daead/_deterministic_aead_key_manager.py:23-39`. -/
def daeadCcToPy (a : Cpp.DeterministicAead) : DeterministicAead where
  encryptDeterministically plaintext ad :=
    useTinkErrors (throwTinkException (a.encryptDeterministically plaintext ad))
  decryptDeterministically ciphertext ad :=
    useTinkErrors (throwTinkException (a.decryptDeterministically ciphertext ad))

/-- `_HybridDecryptCcToPyWrapper`, `/repo/python/tink/hybrid/_hybrid_key_manager.py:24-32`. -/
def hybridDecryptCcToPy (a : Cpp.HybridDecrypt) : HybridDecrypt where
  decrypt ciphertext info := useTinkErrors (throwTinkException (a.decrypt ciphertext info))

/-- `_HybridEncryptCcToPyWrapper`, `/repo/python/tink/hybrid/_hybrid_key_manager.py:35-43`. -/
def hybridEncryptCcToPy (a : Cpp.HybridEncrypt) : HybridEncrypt where
  encrypt seed plaintext info := useTinkErrors (throwTinkException (a.encrypt seed plaintext info))

/-- `_MacCcToPyWrapper`, `/repo/python/tink/mac/_mac_key_manager.py:22-34`. -/
def macCcToPy (a : Cpp.Mac) : Mac where
  computeMac data := useTinkErrors (throwTinkException (a.computeMac data))
  verifyMac mac data := useTinkErrors (throwTinkException (a.verifyMac mac data))

/-- `_PublicKeySignCcToPyWrapper`, `/repo/python/tink/signature/_signature_key_manager.py:24-32`. -/
def signCcToPy (a : Cpp.PublicKeySign) : PublicKeySign where
  sign seed data := useTinkErrors (throwTinkException (a.sign seed data))

/-- `_PublicKeyVerifyCcToPyWrapper`,
`/repo/python/tink/signature/_signature_key_manager.py:35-43`. -/
def verifyCcToPy (a : Cpp.PublicKeyVerify) : PublicKeyVerify where
  verify signature data := useTinkErrors (throwTinkException (a.verify signature data))

/-- `PrfCcToPyWrapper`, `/repo/python/tink/prf/_prf_key_manager.py:23-31`. -/
def prfCcToPy (a : Cpp.Prf) : Prf where
  compute input length := useTinkErrors (throwTinkException (a.compute input length))

end Tink
