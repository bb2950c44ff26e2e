import Verif.Core.KeyTypeManager

/-!
# C++ key managers for private and public keys

`/repo/cc/core/private_key_manager_impl.h` and the part of `/repo/cc/core/key_manager_impl.h` about key type
managers that cannot make keys.
-/

namespace Tink.Cpp

/-- `KeyTypeManager<KeyProto, void, List<Primitive>>`, `/repo/cc/core/key_type_manager.h`: as
`KeyTypeManager`, without key formats. -/
structure PublicKeyTypeManager (K B : Type) where
  keyType : PStr
  keyMaterialType : EnumVal
  parseKey : Bytes → Py K
  serializeKey : K → Py Bytes
  validateKey : K → StatusOr Unit
  create : K → StatusOr B

namespace PublicKeyTypeManager
variable {K B : Type}

/-- `GetPrimitive`, `/repo/cc/core/key_manager_impl.h:183-201`. -/
def getPrimitive (m : PublicKeyTypeManager K B) (kd : KeyData) : StatusOr B :=
  if kd.typeUrl ≠ m.keyType then .error ⟨.invalidArgument, false⟩
  else do
    let k ← KeyTypeManager.parsed (m.parseKey kd.value)
    m.validateKey k
    m.create k

/-- `MakeKeyManager`, lines 244-251, with the key factory of lines 122-152: UNIMPLEMENTED. -/
def toKeyManager (m : PublicKeyTypeManager K B) : KeyManager B where
  keyType := m.keyType
  getPrimitive := m.getPrimitive
  newKeyData _ _ := .error ⟨.other 12, false⟩

end PublicKeyTypeManager

/-- `PrivateKeyFactoryImpl::GetPublicKeyData`, `/repo/cc/core/private_key_manager_impl.h:77-96`;
`getPublicKey` is `GetPublicKey` of the private key manager, which succeeds in all of them. -/
def getPublicKeyData {K F B PK PB : Type} (m : KeyTypeManager K F B) (pub : PublicKeyTypeManager PK PB)
    (getPublicKey : K → PK) (b : Bytes) : StatusOr KeyData := do
  let k ← KeyTypeManager.parsed (m.parseKey b)
  m.validateKey k
  return { typeUrl := pub.keyType, value := KeyTypeManager.serialized (pub.serializeKey (getPublicKey k)),
           keyMaterialType := pub.keyMaterialType }

/-- `MakePrivateKeyManager`, lines 159-173. -/
def toPrivateKeyManager {K F B PK PB : Type} (m : KeyTypeManager K F B) (pub : PublicKeyTypeManager PK PB)
    (getPublicKey : K → PK) : KeyManager B where
  keyType := m.keyType
  getPrimitive := m.getPrimitive
  newKeyData := m.newKeyData
  publicKeyData := some (getPublicKeyData m pub getPublicKey)

end Tink.Cpp
