import Verif.Stream.Segments
import Verif.Core.CcKeyManager

/-!
# C++ key managers made from key type managers

`/repo/cc/core/key_manager_impl.h`.
-/

namespace Tink.Cpp

/-- `KeyTypeManager<KeyProto, KeyFormatProto, List<Primitive>>`, `/repo/cc/core/key_type_manager.h`, with
the functions of the two messages that are used.  `create` is `Create` of the primitive factory. -/
structure KeyTypeManager (K F B : Type) where
  keyType : PStr
  keyMaterialType : EnumVal
  parseKey : Bytes → Py K
  serializeKey : K → Py Bytes
  parseKeyFormat : Bytes → Py F
  validateKey : K → StatusOr Unit
  validateKeyFormat : F → StatusOr Unit
  createKey : Seed → F → StatusOr K
  create : K → StatusOr B

namespace KeyTypeManager
variable {K F B : Type}

/-- `message.ParseFromString(s)`: INVALID_ARGUMENT if it fails. -/
def parsed {α : Type} : Py α → StatusOr α
  | .ok a => .ok a
  | .error _ => .error ⟨.invalidArgument, false⟩

/-- `message.SerializeAsString()`: the empty string if the message is too large. -/
def serialized : Py Bytes → Bytes
  | .ok b => b
  | .error _ => []

/-- `NewKey` for a message, `/repo/cc/core/key_manager_impl.h:64-83`. -/
def newKey (m : KeyTypeManager K F B) (seed : Seed) (f : F) : StatusOr K := do
  m.validateKeyFormat f
  m.createKey seed f

/-- `NewKey` for a string, lines 85-99, which validates the format, and so does what it calls. -/
def newKeyFromString (m : KeyTypeManager K F B) (seed : Seed) (b : Bytes) : StatusOr K := do
  let f ← parsed (m.parseKeyFormat b)
  m.validateKeyFormat f
  m.newKey seed f

/-- `NewKeyData`, lines 101-112. -/
def newKeyData (m : KeyTypeManager K F B) (seed : Seed) (b : Bytes) : StatusOr KeyData := do
  let k ← m.newKeyFromString seed b
  return { typeUrl := m.keyType, value := serialized (m.serializeKey k),
           keyMaterialType := m.keyMaterialType }

/-- `GetPrimitive`, lines 183-200, with `DoesSupport`, `/repo/cc/key_manager.h:96-98`. -/
def getPrimitive (m : KeyTypeManager K F B) (kd : KeyData) : StatusOr B :=
  if kd.typeUrl ≠ m.keyType then .error ⟨.invalidArgument, false⟩
  else do
    let k ← parsed (m.parseKey kd.value)
    m.validateKey k
    m.create k

/-- `MakeKeyManager`, lines 242-251. -/
def toKeyManager (m : KeyTypeManager K F B) : KeyManager B where
  keyType := m.keyType
  getPrimitive := m.getPrimitive
  newKeyData := m.newKeyData

end KeyTypeManager

/-- `ValidateVersion`, `/repo/cc/util/validation.cc:116-124`. -/
def validateVersion (candidate maxExpected : UInt32) : StatusOr Unit :=
  if candidate > maxExpected then .error ⟨.invalidArgument, false⟩ else .ok ()

/-- `ValidateAesKeySize`, `/repo/cc/util/validation.cc:33-40`. -/
def validateAesKeySize (size : UInt32) : StatusOr Unit :=
  if size ≠ 16 && size ≠ 32 then .error ⟨.invalidArgument, false⟩ else .ok ()

/-- The conversion of a `uint32_t` to `int`. -/
def toInt (x : UInt32) : Int := if x.toNat < 2 ^ 31 then x.toNat else x.toNat - 2 ^ 32

end Tink.Cpp
