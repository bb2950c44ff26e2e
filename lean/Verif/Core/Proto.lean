import Verif.Py.Basic

/-!
# The messages of `tink.proto`

`/repo/python/tink/proto/tink.proto`.  Enums are open (`proto3`): a value is an
`int32`, represented by its 32-bit pattern, so unknown numbers are values too.
A submessage field that may be absent is an `Option`.  Unknown fields are not
carried (simplification; parsing skips them).
-/

namespace Tink

/-- The 32-bit pattern of an open enum value. -/
abbrev EnumVal := UInt32

/-! `enum OutputPrefixType`, `tink.proto:88-94`. -/
namespace OutputPrefixType
def UNKNOWN_PREFIX : EnumVal := 0
def TINK : EnumVal := 1
def LEGACY : EnumVal := 2
def RAW : EnumVal := 3
def CRUNCHY : EnumVal := 4
end OutputPrefixType

/-! `enum KeyStatusType`, `tink.proto:67-72`. -/
namespace KeyStatusType
def UNKNOWN_STATUS : EnumVal := 0
def ENABLED : EnumVal := 1
def DISABLED : EnumVal := 2
def DESTROYED : EnumVal := 3
end KeyStatusType

/-! `enum KeyData.KeyMaterialType`, `tink.proto:120-126`. -/
namespace KeyMaterialType
def UNKNOWN_KEYMATERIAL : EnumVal := 0
def SYMMETRIC : EnumVal := 1
def ASYMMETRIC_PRIVATE : EnumVal := 2
def ASYMMETRIC_PUBLIC : EnumVal := 3
def REMOTE : EnumVal := 4
end KeyMaterialType

/-- `message KeyTemplate`. -/
structure KeyTemplate where
  typeUrl : PStr := []
  value : Bytes := []
  outputPrefixType : EnumVal := 0
  deriving DecidableEq, Repr, Inhabited

/-- `message KeyData`. -/
structure KeyData where
  typeUrl : PStr := []
  value : Bytes := []
  keyMaterialType : EnumVal := 0
  deriving DecidableEq, Repr, Inhabited

/-- `message Keyset.Key`. `keyData = none` is `not key.HasField('key_data')`. -/
structure Key where
  keyData : Option KeyData := none
  status : EnumVal := 0
  keyId : UInt32 := 0
  outputPrefixType : EnumVal := 0
  deriving DecidableEq, Repr, Inhabited

/-- Reading `key.key_data` when the field is absent yields the default message. -/
def Key.data (k : Key) : KeyData := k.keyData.getD {}

/-- `message Keyset`. -/
structure Keyset where
  primaryKeyId : UInt32 := 0
  key : List Key := []
  deriving DecidableEq, Repr, Inhabited

/-- `message KeysetInfo.KeyInfo`. -/
structure KeyInfo where
  typeUrl : PStr := []
  status : EnumVal := 0
  keyId : UInt32 := 0
  outputPrefixType : EnumVal := 0
  deriving DecidableEq, Repr, Inhabited

/-- `message KeysetInfo`. -/
structure KeysetInfo where
  primaryKeyId : UInt32 := 0
  keyInfo : List KeyInfo := []
  deriving DecidableEq, Repr, Inhabited

/-- `message EncryptedKeyset`. -/
structure EncryptedKeyset where
  encryptedKeyset : Bytes := []
  keysetInfo : Option KeysetInfo := none
  deriving DecidableEq, Repr, Inhabited

end Tink
