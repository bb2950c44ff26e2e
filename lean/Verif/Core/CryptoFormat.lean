import Verif.Core.Proto

namespace Tink

/-- `TINK_START_BYTE`, `/repo/python/tink/core/_crypto_format.py:22`. -/
def TINK_START_BYTE : UInt8 := 0x01
/-- `LEGACY_START_BYTE`, `/repo/python/tink/core/_crypto_format.py:23`. -/
def LEGACY_START_BYTE : UInt8 := 0x00
/-- `NON_RAW_PREFIX_SIZE`, `/repo/python/tink/core/_crypto_format.py:25`. -/
def NON_RAW_PREFIX_SIZE : Nat := 5
/-- `RAW_PREFIX`, `/repo/python/tink/core/_crypto_format.py:27`. -/
def RAW_PREFIX : Bytes := []

/-- `output_prefix`, `/repo/python/tink/core/_crypto_format.py:30-42`.
`struct.pack('>cL', b, id)` is the byte followed by the id in four bytes, big
endian. -/
def outputPrefix (key : Key) : Py Bytes :=
  if key.outputPrefixType = OutputPrefixType.TINK then
    .ok (TINK_START_BYTE :: be32 key.keyId.toNat)
  else if key.outputPrefixType = OutputPrefixType.CRUNCHY ∨
      key.outputPrefixType = OutputPrefixType.LEGACY then
    .ok (LEGACY_START_BYTE :: be32 key.keyId.toNat)
  else if key.outputPrefixType = OutputPrefixType.RAW then
    .ok []
  else
    .error .tinkError

end Tink
