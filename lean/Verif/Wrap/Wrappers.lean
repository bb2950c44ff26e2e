import Verif.Wrap.Primitives

/-!
# Keyset wrappers

Each wrapper turns a `PrimitiveSet` into a primitive over a keyset.
-/

namespace Tink
variable {C : Type}

/-! ## AEAD: `/repo/python/tink/aead/_aead_wrapper.py` -/
namespace WrappedAead

/-- `_WrappedAead.encrypt`, `_aead_wrapper.py:29-32`. -/
def encrypt (s : PrimitiveSet Aead C) (seed : Seed) (plaintext ad : Bytes) : Py Bytes := do
  let primary ← s.primary
  let c ← primary.primitive.encrypt seed plaintext ad
  return primary.identifier ++ c

/-- `_WrappedAead.decrypt`, `_aead_wrapper.py:34-51`. -/
def decrypt (s : PrimitiveSet Aead C) (ciphertext ad : Bytes) : Py Bytes :=
  let tryRaw : Py Bytes :=
    tryEntries (fun e => e.primitive.decrypt ciphertext ad) s.rawPrimitives (.error .tinkError)
  if ciphertext.length > NON_RAW_PREFIX_SIZE then
    let pre := ciphertext.take NON_RAW_PREFIX_SIZE
    let ciphertextNoPrefix := ciphertext.drop NON_RAW_PREFIX_SIZE
    tryEntries (fun e => e.primitive.decrypt ciphertextNoPrefix ad)
      (s.primitiveFromIdentifier pre) tryRaw
  else tryRaw

/-- `AeadWrapper.wrap`, `_aead_wrapper.py:64-65`. -/
def wrap (s : PrimitiveSet Aead C) : Aead := { encrypt := encrypt s, decrypt := decrypt s }
end WrappedAead

/-! ## Deterministic AEAD: `/repo/python/tink/daead/_deterministic_aead_wrapper.py` -/
namespace WrappedDeterministicAead

/-- `encrypt_deterministically`, `_deterministic_aead_wrapper.py:29-33`. -/
def encryptDeterministically (s : PrimitiveSet DeterministicAead C) (plaintext ad : Bytes) :
    Py Bytes := do
  let primary ← s.primary
  let c ← primary.primitive.encryptDeterministically plaintext ad
  return primary.identifier ++ c

/-- `decrypt_deterministically`, `_deterministic_aead_wrapper.py:35-54`. -/
def decryptDeterministically (s : PrimitiveSet DeterministicAead C) (ciphertext ad : Bytes) :
    Py Bytes :=
  let tryRaw : Py Bytes :=
    tryEntries (fun e => e.primitive.decryptDeterministically ciphertext ad)
      s.rawPrimitives (.error .tinkError)
  if ciphertext.length > NON_RAW_PREFIX_SIZE then
    let pre := ciphertext.take NON_RAW_PREFIX_SIZE
    let ciphertextNoPrefix := ciphertext.drop NON_RAW_PREFIX_SIZE
    tryEntries (fun e => e.primitive.decryptDeterministically ciphertextNoPrefix ad)
      (s.primitiveFromIdentifier pre) tryRaw
  else tryRaw

/-- `DeterministicAeadWrapper.wrap`, `_deterministic_aead_wrapper.py:70-72`. -/
def wrap (s : PrimitiveSet DeterministicAead C) : DeterministicAead :=
  { encryptDeterministically := encryptDeterministically s
    decryptDeterministically := decryptDeterministically s }
end WrappedDeterministicAead

/-! ## Hybrid encryption: `/repo/python/tink/hybrid/_hybrid_wrapper.py` -/
namespace WrappedHybridDecrypt

/-- `_WrappedHybridDecrypt.decrypt`, `_hybrid_wrapper.py:30-47`. -/
def decrypt (s : PrimitiveSet HybridDecrypt C) (ciphertext contextInfo : Bytes) : Py Bytes :=
  let tryRaw : Py Bytes :=
    tryEntries (fun e => e.primitive.decrypt ciphertext contextInfo)
      s.rawPrimitives (.error .tinkError)
  if ciphertext.length > NON_RAW_PREFIX_SIZE then
    let pre := ciphertext.take NON_RAW_PREFIX_SIZE
    let ciphertextNoPrefix := ciphertext.drop NON_RAW_PREFIX_SIZE
    tryEntries (fun e => e.primitive.decrypt ciphertextNoPrefix contextInfo)
      (s.primitiveFromIdentifier pre) tryRaw
  else tryRaw

/-- `HybridDecryptWrapper.wrap`, `_hybrid_wrapper.py:61-63`. -/
def wrap (s : PrimitiveSet HybridDecrypt C) : HybridDecrypt := { decrypt := decrypt s }
end WrappedHybridDecrypt

namespace WrappedHybridEncrypt

/-- `_WrappedHybridEncrypt.encrypt`, `_hybrid_wrapper.py:78-83`.  The extra test of
`primary()` cannot fail: `primary()` raises instead of returning a falsy value. -/
def encrypt (s : PrimitiveSet HybridEncrypt C) (seed : Seed) (plaintext contextInfo : Bytes) :
    Py Bytes := do
  let _ ← s.primary
  let primary ← s.primary
  let c ← primary.primitive.encrypt seed plaintext contextInfo
  return primary.identifier ++ c

/-- `HybridEncryptWrapper.wrap`, `_hybrid_wrapper.py:96-98`. -/
def wrap (s : PrimitiveSet HybridEncrypt C) : HybridEncrypt := { encrypt := encrypt s }
end WrappedHybridEncrypt

/-! ## MAC: `/repo/python/tink/mac/_mac_wrapper.py` -/
namespace WrappedMac

/-- `_WrappedMac.compute_mac`, `_mac_wrapper.py:30-36`. -/
def computeMac (s : PrimitiveSet Mac C) (data : Bytes) : Py Bytes := do
  let primary ← s.primary
  if primary.outputPrefixType = OutputPrefixType.LEGACY then
    let t ← primary.primitive.computeMac (data ++ [LEGACY_START_BYTE])
    return primary.identifier ++ t
  else
    let t ← primary.primitive.computeMac data
    return primary.identifier ++ t

/-- `_WrappedMac.verify_mac`, `_mac_wrapper.py:38-64`. -/
def verifyMac (s : PrimitiveSet Mac C) (macValue data : Bytes) : Py Unit :=
  if macValue.length ≤ NON_RAW_PREFIX_SIZE then .error .tinkError
  else
    let pre := macValue.take NON_RAW_PREFIX_SIZE
    let macNoPrefix := macValue.drop NON_RAW_PREFIX_SIZE
    tryEntries
      (fun e =>
        if e.outputPrefixType = OutputPrefixType.LEGACY then
          e.primitive.verifyMac macNoPrefix (data ++ [0x00])
        else
          e.primitive.verifyMac macNoPrefix data)
      (s.primitiveFromIdentifier pre)
      (tryEntries (fun e => e.primitive.verifyMac macValue data)
        s.rawPrimitives (.error .tinkError))

/-- `MacWrapper.wrap`, `_mac_wrapper.py:78-79`. -/
def wrap (s : PrimitiveSet Mac C) : Mac := { computeMac := computeMac s, verifyMac := verifyMac s }
end WrappedMac

/-! ## Signatures: `/repo/python/tink/signature/_signature_wrapper.py` -/
namespace WrappedPublicKeySign

/-- `_WrappedPublicKeySign.sign`, `_signature_wrapper.py:31-49`. -/
def sign (s : PrimitiveSet PublicKeySign C) (seed : Seed) (data : Bytes) : Py Bytes := do
  let primary ← s.primary
  let signData :=
    if primary.outputPrefixType = OutputPrefixType.LEGACY then data ++ [0x00] else data
  let sig ← primary.primitive.sign seed signData
  return primary.identifier ++ sig

/-- `PublicKeySignWrapper.wrap`, `_signature_wrapper.py:62-64`. -/
def wrap (s : PrimitiveSet PublicKeySign C) : PublicKeySign := { sign := sign s }
end WrappedPublicKeySign

namespace WrappedPublicKeyVerify

/-- `_WrappedPublicKeyVerify.verify`, `_signature_wrapper.py:79-117`. -/
def verify (s : PrimitiveSet PublicKeyVerify C) (signature data : Bytes) : Py Unit :=
  if signature.length ≤ NON_RAW_PREFIX_SIZE then .error .tinkError
  else
    let keyId := signature.take NON_RAW_PREFIX_SIZE
    let rawSig := signature.drop NON_RAW_PREFIX_SIZE
    tryEntries
      (fun e =>
        if e.outputPrefixType = OutputPrefixType.LEGACY then
          e.primitive.verify rawSig (data ++ [0x00])
        else
          e.primitive.verify rawSig data)
      (s.primitiveFromIdentifier keyId)
      (tryEntries (fun e => e.primitive.verify signature data)
        s.rawPrimitives (.error .tinkError))

/-- `PublicKeyVerifyWrapper.wrap`, `_signature_wrapper.py:136-138`. -/
def wrap (s : PrimitiveSet PublicKeyVerify C) : PublicKeyVerify := { verify := verify s }
end WrappedPublicKeyVerify

/-! ## PRF set: `/repo/python/tink/prf/_prf_set_wrapper.py` -/
namespace WrappedPrfSet

/-- `primary_id`, `_prf_set_wrapper.py:28-29`. -/
def primaryId (s : PrimitiveSet Prf C) : Py UInt32 := do
  let e ← s.primary
  return e.keyId

/-- `all`, `_prf_set_wrapper.py:31-35`: a dict comprehension, so a later entry with the same
key id replaces an earlier one. -/
def all (s : PrimitiveSet Prf C) : PyDict UInt32 Prf :=
  s.rawPrimitives.foldl (fun d e => PyDict.set d e.keyId e.primitive) []

/-- `primary`, `_prf_set_wrapper.py:37-38`. -/
def primary (s : PrimitiveSet Prf C) : Py Prf := do
  let e ← s.primary
  return e.primitive

/-- `_validate_primitive_set`, `_prf_set_wrapper.py:41-45`: the first offending entry raises. -/
def validatePrimitiveSet (s : PrimitiveSet Prf C) : Py Unit :=
  s.all.forM fun entries => entries.forM fun e =>
    if e.outputPrefixType ≠ OutputPrefixType.RAW then .error .tinkError else .ok ()

/-- `PrfSetWrapper.wrap`, `_prf_set_wrapper.py:56-58`. -/
def wrap (s : PrimitiveSet Prf C) : Py PrfSet := do
  validatePrimitiveSet s
  return { primaryId := primaryId s, all := .ok (all s), primary := primary s }
end WrappedPrfSet

end Tink
