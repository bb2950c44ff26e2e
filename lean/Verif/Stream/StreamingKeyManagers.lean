import Verif.Core.KeyTypeManager
import Verif.Py.Lit
import Verif.Stream.SegmentCrypters

/-!
# The key managers for streaming AEAD keys

`/repo/cc/streamingaead/aes_gcm_hkdf_streaming_key_manager.{h,cc}` and
`/repo/cc/streamingaead/aes_ctr_hmac_streaming_key_manager.{h,cc}`.

`Enums::ProtoToSubtle` of a hash type is the hash type here; only those with a counterpart pass the
validation.  `Random::GetRandomBytes` is the first draw.
-/

namespace Tink
open Segment Cpp

/-! ## AES-GCM-HKDF -/

namespace AesGcmHkdfStreamingKeyManager

/-- `ValidateParams`, `aes_gcm_hkdf_streaming_key_manager.cc:44-59`.  The sum is computed as `int` and
converted to `uint32_t`; where the former overflows, the behaviour is undefined, and it wraps here. -/
def validateParams (p : AesGcmHkdfStreamingParams) : StatusOr Unit :=
  if !(p.hkdfHashType = HashType.SHA1 || p.hkdfHashType = HashType.SHA256 ||
      p.hkdfHashType = HashType.SHA512) then invalidArgument
  else if p.ciphertextSegmentSize ≤ 1 + p.derivedKeySize + 7 + 16 then invalidArgument
  else validateAesKeySize p.derivedKeySize

/-- `ValidateKeyFormat`, lines 105-112. -/
def validateKeyFormat (f : AesGcmHkdfStreamingKeyFormat) : StatusOr Unit :=
  if f.keySize < f.getParams.derivedKeySize then invalidArgument else validateParams f.getParams

/-- `ValidateKey`, lines 94-103; `get_version()` is 0. -/
def validateKey (k : AesGcmHkdfStreamingKey) : StatusOr Unit := do
  validateVersion k.version 0
  if k.keyValue.length < k.getParams.derivedKeySize.toNat then invalidArgument
  else validateParams k.getParams

/-- `CreateKey`, lines 63-72. -/
def createKey (lib : SegmentLibrary) (seed : Seed) (f : AesGcmHkdfStreamingKeyFormat) :
    StatusOr AesGcmHkdfStreamingKey :=
  .ok { version := 0, params := some f.getParams, keyValue := lib.random seed f.keySize.toNat }

/-- The parameters, `aes_gcm_hkdf_streaming_key_manager.h:55-61`. -/
def params (k : AesGcmHkdfStreamingKey) : AesGcmHkdf.Params where
  ikm := k.keyValue
  hkdfHash := k.getParams.hkdfHashType
  derivedKeySize := toInt k.getParams.derivedKeySize
  ciphertextSegmentSize := toInt k.getParams.ciphertextSegmentSize
  ciphertextOffset := 0

/-- The key type manager, with `Create`, `aes_gcm_hkdf_streaming_key_manager.h:52-66`. -/
def keyTypeManager (lib : SegmentLibrary) :
    KeyTypeManager AesGcmHkdfStreamingKey AesGcmHkdfStreamingKeyFormat (NonceBased Nat State) where
  keyType := ps! "type.googleapis.com/google.crypto.tink.AesGcmHkdfStreamingKey"
  keyMaterialType := KeyMaterialType.SYMMETRIC
  parseKey := AesGcmHkdfStreamingKey.fromString
  serializeKey := AesGcmHkdfStreamingKey.serializeToString
  parseKeyFormat := AesGcmHkdfStreamingKeyFormat.fromString
  validateKey := validateKey
  validateKeyFormat := validateKeyFormat
  createKey := createKey lib
  create k := AesGcmHkdf.new lib (params k)

end AesGcmHkdfStreamingKeyManager

/-! ## AES-CTR-HMAC -/

namespace AesCtrHmacStreamingKeyManager

/-- `ValidateParams`, `aes_ctr_hmac_streaming_key_manager.cc:44-82`, in `uint32_t`. -/
def validateParams (p : AesCtrHmacStreamingParams) : StatusOr Unit :=
  let h := p.getHmacParams
  if !(p.hkdfHashType = HashType.SHA1 || p.hkdfHashType = HashType.SHA256 ||
      p.hkdfHashType = HashType.SHA512) then invalidArgument
  else if !(h.hash = HashType.SHA1 || h.hash = HashType.SHA256 || h.hash = HashType.SHA512) then
    invalidArgument
  else if h.tagSize < 10 then invalidArgument
  else if (h.hash = HashType.SHA1 && h.tagSize > 20) || (h.hash = HashType.SHA256 && h.tagSize > 32) ||
      (h.hash = HashType.SHA512 && h.tagSize > 64) then invalidArgument
  else if p.ciphertextSegmentSize ≤ 1 + p.derivedKeySize + 7 + h.tagSize then invalidArgument
  else if p.ciphertextSegmentSize > 0x7fffffff then invalidArgument
  else validateAesKeySize p.derivedKeySize

/-- `ValidateKeyFormat`, lines 128-135. -/
def validateKeyFormat (f : AesCtrHmacStreamingKeyFormat) : StatusOr Unit :=
  if f.keySize < f.getParams.derivedKeySize then invalidArgument else validateParams f.getParams

/-- `ValidateKey`, lines 117-126; `get_version()` is 0. -/
def validateKey (k : AesCtrHmacStreamingKey) : StatusOr Unit := do
  validateVersion k.version 0
  if k.keyValue.length < k.getParams.derivedKeySize.toNat then invalidArgument
  else validateParams k.getParams

/-- `CreateKey`, lines 86-95. -/
def createKey (lib : SegmentLibrary) (seed : Seed) (f : AesCtrHmacStreamingKeyFormat) :
    StatusOr AesCtrHmacStreamingKey :=
  .ok { version := 0, params := some f.getParams, keyValue := lib.random seed f.keySize.toNat }

/-- The parameters, `aes_ctr_hmac_streaming_key_manager.h:55-65`. -/
def params (k : AesCtrHmacStreamingKey) : AesCtrHmac.Params where
  ikm := k.keyValue
  hkdfAlgo := k.getParams.hkdfHashType
  keySize := toInt k.getParams.derivedKeySize
  ciphertextSegmentSize := toInt k.getParams.ciphertextSegmentSize
  ciphertextOffset := 0
  tagAlgo := k.getParams.getHmacParams.hash
  tagSize := toInt k.getParams.getHmacParams.tagSize

/-- The key type manager, with `Create`, `aes_ctr_hmac_streaming_key_manager.h:52-70`. -/
def keyTypeManager (lib : SegmentLibrary) :
    KeyTypeManager AesCtrHmacStreamingKey AesCtrHmacStreamingKeyFormat (NonceBased Nat State) where
  keyType := ps! "type.googleapis.com/google.crypto.tink.AesCtrHmacStreamingKey"
  keyMaterialType := KeyMaterialType.SYMMETRIC
  parseKey := AesCtrHmacStreamingKey.fromString
  serializeKey := AesCtrHmacStreamingKey.serializeToString
  parseKeyFormat := AesCtrHmacStreamingKeyFormat.fromString
  validateKey := validateKey
  validateKeyFormat := validateKeyFormat
  createKey := createKey lib
  create k := AesCtrHmac.new lib (params k)

end AesCtrHmacStreamingKeyManager

/-- The C++ registry, after the registration of streaming AEAD. -/
def ccStreamingAead (lib : SegmentLibrary) (url : PStr) : Option (Cpp.KeyManager (NonceBased Nat State)) :=
  if url = (AesGcmHkdfStreamingKeyManager.keyTypeManager lib).keyType then
    some (AesGcmHkdfStreamingKeyManager.keyTypeManager lib).toKeyManager
  else if url = (AesCtrHmacStreamingKeyManager.keyTypeManager lib).keyType then
    some (AesCtrHmacStreamingKeyManager.keyTypeManager lib).toKeyManager
  else none

end Tink
