import Verif.Cc.AesSiv
import Verif.Cc.AesEax
import Verif.Cc.Prf
import Verif.Py.Lit

/-!
# The key managers for AEAD, deterministic AEAD, MAC and PRF keys

`/repo/cc/aead/*_key_manager.{h,cc}`, `/repo/cc/daead/aes_siv_key_manager.h`,
`/repo/cc/mac/*_key_manager.{h,cc}` and `/repo/cc/prf/*_key_manager.{h,cc}`.  All versions are 0 and all keys
are symmetric.  The primitives other than those that Python asks for, and `DeriveKey`, are left out, as are
the KMS key managers, which other files model.
-/

namespace Tink.Cc
open Cpp

/-- The size of a `std::string`, converted to `uint32_t`. -/
def size32 (b : Bytes) : UInt32 := UInt32.ofNat b.length

/-! ## AEAD -/

namespace AesGcmKeyManager

/-- `ValidateKey`, `/repo/cc/aead/aes_gcm_key_manager.h:90-96`. -/
def validateKey (k : AesGcmKey) : StatusOr Unit := do
  validateVersion k.version 0
  validateAesKeySize (size32 k.keyValue)

/-- `ValidateKeyFormat`, lines 98-101. -/
def validateKeyFormat (f : AesGcmKeyFormat) : StatusOr Unit := validateAesKeySize f.keySize

/-- `CreateKey`, lines 103-110. -/
def createKey (lib : Ssl) (seed : Seed) (f : AesGcmKeyFormat) : StatusOr AesGcmKey :=
  .ok { version := 0, keyValue := lib.random seed 0 f.keySize.toNat }

/-- The key type manager, with `Create`, lines 56-62. -/
def keyTypeManager (lib : Ssl) : KeyTypeManager AesGcmKey AesGcmKeyFormat Cpp.Aead where
  keyType := ps! "type.googleapis.com/google.crypto.tink.AesGcmKey"
  keyMaterialType := KeyMaterialType.SYMMETRIC
  parseKey := AesGcmKey.fromString
  serializeKey := AesGcmKey.serializeToString
  parseKeyFormat := AesGcmKeyFormat.fromString
  validateKey := validateKey
  validateKeyFormat := validateKeyFormat
  createKey := createKey lib
  create k := aesGcmNew lib k.keyValue

end AesGcmKeyManager

namespace AesGcmSivKeyManager

/-- `ValidateKey`, `/repo/cc/aead/aes_gcm_siv_key_manager.h:66-72`. -/
def validateKey (k : AesGcmSivKey) : StatusOr Unit := do
  validateVersion k.version 0
  validateAesKeySize (size32 k.keyValue)

/-- `ValidateKeyFormat`, lines 74-77. -/
def validateKeyFormat (f : AesGcmSivKeyFormat) : StatusOr Unit := validateAesKeySize f.keySize

/-- `CreateKey`, lines 79-86. -/
def createKey (lib : Ssl) (seed : Seed) (f : AesGcmSivKeyFormat) : StatusOr AesGcmSivKey :=
  .ok { version := 0, keyValue := lib.random seed 0 f.keySize.toNat }

/-- The key type manager, with `Create`, lines 48-52. -/
def keyTypeManager (lib : Ssl) : KeyTypeManager AesGcmSivKey AesGcmSivKeyFormat Cpp.Aead where
  keyType := ps! "type.googleapis.com/google.crypto.tink.AesGcmSivKey"
  keyMaterialType := KeyMaterialType.SYMMETRIC
  parseKey := AesGcmSivKey.fromString
  serializeKey := AesGcmSivKey.serializeToString
  parseKeyFormat := AesGcmSivKeyFormat.fromString
  validateKey := validateKey
  validateKeyFormat := validateKeyFormat
  createKey := createKey lib
  create k := aesGcmSivNew lib k.keyValue

end AesGcmSivKeyManager

namespace AesEaxKeyManager

/-- `ValidateKeySize`, `/repo/cc/aead/aes_eax_key_manager.h:96-104`. -/
def validateKeySize (size : UInt32) : StatusOr Unit :=
  if size ≠ 16 && size ≠ 32 then invalidArgument else .ok ()

/-- `ValidateIvSize`, lines 106-114. -/
def validateIvSize (size : UInt32) : StatusOr Unit :=
  if size ≠ 12 && size ≠ 16 then invalidArgument else .ok ()

/-- `ValidateKey`, lines 67-75. -/
def validateKey (k : AesEaxKey) : StatusOr Unit := do
  validateVersion k.version 0
  validateKeySize (size32 k.keyValue)
  validateIvSize k.getParams.ivSize

/-- `ValidateKeyFormat`, lines 77-82. -/
def validateKeyFormat (f : AesEaxKeyFormat) : StatusOr Unit := do
  validateKeySize f.keySize
  validateIvSize f.getParams.ivSize

/-- `CreateKey`, lines 84-93. -/
def createKey (lib : Ssl) (seed : Seed) (f : AesEaxKeyFormat) : StatusOr AesEaxKey :=
  .ok { version := 0, keyValue := lib.random seed 0 f.keySize.toNat,
        params := some { ivSize := f.getParams.ivSize } }

/-- The key type manager, with `Create`, lines 48-53. -/
def keyTypeManager (lib : Ssl) : KeyTypeManager AesEaxKey AesEaxKeyFormat Cpp.Aead where
  keyType := ps! "type.googleapis.com/google.crypto.tink.AesEaxKey"
  keyMaterialType := KeyMaterialType.SYMMETRIC
  parseKey := AesEaxKey.fromString
  serializeKey := AesEaxKey.serializeToString
  parseKeyFormat := AesEaxKeyFormat.fromString
  validateKey := validateKey
  validateKeyFormat := validateKeyFormat
  createKey := createKey lib
  create k := AesEax.new lib k.keyValue k.getParams.ivSize.toNat

end AesEaxKeyManager

namespace XChaCha20Poly1305KeyManager

/-- `ValidateKey`, `/repo/cc/aead/xchacha20_poly1305_key_manager.h:70-83`. -/
def validateKey (k : XChaCha20Poly1305Key) : StatusOr Unit := do
  validateVersion k.version 0
  if k.keyValue.length ≠ 32 then invalidArgument else .ok ()

/-- `ValidateKeyFormat`, lines 85-89. -/
def validateKeyFormat (_ : XChaCha20Poly1305KeyFormat) : StatusOr Unit := .ok ()

/-- `CreateKey`, lines 91-98. -/
def createKey (lib : Ssl) (seed : Seed) (_ : XChaCha20Poly1305KeyFormat) : StatusOr XChaCha20Poly1305Key :=
  .ok { version := 0, keyValue := lib.random seed 0 32 }

/-- The key type manager, with `Create`, lines 51-55. -/
def keyTypeManager (lib : Ssl) :
    KeyTypeManager XChaCha20Poly1305Key XChaCha20Poly1305KeyFormat Cpp.Aead where
  keyType := ps! "type.googleapis.com/google.crypto.tink.XChaCha20Poly1305Key"
  keyMaterialType := KeyMaterialType.SYMMETRIC
  parseKey := XChaCha20Poly1305Key.fromString
  serializeKey := XChaCha20Poly1305Key.serializeToString
  parseKeyFormat := XChaCha20Poly1305KeyFormat.fromString
  validateKey := validateKey
  validateKeyFormat := validateKeyFormat
  createKey := createKey lib
  create k := xChaCha20Poly1305New lib k.keyValue

end XChaCha20Poly1305KeyManager

/-! ## MAC -/

namespace HmacKeyManager

/-- `max_tag_size`, `/repo/cc/mac/hmac_key_manager.cc:98-102`. -/
def maxTagSize (hash : EnumVal) : Option UInt32 :=
  if hash = HashType.SHA1 then some 20
  else if hash = HashType.SHA224 then some 28
  else if hash = HashType.SHA256 then some 32
  else if hash = HashType.SHA384 then some 48
  else if hash = HashType.SHA512 then some 64
  else none

/-- `ValidateParams`, lines 92-116. -/
def validateParams (p : HmacParams) : StatusOr Unit :=
  if p.tagSize < 10 then invalidArgument
  else
    match maxTagSize p.hash with
    | none => invalidArgument
    | some m => if p.tagSize > m then invalidArgument else .ok ()

/-- `ValidateKey`, lines 118-126. -/
def validateKey (k : HmacKey) : StatusOr Unit := do
  validateVersion k.version 0
  if k.keyValue.length < 16 then invalidArgument else validateParams k.getParams

/-- `ValidateKeyFormat`, lines 129-136. -/
def validateKeyFormat (f : HmacKeyFormat) : StatusOr Unit :=
  if f.keySize < 16 then invalidArgument else validateParams f.getParams

/-- `CreateKey`, lines 58-66; the randomness is draw number `i`. -/
def createKey (lib : Ssl) (i : Nat) (seed : Seed) (f : HmacKeyFormat) : StatusOr HmacKey :=
  .ok { version := 0, params := some f.getParams, keyValue := lib.random seed i f.keySize.toNat }

/-- `Create`, `/repo/cc/mac/hmac_key_manager.h:52-58`. -/
def create (lib : Ssl) (k : HmacKey) : StatusOr Cpp.Mac :=
  hmacNew lib k.getParams.hash k.getParams.tagSize k.keyValue

/-- The key type manager. -/
def keyTypeManager (lib : Ssl) : KeyTypeManager HmacKey HmacKeyFormat Cpp.Mac where
  keyType := ps! "type.googleapis.com/google.crypto.tink.HmacKey"
  keyMaterialType := KeyMaterialType.SYMMETRIC
  parseKey := HmacKey.fromString
  serializeKey := HmacKey.serializeToString
  parseKeyFormat := HmacKeyFormat.fromString
  validateKey := validateKey
  validateKeyFormat := validateKeyFormat
  createKey := createKey lib 0
  create := create lib

end HmacKeyManager

namespace AesCmacKeyManager

/-- `ValidateParams`, `/repo/cc/mac/aes_cmac_key_manager.h:116-129`. -/
def validateParams (p : AesCmacParams) : StatusOr Unit :=
  if p.tagSize < 10 then invalidArgument
  else if p.tagSize > 16 then invalidArgument
  else .ok ()

/-- `ValidateKey`, lines 82-93. -/
def validateKey (k : AesCmacKey) : StatusOr Unit := do
  validateVersion k.version 0
  if k.keyValue.length ≠ 32 then invalidArgument else validateParams k.getParams

/-- `ValidateKeyFormat`, lines 95-103. -/
def validateKeyFormat (f : AesCmacKeyFormat) : StatusOr Unit :=
  if f.keySize ≠ 32 then invalidArgument else validateParams f.getParams

/-- `CreateKey`, lines 105-113. -/
def createKey (lib : Ssl) (seed : Seed) (f : AesCmacKeyFormat) : StatusOr AesCmacKey :=
  .ok { version := 0, keyValue := lib.random seed 0 f.keySize.toNat, params := some f.getParams }

/-- The key type manager, with `Create`, lines 53-58. -/
def keyTypeManager (lib : Ssl) : KeyTypeManager AesCmacKey AesCmacKeyFormat Cpp.Mac where
  keyType := ps! "type.googleapis.com/google.crypto.tink.AesCmacKey"
  keyMaterialType := KeyMaterialType.SYMMETRIC
  parseKey := AesCmacKey.fromString
  serializeKey := AesCmacKey.serializeToString
  parseKeyFormat := AesCmacKeyFormat.fromString
  validateKey := validateKey
  validateKeyFormat := validateKeyFormat
  createKey := createKey lib
  create k := cmacNew lib k.keyValue k.getParams.tagSize

end AesCmacKeyManager

/-! ## AES-CTR with HMAC -/

namespace AesCtrHmacAeadKeyManager

/-- `ValidateKey`, `/repo/cc/aead/aes_ctr_hmac_aead_key_manager.cc:109-130`. -/
def validateKey (k : AesCtrHmacAeadKey) : StatusOr Unit := do
  validateVersion k.version 0
  validateVersion k.getAesCtrKey.version 0
  validateAesKeySize (size32 k.getAesCtrKey.keyValue)
  if k.getAesCtrKey.getParams.ivSize < 12 || k.getAesCtrKey.getParams.ivSize > 16 then invalidArgument
  else HmacKeyManager.validateKey k.getHmacKey

/-- `ValidateKeyFormat`, lines 132-181. -/
def validateKeyFormat (f : AesCtrHmacAeadKeyFormat) : StatusOr Unit := do
  validateAesKeySize f.getAesCtrKeyFormat.keySize
  if f.getAesCtrKeyFormat.getParams.ivSize < 12 || f.getAesCtrKeyFormat.getParams.ivSize > 16 then
    invalidArgument
  else
    let h := f.getHmacKeyFormat
    if h.keySize < 16 then invalidArgument
    else if h.getParams.tagSize < 10 then invalidArgument
    else
      match HmacKeyManager.maxTagSize h.getParams.hash with
      | none => invalidArgument
      | some m =>
        if h.getParams.tagSize > m then invalidArgument else HmacKeyManager.validateKeyFormat h

/-- `CreateKey`, lines 66-88: first the AES key, then the HMAC key. -/
def createKey (lib : Ssl) (seed : Seed) (f : AesCtrHmacAeadKeyFormat) : StatusOr AesCtrHmacAeadKey := do
  let aes : AesCtrKey :=
    { version := 0, params := some f.getAesCtrKeyFormat.getParams,
      keyValue := lib.random seed 0 f.getAesCtrKeyFormat.keySize.toNat }
  let hmac ← HmacKeyManager.createKey lib 1 seed f.getHmacKeyFormat
  return { version := 0, aesCtrKey := some aes, hmacKey := some hmac }

/-- `Create`, lines 90-107. -/
def create (lib : Ssl) (k : AesCtrHmacAeadKey) : StatusOr Cpp.Aead := do
  let cipher ← aesCtrNew lib k.getAesCtrKey.keyValue (toInt k.getAesCtrKey.getParams.ivSize)
  let mac ← HmacKeyManager.create lib k.getHmacKey
  etaNew cipher mac k.getHmacKey.getParams.tagSize.toUInt8

/-- The key type manager. -/
def keyTypeManager (lib : Ssl) : KeyTypeManager AesCtrHmacAeadKey AesCtrHmacAeadKeyFormat Cpp.Aead where
  keyType := ps! "type.googleapis.com/google.crypto.tink.AesCtrHmacAeadKey"
  keyMaterialType := KeyMaterialType.SYMMETRIC
  parseKey := AesCtrHmacAeadKey.fromString
  serializeKey := AesCtrHmacAeadKey.serializeToString
  parseKeyFormat := AesCtrHmacAeadKeyFormat.fromString
  validateKey := validateKey
  validateKeyFormat := validateKeyFormat
  createKey := createKey lib
  create := create lib

end AesCtrHmacAeadKeyManager

/-! ## Deterministic AEAD -/

namespace AesSivKeyManager

/-- `ValidateKeySize`, `/repo/cc/daead/aes_siv_key_manager.h:117-125`. -/
def validateKeySize (size : UInt32) : StatusOr Unit := if size ≠ 64 then invalidArgument else .ok ()

/-- `ValidateKey`, lines 71-77. -/
def validateKey (k : AesSivKey) : StatusOr Unit := do
  validateVersion k.version 0
  validateKeySize (size32 k.keyValue)

/-- `ValidateKeyFormat`, lines 79-82. -/
def validateKeyFormat (f : AesSivKeyFormat) : StatusOr Unit := validateKeySize f.keySize

/-- `CreateKey`, lines 84-90. -/
def createKey (lib : Ssl) (seed : Seed) (f : AesSivKeyFormat) : StatusOr AesSivKey :=
  .ok { version := 0, keyValue := lib.random seed 0 f.keySize.toNat }

/-- The key type manager, with `Create`, lines 52-56. -/
def keyTypeManager (lib : Ssl) : KeyTypeManager AesSivKey AesSivKeyFormat Cpp.DeterministicAead where
  keyType := ps! "type.googleapis.com/google.crypto.tink.AesSivKey"
  keyMaterialType := KeyMaterialType.SYMMETRIC
  parseKey := AesSivKey.fromString
  serializeKey := AesSivKey.serializeToString
  parseKeyFormat := AesSivKeyFormat.fromString
  validateKey := validateKey
  validateKeyFormat := validateKeyFormat
  createKey := createKey lib
  create k := AesSiv.new lib k.keyValue

end AesSivKeyManager

/-! ## PRF -/

namespace AesCmacPrfKeyManager

/-- `ValidateKey`, `/repo/cc/prf/aes_cmac_prf_key_manager.h:80-91`. -/
def validateKey (k : AesCmacPrfKey) : StatusOr Unit := do
  validateVersion k.version 0
  if k.keyValue.length ≠ 32 then invalidArgument else .ok ()

/-- `ValidateKeyFormat`, lines 93-105. -/
def validateKeyFormat (f : AesCmacPrfKeyFormat) : StatusOr Unit := do
  validateVersion f.version 0
  if f.keySize ≠ 32 then invalidArgument else .ok ()

/-- `CreateKey`, lines 107-114. -/
def createKey (lib : Ssl) (seed : Seed) (f : AesCmacPrfKeyFormat) : StatusOr AesCmacPrfKey :=
  .ok { version := 0, keyValue := lib.random seed 0 f.keySize.toNat }

/-- The key type manager, with `Create`, lines 57-63; `MaxOutputLength` is 16. -/
def keyTypeManager (lib : Ssl) : KeyTypeManager AesCmacPrfKey AesCmacPrfKeyFormat Cpp.Prf where
  keyType := ps! "type.googleapis.com/google.crypto.tink.AesCmacPrfKey"
  keyMaterialType := KeyMaterialType.SYMMETRIC
  parseKey := AesCmacPrfKey.fromString
  serializeKey := AesCmacPrfKey.serializeToString
  parseKeyFormat := AesCmacPrfKeyFormat.fromString
  validateKey := validateKey
  validateKeyFormat := validateKeyFormat
  createKey := createKey lib
  create k := .ok (prfFromMac (statefulCmac lib 16 k.keyValue))

end AesCmacPrfKeyManager

namespace HmacPrfKeyManager

/-- `ValidateParams`, `/repo/cc/prf/hmac_prf_key_manager.cc:99-111`. -/
def validateParams (p : HmacPrfParams) : StatusOr Unit :=
  if !(p.hash = HashType.SHA1 || p.hash = HashType.SHA224 || p.hash = HashType.SHA256 ||
      p.hash = HashType.SHA384 || p.hash = HashType.SHA512) then invalidArgument else .ok ()

/-- `MaxOutputLength`, lines 113-127. -/
def maxOutputLength (hash : EnumVal) : Option Nat :=
  if hash = HashType.SHA1 then some 20
  else if hash = HashType.SHA224 then some 28
  else if hash = HashType.SHA256 then some 32
  else if hash = HashType.SHA384 then some 48
  else if hash = HashType.SHA512 then some 64
  else none

/-- `ValidateKey`, lines 50-58. -/
def validateKey (k : HmacPrfKey) : StatusOr Unit := do
  validateVersion k.version 0
  if k.keyValue.length < 16 then invalidArgument else validateParams k.getParams

/-- `ValidateKeyFormat`, lines 60-69. -/
def validateKeyFormat (f : HmacPrfKeyFormat) : StatusOr Unit := do
  validateVersion f.version 0
  if f.keySize < 16 then invalidArgument else validateParams f.getParams

/-- `CreateKey`, lines 71-78. -/
def createKey (lib : Ssl) (seed : Seed) (f : HmacPrfKeyFormat) : StatusOr HmacPrfKey :=
  .ok { version := 0, keyValue := lib.random seed 0 f.keySize.toNat, params := some f.getParams }

/-- `Create`, `/repo/cc/prf/hmac_prf_key_manager.h:60-75`. -/
def create (lib : Ssl) (k : HmacPrfKey) : StatusOr Cpp.Prf :=
  match maxOutputLength k.getParams.hash with
  | none => invalidArgument
  | some m => .ok (prfFromMac (statefulHmac lib k.getParams.hash m k.keyValue))

/-- The key type manager. -/
def keyTypeManager (lib : Ssl) : KeyTypeManager HmacPrfKey HmacPrfKeyFormat Cpp.Prf where
  keyType := ps! "type.googleapis.com/google.crypto.tink.HmacPrfKey"
  keyMaterialType := KeyMaterialType.SYMMETRIC
  parseKey := HmacPrfKey.fromString
  serializeKey := HmacPrfKey.serializeToString
  parseKeyFormat := HmacPrfKeyFormat.fromString
  validateKey := validateKey
  validateKeyFormat := validateKeyFormat
  createKey := createKey lib
  create := create lib

end HmacPrfKeyManager

namespace HkdfPrfKeyManager

/-- `ValidateKeySize`, `/repo/cc/prf/hkdf_prf_key_manager.h:140-147`; the size is an `int`. -/
def validateKeySize (size : Int) : StatusOr Unit := if size < 32 then invalidArgument else .ok ()

/-- `ValidateParams`, lines 149-159. -/
def validateParams (p : HkdfPrfParams) : StatusOr Unit :=
  if p.hash ≠ HashType.SHA256 && p.hash ≠ HashType.SHA512 then invalidArgument else .ok ()

/-- `ValidateKey`, lines 90-98. -/
def validateKey (k : HkdfPrfKey) : StatusOr Unit := do
  validateVersion k.version 0
  validateKeySize (sizeToInt k.keyValue.length)
  validateParams k.getParams

/-- `ValidateKeyFormat`, lines 100-108. -/
def validateKeyFormat (f : HkdfPrfKeyFormat) : StatusOr Unit := do
  validateVersion f.version 0
  validateKeySize (toInt f.keySize)
  validateParams f.getParams

/-- `CreateKey`, lines 110-118. -/
def createKey (lib : Ssl) (seed : Seed) (f : HkdfPrfKeyFormat) : StatusOr HkdfPrfKey :=
  .ok { version := 0, params := some f.getParams, keyValue := lib.random seed 0 f.keySize.toNat }

/-- The key type manager, with `Create`, lines 65-74. -/
def keyTypeManager (lib : Ssl) : KeyTypeManager HkdfPrfKey HkdfPrfKeyFormat Cpp.Prf where
  keyType := ps! "type.googleapis.com/google.crypto.tink.HkdfPrfKey"
  keyMaterialType := KeyMaterialType.SYMMETRIC
  parseKey := HkdfPrfKey.fromString
  serializeKey := HkdfPrfKey.serializeToString
  parseKeyFormat := HkdfPrfKeyFormat.fromString
  validateKey := validateKey
  validateKeyFormat := validateKeyFormat
  createKey := createKey lib
  create k := hkdfNew lib k.getParams.hash k.keyValue k.getParams.salt

end HkdfPrfKeyManager

/-! ## The C++ registry, after the registration of the four packages, without the KMS key managers -/

/-- `AeadConfig::Register`, `/repo/cc/aead/aead_config.cc:43-128`. -/
def ccAead (lib : Ssl) (url : PStr) : Option (Cpp.KeyManager Cpp.Aead) :=
  if url = (AesCtrHmacAeadKeyManager.keyTypeManager lib).keyType then
    some (AesCtrHmacAeadKeyManager.keyTypeManager lib).toKeyManager
  else if url = (AesGcmKeyManager.keyTypeManager lib).keyType then
    some (AesGcmKeyManager.keyTypeManager lib).toKeyManager
  else if url = (AesGcmSivKeyManager.keyTypeManager lib).keyType then
    some (AesGcmSivKeyManager.keyTypeManager lib).toKeyManager
  else if url = (AesEaxKeyManager.keyTypeManager lib).keyType then
    some (AesEaxKeyManager.keyTypeManager lib).toKeyManager
  else if url = (XChaCha20Poly1305KeyManager.keyTypeManager lib).keyType then
    some (XChaCha20Poly1305KeyManager.keyTypeManager lib).toKeyManager
  else none

/-- `DeterministicAeadConfig::Register`, `/repo/cc/daead/deterministic_aead_config.cc:31-49`. -/
def ccDaead (lib : Ssl) (url : PStr) : Option (Cpp.KeyManager Cpp.DeterministicAead) :=
  if url = (AesSivKeyManager.keyTypeManager lib).keyType then
    some (AesSivKeyManager.keyTypeManager lib).toKeyManager
  else none

/-- `MacConfig::Register`, `/repo/cc/mac/mac_config.cc:36-67`. -/
def ccMac (lib : Ssl) (url : PStr) : Option (Cpp.KeyManager Cpp.Mac) :=
  if url = (HmacKeyManager.keyTypeManager lib).keyType then
    some (HmacKeyManager.keyTypeManager lib).toKeyManager
  else if url = (AesCmacKeyManager.keyTypeManager lib).keyType then
    some (AesCmacKeyManager.keyTypeManager lib).toKeyManager
  else none

/-- `PrfConfig::Register`, `/repo/cc/prf/prf_config.cc:30-52`. -/
def ccPrf (lib : Ssl) (url : PStr) : Option (Cpp.KeyManager Cpp.Prf) :=
  if url = (HmacPrfKeyManager.keyTypeManager lib).keyType then
    some (HmacPrfKeyManager.keyTypeManager lib).toKeyManager
  else if url = (HkdfPrfKeyManager.keyTypeManager lib).keyType then
    some (HkdfPrfKeyManager.keyTypeManager lib).toKeyManager
  else if url = (AesCmacPrfKeyManager.keyTypeManager lib).keyType then
    some (AesCmacPrfKeyManager.keyTypeManager lib).toKeyManager
  else none

end Tink.Cc
