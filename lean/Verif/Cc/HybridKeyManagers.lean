import Verif.Cc.Hybrid

/-!
# The key managers for hybrid encryption keys

`/repo/cc/hybrid/ecies_aead_hkdf_{public,private}_key_manager.{h,cc}` and
`/repo/cc/hybrid/internal/hpke_{public,private}_key_manager.{h,cc}`.  All versions are 0.
-/

namespace Tink.Cc
open Cpp

/-! ## ECIES -/

namespace EciesAeadHkdfPublicKeyManager

/-- `ValidateParams`, `/repo/cc/hybrid/ecies_aead_hkdf_public_key_manager.cc:43-68`. -/
def validateParams (p : EciesAeadHkdfParams) : StatusOr Unit :=
  if p.kemParams.isNone then invalidArgument
  else if p.getKemParams.curveType = EllipticCurveType.UNKNOWN_CURVE ||
      p.getKemParams.hkdfHashType = HashType.UNKNOWN_HASH then invalidArgument
  else if p.demParams.isNone then invalidArgument
  else if p.getDemParams.aeadDem.isNone then invalidArgument
  else if p.ecPointFormat = EcPointFormat.UNKNOWN_FORMAT then invalidArgument
  else .ok ()

/-- `ValidateKey`, lines 70-78. -/
def validateKey (k : EciesAeadHkdfPublicKey) : StatusOr Unit := do
  validateVersion k.version 0
  if k.params.isNone then invalidArgument else validateParams k.getParams

/-- The key type manager, with `Create`, `ecies_aead_hkdf_public_key_manager.h:46-50`. -/
def keyTypeManager (lib : HybSsl) : PublicKeyTypeManager EciesAeadHkdfPublicKey Cpp.HybridEncrypt where
  keyType := ps! "type.googleapis.com/google.crypto.tink.EciesAeadHkdfPublicKey"
  keyMaterialType := KeyMaterialType.ASYMMETRIC_PUBLIC
  parseKey := EciesAeadHkdfPublicKey.fromString
  serializeKey := EciesAeadHkdfPublicKey.serializeToString
  validateKey := validateKey
  create := eciesEncryptNew lib

end EciesAeadHkdfPublicKeyManager

namespace EciesAeadHkdfPrivateKeyManager

/-- `ValidateKeyFormat`, `/repo/cc/hybrid/ecies_aead_hkdf_private_key_manager.cc:49-55`. -/
def validateKeyFormat (f : EciesAeadHkdfKeyFormat) : StatusOr Unit :=
  if f.params.isNone then invalidArgument else EciesAeadHkdfPublicKeyManager.validateParams f.getParams

/-- `CreateKey`, lines 57-79. -/
def createKey (lib : HybSsl) (seed : Seed) (f : EciesAeadHkdfKeyFormat) : StatusOr EciesAeadHkdfPrivateKey := do
  let k ← hybNewEcKey lib seed f.getParams.getKemParams.curveType
  return { version := 0, keyValue := k.priv,
           publicKey := some { version := 0, x := k.pubX, y := k.pubY, params := some f.getParams } }

/-- `ValidateKey`, lines 86-94. -/
def validateKey (k : EciesAeadHkdfPrivateKey) : StatusOr Unit := do
  validateVersion k.version 0
  if k.publicKey.isNone then invalidArgument else EciesAeadHkdfPublicKeyManager.validateKey k.getPublicKey

/-- The key type manager, with `Create`, `ecies_aead_hkdf_private_key_manager.h:49-53`. -/
def keyTypeManager (lib : HybSsl) :
    KeyTypeManager EciesAeadHkdfPrivateKey EciesAeadHkdfKeyFormat Cpp.HybridDecrypt where
  keyType := ps! "type.googleapis.com/google.crypto.tink.EciesAeadHkdfPrivateKey"
  keyMaterialType := KeyMaterialType.ASYMMETRIC_PRIVATE
  parseKey := EciesAeadHkdfPrivateKey.fromString
  serializeKey := EciesAeadHkdfPrivateKey.serializeToString
  parseKeyFormat := EciesAeadHkdfKeyFormat.fromString
  validateKey := validateKey
  validateKeyFormat := validateKeyFormat
  createKey := createKey lib
  create := eciesDecryptNew lib

end EciesAeadHkdfPrivateKeyManager

/-! ## HPKE -/

namespace HpkePublicKeyManager

/-- `ValidateParams`, `/repo/cc/hybrid/internal/hpke_key_manager_util.cc:36-50`. -/
def validateParams (p : HpkeParams) : StatusOr Unit :=
  if p.kem = HpkeKem.KEM_UNKNOWN then invalidArgument
  else if p.kdf = HpkeKdf.KDF_UNKNOWN then invalidArgument
  else if p.aead = HpkeAead.AEAD_UNKNOWN then invalidArgument
  else .ok ()

/-- `ValidateKeyAndVersion`, lines 52-61, and `ValidateKey`, `hpke_public_key_manager.cc:28-30`. -/
def validateKey (k : HpkePublicKey) : StatusOr Unit := do
  validateVersion k.version 0
  if k.params.isNone then invalidArgument else validateParams k.getParams

/-- The key type manager, with `Create`, `hpke_public_key_manager.h:48-51`. -/
def keyTypeManager (lib : HybSsl) : PublicKeyTypeManager HpkePublicKey Cpp.HybridEncrypt where
  keyType := ps! "type.googleapis.com/google.crypto.tink.HpkePublicKey"
  keyMaterialType := KeyMaterialType.ASYMMETRIC_PUBLIC
  parseKey := HpkePublicKey.fromString
  serializeKey := HpkePublicKey.serializeToString
  validateKey := validateKey
  create := hpkeEncryptNew lib

end HpkePublicKeyManager

namespace HpkePrivateKeyManager

/-- `GenerateEcKey`, `/repo/cc/hybrid/internal/hpke_private_key_manager.cc:59-83`: the public and the private
key. -/
def generateEcKey (lib : HybSsl) (seed : Seed) (curve : EnumVal) : StatusOr (Bytes × Bytes) := do
  let k ← hybNewEcKey lib seed curve
  let p ← hybEcPoint lib curve k.pubX k.pubY
  let encoded ← ecPointEncode lib curve EcPointFormat.UNCOMPRESSED p
  return (encoded, k.priv)

/-- `GenerateX25519Key`, lines 47-57. -/
def generateX25519Key (lib : HybSsl) (seed : Seed) : StatusOr (Bytes × Bytes) :=
  let d := lib.x25519Generate seed
  .ok (lib.x25519Public d, d)

/-- `ValidateKeyFormat`, lines 87-93. -/
def validateKeyFormat (f : HpkeKeyFormat) : StatusOr Unit :=
  if f.params.isNone then invalidArgument else HpkePublicKeyManager.validateParams f.getParams

/-- The choice by the KEM in `CreateKey`, lines 104-140. -/
def generateKey (lib : HybSsl) (seed : Seed) (kem : EnumVal) : StatusOr (Bytes × Bytes) :=
  if kem = HpkeKem.DHKEM_X25519_HKDF_SHA256 then generateX25519Key lib seed
  else if kem = HpkeKem.DHKEM_P256_HKDF_SHA256 then generateEcKey lib seed EllipticCurveType.NIST_P256
  else if kem = HpkeKem.DHKEM_P384_HKDF_SHA384 then generateEcKey lib seed EllipticCurveType.NIST_P384
  else if kem = HpkeKem.DHKEM_P521_HKDF_SHA512 then generateEcKey lib seed EllipticCurveType.NIST_P521
  else invalidArgument

/-- `CreateKey`, lines 95-142. -/
def createKey (lib : HybSsl) (seed : Seed) (f : HpkeKeyFormat) : StatusOr HpkePrivateKey := do
  let k ← generateKey lib seed f.getParams.kem
  return { version := 0, privateKey := k.2,
           publicKey := some { version := 0, params := some f.getParams, publicKey := k.1 } }

/-- `ValidateKey`, lines 149-158. -/
def validateKey (k : HpkePrivateKey) : StatusOr Unit := do
  validateVersion k.version 0
  if k.publicKey.isNone then invalidArgument else HpkePublicKeyManager.validateKey k.getPublicKey

/-- The key type manager, with `Create`, `hpke_private_key_manager.h:49-53`. -/
def keyTypeManager (lib : HybSsl) : KeyTypeManager HpkePrivateKey HpkeKeyFormat Cpp.HybridDecrypt where
  keyType := ps! "type.googleapis.com/google.crypto.tink.HpkePrivateKey"
  keyMaterialType := KeyMaterialType.ASYMMETRIC_PRIVATE
  parseKey := HpkePrivateKey.fromString
  serializeKey := HpkePrivateKey.serializeToString
  parseKeyFormat := HpkeKeyFormat.fromString
  validateKey := validateKey
  validateKeyFormat := validateKeyFormat
  createKey := createKey lib
  create := hpkeDecryptNew lib

end HpkePrivateKeyManager

/-- The key managers for private keys: what `HybridConfig::Register`, `/repo/cc/hybrid/hybrid_config.cc:35-70`,
and `RegisterHpke`, `/repo/cc/hybrid/hpke_config.cc:33-66`, put into the C++ registry.  `GetPublicKey` of all
returns the public key in the private key. -/
def ccHybridDecrypt (lib : HybSsl) (url : PStr) : Option (Cpp.KeyManager Cpp.HybridDecrypt) :=
  if url = (EciesAeadHkdfPrivateKeyManager.keyTypeManager lib).keyType then
    some (toPrivateKeyManager (EciesAeadHkdfPrivateKeyManager.keyTypeManager lib)
      (EciesAeadHkdfPublicKeyManager.keyTypeManager lib) EciesAeadHkdfPrivateKey.getPublicKey)
  else if url = (HpkePrivateKeyManager.keyTypeManager lib).keyType then
    some (toPrivateKeyManager (HpkePrivateKeyManager.keyTypeManager lib)
      (HpkePublicKeyManager.keyTypeManager lib) HpkePrivateKey.getPublicKey)
  else none

/-- The key managers for public keys. -/
def ccHybridEncrypt (lib : HybSsl) (url : PStr) : Option (Cpp.KeyManager Cpp.HybridEncrypt) :=
  if url = (EciesAeadHkdfPublicKeyManager.keyTypeManager lib).keyType then
    some (EciesAeadHkdfPublicKeyManager.keyTypeManager lib).toKeyManager
  else if url = (HpkePublicKeyManager.keyTypeManager lib).keyType then
    some (HpkePublicKeyManager.keyTypeManager lib).toKeyManager
  else none

end Tink.Cc
