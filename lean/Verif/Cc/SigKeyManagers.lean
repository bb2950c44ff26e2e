import Verif.Cc.Signatures

/-!
# The key managers for signature keys

`/repo/cc/signature/*_{sign,verify}_key_manager.{h,cc}`.  All versions are 0.  `DeriveKey` is left out.
-/

namespace Tink.Cc
open Cpp

/-! ## ECDSA -/

namespace EcdsaVerifyKeyManager

/-- `ValidateParams`, `/repo/cc/signature/ecdsa_verify_key_manager.cc:61-99`. -/
def validateParams (p : EcdsaParams) : StatusOr Unit :=
  if p.encoding ≠ EcdsaSignatureEncoding.DER && p.encoding ≠ EcdsaSignatureEncoding.IEEE_P1363 then invalidArgument
  else if p.curve = EllipticCurveType.NIST_P256 then
    if p.hashType ≠ HashType.SHA256 then invalidArgument else .ok ()
  else if p.curve = EllipticCurveType.NIST_P384 then
    if p.hashType ≠ HashType.SHA384 && p.hashType ≠ HashType.SHA512 then invalidArgument else .ok ()
  else if p.curve = EllipticCurveType.NIST_P521 then
    if p.hashType ≠ HashType.SHA512 then invalidArgument else .ok ()
  else invalidArgument

/-- `ValidateKey`, lines 101-105. -/
def validateKey (k : EcdsaPublicKey) : StatusOr Unit := do
  validateVersion k.version 0
  validateParams k.getParams

/-- `Create`, lines 47-59. -/
def create (lib : SigSsl) (k : EcdsaPublicKey) : StatusOr Cpp.PublicKeyVerify :=
  ecdsaVerifyNew lib { curve := k.getParams.curve, pubX := k.x, pubY := k.y } k.getParams.hashType
    k.getParams.encoding

/-- The key type manager. -/
def keyTypeManager (lib : SigSsl) : PublicKeyTypeManager EcdsaPublicKey Cpp.PublicKeyVerify where
  keyType := ps! "type.googleapis.com/google.crypto.tink.EcdsaPublicKey"
  keyMaterialType := KeyMaterialType.ASYMMETRIC_PUBLIC
  parseKey := EcdsaPublicKey.fromString
  serializeKey := EcdsaPublicKey.serializeToString
  validateKey := validateKey
  create := create lib

end EcdsaVerifyKeyManager

namespace EcdsaSignKeyManager

/-- `CreateKey`, `/repo/cc/signature/ecdsa_sign_key_manager.cc:52-71`. -/
def createKey (lib : SigSsl) (seed : Seed) (f : EcdsaKeyFormat) : StatusOr EcdsaPrivateKey := do
  let k ← newEcKey lib seed f.getParams.curve
  return { version := 0, keyValue := k.priv,
           publicKey := some { version := 0, x := k.pubX, y := k.pubY, params := some f.getParams } }

/-- `Create`, lines 143-157. -/
def create (lib : SigSsl) (k : EcdsaPrivateKey) : StatusOr Cpp.PublicKeySign :=
  let pub := k.getPublicKey
  ecdsaSignNew lib { curve := pub.getParams.curve, pubX := pub.x, pubY := pub.y, priv := k.keyValue }
    pub.getParams.hashType pub.getParams.encoding

/-- `ValidateKey`, lines 159-163. -/
def validateKey (k : EcdsaPrivateKey) : StatusOr Unit := do
  validateVersion k.version 0
  EcdsaVerifyKeyManager.validateKey k.getPublicKey

/-- `ValidateKeyFormat`, lines 165-171. -/
def validateKeyFormat (f : EcdsaKeyFormat) : StatusOr Unit :=
  if f.params.isNone then invalidArgument else EcdsaVerifyKeyManager.validateParams f.getParams

/-- The key type manager. -/
def keyTypeManager (lib : SigSsl) : KeyTypeManager EcdsaPrivateKey EcdsaKeyFormat Cpp.PublicKeySign where
  keyType := ps! "type.googleapis.com/google.crypto.tink.EcdsaPrivateKey"
  keyMaterialType := KeyMaterialType.ASYMMETRIC_PRIVATE
  parseKey := EcdsaPrivateKey.fromString
  serializeKey := EcdsaPrivateKey.serializeToString
  parseKeyFormat := EcdsaKeyFormat.fromString
  validateKey := validateKey
  validateKeyFormat := validateKeyFormat
  createKey := createKey lib
  create := create lib

end EcdsaSignKeyManager

/-! ## Ed25519 -/

namespace Ed25519VerifyKeyManager

/-- `ValidateKey`, `/repo/cc/signature/ed25519_verify_key_manager.cc:45-54`. -/
def validateKey (k : Ed25519PublicKey) : StatusOr Unit := do
  validateVersion k.version 0
  if k.keyValue.length ≠ 32 then invalidArgument else .ok ()

/-- The key type manager, with `Create`, lines 39-43. -/
def keyTypeManager (lib : SigSsl) : PublicKeyTypeManager Ed25519PublicKey Cpp.PublicKeyVerify where
  keyType := ps! "type.googleapis.com/google.crypto.tink.Ed25519PublicKey"
  keyMaterialType := KeyMaterialType.ASYMMETRIC_PUBLIC
  parseKey := Ed25519PublicKey.fromString
  serializeKey := Ed25519PublicKey.serializeToString
  validateKey := validateKey
  create k := ed25519VerifyNew lib k.keyValue

end Ed25519VerifyKeyManager

namespace Ed25519SignKeyManager

/-- `CreateKey`, `/repo/cc/signature/ed25519_sign_key_manager.cc:48-66`, with `NewEd25519Key`,
`/repo/cc/internal/ec_util.cc:447-486`. -/
def createKey (lib : SigSsl) (seed : Seed) (_ : Ed25519KeyFormat) : StatusOr Ed25519PrivateKey :=
  let priv := lib.random seed 0 32
  .ok { version := 0, keyValue := priv, publicKey := some { version := 0, keyValue := lib.ed25519Public priv } }

/-- `Create`, lines 68-77. -/
def create (lib : SigSsl) (k : Ed25519PrivateKey) : StatusOr Cpp.PublicKeySign :=
  ed25519SignNew lib (k.keyValue ++ k.getPublicKey.keyValue)

/-- `ValidateKey`, lines 79-87. -/
def validateKey (k : Ed25519PrivateKey) : StatusOr Unit := do
  validateVersion k.version 0
  if k.keyValue.length ≠ 32 then invalidArgument else Ed25519VerifyKeyManager.validateKey k.getPublicKey

/-- `ValidateKeyFormat`, lines 119-122. -/
def validateKeyFormat (_ : Ed25519KeyFormat) : StatusOr Unit := .ok ()

/-- The key type manager. -/
def keyTypeManager (lib : SigSsl) : KeyTypeManager Ed25519PrivateKey Ed25519KeyFormat Cpp.PublicKeySign where
  keyType := ps! "type.googleapis.com/google.crypto.tink.Ed25519PrivateKey"
  keyMaterialType := KeyMaterialType.ASYMMETRIC_PRIVATE
  parseKey := Ed25519PrivateKey.fromString
  serializeKey := Ed25519PrivateKey.serializeToString
  parseKeyFormat := Ed25519KeyFormat.fromString
  validateKey := validateKey
  validateKeyFormat := validateKeyFormat
  createKey := createKey lib
  create := create lib

end Ed25519SignKeyManager

/-! ## RSA-SSA-PKCS1 -/

namespace RsaSsaPkcs1VerifyKeyManager

/-- `ValidateParams`, `/repo/cc/signature/rsa_ssa_pkcs1_verify_key_manager.cc:63-67`. -/
def validateParams (p : RsaSsaPkcs1Params) : StatusOr Unit := isHashTypeSafeForSignature p.hashType

/-- `ValidateKey`, lines 69-88. -/
def validateKey (k : RsaSsaPkcs1PublicKey) : StatusOr Unit := do
  validateVersion k.version 0
  validateRsaModulusSize (bitLength (fromBytesBE k.n))
  validateRsaPublicExponent k.e
  validateParams k.getParams

/-- `Create`, lines 46-61. -/
def create (lib : SigSsl) (k : RsaSsaPkcs1PublicKey) : StatusOr Cpp.PublicKeyVerify :=
  let p := k.getParams
  rsaPkcs1VerifyNew lib k.n k.e p.hashType

/-- The key type manager. -/
def keyTypeManager (lib : SigSsl) : PublicKeyTypeManager RsaSsaPkcs1PublicKey Cpp.PublicKeyVerify where
  keyType := ps! "type.googleapis.com/google.crypto.tink.RsaSsaPkcs1PublicKey"
  keyMaterialType := KeyMaterialType.ASYMMETRIC_PUBLIC
  parseKey := RsaSsaPkcs1PublicKey.fromString
  serializeKey := RsaSsaPkcs1PublicKey.serializeToString
  validateKey := validateKey
  create := create lib

end RsaSsaPkcs1VerifyKeyManager

namespace RsaSsaPkcs1SignKeyManager

/-- `RsaPrivateKeySubtleToProto`, `/repo/cc/signature/rsa_ssa_pkcs1_sign_key_manager.cc:53-68`. -/
def toProto (k : RsaKey) : RsaSsaPkcs1PrivateKey where
  version := 0
  publicKey := some { version := 0, n := k.n, e := k.e }
  d := k.d
  p := k.p
  q := k.q
  dp := k.dp
  dq := k.dq
  crt := k.crt

/-- `RsaPrivateKeyProtoToSubtle`, lines 70-82. -/
def toSubtle (k : RsaSsaPkcs1PrivateKey) : RsaKey where
  n := k.getPublicKey.n
  e := k.getPublicKey.e
  d := k.d
  p := k.p
  q := k.q
  dp := k.dp
  dq := k.dq
  crt := k.crt

/-- `CreateKey`, lines 86-108; `modulus_size_in_bits` becomes an `int`. -/
def createKey (lib : SigSsl) (seed : Seed) (f : RsaSsaPkcs1KeyFormat) : StatusOr RsaSsaPkcs1PrivateKey := do
  let k ← newRsaKeyPair lib seed (toInt f.modulusSizeInBits) (fromBytesBE f.publicExponent)
  let proto := toProto k
  return { proto with publicKey := some { proto.getPublicKey with params := some f.getParams } }

/-- `Create`, lines 110-132. -/
def create (lib : SigSsl) (k : RsaSsaPkcs1PrivateKey) : StatusOr Cpp.PublicKeySign :=
  let p := k.getPublicKey.getParams
  tested lib (rsaPkcs1SignNew lib (toSubtle k) p.hashType)
    (RsaSsaPkcs1VerifyKeyManager.create lib k.getPublicKey)

/-- `ValidateKey`, lines 134-139. -/
def validateKey (k : RsaSsaPkcs1PrivateKey) : StatusOr Unit := do
  validateVersion k.version 0
  RsaSsaPkcs1VerifyKeyManager.validateKey k.getPublicKey

/-- `ValidateKeyFormat`, lines 141-154. -/
def validateKeyFormat (f : RsaSsaPkcs1KeyFormat) : StatusOr Unit := do
  validateRsaModulusSize f.modulusSizeInBits.toNat
  validateRsaPublicExponent f.publicExponent
  RsaSsaPkcs1VerifyKeyManager.validateParams f.getParams

/-- The key type manager. -/
def keyTypeManager (lib : SigSsl) : KeyTypeManager RsaSsaPkcs1PrivateKey RsaSsaPkcs1KeyFormat Cpp.PublicKeySign where
  keyType := ps! "type.googleapis.com/google.crypto.tink.RsaSsaPkcs1PrivateKey"
  keyMaterialType := KeyMaterialType.ASYMMETRIC_PRIVATE
  parseKey := RsaSsaPkcs1PrivateKey.fromString
  serializeKey := RsaSsaPkcs1PrivateKey.serializeToString
  parseKeyFormat := RsaSsaPkcs1KeyFormat.fromString
  validateKey := validateKey
  validateKeyFormat := validateKeyFormat
  createKey := createKey lib
  create := create lib

end RsaSsaPkcs1SignKeyManager

/-! ## RSA-SSA-PSS -/

namespace RsaSsaPssVerifyKeyManager

/-- `ValidateParams`, `/repo/cc/signature/rsa_ssa_pss_verify_key_manager.cc:89-118`. -/
def validateParams (p : RsaSsaPssParams) : StatusOr Unit := do
  isHashTypeSafeForSignature p.sigHash
  if p.mgf1Hash ≠ p.sigHash then invalidArgument
  else if toInt p.saltLength < 0 then invalidArgument
  else .ok ()

/-- `ValidateKey`, lines 68-87. -/
def validateKey (k : RsaSsaPssPublicKey) : StatusOr Unit := do
  validateVersion k.version 0
  validateRsaModulusSize (bitLength (fromBytesBE k.n))
  validateRsaPublicExponent k.e
  validateParams k.getParams

/-- `Create`, lines 49-66. -/
def create (lib : SigSsl) (k : RsaSsaPssPublicKey) : StatusOr Cpp.PublicKeyVerify :=
  let p := k.getParams
  rsaPssVerifyNew lib k.n k.e p.sigHash p.mgf1Hash (toInt p.saltLength)

/-- The key type manager. -/
def keyTypeManager (lib : SigSsl) : PublicKeyTypeManager RsaSsaPssPublicKey Cpp.PublicKeyVerify where
  keyType := ps! "type.googleapis.com/google.crypto.tink.RsaSsaPssPublicKey"
  keyMaterialType := KeyMaterialType.ASYMMETRIC_PUBLIC
  parseKey := RsaSsaPssPublicKey.fromString
  serializeKey := RsaSsaPssPublicKey.serializeToString
  validateKey := validateKey
  create := create lib

end RsaSsaPssVerifyKeyManager

namespace RsaSsaPssSignKeyManager

/-- `RsaPrivateKeySubtleToProto`, `/repo/cc/signature/rsa_ssa_pss_sign_key_manager.cc:55-71`. -/
def toProto (k : RsaKey) : RsaSsaPssPrivateKey where
  version := 0
  publicKey := some { version := 0, n := k.n, e := k.e }
  d := k.d
  p := k.p
  q := k.q
  dp := k.dp
  dq := k.dq
  crt := k.crt

/-- `RsaPrivateKeyProtoToSubtle`, lines 73-85. -/
def toSubtle (k : RsaSsaPssPrivateKey) : RsaKey where
  n := k.getPublicKey.n
  e := k.getPublicKey.e
  d := k.d
  p := k.p
  q := k.q
  dp := k.dp
  dq := k.dq
  crt := k.crt

/-- `CreateKey`, lines 89-109; `modulus_size_in_bits` becomes an `int`. -/
def createKey (lib : SigSsl) (seed : Seed) (f : RsaSsaPssKeyFormat) : StatusOr RsaSsaPssPrivateKey := do
  let k ← newRsaKeyPair lib seed (toInt f.modulusSizeInBits) (fromBytesBE f.publicExponent)
  let proto := toProto k
  return { proto with publicKey := some { proto.getPublicKey with params := some f.getParams } }

/-- `Create`, lines 111-135. -/
def create (lib : SigSsl) (k : RsaSsaPssPrivateKey) : StatusOr Cpp.PublicKeySign :=
  let p := k.getPublicKey.getParams
  tested lib (rsaPssSignNew lib (toSubtle k) p.sigHash p.mgf1Hash (toInt p.saltLength))
    (RsaSsaPssVerifyKeyManager.create lib k.getPublicKey)

/-- `ValidateKey`, lines 137-142. -/
def validateKey (k : RsaSsaPssPrivateKey) : StatusOr Unit := do
  validateVersion k.version 0
  RsaSsaPssVerifyKeyManager.validateKey k.getPublicKey

/-- `ValidateKeyFormat`, lines 144-157. -/
def validateKeyFormat (f : RsaSsaPssKeyFormat) : StatusOr Unit := do
  validateRsaModulusSize f.modulusSizeInBits.toNat
  validateRsaPublicExponent f.publicExponent
  RsaSsaPssVerifyKeyManager.validateParams f.getParams

/-- The key type manager. -/
def keyTypeManager (lib : SigSsl) : KeyTypeManager RsaSsaPssPrivateKey RsaSsaPssKeyFormat Cpp.PublicKeySign where
  keyType := ps! "type.googleapis.com/google.crypto.tink.RsaSsaPssPrivateKey"
  keyMaterialType := KeyMaterialType.ASYMMETRIC_PRIVATE
  parseKey := RsaSsaPssPrivateKey.fromString
  serializeKey := RsaSsaPssPrivateKey.serializeToString
  parseKeyFormat := RsaSsaPssKeyFormat.fromString
  validateKey := validateKey
  validateKeyFormat := validateKeyFormat
  createKey := createKey lib
  create := create lib

end RsaSsaPssSignKeyManager

/-! ## Registration -/

/-- The key managers for private keys in the C++ registry, after `SignatureConfig::Register`,
`/repo/cc/signature/signature_config.cc:43-94`, without FIPS mode.  `RegisterAsymmetricKeyManagers` makes
them with `MakePrivateKeyManager`, `/repo/cc/core/private_key_manager_impl.h`; `GetPublicKey` is the public
key in the private key. -/
def ccSign (lib : SigSsl) (url : PStr) : Option (Cpp.KeyManager Cpp.PublicKeySign) :=
  if url = (EcdsaSignKeyManager.keyTypeManager lib).keyType then
    some (toPrivateKeyManager (EcdsaSignKeyManager.keyTypeManager lib) (EcdsaVerifyKeyManager.keyTypeManager lib)
      EcdsaPrivateKey.getPublicKey)
  else if url = (RsaSsaPssSignKeyManager.keyTypeManager lib).keyType then
    some (toPrivateKeyManager (RsaSsaPssSignKeyManager.keyTypeManager lib)
      (RsaSsaPssVerifyKeyManager.keyTypeManager lib) RsaSsaPssPrivateKey.getPublicKey)
  else if url = (RsaSsaPkcs1SignKeyManager.keyTypeManager lib).keyType then
    some (toPrivateKeyManager (RsaSsaPkcs1SignKeyManager.keyTypeManager lib)
      (RsaSsaPkcs1VerifyKeyManager.keyTypeManager lib) RsaSsaPkcs1PrivateKey.getPublicKey)
  else if url = (Ed25519SignKeyManager.keyTypeManager lib).keyType then
    some (toPrivateKeyManager (Ed25519SignKeyManager.keyTypeManager lib)
      (Ed25519VerifyKeyManager.keyTypeManager lib) Ed25519PrivateKey.getPublicKey)
  else none

/-- The key managers for public keys. -/
def ccVerify (lib : SigSsl) (url : PStr) : Option (Cpp.KeyManager Cpp.PublicKeyVerify) :=
  if url = (EcdsaVerifyKeyManager.keyTypeManager lib).keyType then
    some (EcdsaVerifyKeyManager.keyTypeManager lib).toKeyManager
  else if url = (RsaSsaPssVerifyKeyManager.keyTypeManager lib).keyType then
    some (RsaSsaPssVerifyKeyManager.keyTypeManager lib).toKeyManager
  else if url = (RsaSsaPkcs1VerifyKeyManager.keyTypeManager lib).keyType then
    some (RsaSsaPkcs1VerifyKeyManager.keyTypeManager lib).toKeyManager
  else if url = (Ed25519VerifyKeyManager.keyTypeManager lib).keyType then
    some (Ed25519VerifyKeyManager.keyTypeManager lib).toKeyManager
  else none

end Tink.Cc
