import Verif.Cc.SigKeyManagers
import Verif.Jwt.KeyManagers

/-!
# The C++ key managers for JWT signature keys

`/repo/cc/jwt/internal/raw_jwt_{ecdsa,rsa_ssa_pkcs1,rsa_ssa_pss}_{sign,verify}_key_manager.{h,cc}`, which
`/repo/python/tink/cc/cc_jwt_config.cc:36-50` registers.  All versions are 0.  They do not look at the custom kid.
-/

namespace Tink.Cc
open Cpp

/-! ## ECDSA -/

namespace RawJwtEcdsaVerifyKeyManager

/-- `CurveForEcdsaAlgorithm`, `/repo/cc/jwt/internal/raw_jwt_ecdsa_verify_key_manager.cc:72-86`. -/
def curveForEcdsaAlgorithm (algorithm : EnumVal) : StatusOr EnumVal :=
  if algorithm = JwtEcdsaAlgorithm.ES256 then .ok EllipticCurveType.NIST_P256
  else if algorithm = JwtEcdsaAlgorithm.ES384 then .ok EllipticCurveType.NIST_P384
  else if algorithm = JwtEcdsaAlgorithm.ES512 then .ok EllipticCurveType.NIST_P521
  else invalidArgument

/-- `HashForEcdsaAlgorithm`, lines 88-101. -/
def hashForEcdsaAlgorithm (algorithm : EnumVal) : StatusOr EnumVal :=
  if algorithm = JwtEcdsaAlgorithm.ES256 then .ok HashType.SHA256
  else if algorithm = JwtEcdsaAlgorithm.ES384 then .ok HashType.SHA384
  else if algorithm = JwtEcdsaAlgorithm.ES512 then .ok HashType.SHA512
  else invalidArgument

/-- `ValidateAlgorithm`, lines 103-115. -/
def validateAlgorithm (algorithm : EnumVal) : StatusOr Unit :=
  if algorithm = JwtEcdsaAlgorithm.ES256 then .ok ()
  else if algorithm = JwtEcdsaAlgorithm.ES384 then .ok ()
  else if algorithm = JwtEcdsaAlgorithm.ES512 then .ok ()
  else invalidArgument

/-- `ValidateKey`, lines 117-122. -/
def validateKey (k : JwtEcdsaPublicKey) : StatusOr Unit := do
  validateVersion k.version 0
  validateAlgorithm k.algorithm

/-- `Create`, lines 48-70. -/
def create (lib : SigSsl) (k : JwtEcdsaPublicKey) : StatusOr Cpp.PublicKeyVerify := do
  let curve ← curveForEcdsaAlgorithm k.algorithm
  let hash ← hashForEcdsaAlgorithm k.algorithm
  ecdsaVerifyNew lib { curve := curve, pubX := k.x, pubY := k.y } hash EcdsaSignatureEncoding.IEEE_P1363

/-- The key type manager. -/
def keyTypeManager (lib : SigSsl) : PublicKeyTypeManager JwtEcdsaPublicKey Cpp.PublicKeyVerify where
  keyType := ps! "type.googleapis.com/google.crypto.tink.JwtEcdsaPublicKey"
  keyMaterialType := KeyMaterialType.ASYMMETRIC_PUBLIC
  parseKey := JwtEcdsaPublicKey.fromString
  serializeKey := JwtEcdsaPublicKey.serializeToString
  validateKey := validateKey
  create := create lib

end RawJwtEcdsaVerifyKeyManager

namespace RawJwtEcdsaSignKeyManager

/-- `CreateKey`, `/repo/cc/jwt/internal/raw_jwt_ecdsa_sign_key_manager.cc:51-76`. -/
def createKey (lib : SigSsl) (seed : Seed) (f : JwtEcdsaKeyFormat) : StatusOr JwtEcdsaPrivateKey := do
  let curve ← RawJwtEcdsaVerifyKeyManager.curveForEcdsaAlgorithm f.algorithm
  let k ← newEcKey lib seed curve
  return { version := 0, keyValue := k.priv,
           publicKey := some { version := 0, algorithm := f.algorithm, x := k.pubX, y := k.pubY } }

/-- `Create`, lines 78-105. -/
def create (lib : SigSsl) (k : JwtEcdsaPrivateKey) : StatusOr Cpp.PublicKeySign := do
  let pub := k.getPublicKey
  let curve ← RawJwtEcdsaVerifyKeyManager.curveForEcdsaAlgorithm pub.algorithm
  let hash ← RawJwtEcdsaVerifyKeyManager.hashForEcdsaAlgorithm pub.algorithm
  ecdsaSignNew lib { curve := curve, pubX := pub.x, pubY := pub.y, priv := k.keyValue } hash
    EcdsaSignatureEncoding.IEEE_P1363

/-- `ValidateKey`, lines 107-112. -/
def validateKey (k : JwtEcdsaPrivateKey) : StatusOr Unit := do
  validateVersion k.version 0
  RawJwtEcdsaVerifyKeyManager.validateKey k.getPublicKey

/-- `ValidateKeyFormat`, lines 114-117. -/
def validateKeyFormat (f : JwtEcdsaKeyFormat) : StatusOr Unit :=
  RawJwtEcdsaVerifyKeyManager.validateAlgorithm f.algorithm

/-- The key type manager. -/
def keyTypeManager (lib : SigSsl) : KeyTypeManager JwtEcdsaPrivateKey JwtEcdsaKeyFormat Cpp.PublicKeySign where
  keyType := ps! "type.googleapis.com/google.crypto.tink.JwtEcdsaPrivateKey"
  keyMaterialType := KeyMaterialType.ASYMMETRIC_PRIVATE
  parseKey := JwtEcdsaPrivateKey.fromString
  serializeKey := JwtEcdsaPrivateKey.serializeToString
  parseKeyFormat := JwtEcdsaKeyFormat.fromString
  validateKey := validateKey
  validateKeyFormat := validateKeyFormat
  createKey := createKey lib
  create := create lib

end RawJwtEcdsaSignKeyManager

/-! ## RSA-SSA-PKCS1 -/

namespace RawJwtRsaSsaPkcs1VerifyKeyManager

/-- `HashForPkcs1Algorithm`, `/repo/cc/jwt/internal/raw_jwt_rsa_ssa_pkcs1_verify_key_manager.cc:105-118`. -/
def hashForPkcs1Algorithm (algorithm : EnumVal) : StatusOr EnumVal :=
  if algorithm = JwtRsaSsaPkcs1Algorithm.RS256 then .ok HashType.SHA256
  else if algorithm = JwtRsaSsaPkcs1Algorithm.RS384 then .ok HashType.SHA384
  else if algorithm = JwtRsaSsaPkcs1Algorithm.RS512 then .ok HashType.SHA512
  else invalidArgument

/-- `ValidateAlgorithm`, lines 91-103. -/
def validateAlgorithm (algorithm : EnumVal) : StatusOr Unit :=
  if algorithm = JwtRsaSsaPkcs1Algorithm.RS256 then .ok ()
  else if algorithm = JwtRsaSsaPkcs1Algorithm.RS384 then .ok ()
  else if algorithm = JwtRsaSsaPkcs1Algorithm.RS512 then .ok ()
  else invalidArgument

/-- `ValidateKey`, lines 70-89. -/
def validateKey (k : JwtRsaSsaPkcs1PublicKey) : StatusOr Unit := do
  validateVersion k.version 0
  validateRsaModulusSize (bitLength (fromBytesBE k.n))
  validateRsaPublicExponent k.e
  validateAlgorithm k.algorithm

/-- `Create`, lines 48-68. -/
def create (lib : SigSsl) (k : JwtRsaSsaPkcs1PublicKey) : StatusOr Cpp.PublicKeyVerify := do
  let hash ← hashForPkcs1Algorithm k.algorithm
  rsaPkcs1VerifyNew lib k.n k.e hash

/-- The key type manager. -/
def keyTypeManager (lib : SigSsl) : PublicKeyTypeManager JwtRsaSsaPkcs1PublicKey Cpp.PublicKeyVerify where
  keyType := ps! "type.googleapis.com/google.crypto.tink.JwtRsaSsaPkcs1PublicKey"
  keyMaterialType := KeyMaterialType.ASYMMETRIC_PUBLIC
  parseKey := JwtRsaSsaPkcs1PublicKey.fromString
  serializeKey := JwtRsaSsaPkcs1PublicKey.serializeToString
  validateKey := validateKey
  create := create lib

end RawJwtRsaSsaPkcs1VerifyKeyManager

namespace RawJwtRsaSsaPkcs1SignKeyManager

/-- `RsaPrivateKeySubtleToProto`, `/repo/cc/jwt/internal/raw_jwt_rsa_ssa_pkcs1_sign_key_manager.cc:54-70`. -/
def toProto (k : RsaKey) : JwtRsaSsaPkcs1PrivateKey where
  version := 0
  publicKey := some { version := 0, n := k.n, e := k.e }
  d := k.d
  p := k.p
  q := k.q
  dp := k.dp
  dq := k.dq
  crt := k.crt

/-- `RsaPrivateKeyProtoToSubtle`, lines 72-84. -/
def toSubtle (k : JwtRsaSsaPkcs1PrivateKey) : RsaKey where
  n := k.getPublicKey.n
  e := k.getPublicKey.e
  d := k.d
  p := k.p
  q := k.q
  dp := k.dp
  dq := k.dq
  crt := k.crt

/-- `CreateKey`, lines 88-110; `modulus_size_in_bits` becomes an `int`. -/
def createKey (lib : SigSsl) (seed : Seed) (f : JwtRsaSsaPkcs1KeyFormat) : StatusOr JwtRsaSsaPkcs1PrivateKey := do
  let k ← newRsaKeyPair lib seed (toInt f.modulusSizeInBits) (fromBytesBE f.publicExponent)
  let proto := toProto k
  return { proto with publicKey := some { proto.getPublicKey with algorithm := f.algorithm } }

/-- `Create`, lines 112-141. -/
def create (lib : SigSsl) (k : JwtRsaSsaPkcs1PrivateKey) : StatusOr Cpp.PublicKeySign := do
  let hash ← RawJwtRsaSsaPkcs1VerifyKeyManager.hashForPkcs1Algorithm k.getPublicKey.algorithm
  tested lib (rsaPkcs1SignNew lib (toSubtle k) hash) (RawJwtRsaSsaPkcs1VerifyKeyManager.create lib k.getPublicKey)

/-- `ValidateKey`, lines 143-148. -/
def validateKey (k : JwtRsaSsaPkcs1PrivateKey) : StatusOr Unit := do
  validateVersion k.version 0
  RawJwtRsaSsaPkcs1VerifyKeyManager.validateKey k.getPublicKey

/-- `ValidateKeyFormat`, lines 150-164. -/
def validateKeyFormat (f : JwtRsaSsaPkcs1KeyFormat) : StatusOr Unit := do
  validateRsaModulusSize f.modulusSizeInBits.toNat
  validateRsaPublicExponent f.publicExponent
  RawJwtRsaSsaPkcs1VerifyKeyManager.validateAlgorithm f.algorithm

/-- The key type manager. -/
def keyTypeManager (lib : SigSsl) :
    KeyTypeManager JwtRsaSsaPkcs1PrivateKey JwtRsaSsaPkcs1KeyFormat Cpp.PublicKeySign where
  keyType := ps! "type.googleapis.com/google.crypto.tink.JwtRsaSsaPkcs1PrivateKey"
  keyMaterialType := KeyMaterialType.ASYMMETRIC_PRIVATE
  parseKey := JwtRsaSsaPkcs1PrivateKey.fromString
  serializeKey := JwtRsaSsaPkcs1PrivateKey.serializeToString
  parseKeyFormat := JwtRsaSsaPkcs1KeyFormat.fromString
  validateKey := validateKey
  validateKeyFormat := validateKeyFormat
  createKey := createKey lib
  create := create lib

end RawJwtRsaSsaPkcs1SignKeyManager

/-! ## RSA-SSA-PSS -/

namespace RawJwtRsaSsaPssVerifyKeyManager

/-- `HashForPssAlgorithm`, `/repo/cc/jwt/internal/raw_jwt_rsa_ssa_pss_verify_key_manager.cc:115-128`. -/
def hashForPssAlgorithm (algorithm : EnumVal) : StatusOr EnumVal :=
  if algorithm = JwtRsaSsaPssAlgorithm.PS256 then .ok HashType.SHA256
  else if algorithm = JwtRsaSsaPssAlgorithm.PS384 then .ok HashType.SHA384
  else if algorithm = JwtRsaSsaPssAlgorithm.PS512 then .ok HashType.SHA512
  else invalidArgument

/-- `SaltLengthForPssAlgorithm`, lines 130-143. -/
def saltLengthForPssAlgorithm (algorithm : EnumVal) : StatusOr Int :=
  if algorithm = JwtRsaSsaPssAlgorithm.PS256 then .ok 32
  else if algorithm = JwtRsaSsaPssAlgorithm.PS384 then .ok 48
  else if algorithm = JwtRsaSsaPssAlgorithm.PS512 then .ok 64
  else invalidArgument

/-- `ValidateAlgorithm`, lines 101-113. -/
def validateAlgorithm (algorithm : EnumVal) : StatusOr Unit :=
  if algorithm = JwtRsaSsaPssAlgorithm.PS256 then .ok ()
  else if algorithm = JwtRsaSsaPssAlgorithm.PS384 then .ok ()
  else if algorithm = JwtRsaSsaPssAlgorithm.PS512 then .ok ()
  else invalidArgument

/-- `ValidateKey`, lines 78-99. -/
def validateKey (k : JwtRsaSsaPssPublicKey) : StatusOr Unit := do
  validateVersion k.version 0
  validateRsaModulusSize (bitLength (fromBytesBE k.n))
  validateRsaPublicExponent k.e
  validateAlgorithm k.algorithm

/-- `Create`, lines 50-76. -/
def create (lib : SigSsl) (k : JwtRsaSsaPssPublicKey) : StatusOr Cpp.PublicKeyVerify := do
  let hash ← hashForPssAlgorithm k.algorithm
  let salt ← saltLengthForPssAlgorithm k.algorithm
  rsaPssVerifyNew lib k.n k.e hash hash salt

/-- The key type manager. -/
def keyTypeManager (lib : SigSsl) : PublicKeyTypeManager JwtRsaSsaPssPublicKey Cpp.PublicKeyVerify where
  keyType := ps! "type.googleapis.com/google.crypto.tink.JwtRsaSsaPssPublicKey"
  keyMaterialType := KeyMaterialType.ASYMMETRIC_PUBLIC
  parseKey := JwtRsaSsaPssPublicKey.fromString
  serializeKey := JwtRsaSsaPssPublicKey.serializeToString
  validateKey := validateKey
  create := create lib

end RawJwtRsaSsaPssVerifyKeyManager

namespace RawJwtRsaSsaPssSignKeyManager

/-- `RsaPrivateKeySubtleToProto`, `/repo/cc/jwt/internal/raw_jwt_rsa_ssa_pss_sign_key_manager.cc:58-74`. -/
def toProto (k : RsaKey) : JwtRsaSsaPssPrivateKey where
  version := 0
  publicKey := some { version := 0, n := k.n, e := k.e }
  d := k.d
  p := k.p
  q := k.q
  dp := k.dp
  dq := k.dq
  crt := k.crt

/-- `RsaPrivateKeyProtoToSubtle`, lines 76-88. -/
def toSubtle (k : JwtRsaSsaPssPrivateKey) : RsaKey where
  n := k.getPublicKey.n
  e := k.getPublicKey.e
  d := k.d
  p := k.p
  q := k.q
  dp := k.dp
  dq := k.dq
  crt := k.crt

/-- `CreateKey`, lines 92-112; `modulus_size_in_bits` becomes an `int`. -/
def createKey (lib : SigSsl) (seed : Seed) (f : JwtRsaSsaPssKeyFormat) : StatusOr JwtRsaSsaPssPrivateKey := do
  let k ← newRsaKeyPair lib seed (toInt f.modulusSizeInBits) (fromBytesBE f.publicExponent)
  let proto := toProto k
  return { proto with publicKey := some { proto.getPublicKey with algorithm := f.algorithm } }

/-- `Create`, lines 114-150. -/
def create (lib : SigSsl) (k : JwtRsaSsaPssPrivateKey) : StatusOr Cpp.PublicKeySign := do
  let hash ← RawJwtRsaSsaPssVerifyKeyManager.hashForPssAlgorithm k.getPublicKey.algorithm
  let salt ← RawJwtRsaSsaPssVerifyKeyManager.saltLengthForPssAlgorithm k.getPublicKey.algorithm
  tested lib (rsaPssSignNew lib (toSubtle k) hash hash salt)
    (RawJwtRsaSsaPssVerifyKeyManager.create lib k.getPublicKey)

/-- `ValidateKey`, lines 152-157. -/
def validateKey (k : JwtRsaSsaPssPrivateKey) : StatusOr Unit := do
  validateVersion k.version 0
  RawJwtRsaSsaPssVerifyKeyManager.validateKey k.getPublicKey

/-- `ValidateKeyFormat`, lines 159-173. -/
def validateKeyFormat (f : JwtRsaSsaPssKeyFormat) : StatusOr Unit := do
  validateRsaModulusSize f.modulusSizeInBits.toNat
  validateRsaPublicExponent f.publicExponent
  RawJwtRsaSsaPssVerifyKeyManager.validateAlgorithm f.algorithm

/-- The key type manager. -/
def keyTypeManager (lib : SigSsl) :
    KeyTypeManager JwtRsaSsaPssPrivateKey JwtRsaSsaPssKeyFormat Cpp.PublicKeySign where
  keyType := ps! "type.googleapis.com/google.crypto.tink.JwtRsaSsaPssPrivateKey"
  keyMaterialType := KeyMaterialType.ASYMMETRIC_PRIVATE
  parseKey := JwtRsaSsaPssPrivateKey.fromString
  serializeKey := JwtRsaSsaPssPrivateKey.serializeToString
  parseKeyFormat := JwtRsaSsaPssKeyFormat.fromString
  validateKey := validateKey
  validateKeyFormat := validateKeyFormat
  createKey := createKey lib
  create := create lib

end RawJwtRsaSsaPssSignKeyManager

/-! ## Registration -/

/-- The key managers for private JWT keys in the C++ registry, after `CcJwtConfigRegister`,
`/repo/python/tink/cc/cc_jwt_config.cc:36-50`, without FIPS mode.  `RegisterAsymmetricKeyManagers` makes them with
`MakePrivateKeyManager`; `GetPublicKey` (`.h:76-79` of each) is the public key in the private key. -/
def ccJwtSign (lib : SigSsl) (url : PStr) : Option (Cpp.KeyManager Cpp.PublicKeySign) :=
  if url = (RawJwtEcdsaSignKeyManager.keyTypeManager lib).keyType then
    some (toPrivateKeyManager (RawJwtEcdsaSignKeyManager.keyTypeManager lib)
      (RawJwtEcdsaVerifyKeyManager.keyTypeManager lib) JwtEcdsaPrivateKey.getPublicKey)
  else if url = (RawJwtRsaSsaPkcs1SignKeyManager.keyTypeManager lib).keyType then
    some (toPrivateKeyManager (RawJwtRsaSsaPkcs1SignKeyManager.keyTypeManager lib)
      (RawJwtRsaSsaPkcs1VerifyKeyManager.keyTypeManager lib) JwtRsaSsaPkcs1PrivateKey.getPublicKey)
  else if url = (RawJwtRsaSsaPssSignKeyManager.keyTypeManager lib).keyType then
    some (toPrivateKeyManager (RawJwtRsaSsaPssSignKeyManager.keyTypeManager lib)
      (RawJwtRsaSsaPssVerifyKeyManager.keyTypeManager lib) JwtRsaSsaPssPrivateKey.getPublicKey)
  else none

/-- The key managers for public JWT keys. -/
def ccJwtVerify (lib : SigSsl) (url : PStr) : Option (Cpp.KeyManager Cpp.PublicKeyVerify) :=
  if url = (RawJwtEcdsaVerifyKeyManager.keyTypeManager lib).keyType then
    some (RawJwtEcdsaVerifyKeyManager.keyTypeManager lib).toKeyManager
  else if url = (RawJwtRsaSsaPkcs1VerifyKeyManager.keyTypeManager lib).keyType then
    some (RawJwtRsaSsaPkcs1VerifyKeyManager.keyTypeManager lib).toKeyManager
  else if url = (RawJwtRsaSsaPssVerifyKeyManager.keyTypeManager lib).keyType then
    some (RawJwtRsaSsaPssVerifyKeyManager.keyTypeManager lib).toKeyManager
  else none

end Tink.Cc
