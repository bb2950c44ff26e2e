import Verif.Jwt.Primitives
import Verif.Wrap.Registered
import Verif.Proto.Gen

/-!
# JWT key managers

`MacCcToPyJwtMacKeyManager` (python/tink/jwt/_jwt_hmac_key_manager.py 99-129) and the key managers of
python/tink/jwt/_jwt_signature_key_manager.py.  Each passes serialized protos to a key manager in C++,
which is a parameter.
-/

namespace Tink
namespace Jwt

variable {F : Type}

/-- A C++ key manager as seen from Python: `tink_bindings.MacKeyManager`,
`tink_bindings.PublicKeySignKeyManager` and `tink_bindings.PublicKeyVerifyKeyManager`. -/
structure CcKeyManager (A : Type) where
  keyType : PStr
  primitive : Bytes → Py A
  newKeyData : Seed → Bytes → Py Bytes
  publicKeyData : Bytes → Py Bytes

/-- `_JWT_HMAC_KEY_TYPE` (python/tink/jwt/_jwt_hmac_key_manager.py 30). -/
def JWT_HMAC_KEY_TYPE : PStr := ps! "type.googleapis.com/google.crypto.tink.JwtHmacKey"
/-- `_JWT_ECDSA_PRIVATE_KEY_TYPE` (python/tink/jwt/_jwt_signature_key_manager.py 33). -/
def JWT_ECDSA_PRIVATE_KEY_TYPE : PStr :=
  ps! "type.googleapis.com/google.crypto.tink.JwtEcdsaPrivateKey"
/-- `_JWT_ECDSA_PUBLIC_KEY_TYPE` (python/tink/jwt/_jwt_signature_key_manager.py 34). -/
def JWT_ECDSA_PUBLIC_KEY_TYPE : PStr :=
  ps! "type.googleapis.com/google.crypto.tink.JwtEcdsaPublicKey"
/-- `_JWT_RSA_SSA_PKCS1_PRIVATE_KEY_TYPE` (python/tink/jwt/_jwt_signature_key_manager.py 36). -/
def JWT_RSA_SSA_PKCS1_PRIVATE_KEY_TYPE : PStr :=
  ps! "type.googleapis.com/google.crypto.tink.JwtRsaSsaPkcs1PrivateKey"
/-- `_JWT_RSA_SSA_PKCS1_PUBLIC_KEY_TYPE` (python/tink/jwt/_jwt_signature_key_manager.py 37). -/
def JWT_RSA_SSA_PKCS1_PUBLIC_KEY_TYPE : PStr :=
  ps! "type.googleapis.com/google.crypto.tink.JwtRsaSsaPkcs1PublicKey"
/-- `_JWT_RSA_SSA_PSS_PRIVATE_KEY_TYPE` (python/tink/jwt/_jwt_signature_key_manager.py 39). -/
def JWT_RSA_SSA_PSS_PRIVATE_KEY_TYPE : PStr :=
  ps! "type.googleapis.com/google.crypto.tink.JwtRsaSsaPssPrivateKey"
/-- `_JWT_RSA_SSA_PSS_PUBLIC_KEY_TYPE` (python/tink/jwt/_jwt_signature_key_manager.py 40). -/
def JWT_RSA_SSA_PSS_PUBLIC_KEY_TYPE : PStr :=
  ps! "type.googleapis.com/google.crypto.tink.JwtRsaSsaPssPublicKey"

/-- `_ALGORITHM_STRING` (python/tink/jwt/_jwt_hmac_key_manager.py 32-36). -/
def hmacAlgorithms : PyDict EnumVal PyStr :=
  [(JwtHmacAlgorithm.HS256, py! "HS256"), (JwtHmacAlgorithm.HS384, py! "HS384"),
   (JwtHmacAlgorithm.HS512, py! "HS512")]

/-- `_ECDSA_ALGORITHM_TEXTS` (python/tink/jwt/_jwt_signature_key_manager.py 42-46). -/
def ecdsaAlgorithms : PyDict EnumVal PyStr :=
  [(JwtEcdsaAlgorithm.ES256, py! "ES256"), (JwtEcdsaAlgorithm.ES384, py! "ES384"),
   (JwtEcdsaAlgorithm.ES512, py! "ES512")]

/-- `_RSA_SSA_PKCS1_ALGORITHM_TEXTS` (python/tink/jwt/_jwt_signature_key_manager.py 48-52). -/
def rsaSsaPkcs1Algorithms : PyDict EnumVal PyStr :=
  [(JwtRsaSsaPkcs1Algorithm.RS256, py! "RS256"), (JwtRsaSsaPkcs1Algorithm.RS384, py! "RS384"),
   (JwtRsaSsaPkcs1Algorithm.RS512, py! "RS512")]

/-- `_RSA_SSA_PSS_ALGORITHM_TEXTS` (python/tink/jwt/_jwt_signature_key_manager.py 54-58). -/
def rsaSsaPssAlgorithms : PyDict EnumVal PyStr :=
  [(JwtRsaSsaPssAlgorithm.PS256, py! "PS256"), (JwtRsaSsaPssAlgorithm.PS384, py! "PS384"),
   (JwtRsaSsaPssAlgorithm.PS512, py! "PS512")]

/-- `MacCcToPyJwtMacKeyManager.primitive` (python/tink/jwt/_jwt_hmac_key_manager.py 109-120).  A missing
entry of the `dict` of algorithms is a `KeyError`. -/
def hmacPrimitive (env : JwtEnv F) (cc : CcKeyManager Mac) (kd : KeyData) : Py (JwtMacInternal F) :=
  if kd.typeUrl ≠ JWT_HMAC_KEY_TYPE then .error .jwtInvalidError
  else do
    let key ← JwtHmacKey.fromString kd.value
    match PyDict.get? hmacAlgorithms key.algorithm with
    | none => .error .keyError
    | some alg => do
      let data ← kd.serializeToString
      let mac ← cc.primitive data
      return jwtHmac env mac alg (key.customKid.map fun k => k.value.toPy)

/-- `_ecdsa_algorithm_text`, `_rsa_ssa_pkcs1_algorithm_text`, `_rsa_ssa_pss_algorithm_text`
(python/tink/jwt/_jwt_signature_key_manager.py 199-202, 229-233, 254-258). -/
def algorithmText (table : PyDict EnumVal PyStr) (a : EnumVal) : Py PyStr :=
  match PyDict.get? table a with
  | none => .error .jwtInvalidError
  | some alg => .ok alg

/-- `_ecdsa_alg_kid_from_private_key_data` (python/tink/jwt/_jwt_signature_key_manager.py 205-218). -/
def ecdsaPrivateAlgKid (kd : KeyData) : Py (PyStr × Option PyStr) :=
  if kd.typeUrl ≠ JWT_ECDSA_PRIVATE_KEY_TYPE then .error .jwtInvalidError
  else do
    let key ← JwtEcdsaPrivateKey.fromString kd.value
    let alg ← algorithmText ecdsaAlgorithms key.getPublicKey.algorithm
    return (alg, key.getPublicKey.customKid.map fun k => k.value.toPy)

/-- `_ecdsa_alg_kid_from_public_key_data` (python/tink/jwt/_jwt_signature_key_manager.py 221-226). -/
def ecdsaPublicAlgKid (kd : KeyData) : Py (PyStr × Option PyStr) :=
  if kd.typeUrl ≠ JWT_ECDSA_PUBLIC_KEY_TYPE then .error .jwtInvalidError
  else do
    let key ← JwtEcdsaPublicKey.fromString kd.value
    let alg ← algorithmText ecdsaAlgorithms key.algorithm
    return (alg, key.customKid.map fun k => k.value.toPy)

/-- `_rsa_ssa_pkcs1_alg_kid_from_private_key_data`
(python/tink/jwt/_jwt_signature_key_manager.py 236-243). -/
def rsaSsaPkcs1PrivateAlgKid (kd : KeyData) : Py (PyStr × Option PyStr) :=
  if kd.typeUrl ≠ JWT_RSA_SSA_PKCS1_PRIVATE_KEY_TYPE then .error .jwtInvalidError
  else do
    let key ← JwtRsaSsaPkcs1PrivateKey.fromString kd.value
    let alg ← algorithmText rsaSsaPkcs1Algorithms key.getPublicKey.algorithm
    return (alg, key.getPublicKey.customKid.map fun k => k.value.toPy)

/-- `_rsa_ssa_pkcs1_alg_kid_from_public_key_data`
(python/tink/jwt/_jwt_signature_key_manager.py 246-251). -/
def rsaSsaPkcs1PublicAlgKid (kd : KeyData) : Py (PyStr × Option PyStr) :=
  if kd.typeUrl ≠ JWT_RSA_SSA_PKCS1_PUBLIC_KEY_TYPE then .error .jwtInvalidError
  else do
    let key ← JwtRsaSsaPkcs1PublicKey.fromString kd.value
    let alg ← algorithmText rsaSsaPkcs1Algorithms key.algorithm
    return (alg, key.customKid.map fun k => k.value.toPy)

/-- `_rsa_ssa_pss_alg_kid_from_private_key_data`
(python/tink/jwt/_jwt_signature_key_manager.py 261-267). -/
def rsaSsaPssPrivateAlgKid (kd : KeyData) : Py (PyStr × Option PyStr) :=
  if kd.typeUrl ≠ JWT_RSA_SSA_PSS_PRIVATE_KEY_TYPE then .error .jwtInvalidError
  else do
    let key ← JwtRsaSsaPssPrivateKey.fromString kd.value
    let alg ← algorithmText rsaSsaPssAlgorithms key.getPublicKey.algorithm
    return (alg, key.getPublicKey.customKid.map fun k => k.value.toPy)

/-- `_rsa_ssa_pss_alg_kid_from_public_key_data`
(python/tink/jwt/_jwt_signature_key_manager.py 270-275). -/
def rsaSsaPssPublicAlgKid (kd : KeyData) : Py (PyStr × Option PyStr) :=
  if kd.typeUrl ≠ JWT_RSA_SSA_PSS_PUBLIC_KEY_TYPE then .error .jwtInvalidError
  else do
    let key ← JwtRsaSsaPssPublicKey.fromString kd.value
    let alg ← algorithmText rsaSsaPssAlgorithms key.algorithm
    return (alg, key.customKid.map fun k => k.value.toPy)

/-- `_JwtPublicKeySignKeyManagerCcToPyWrapper.primitive`
(python/tink/jwt/_jwt_signature_key_manager.py 144-150). -/
def signPrimitive (env : JwtEnv F) (cc : CcKeyManager PublicKeySign)
    (algKid : KeyData → Py (PyStr × Option PyStr)) (kd : KeyData) : Py (JwtPublicKeySignInternal F) := do
  let data ← kd.serializeToString
  let sign ← cc.primitive data
  let (alg, customKid) ← algKid kd
  return jwtPublicKeySign env sign alg customKid

/-- `_JwtPublicKeyVerifyKeyManagerCcToPyWrapper.primitive`
(python/tink/jwt/_jwt_signature_key_manager.py 181-187). -/
def verifyPrimitive (env : JwtEnv F) (cc : CcKeyManager PublicKeyVerify)
    (algKid : KeyData → Py (PyStr × Option PyStr)) (kd : KeyData) :
    Py (JwtPublicKeyVerifyInternal F) := do
  let data ← kd.serializeToString
  let verify ← cc.primitive data
  let (alg, customKid) ← algKid kd
  return jwtPublicKeyVerify env verify alg customKid

/-- `new_key_data` of the three classes (python/tink/jwt/_jwt_hmac_key_manager.py 125-129,
_jwt_signature_key_manager.py 155-159, 192-196). -/
def ccNewKeyData {A : Type} (cc : CcKeyManager A) (seed : Seed) (template : KeyTemplate) :
    Py KeyData := do
  let t ← template.serializeToString
  let d ← cc.newKeyData seed t
  KeyData.fromString d

/-- `public_key_data` (python/tink/jwt/_jwt_signature_key_manager.py 161-164). -/
def ccPublicKeyData {A : Type} (cc : CcKeyManager A) (kd : KeyData) : Py KeyData := do
  let k ← kd.serializeToString
  let d ← cc.publicKeyData k
  KeyData.fromString d

variable {P C : Type}

/-- `MacCcToPyJwtMacKeyManager` (python/tink/jwt/_jwt_hmac_key_manager.py 99-129); `t` is its Python type,
`c` the class `JwtMacInternal`. -/
def jwtMacKeyManager (V : View P (JwtMacInternal F)) (t : Nat) (c : C) (env : JwtEnv F)
    (cc : CcKeyManager Mac) : KeyManager P C where
  pyType := t
  primitiveClass := c
  keyType := cc.keyType
  doesSupport url := decide (cc.keyType = url)
  primitive kd := do
    let p ← hmacPrimitive env cc kd
    return V.inj p
  newKeyData := ccNewKeyData cc

/-- `_JwtPublicKeySignKeyManagerCcToPyWrapper` (python/tink/jwt/_jwt_signature_key_manager.py 130-164). -/
def jwtSignKeyManager (V : View P (JwtPublicKeySignInternal F)) (t : Nat) (c : C) (env : JwtEnv F)
    (cc : CcKeyManager PublicKeySign) (algKid : KeyData → Py (PyStr × Option PyStr)) :
    KeyManager P C where
  pyType := t
  primitiveClass := c
  keyType := cc.keyType
  doesSupport url := decide (cc.keyType = url)
  primitive kd := do
    let p ← signPrimitive env cc algKid kd
    return V.inj p
  newKeyData := ccNewKeyData cc
  publicKeyData := some (ccPublicKeyData cc)

/-- `_JwtPublicKeyVerifyKeyManagerCcToPyWrapper`
(python/tink/jwt/_jwt_signature_key_manager.py 167-196). -/
def jwtVerifyKeyManager (V : View P (JwtPublicKeyVerifyInternal F)) (t : Nat) (c : C) (env : JwtEnv F)
    (cc : CcKeyManager PublicKeyVerify) (algKid : KeyData → Py (PyStr × Option PyStr)) :
    KeyManager P C where
  pyType := t
  primitiveClass := c
  keyType := cc.keyType
  doesSupport url := decide (cc.keyType = url)
  primitive kd := do
    let p ← verifyPrimitive env cc algKid kd
    return V.inj p
  newKeyData := ccNewKeyData cc

end Jwt
end Tink
