import Verif.Jwt.Wrappers

/-!
# Registration of the JWT primitives

`register_jwt_mac` and `register_jwt_signature` (python/tink/jwt/__init__.py).
-/

namespace Tink
namespace Jwt

variable {F P C : Type}

/-- The classes of JWT objects, and the C++ registry.  `ccMac url` is
`tink_bindings.MacKeyManager.from_cc_registry(url)` after `tink_bindings.register_jwt()`, which is taken to
have registered key managers for all types of JWT keys; in the same way `ccSign` and `ccVerify`. -/
structure Library (F P C : Type) where
  env : JwtEnv F
  macInternal : View P (JwtMacInternal F)
  mac : View P (JwtMac F)
  signInternal : View P (JwtPublicKeySignInternal F)
  sign : View P (JwtPublicKeySign F)
  verifyInternal : View P (JwtPublicKeyVerifyInternal F)
  verify : View P (JwtPublicKeyVerify F)
  macInternalClass : C
  macClass : C
  signInternalClass : C
  signClass : C
  verifyInternalClass : C
  verifyClass : C
  macManagerType : Nat
  macWrapperType : Nat
  signManagerType : Nat
  signWrapperType : Nat
  verifyManagerType : Nat
  verifyWrapperType : Nat
  ccMac : PStr → CcKeyManager Mac
  ccSign : PStr → CcKeyManager PublicKeySign
  ccVerify : PStr → CcKeyManager PublicKeyVerify

section
variable [DecidableEq C]

/-- `_jwt_hmac_key_manager.register` (python/tink/jwt/_jwt_hmac_key_manager.py 132-135). -/
def registerHmac (L : Library F P C) (r : Registry P C) : Registry P C × Py Unit :=
  r.registerKeyManager (jwtMacKeyManager L.macInternal L.macManagerType L.macInternalClass L.env
    (L.ccMac (ps! "type.googleapis.com/google.crypto.tink.JwtHmacKey"))) true

/-- Construction and registration of one `_JwtPublicKeySignKeyManagerCcToPyWrapper`
(python/tink/jwt/_jwt_signature_key_manager.py 282-285, 292-296, 304-308). -/
def registerSignManager (L : Library F P C) (url : PStr)
    (algKid : KeyData → Py (PyStr × Option PyStr)) (r : Registry P C) : Registry P C × Py Unit :=
  r.registerKeyManager (jwtSignKeyManager L.signInternal L.signManagerType L.signInternalClass L.env
    (L.ccSign url) algKid) true

/-- Construction and registration of one `_JwtPublicKeyVerifyKeyManagerCcToPyWrapper`
(python/tink/jwt/_jwt_signature_key_manager.py 287-290, 298-302, 310-314). -/
def registerVerifyManager (L : Library F P C) (url : PStr)
    (algKid : KeyData → Py (PyStr × Option PyStr)) (r : Registry P C) : Registry P C × Py Unit :=
  r.registerKeyManager (jwtVerifyKeyManager L.verifyInternal L.verifyManagerType L.verifyInternalClass
    L.env (L.ccVerify url) algKid) true

/-- `_jwt_signature_key_manager.register` (python/tink/jwt/_jwt_signature_key_manager.py 278-314). -/
def registerSignatureManagers (L : Library F P C) (r : Registry P C) : Registry P C × Py Unit :=
  andThen (registerSignManager L JWT_ECDSA_PRIVATE_KEY_TYPE ecdsaPrivateAlgKid r) fun r =>
  andThen (registerVerifyManager L JWT_ECDSA_PUBLIC_KEY_TYPE ecdsaPublicAlgKid r) fun r =>
  andThen (registerSignManager L JWT_RSA_SSA_PKCS1_PRIVATE_KEY_TYPE rsaSsaPkcs1PrivateAlgKid r) fun r =>
  andThen (registerVerifyManager L JWT_RSA_SSA_PKCS1_PUBLIC_KEY_TYPE rsaSsaPkcs1PublicAlgKid r) fun r =>
  andThen (registerSignManager L JWT_RSA_SSA_PSS_PRIVATE_KEY_TYPE rsaSsaPssPrivateAlgKid r) fun r =>
  registerVerifyManager L JWT_RSA_SSA_PSS_PUBLIC_KEY_TYPE rsaSsaPssPublicAlgKid r

/-- `register_jwt_mac` (python/tink/jwt/__init__.py 78-80; python/tink/jwt/_jwt_mac_wrapper.py 101-102). -/
def registerJwtMac (isInst : P → C → Bool) (L : Library F P C) (r : Registry P C) :
    Registry P C × Py Unit :=
  andThen (registerHmac L r) fun r =>
  r.registerPrimitiveWrapper isInst
    (jwtMacWrapper L.macInternal L.mac L.macWrapperType L.macInternalClass L.macClass)

/-- `register_jwt_signature` (python/tink/jwt/__init__.py 83-85;
python/tink/jwt/_jwt_signature_wrappers.py 111-113). -/
def registerJwtSignature (isInst : P → C → Bool) (L : Library F P C) (r : Registry P C) :
    Registry P C × Py Unit :=
  andThen (registerSignatureManagers L r) fun r =>
  andThen (r.registerPrimitiveWrapper isInst
    (jwtSignWrapper L.signInternal L.sign L.signWrapperType L.signInternalClass L.signClass)) fun r =>
  r.registerPrimitiveWrapper isInst
    (jwtVerifyWrapper L.verifyInternal L.verify L.verifyWrapperType L.verifyInternalClass L.verifyClass)

end

end Jwt
end Tink
