import Verif.Jwt.Format
import Verif.Jwt.Validator
import Verif.Wrap.Primitives

/-!
# JWT primitives for one key

`_JwtHmac` (python/tink/jwt/_jwt_hmac_key_manager.py 39-96), `_JwtPublicKeySign` and `_JwtPublicKeyVerify`
(python/tink/jwt/_jwt_signature_key_manager.py 61-127).  The C++ objects they use are objects of the
interfaces `Mac`, `PublicKeySign` and `PublicKeyVerify`; that `use_tink_errors` turns exceptions from C++
into `TinkError` is taken to have happened in them.

Where the clock is read, its value is an argument; it does not advance during one call.
-/

namespace Tink
namespace Jwt
open Json JsonUtil

variable {F : Type}

/-- `VerifiedJwt` (python/tink/jwt/_verified_jwt.py 23-46); all its methods (48-100) call those of the raw
JWT of the same name. -/
structure VerifiedJwt (F : Type) where
  raw : RawJwt F

/-- `JwtMacInternal` (python/tink/jwt/_jwt_mac.py 75-91). -/
structure JwtMacInternal (F : Type) where
  computeMacAndEncodeWithKid : RawJwt F → Option PyStr → Py PyStr
  verifyMacAndDecodeWithKid : Int → PyStr → JwtValidator → Option PyStr → Py (VerifiedJwt F)

/-- `JwtPublicKeySignInternal` (python/tink/jwt/_jwt_public_key_sign.py 43-54). -/
structure JwtPublicKeySignInternal (F : Type) where
  signAndEncodeWithKid : Seed → RawJwt F → Option PyStr → Py PyStr

/-- `JwtPublicKeyVerifyInternal` (python/tink/jwt/_jwt_public_key_verify.py 60-73). -/
structure JwtPublicKeyVerifyInternal (F : Type) where
  verifyAndDecodeWithKid : Int → PyStr → JwtValidator → Option PyStr → Py (VerifiedJwt F)

/-- The kid that goes into the header: `compute_mac_and_encode_with_kid` and `sign_and_encode_with_kid`
(python/tink/jwt/_jwt_hmac_key_manager.py 70-74, _jwt_signature_key_manager.py 88-92). -/
def headerKid : Option PyStr → Option PyStr → Py (Option PyStr)
  | some _, some _ => .error .jwtInvalidError
  | some custom, none => .ok (some custom)
  | none, kid => .ok kid

/-- `compute_mac_and_encode_with_kid` and `sign_and_encode_with_kid`
(python/tink/jwt/_jwt_hmac_key_manager.py 56-78, _jwt_signature_key_manager.py 74-95); `sign` is
`self._compute_mac` or `self._sign`. -/
def encodeWithKid (env : JwtEnv F) (alg : PyStr) (customKid : Option PyStr) (sign : Bytes → Py Bytes)
    (t : RawJwt F) (kid : Option PyStr) : Py PyStr := do
  let kid ← headerKid customKid kid
  let unsigned ← createUnsignedCompact env alg kid t
  let signature ← sign unsigned
  createSignedCompact unsigned signature

/-- `verify_mac_and_decode_with_kid` and `verify_and_decode_with_kid`
(python/tink/jwt/_jwt_hmac_key_manager.py 80-96, _jwt_signature_key_manager.py 111-127); `check` is
`self._verify_mac` or `self._verify`. -/
def decodeWithKid (env : JwtEnv F) (alg : PyStr) (customKid : Option PyStr)
    (check : Bytes → Bytes → Py Unit) (clock : Int) (compact : PyStr) (v : JwtValidator)
    (kid : Option PyStr) : Py (VerifiedJwt F) := do
  let parts ← splitSignedCompact compact
  check parts.signature parts.unsigned
  let header ← jsonLoads env.json parts.header
  validateHeader env header alg kid customKid
  let raw ← RawJwt.fromJson env.json (getTypeHeader header) parts.payload
  validate env.json.floats clock v raw
  return { raw := raw }

/-- `_JwtHmac` (python/tink/jwt/_jwt_hmac_key_manager.py 39-96). -/
def jwtHmac (env : JwtEnv F) (mac : Mac) (alg : PyStr) (customKid : Option PyStr) : JwtMacInternal F where
  computeMacAndEncodeWithKid := encodeWithKid env alg customKid mac.computeMac
  verifyMacAndDecodeWithKid := decodeWithKid env alg customKid mac.verifyMac

/-- `_JwtPublicKeySign` (python/tink/jwt/_jwt_signature_key_manager.py 61-95). -/
def jwtPublicKeySign (env : JwtEnv F) (signer : PublicKeySign) (alg : PyStr) (customKid : Option PyStr) :
    JwtPublicKeySignInternal F where
  signAndEncodeWithKid seed := encodeWithKid env alg customKid (signer.sign seed)

/-- `_JwtPublicKeyVerify` (python/tink/jwt/_jwt_signature_key_manager.py 98-127). -/
def jwtPublicKeyVerify (env : JwtEnv F) (verifier : PublicKeyVerify) (alg : PyStr)
    (customKid : Option PyStr) : JwtPublicKeyVerifyInternal F where
  verifyAndDecodeWithKid := decodeWithKid env alg customKid verifier.verify

end Jwt
end Tink
