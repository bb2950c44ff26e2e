import Verif.Jwt.KeyManagers

/-!
# JWT primitives over keysets

python/tink/jwt/_jwt_mac_wrapper.py and python/tink/jwt/_jwt_signature_wrappers.py.
-/

namespace Tink
namespace Jwt

variable {F C : Type}

/-- `JwtMac` (python/tink/jwt/_jwt_mac.py 25-72). -/
structure JwtMac (F : Type) where
  computeMacAndEncode : RawJwt F → Py PyStr
  verifyMacAndDecode : Int → PyStr → JwtValidator → Py (VerifiedJwt F)

/-- `JwtPublicKeySign` (python/tink/jwt/_jwt_public_key_sign.py 22-40). -/
structure JwtPublicKeySign (F : Type) where
  signAndEncode : Seed → RawJwt F → Py PyStr

/-- `JwtPublicKeyVerify` (python/tink/jwt/_jwt_public_key_verify.py 24-57). -/
structure JwtPublicKeyVerify (F : Type) where
  verifyAndDecode : Int → PyStr → JwtValidator → Py (VerifiedJwt F)

/-- The loop of `verify_mac_and_decode` and `verify_and_decode`
(python/tink/jwt/_jwt_mac_wrapper.py 63-76, _jwt_signature_wrappers.py 50-63).  `interesting` tells whether
`interesting_error` is set; `f` is the call of the entry's primitive. -/
def verifyEntries {A α : Type} (f : A → Option PyStr → Py α) : Bool → List (Entry A) → Py α
  | interesting, [] => if interesting then .error .jwtInvalidError else .error .tinkError
  | interesting, e :: es =>
    match getKid e.keyId.toNat e.outputPrefixType >>= f e.primitive with
    | .ok a => .ok a
    | .error x =>
      if x.isTink then verifyEntries f (interesting || decide (x = .jwtInvalidError)) es
      else .error x

/-- `_validate_primitive_set` (python/tink/jwt/_jwt_mac_wrapper.py 79-84,
_jwt_signature_wrappers.py 66-71). -/
def validatePrimitiveSet {A : Type} (s : PrimitiveSet A C) : Py Unit :=
  s.all.forM fun entries => entries.forM fun e =>
    if e.outputPrefixType ≠ OutputPrefixType.RAW ∧ e.outputPrefixType ≠ OutputPrefixType.TINK then
      .error .tinkError
    else .ok ()

namespace WrappedJwtMac

/-- `compute_mac_and_encode` (python/tink/jwt/_jwt_mac_wrapper.py 34-47). -/
def computeMacAndEncode (s : PrimitiveSet (JwtMacInternal F) C) (t : RawJwt F) : Py PyStr := do
  let primary ← s.primary
  let kid ← getKid primary.keyId.toNat primary.outputPrefixType
  primary.primitive.computeMacAndEncodeWithKid t kid

/-- `verify_mac_and_decode` (python/tink/jwt/_jwt_mac_wrapper.py 49-76). -/
def verifyMacAndDecode (s : PrimitiveSet (JwtMacInternal F) C) (clock : Int) (compact : PyStr)
    (v : JwtValidator) : Py (VerifiedJwt F) :=
  verifyEntries (fun p kid => p.verifyMacAndDecodeWithKid clock compact v kid) false s.all.flatten

/-- `_Wrapper.wrap` (python/tink/jwt/_jwt_mac_wrapper.py 90-92). -/
def wrap (s : PrimitiveSet (JwtMacInternal F) C) : Py (JwtMac F) := do
  validatePrimitiveSet s
  return { computeMacAndEncode := computeMacAndEncode s, verifyMacAndDecode := verifyMacAndDecode s }

end WrappedJwtMac

namespace WrappedJwtPublicKeySign

/-- `sign_and_encode` (python/tink/jwt/_jwt_signature_wrappers.py 35-38). -/
def signAndEncode (s : PrimitiveSet (JwtPublicKeySignInternal F) C) (seed : Seed) (t : RawJwt F) :
    Py PyStr := do
  let primary ← s.primary
  let kid ← getKid primary.keyId.toNat primary.outputPrefixType
  primary.primitive.signAndEncodeWithKid seed t kid

/-- `_JwtPublicKeySignWrapper.wrap` (python/tink/jwt/_jwt_signature_wrappers.py 79-82). -/
def wrap (s : PrimitiveSet (JwtPublicKeySignInternal F) C) : Py (JwtPublicKeySign F) := do
  validatePrimitiveSet s
  return { signAndEncode := signAndEncode s }

end WrappedJwtPublicKeySign

namespace WrappedJwtPublicKeyVerify

/-- `verify_and_decode` (python/tink/jwt/_jwt_signature_wrappers.py 47-63). -/
def verifyAndDecode (s : PrimitiveSet (JwtPublicKeyVerifyInternal F) C) (clock : Int) (compact : PyStr)
    (v : JwtValidator) : Py (VerifiedJwt F) :=
  verifyEntries (fun p kid => p.verifyAndDecodeWithKid clock compact v kid) false s.all.flatten

/-- `_JwtPublicKeyVerifyWrapper.wrap` (python/tink/jwt/_jwt_signature_wrappers.py 97-101). -/
def wrap (s : PrimitiveSet (JwtPublicKeyVerifyInternal F) C) : Py (JwtPublicKeyVerify F) := do
  validatePrimitiveSet s
  return { verifyAndDecode := verifyAndDecode s }

end WrappedJwtPublicKeyVerify

variable {P : Type}

/-- `_Wrapper` (python/tink/jwt/_jwt_mac_wrapper.py 87-98): the input primitives are `JwtMacInternal`
objects (class `ci`), the result a `JwtMac` (class `c`). -/
def jwtMacWrapper (V : View P (JwtMacInternal F)) (W : View P (JwtMac F)) (t : Nat) (ci c : C) :
    PrimitiveWrapper P C where
  pyType := t
  primitiveClass := c
  inputPrimitiveClass := ci
  wrap s := do
    let p ← WrappedJwtMac.wrap (s.map V.view)
    return W.inj p

/-- `_JwtPublicKeySignWrapper` (python/tink/jwt/_jwt_signature_wrappers.py 74-89). -/
def jwtSignWrapper (V : View P (JwtPublicKeySignInternal F)) (W : View P (JwtPublicKeySign F)) (t : Nat)
    (ci c : C) : PrimitiveWrapper P C where
  pyType := t
  primitiveClass := c
  inputPrimitiveClass := ci
  wrap s := do
    let p ← WrappedJwtPublicKeySign.wrap (s.map V.view)
    return W.inj p

/-- `_JwtPublicKeyVerifyWrapper` (python/tink/jwt/_jwt_signature_wrappers.py 92-108). -/
def jwtVerifyWrapper (V : View P (JwtPublicKeyVerifyInternal F)) (W : View P (JwtPublicKeyVerify F))
    (t : Nat) (ci c : C) : PrimitiveWrapper P C where
  pyType := t
  primitiveClass := c
  inputPrimitiveClass := ci
  wrap s := do
    let p ← WrappedJwtPublicKeyVerify.wrap (s.map V.view)
    return W.inj p

end Jwt
end Tink
