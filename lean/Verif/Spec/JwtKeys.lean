import Verif.Jwt.Wrappers
import Verif.Spec.Base64
import Verif.Spec.Json
import Verif.Spec.Keyset

/-!
# Vocabulary for JWT keys and tokens in compact form
-/

namespace Tink
namespace Spec
open Jwt Json JsonUtil

variable {F P C : Type}

/-- The kid that a key of a keyset stands for: the base64url form of its id for TINK keys. -/
def keyKid (k : Key) : Option PyStr :=
  if k.outputPrefixType = OutputPrefixType.TINK then
    some ((base64Encode (be32 k.keyId.toNat)).map UInt8.toNat)
  else none

/-- Key data of an HMAC key with an algorithm and a custom kid. -/
structure TokenMacKey (kd : KeyData) (alg : PyStr) (customKid : Option PyStr) : Prop where
  typeUrl : kd.typeUrl = ps! "type.googleapis.com/google.crypto.tink.JwtHmacKey"
  key : ∃ k, JwtHmacKey.fromString kd.value = .ok k ∧
    (k.algorithm, alg) ∈ [(1, py! "HS256"), (2, py! "HS384"), (3, py! "HS512")] ∧
    customKid = k.customKid.map fun c => c.value.toPy

/-- Key data of a public key with an algorithm and a custom kid. -/
inductive VerifyKey (kd : KeyData) (alg : PyStr) (customKid : Option PyStr) : Prop
  | ecdsa (k : JwtEcdsaPublicKey)
      (typeUrl : kd.typeUrl = ps! "type.googleapis.com/google.crypto.tink.JwtEcdsaPublicKey")
      (key : JwtEcdsaPublicKey.fromString kd.value = .ok k)
      (alg : (k.algorithm, alg) ∈ [(1, py! "ES256"), (2, py! "ES384"), (3, py! "ES512")])
      (kid : customKid = k.customKid.map fun c => c.value.toPy)
  | rsaSsaPkcs1 (k : JwtRsaSsaPkcs1PublicKey)
      (typeUrl : kd.typeUrl = ps! "type.googleapis.com/google.crypto.tink.JwtRsaSsaPkcs1PublicKey")
      (key : JwtRsaSsaPkcs1PublicKey.fromString kd.value = .ok k)
      (alg : (k.algorithm, alg) ∈ [(1, py! "RS256"), (2, py! "RS384"), (3, py! "RS512")])
      (kid : customKid = k.customKid.map fun c => c.value.toPy)
  | rsaSsaPss (k : JwtRsaSsaPssPublicKey)
      (typeUrl : kd.typeUrl = ps! "type.googleapis.com/google.crypto.tink.JwtRsaSsaPssPublicKey")
      (key : JwtRsaSsaPssPublicKey.fromString kd.value = .ok k)
      (alg : (k.algorithm, alg) ∈ [(1, py! "PS256"), (2, py! "PS384"), (3, py! "PS512")])
      (kid : customKid = k.customKid.map fun c => c.value.toPy)

/-- Key data of a private key with an algorithm and a custom kid. -/
inductive SignKey (kd : KeyData) (alg : PyStr) (customKid : Option PyStr) : Prop
  | ecdsa (k : JwtEcdsaPrivateKey)
      (typeUrl : kd.typeUrl = ps! "type.googleapis.com/google.crypto.tink.JwtEcdsaPrivateKey")
      (key : JwtEcdsaPrivateKey.fromString kd.value = .ok k)
      (alg : (k.getPublicKey.algorithm, alg) ∈ [(1, py! "ES256"), (2, py! "ES384"), (3, py! "ES512")])
      (kid : customKid = k.getPublicKey.customKid.map fun c => c.value.toPy)
  | rsaSsaPkcs1 (k : JwtRsaSsaPkcs1PrivateKey)
      (typeUrl : kd.typeUrl = ps! "type.googleapis.com/google.crypto.tink.JwtRsaSsaPkcs1PrivateKey")
      (key : JwtRsaSsaPkcs1PrivateKey.fromString kd.value = .ok k)
      (alg : (k.getPublicKey.algorithm, alg) ∈ [(1, py! "RS256"), (2, py! "RS384"), (3, py! "RS512")])
      (kid : customKid = k.getPublicKey.customKid.map fun c => c.value.toPy)
  | rsaSsaPss (k : JwtRsaSsaPssPrivateKey)
      (typeUrl : kd.typeUrl = ps! "type.googleapis.com/google.crypto.tink.JwtRsaSsaPssPrivateKey")
      (key : JwtRsaSsaPssPrivateKey.fromString kd.value = .ok k)
      (alg : (k.getPublicKey.algorithm, alg) ∈ [(1, py! "PS256"), (2, py! "PS384"), (3, py! "PS512")])
      (kid : customKid = k.getPublicKey.customKid.map fun c => c.value.toPy)

/-- The key managers in the registry for JWT MACs are Tink's, with the C++ key manager `cc`. -/
def MacManagers (V : View P (JwtMacInternal F)) (ci : C) (env : JwtEnv F) (cc : CcKeyManager Mac)
    (r : Registry P C) : Prop :=
  ∀ url m b, PyDict.get? r.keyManagers url = some (m, b) → m.primitiveClass = ci →
    ∃ t, m = jwtMacKeyManager V t ci env cc

/-- The functions that read algorithm and kid from key data, for public keys. -/
def publicReaders : List (KeyData → Py (PyStr × Option PyStr)) :=
  [ecdsaPublicAlgKid, rsaSsaPkcs1PublicAlgKid, rsaSsaPssPublicAlgKid]

/-- The same for private keys. -/
def privateReaders : List (KeyData → Py (PyStr × Option PyStr)) :=
  [ecdsaPrivateAlgKid, rsaSsaPkcs1PrivateAlgKid, rsaSsaPssPrivateAlgKid]

/-- The key managers in the registry for JWT signature verification are Tink's; `cc url` is the C++ key
manager for a type of key. -/
def VerifyManagers (V : View P (JwtPublicKeyVerifyInternal F)) (ci : C) (env : JwtEnv F)
    (cc : PStr → CcKeyManager PublicKeyVerify) (r : Registry P C) : Prop :=
  ∀ url m b, PyDict.get? r.keyManagers url = some (m, b) → m.primitiveClass = ci →
    ∃ t, ∃ f ∈ publicReaders, m = jwtVerifyKeyManager V t ci env (cc url) f

/-- The same for signing. -/
def SignManagers (V : View P (JwtPublicKeySignInternal F)) (ci : C) (env : JwtEnv F)
    (cc : PStr → CcKeyManager PublicKeySign) (r : Registry P C) : Prop :=
  ∀ url m b, PyDict.get? r.keyManagers url = some (m, b) → m.primitiveClass = ci →
    ∃ t, ∃ f ∈ privateReaders, m = jwtSignKeyManager V t ci env (cc url) f

/-- `compact` consists of three parts with dots between them, each in base64url characters. -/
structure Compact (compact : PyStr) (header payload signature : Bytes) : Prop where
  form : compact = (header ++ 46 :: payload ++ 46 :: signature).map UInt8.toNat
  header : ∀ c ∈ header, UrlChar c
  payload : ∀ c ∈ payload, UrlChar c
  signature : ∀ c ∈ signature, UrlChar c

/-- A part of a token is the base64url form of the UTF-8 form of a JSON text with value `v`. -/
def Holds (env : JsonEnv F) (part : Bytes) (v : JVal F) : Prop :=
  ∃ b text, base64Decode part = .ok b ∧ utf8Decode b = .ok text ∧ jsonLoads env text = .ok v

/-- A part of a token is the base64url form of valid UTF-8. -/
def IsText (part : Bytes) : Prop := ∃ b text, base64Decode part = .ok b ∧ utf8Decode b = .ok text

/-- A token has three parts that can be decoded; nothing is said about JSON. -/
def WellFormed (compact : PyStr) : Prop :=
  ∃ header payload signature, Compact compact header payload signature ∧ IsText header ∧
    IsText payload ∧ ∃ sig, base64Decode signature = .ok sig

/-- The signature of a token, over the bytes before the last dot, passes the check of a key. -/
def SignedFor (check : Bytes → Bytes → Py Unit) (compact : PyStr) : Prop :=
  ∃ header payload signature sig, Compact compact header payload signature ∧
    base64Decode signature = .ok sig ∧ check sig (header ++ 46 :: payload) = .ok ()

/-- A check of signatures that only ever raises `TinkError`s. -/
def TinkErrorsOnly (check : Bytes → Bytes → Py Unit) : Prop :=
  ∀ sig d, check sig d = .ok () ∨ ∃ e, check sig d = .error e ∧ e.isTink = true

/-- A token that a key with algorithm `alg` and the two kinds of kid may accept, from what is in the
header. -/
structure HeaderMatches (upper : PyStr → PyStr) (h : List (PyStr × JVal F)) (alg : PyStr)
    (kid customKid : Option PyStr) : Prop where
  alg : ∃ s, PyDict.get? h (py! "alg") = some (.str s) ∧ upper s = alg
  crit : PyDict.get? h (py! "crit") = none
  kid : ∀ k, kid = some k → PyDict.get? h (py! "kid") = some (.str k)
  customKid : ∀ k, customKid = some k →
    PyDict.get? h (py! "kid") = none ∨ PyDict.get? h (py! "kid") = some (.str k)

/-- The letters `a` to `z` become `A` to `Z`. -/
def asciiUpper (c : Nat) : Nat := if 97 ≤ c ∧ c ≤ 122 then c - 32 else c

/-- What is assumed of `str.upper`. -/
structure LawfulUpper (upper : PyStr → PyStr) : Prop where
  ascii : ∀ s : PyStr, (∀ c ∈ s, c < 128) → upper s = s.map asciiUpper

/-- What the type header of a token becomes when it is written and read: an empty one is left out. -/
def writtenType (fl : Floats F) : Option (JVal F) → Option (JVal F)
  | some v => if truth fl v then some v else none
  | none => none

end Spec
end Tink
