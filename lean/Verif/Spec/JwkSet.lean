import Verif.Spec.JwtKeys

/-!
# Vocabulary for JWK sets (RFC 7517, RFC 7518)
-/

namespace Tink
namespace Spec
open Jwt Json

variable {F : Type}

/-- Key data of a public key with an algorithm, its two numbers (`x` and `y`, or `n` and `e`), and a custom
kid. -/
inductive PublicKey (kd : KeyData) (alg : PyStr) (a b : Bytes) (kid : Option PyStr) : Prop
  | ecdsa (k : JwtEcdsaPublicKey)
      (typeUrl : kd.typeUrl = ps! "type.googleapis.com/google.crypto.tink.JwtEcdsaPublicKey")
      (key : JwtEcdsaPublicKey.fromString kd.value = .ok k)
      (alg : (k.algorithm, alg) ∈ [(1, py! "ES256"), (2, py! "ES384"), (3, py! "ES512")])
      (numbers : k.x = a ∧ k.y = b) (kid : kid = k.customKid.map fun c => c.value.toPy)
  | rsaSsaPkcs1 (k : JwtRsaSsaPkcs1PublicKey)
      (typeUrl : kd.typeUrl = ps! "type.googleapis.com/google.crypto.tink.JwtRsaSsaPkcs1PublicKey")
      (key : JwtRsaSsaPkcs1PublicKey.fromString kd.value = .ok k)
      (alg : (k.algorithm, alg) ∈ [(1, py! "RS256"), (2, py! "RS384"), (3, py! "RS512")])
      (numbers : k.n = a ∧ k.e = b) (kid : kid = k.customKid.map fun c => c.value.toPy)
  | rsaSsaPss (k : JwtRsaSsaPssPublicKey)
      (typeUrl : kd.typeUrl = ps! "type.googleapis.com/google.crypto.tink.JwtRsaSsaPssPublicKey")
      (key : JwtRsaSsaPssPublicKey.fromString kd.value = .ok k)
      (alg : (k.algorithm, alg) ∈ [(1, py! "PS256"), (2, py! "PS384"), (3, py! "PS512")])
      (numbers : k.n = a ∧ k.e = b) (kid : kid = k.customKid.map fun c => c.value.toPy)

/-- The member `name` of a JWK is a string, the base64url form of `b`. -/
def Number (d : List (PyStr × JVal F)) (name : PyStr) (b : Bytes) : Prop :=
  ∃ s : Bytes, PyDict.get? d name = some (.str (s.map UInt8.toNat)) ∧ (∀ c ∈ s, UrlChar c) ∧
    s.length % 4 ≠ 1 ∧ octetBits b = (sextetBits s).take (8 * (6 * s.length / 8))

/-- The members of a JWK that say what it is for, as far as it has them: `use` is `sig`, `key_ops` is
`["verify"]`. -/
def ForVerifying (d : List (PyStr × JVal F)) : Prop :=
  (∀ v, PyDict.get? d (py! "use") = some v → v = .str (py! "sig")) ∧
    ∀ v, PyDict.get? d (py! "key_ops") = some v → v = .list [.str (py! "verify")]

/-- The members of a JWK with the private part of an RSA key. -/
def rsaPrivateMembers : List PyStr := [py! "p", py! "q", py! "dp", py! "dq", py! "d", py! "qi"]

/-- A JWK describes a public key: its algorithm, its two numbers, and its kid. -/
inductive Denotes (d : List (PyStr × JVal F)) (alg : PyStr) (a b : Bytes) (kid : Option PyStr) : Prop
  | ec (crv : PyStr) (kty : PyDict.get? d (py! "kty") = some (.str (py! "EC")))
      (alg : PyDict.get? d (py! "alg") = some (.str alg) ∧
        (alg, crv) ∈ [(py! "ES256", py! "P-256"), (py! "ES384", py! "P-384"), (py! "ES512", py! "P-521")])
      (crv : PyDict.get? d (py! "crv") = some (.str crv))
      (a : Number d (py! "x") a) (b : Number d (py! "y") b)
      (kid : PyDict.get? d (py! "kid") = kid.map .str ∧ ∀ s ∈ kid, ValidText s)
      (use : ForVerifying d) (isPublic : PyDict.get? d (py! "d") = none)
  | rsa (kty : PyDict.get? d (py! "kty") = some (.str (py! "RSA")))
      (alg : PyDict.get? d (py! "alg") = some (.str alg) ∧
        alg ∈ [py! "RS256", py! "RS384", py! "RS512", py! "PS256", py! "PS384", py! "PS512"])
      (a : Number d (py! "n") a) (b : Number d (py! "e") b)
      (kid : PyDict.get? d (py! "kid") = kid.map .str ∧ ∀ s ∈ kid, ValidText s)
      (use : ForVerifying d) (isPublic : ∀ m ∈ rsaPrivateMembers, PyDict.get? d m = none)

/-- A JWK is an EC key with a private part, or an RSA key with part of its private part. -/
def PrivateJwk (d : List (PyStr × JVal F)) : Prop :=
  (PyDict.get? d (py! "kty") = some (.str (py! "EC")) ∧ PyDict.get? d (py! "d") ≠ none) ∨
  (PyDict.get? d (py! "kty") = some (.str (py! "RSA")) ∧
    ∃ m ∈ rsaPrivateMembers, PyDict.get? d m ≠ none)

/-- The text is a JWK set with the given list of members of `keys`. -/
def IsJwkSet (env : JsonEnv F) (text : PyStr) (jwks : List (JVal F)) : Prop :=
  ∃ top, loads env text = .ok (.dict top) ∧ PyDict.get? top (py! "keys") = some (.list jwks)

/-- A JWK is an object whose members, as far as they matter, have the right types: `alg`, `kid` and the
numbers are strings of valid Unicode, the numbers are present, `key_ops` is an array. -/
structure WellTyped (d : List (PyStr × JVal F)) : Prop where
  strings : ∀ m ∈ [py! "alg", py! "kid", py! "x", py! "y", py! "n", py! "e"], ∀ v,
    PyDict.get? d m = some v → ∃ s, v = .str s ∧ ValidText s
  ec : PyDict.get? d (py! "kty") = some (.str (py! "EC")) →
    PyDict.get? d (py! "x") ≠ none ∧ PyDict.get? d (py! "y") ≠ none
  rsa : PyDict.get? d (py! "kty") = some (.str (py! "RSA")) →
    PyDict.get? d (py! "n") ≠ none ∧ PyDict.get? d (py! "e") ≠ none
  keyOps : ∀ v, PyDict.get? d (py! "key_ops") = some v → ∃ l, v = .list l

/-- The numbers and the kid that a JWK describes take at most `m` bytes. -/
def SizeAtMost (m : Nat) (d : List (PyStr × JVal F)) : Prop :=
  ∀ alg a b kid, Denotes d alg a b kid → a.length + b.length + 4 * (kid.getD []).length ≤ m

/-- The kid with which a key is exported: that of its id for TINK keys, its custom kid otherwise. -/
def exportedKid (k : Key) (customKid : Option PyStr) : Option PyStr :=
  match keyKid k with
  | some s => some s
  | none => customKid

/-- A key of an imported keyset: a public key, enabled, for signatures without prefix. -/
structure ImportedKey (k : Key) : Prop where
  material : k.data.keyMaterialType = KeyMaterialType.ASYMMETRIC_PUBLIC
  status : k.status = KeyStatusType.ENABLED
  pfx : k.outputPrefixType = OutputPrefixType.RAW

/-- Two C++ libraries decide by the algorithm and the numbers of a public key which signatures are right, and both
in the same way. -/
def SameVerifiers (cc cc' : PStr → CcKeyManager PublicKeyVerify) : Prop :=
  ∀ kd kd' alg a b kid kid' data data' v v', PublicKey kd alg a b kid → PublicKey kd' alg a b kid' →
    kd.serializeToString = .ok data → (cc kd.typeUrl).primitive data = .ok v →
    kd'.serializeToString = .ok data' → (cc' kd'.typeUrl).primitive data' = .ok v' →
    ∀ sig d, v.verify sig d = .ok () ↔ v'.verify sig d = .ok ()

/-- The second C++ library takes all public keys that the first one takes, which are told apart by their algorithm
and numbers. -/
def TakesKeys (cc cc' : PStr → CcKeyManager PublicKeyVerify) : Prop :=
  ∀ kd kd' alg a b kid kid' data data' v, PublicKey kd alg a b kid → PublicKey kd' alg a b kid' →
    kd.serializeToString = .ok data → (cc kd.typeUrl).primitive data = .ok v →
    kd'.serializeToString = .ok data' → ∃ v', (cc' kd'.typeUrl).primitive data' = .ok v'

/-- `R` holds of the elements of two lists of the same length, in order. -/
inductive Corresponding {α β : Type} (R : α → β → Prop) : List α → List β → Prop
  | nil : Corresponding R [] []
  | cons {a b l m} : R a b → Corresponding R l m → Corresponding R (a :: l) (b :: m)

end Spec
end Tink
