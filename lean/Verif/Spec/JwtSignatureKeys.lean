import Verif.Jwt.Register
import Verif.Py.Lit
import Verif.Spec.JwtKeys
import Verif.Spec.SignatureKeys
import Verif.Spec.Config

/-!
# Specification vocabulary for C99: keys for JWT signatures

RFC 7518, sections 3.1 and 3.3 to 3.5.
-/

namespace Tink.Spec
open Cc Jwt

/-- The algorithms with ECDSA: the number in the key, the name in the header, the curve and the hash function. -/
inductive JwsEcdsa : EnumVal → PyStr → EcGroup → EnumVal → Prop
  | es256 : JwsEcdsa 1 (py! "ES256") .p256 HashType.SHA256
  | es384 : JwsEcdsa 2 (py! "ES384") .p384 HashType.SHA384
  | es512 : JwsEcdsa 3 (py! "ES512") .p521 HashType.SHA512

/-- The algorithms with RSA-SSA-PKCS1: the number in the key, the name in the header and the hash function. -/
inductive JwsPkcs1 : EnumVal → PyStr → EnumVal → Prop
  | rs256 : JwsPkcs1 1 (py! "RS256") HashType.SHA256
  | rs384 : JwsPkcs1 2 (py! "RS384") HashType.SHA384
  | rs512 : JwsPkcs1 3 (py! "RS512") HashType.SHA512

/-- The algorithms with RSA-SSA-PSS: the number in the key, the name in the header, the hash function (for both
purposes) and the size of the salt, which is that of a digest. -/
inductive JwsPss : EnumVal → PyStr → EnumVal → Int → Prop
  | ps256 : JwsPss 1 (py! "PS256") HashType.SHA256 32
  | ps384 : JwsPss 2 (py! "PS384") HashType.SHA384 48
  | ps512 : JwsPss 3 (py! "PS512") HashType.SHA512 64

/-- What a JWT signature key says about tokens: the algorithm and the kid that is in the key. -/
structure JwsInfo where
  alg : PyStr
  customKid : Option PyStr

/-- The size of a kid in UTF-8 is at most this. -/
def JwsInfo.kidSize (i : JwsInfo) : Nat := 4 * (i.customKid.getD []).length

namespace PubKey

/-- The key in a message. -/
inductive OfJwtEcdsa : JwtEcdsaPublicKey → JwsInfo → PubKey → Prop
  | mk {k alg g hash} : k.version = 0 → JwsEcdsa k.algorithm alg g hash →
    OfJwtEcdsa k ⟨alg, k.customKid.map fun c => c.value.toPy⟩
      (ecdsa g k.x k.y hash EcdsaSignatureEncoding.IEEE_P1363)

inductive OfJwtPkcs1 : JwtRsaSsaPkcs1PublicKey → JwsInfo → PubKey → Prop
  | mk {k alg hash} : k.version = 0 → JwsPkcs1 k.algorithm alg hash →
    OfJwtPkcs1 k ⟨alg, k.customKid.map fun c => c.value.toPy⟩ (rsaPkcs1 k.n k.e hash)

inductive OfJwtPss : JwtRsaSsaPssPublicKey → JwsInfo → PubKey → Prop
  | mk {k alg hash salt} : k.version = 0 → JwsPss k.algorithm alg hash salt →
    OfJwtPss k ⟨alg, k.customKid.map fun c => c.value.toPy⟩ (rsaPss k.n k.e hash hash salt)

/-- Key data with this type URL and this value hold the key, for JWT signatures. -/
inductive JwsStoredIn : PStr → Bytes → JwsInfo → PubKey → Prop
  | ecdsa {b k i v} : JwtEcdsaPublicKey.fromString b = .ok k → OfJwtEcdsa k i v →
    JwsStoredIn (ps! "type.googleapis.com/google.crypto.tink.JwtEcdsaPublicKey") b i v
  | rsaPkcs1 {b k i v} : JwtRsaSsaPkcs1PublicKey.fromString b = .ok k → OfJwtPkcs1 k i v →
    JwsStoredIn (ps! "type.googleapis.com/google.crypto.tink.JwtRsaSsaPkcs1PublicKey") b i v
  | rsaPss {b k i v} : JwtRsaSsaPssPublicKey.fromString b = .ok k → OfJwtPss k i v →
    JwsStoredIn (ps! "type.googleapis.com/google.crypto.tink.JwtRsaSsaPssPublicKey") b i v

end PubKey

namespace SigKey

/-- The key in a message. -/
inductive OfJwtEcdsa : JwtEcdsaPrivateKey → JwsInfo → SigKey → Prop
  | mk {k i g x y hash encoding} : k.version = 0 →
    PubKey.OfJwtEcdsa k.getPublicKey i (.ecdsa g x y hash encoding) →
    OfJwtEcdsa k i (ecdsa g x y k.keyValue hash encoding)

inductive OfJwtPkcs1 : JwtRsaSsaPkcs1PrivateKey → JwsInfo → SigKey → Prop
  | mk {k i n e hash} : k.version = 0 → PubKey.OfJwtPkcs1 k.getPublicKey i (.rsaPkcs1 n e hash) →
    OfJwtPkcs1 k i (rsaPkcs1 ⟨n, e, k.d, k.p, k.q, k.dp, k.dq, k.crt⟩ hash)

inductive OfJwtPss : JwtRsaSsaPssPrivateKey → JwsInfo → SigKey → Prop
  | mk {k i n e sigHash mgf1Hash salt} : k.version = 0 →
    PubKey.OfJwtPss k.getPublicKey i (.rsaPss n e sigHash mgf1Hash salt) →
    OfJwtPss k i (rsaPss ⟨n, e, k.d, k.p, k.q, k.dp, k.dq, k.crt⟩ sigHash mgf1Hash salt)

/-- Key data with this type URL and this value hold the key, for JWT signatures. -/
inductive JwsStoredIn : PStr → Bytes → JwsInfo → SigKey → Prop
  | ecdsa {b k i s} : JwtEcdsaPrivateKey.fromString b = .ok k → OfJwtEcdsa k i s →
    JwsStoredIn (ps! "type.googleapis.com/google.crypto.tink.JwtEcdsaPrivateKey") b i s
  | rsaPkcs1 {b k i s} : JwtRsaSsaPkcs1PrivateKey.fromString b = .ok k → OfJwtPkcs1 k i s →
    JwsStoredIn (ps! "type.googleapis.com/google.crypto.tink.JwtRsaSsaPkcs1PrivateKey") b i s
  | rsaPss {b k i s} : JwtRsaSsaPssPrivateKey.fromString b = .ok k → OfJwtPss k i s →
    JwsStoredIn (ps! "type.googleapis.com/google.crypto.tink.JwtRsaSsaPssPrivateKey") b i s

/-- The key that a key template with this type URL and this value asks for, made with the given randomness, and
its algorithm.  For RSA, the library may fail to make one. -/
inductive JwsAskedFor (lib : SigSsl) (seed : Seed) : PStr → Bytes → PyStr → SigKey → Prop
  | ecdsa {b f alg g hash x y} : JwtEcdsaKeyFormat.fromString b = .ok f → JwsEcdsa f.algorithm alg g hash →
    lib.ecPublic g (lib.ecGenerate seed g) = (x, y) →
    JwsAskedFor lib seed (ps! "type.googleapis.com/google.crypto.tink.JwtEcdsaPrivateKey") b alg
      (ecdsa g (digitsBE g.fieldSize x) (digitsBE g.fieldSize y) (digitsBE g.fieldSize (lib.ecGenerate seed g))
        hash EcdsaSignatureEncoding.IEEE_P1363)
  | rsaPkcs1 {b f alg hash k} : JwtRsaSsaPkcs1KeyFormat.fromString b = .ok f → JwsPkcs1 f.algorithm alg hash →
    lib.rsaGenerate seed (Cpp.toInt f.modulusSizeInBits) (fromBytesBE f.publicExponent) = some k →
    JwsAskedFor lib seed (ps! "type.googleapis.com/google.crypto.tink.JwtRsaSsaPkcs1PrivateKey") b alg
      (rsaPkcs1 (rsaKey k) hash)
  | rsaPss {b f alg hash salt k} : JwtRsaSsaPssKeyFormat.fromString b = .ok f → JwsPss f.algorithm alg hash salt →
    lib.rsaGenerate seed (Cpp.toInt f.modulusSizeInBits) (fromBytesBE f.publicExponent) = some k →
    JwsAskedFor lib seed (ps! "type.googleapis.com/google.crypto.tink.JwtRsaSsaPssPrivateKey") b alg
      (rsaPss (rsaKey k) hash hash salt)

end SigKey

/-- The key type of the public keys, for the key type of private JWT keys. -/
inductive JwsPublicType : PStr → PStr → Prop
  | ecdsa : JwsPublicType (ps! "type.googleapis.com/google.crypto.tink.JwtEcdsaPrivateKey")
      (ps! "type.googleapis.com/google.crypto.tink.JwtEcdsaPublicKey")
  | rsaPkcs1 : JwsPublicType (ps! "type.googleapis.com/google.crypto.tink.JwtRsaSsaPkcs1PrivateKey")
      (ps! "type.googleapis.com/google.crypto.tink.JwtRsaSsaPkcs1PublicKey")
  | rsaPss : JwsPublicType (ps! "type.googleapis.com/google.crypto.tink.JwtRsaSsaPssPrivateKey")
      (ps! "type.googleapis.com/google.crypto.tink.JwtRsaSsaPssPublicKey")

/-- Key data hold a private key for JWT signatures. -/
def JwsPrivateKey (kd : KeyData) (i : JwsInfo) (s : SigKey) : Prop := SigKey.JwsStoredIn kd.typeUrl kd.value i s

/-- Key data hold a public key for JWT signatures. -/
def JwsPublicKey (kd : KeyData) (i : JwsInfo) (v : PubKey) : Prop := PubKey.JwsStoredIn kd.typeUrl kd.value i v

/-- The check of a signature with a public key. -/
noncomputable def sigCheck (lib : SigSsl) (v : PubKey) (sig data : Bytes) : Py Unit :=
  open Classical in if v.Valid lib data sig then .ok () else .error .tinkError

/-- The key types of private keys for JWT signatures, and how algorithm and kid are read from them. -/
def jwsSigners : List (PStr × (KeyData → Py (PyStr × Option PyStr))) :=
  [(ps! "type.googleapis.com/google.crypto.tink.JwtEcdsaPrivateKey", ecdsaPrivateAlgKid),
   (ps! "type.googleapis.com/google.crypto.tink.JwtRsaSsaPkcs1PrivateKey", rsaSsaPkcs1PrivateAlgKid),
   (ps! "type.googleapis.com/google.crypto.tink.JwtRsaSsaPssPrivateKey", rsaSsaPssPrivateAlgKid)]

/-- The key types of public keys for JWT signatures, and how algorithm and kid are read from them. -/
def jwsVerifiers : List (PStr × (KeyData → Py (PyStr × Option PyStr))) :=
  [(ps! "type.googleapis.com/google.crypto.tink.JwtEcdsaPublicKey", ecdsaPublicAlgKid),
   (ps! "type.googleapis.com/google.crypto.tink.JwtRsaSsaPkcs1PublicKey", rsaSsaPkcs1PublicAlgKid),
   (ps! "type.googleapis.com/google.crypto.tink.JwtRsaSsaPssPublicKey", rsaSsaPssPublicAlgKid)]

section
variable {F P C : Type} [DecidableEq C]

/-- JWT signatures can be used: the registry holds Tink's key managers for these keys, which may make new keys, no
other key managers for JWT signatures, and Tink's wrappers. -/
structure JwtSignatureRegistered (L : Library F P C) (r : Registry P C) : Prop where
  sign : ∀ q ∈ jwsSigners, PyDict.get? r.keyManagers q.1 =
    some (jwtSignKeyManager L.signInternal L.signManagerType L.signInternalClass L.env (L.ccSign q.1) q.2, true)
  verify : ∀ q ∈ jwsVerifiers, PyDict.get? r.keyManagers q.1 =
    some (jwtVerifyKeyManager L.verifyInternal L.verifyManagerType L.verifyInternalClass L.env (L.ccVerify q.1) q.2,
      true)
  onlySign : SignManagers L.signInternal L.signInternalClass L.env L.ccSign r
  onlyVerify : VerifyManagers L.verifyInternal L.verifyInternalClass L.env L.ccVerify r
  signWrapper : PyDict.get? r.wrappers L.signClass =
    some (jwtSignWrapper L.signInternal L.sign L.signWrapperType L.signInternalClass L.signClass)
  verifyWrapper : PyDict.get? r.wrappers L.verifyClass =
    some (jwtVerifyWrapper L.verifyInternal L.verify L.verifyWrapperType L.verifyInternalClass L.verifyClass)

end

/-- The predefined templates for JWT signatures. -/
def jwsTemplates : List (Py KeyTemplate) :=
  [Templates.jwt_es256_template, Templates.raw_jwt_es256_template,
   Templates.jwt_es384_template, Templates.raw_jwt_es384_template,
   Templates.jwt_es512_template, Templates.raw_jwt_es512_template,
   Templates.jwt_rs256_2048_f4_template, Templates.raw_jwt_rs256_2048_f4_template,
   Templates.jwt_rs256_3072_f4_template, Templates.raw_jwt_rs256_3072_f4_template,
   Templates.jwt_rs384_3072_f4_template, Templates.raw_jwt_rs384_3072_f4_template,
   Templates.jwt_rs512_4096_f4_template, Templates.raw_jwt_rs512_4096_f4_template,
   Templates.jwt_ps256_2048_f4_template, Templates.raw_jwt_ps256_2048_f4_template,
   Templates.jwt_ps256_3072_f4_template, Templates.raw_jwt_ps256_3072_f4_template,
   Templates.jwt_ps384_3072_f4_template, Templates.raw_jwt_ps384_3072_f4_template,
   Templates.jwt_ps512_4096_f4_template, Templates.raw_jwt_ps512_4096_f4_template]

/-- All keys of the keyset, enabled or not, are private keys for JWT signatures and can be serialized, also after
their public parts have been taken out. -/
def JwsPrivateKeyset (ks : Keyset) : Prop :=
  ∀ k ∈ ks.key, k.data.typeUrl ∈ jwsSigners.map Prod.fst ∧ Fits k.data ∧
    k.data.keyMaterialType = KeyMaterialType.ASYMMETRIC_PRIVATE ∧
    ∀ i s, JwsPrivateKey k.data i s → s.size + i.kidSize < 2 ^ 31 - 1000

/-- The key is the public counterpart of a private key: the same status, id, kind of prefix, algorithm and kid, and
the public part of what is stored. -/
def JwsCounterpart (k pub : Key) : Prop :=
  pub.status = k.status ∧ pub.keyId = k.keyId ∧ pub.outputPrefixType = k.outputPrefixType ∧
  JwsPublicType k.data.typeUrl pub.data.typeUrl ∧
  pub.data.keyMaterialType = KeyMaterialType.ASYMMETRIC_PUBLIC ∧ Fits pub.data ∧
  ∃ i s, JwsPrivateKey k.data i s ∧ JwsPublicKey pub.data i s.publicPart

end Tink.Spec
