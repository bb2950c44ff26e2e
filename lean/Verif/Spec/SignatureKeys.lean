import Verif.Cc.SigSsl
import Verif.Core.CcKeyManager
import Verif.Spec.SymmetricKeys

/-!
# Specification vocabulary for C96 and C97: signature keys and signatures

What is assumed of BoringSSL; the private and public keys, where they are stored, from which key format they
are made and when they are acceptable; which signatures they make and which they accept.
-/

namespace Tink.Spec
open Cc

/-! ## The encodings of a pair of numbers -/

/-- The length of a DER element (X.690, 8.1.3). -/
def derLength (n : Nat) : Bytes :=
  if n < 128 then [UInt8.ofNat n]
  else UInt8.ofNat (128 + bnNumBytes n) :: digitsBE (bnNumBytes n) n

/-- A DER element: tag, length and contents. -/
def derElement (tag : UInt8) (contents : Bytes) : Bytes := tag :: (derLength contents.length ++ contents)

/-- A non-negative INTEGER, in as few bytes as possible such that the first bit is 0 (X.690, 8.3). -/
def derInteger (n : Nat) : Bytes := derElement 2 (digitsBE (bitLength n / 8 + 1) n)

/-- SEQUENCE { r INTEGER, s INTEGER } (RFC 5480, appendix A). -/
def derSignature (rs : Nat × Nat) : Bytes := derElement 0x30 (derInteger rs.1 ++ derInteger rs.2)

/-- The signature for a pair of numbers: in DER, or (IEEE P1363) both numbers one after the other, each in
as many bytes as a field element has. -/
def ecdsaEncode (g : EcGroup) (encoding : EnumVal) (rs : Nat × Nat) : Bytes :=
  if encoding = EcdsaSignatureEncoding.IEEE_P1363 then digitsBE g.fieldSize rs.1 ++ digitsBE g.fieldSize rs.2
  else derSignature rs

/-! ## What is assumed of BoringSSL -/

/-- The hash functions for signatures. -/
def SafeHash (hash : EnumVal) : Prop :=
  hash = HashType.SHA256 ∨ hash = HashType.SHA384 ∨ hash = HashType.SHA512

/-- Does a salt fit, with a digest of `h` bytes, into the encoded message of RSA-SSA-PSS for a modulus `n`
(RFC 8017, 9.1.1, step 3)?  The encoded message has one bit less than the modulus. -/
def SaltFits (n h : Nat) (salt : Int) : Prop := h + salt + 2 ≤ (((bitLength n - 1 + 7) / 8 : Nat) : Int)

/-- What is assumed of BoringSSL.  Nothing of it is about how hard it is to forge. -/
structure LawfulSigSsl (lib : SigSsl) : Prop where
  digest : ∀ hash n data, Digest hash n → (lib.digest hash data).length = n
  random : ∀ seed i n, (lib.random seed i n).length = n
  /-- Generated EC keys: the private key is acceptable, and all numbers have the size of a field element. -/
  generate : ∀ seed g, lib.ecScalar g (lib.ecGenerate seed g) = true ∧
    lib.ecGenerate seed g < 256 ^ g.fieldSize
  /-- The public key of an acceptable private key is on the curve. -/
  onCurve : ∀ g d, lib.ecScalar g d = true →
    lib.ecPoint g (lib.ecPublic g d).1 (lib.ecPublic g d).2 = true
  point : ∀ g x y, lib.ecPoint g x y = true → x < 256 ^ g.fieldSize ∧ y < 256 ^ g.fieldSize
  /-- ECDSA signs everything, and the public key accepts it. -/
  ecdsaTotal : ∀ seed g d m, lib.ecScalar g d = true → ∃ rs, lib.ecdsaSign seed g d m = some rs
  ecdsa : ∀ seed g d m rs, lib.ecScalar g d = true → lib.ecdsaSign seed g d m = some rs →
    lib.ecdsaVerify g (lib.ecPublic g d) m rs = true
  /-- The numbers of an accepted signature are smaller than the order of the group. -/
  ecdsaSize : ∀ g pub m r s, lib.ecdsaVerify g pub m (r, s) = true →
    r < 256 ^ g.fieldSize ∧ s < 256 ^ g.fieldSize
  /-- DER is written and read without alternatives. -/
  derEncode : ∀ r s, r < 256 ^ 66 → s < 256 ^ 66 → lib.derEncode (r, s) = derSignature (r, s)
  derDecode : ∀ b rs, lib.derDecode b = some rs → b = derSignature rs
  derReads : ∀ r s, r < 256 ^ 66 → s < 256 ^ 66 → lib.derDecode (derSignature (r, s)) = some (r, s)
  /-- Ed25519. -/
  ed25519Public : ∀ priv, priv.length = 32 → (lib.ed25519Public priv).length = 32
  ed25519Sign : ∀ priv data, priv.length = 32 → (lib.ed25519Sign priv data).length = 64
  ed25519 : ∀ priv data, priv.length = 32 →
    lib.ed25519Verify (lib.ed25519Public priv) (lib.ed25519Sign priv data) data = true
  /-- Generated RSA keys pass the checks and have the exponent and no more bits than asked for, and not less
  than 2048 if these are asked for.  All numbers are smaller than the modulus. -/
  rsaGenerate : ∀ seed bits e k, lib.rsaGenerate seed bits e = some k →
    k.e = e ∧ (bitLength k.n : Int) ≤ bits ∧ (2048 ≤ bits → 2048 ≤ bitLength k.n) ∧
    lib.rsaCheckKey k = true ∧ lib.rsaCheckFips k = true ∧
    k.d < k.n ∧ k.p < k.n ∧ k.q < k.n ∧ k.dp < k.n ∧ k.dq < k.n ∧ k.crt < k.n
  /-- They sign everything. -/
  rsaSignTotal : ∀ seed bits e k hash h m, lib.rsaGenerate seed bits e = some k → 2048 ≤ bits →
    SafeHash hash → Digest hash h → m.length = h → ∃ sig, lib.rsaSign hash k m = some sig
  rsaEncryptTotal : ∀ seed bits e k seed' hash salt m em, lib.rsaGenerate seed bits e = some k → 2048 ≤ bits →
    lib.pssPad seed' k.n hash hash salt m = some em → ∃ sig, lib.rsaPrivateEncrypt k em = some sig
  /-- With any key that passes the check, a signature is only returned if the public key accepts it. -/
  rsa : ∀ hash k m sig, lib.rsaCheckKey k = true → lib.rsaSign hash k m = some sig →
    lib.rsaVerify hash k.n k.e m sig = true
  rsaRaw : ∀ k em sig, lib.rsaCheckKey k = true → lib.rsaPrivateEncrypt k em = some sig →
    lib.rsaPublicDecrypt k.n k.e sig = some em
  /-- Signatures have the size of the modulus. -/
  rsaSize : ∀ hash n e m sig, lib.rsaVerify hash n e m sig = true → sig.length = bnNumBytes n
  rsaRawSize : ∀ n e sig em, lib.rsaPublicDecrypt n e sig = some em →
    sig.length = bnNumBytes n ∧ em.length = bnNumBytes n
  /-- RSA-SSA-PSS encodes a digest if and only if the salt fits, and accepts what it encodes. -/
  pssTotal : ∀ seed n hash h salt m, SafeHash hash → Digest hash h → m.length = h → 0 ≤ salt →
    ((∃ em, lib.pssPad seed n hash hash salt m = some em) ↔ SaltFits n h salt)
  pss : ∀ seed n hash salt m em, lib.pssPad seed n hash hash salt m = some em →
    lib.pssCheck n hash hash salt m em = true
  pssFits : ∀ n hash h salt m em, SafeHash hash → Digest hash h → m.length = h → 0 ≤ salt →
    lib.pssCheck n hash hash salt m em = true → SaltFits n h salt

/-! ## Public keys -/

/-- The numbers of the curves. -/
inductive Curve : EnumVal → EcGroup → Prop
  | p256 : Curve EllipticCurveType.NIST_P256 .p256
  | p384 : Curve EllipticCurveType.NIST_P384 .p384
  | p521 : Curve EllipticCurveType.NIST_P521 .p521

/-- The hash functions that may be used with a curve. -/
inductive HashFor : EcGroup → EnumVal → Prop
  | p256 : HashFor .p256 HashType.SHA256
  | p384 : HashFor .p384 HashType.SHA384
  | p384' : HashFor .p384 HashType.SHA512
  | p521 : HashFor .p521 HashType.SHA512

/-- Is an RSA public key acceptable: a modulus of 2048 bits or more, and an odd exponent between 65537 and
`2 ^ 32 - 1`? -/
def RsaOk (n e : Bytes) : Prop :=
  2048 ≤ bitLength (fromBytesBE n) ∧ fromBytesBE e % 2 = 1 ∧ 65536 < fromBytesBE e ∧ fromBytesBE e < 2 ^ 32

/-- The public keys.  Numbers are strings, as they are stored. -/
inductive PubKey
  | ecdsa (g : EcGroup) (x y : Bytes) (hash encoding : EnumVal)
  | ed25519 (pub : Bytes)
  | rsaPkcs1 (n e : Bytes) (hash : EnumVal)
  | rsaPss (n e : Bytes) (sigHash mgf1Hash : EnumVal) (salt : Int)

namespace PubKey

/-- Is the key acceptable? -/
def Ok (lib : SigSsl) : PubKey → Prop
  | ecdsa g x y hash encoding => HashFor g hash ∧
    (encoding = EcdsaSignatureEncoding.DER ∨ encoding = EcdsaSignatureEncoding.IEEE_P1363) ∧
    lib.ecPoint g (fromBytesBE x) (fromBytesBE y) = true
  | ed25519 pub => pub.length = 32
  | rsaPkcs1 n e hash => RsaOk n e ∧ SafeHash hash
  | rsaPss n e sigHash mgf1Hash salt => RsaOk n e ∧ SafeHash sigHash ∧ mgf1Hash = sigHash ∧ 0 ≤ salt

/-- The number of bytes of the strings in it. -/
def size : PubKey → Nat
  | ecdsa _ x y _ _ => x.length + y.length
  | ed25519 pub => pub.length
  | rsaPkcs1 n e _ => n.length + e.length
  | rsaPss n e _ _ _ => n.length + e.length

/-- Is `sig` a signature of `data`? -/
def Valid (lib : SigSsl) (data sig : Bytes) : PubKey → Prop
  | ecdsa g x y hash encoding => ∃ r s, r < 256 ^ g.fieldSize ∧ s < 256 ^ g.fieldSize ∧
    sig = ecdsaEncode g encoding (r, s) ∧
    lib.ecdsaVerify g (fromBytesBE x, fromBytesBE y) (lib.digest hash data) (r, s) = true
  | ed25519 pub => sig.length = 64 ∧ lib.ed25519Verify pub sig data = true
  | rsaPkcs1 n e hash => lib.rsaVerify hash (fromBytesBE n) (fromBytesBE e) (lib.digest hash data) sig = true
  | rsaPss n e sigHash mgf1Hash salt => ∃ em,
    lib.rsaPublicDecrypt (fromBytesBE n) (fromBytesBE e) sig = some em ∧
    lib.pssCheck (fromBytesBE n) sigHash mgf1Hash salt (lib.digest sigHash data) em = true

/-- The key in a message. -/
inductive OfEcdsa : EcdsaPublicKey → PubKey → Prop
  | mk {k g} : k.version = 0 → Curve k.getParams.curve g →
    OfEcdsa k (ecdsa g k.x k.y k.getParams.hashType k.getParams.encoding)

inductive OfEd25519 : Ed25519PublicKey → PubKey → Prop
  | mk {k} : k.version = 0 → OfEd25519 k (ed25519 k.keyValue)

inductive OfRsaPkcs1 : RsaSsaPkcs1PublicKey → PubKey → Prop
  | mk {k} : k.version = 0 → OfRsaPkcs1 k (rsaPkcs1 k.n k.e k.getParams.hashType)

inductive OfRsaPss : RsaSsaPssPublicKey → PubKey → Prop
  | mk {k} : k.version = 0 →
    OfRsaPss k (rsaPss k.n k.e k.getParams.sigHash k.getParams.mgf1Hash (Cpp.toInt k.getParams.saltLength))

/-- Key data with this type URL and this value hold the key. -/
inductive StoredIn : PStr → Bytes → PubKey → Prop
  | ecdsa {b k v} : EcdsaPublicKey.fromString b = .ok k → OfEcdsa k v →
    StoredIn (ps! "type.googleapis.com/google.crypto.tink.EcdsaPublicKey") b v
  | ed25519 {b k v} : Ed25519PublicKey.fromString b = .ok k → OfEd25519 k v →
    StoredIn (ps! "type.googleapis.com/google.crypto.tink.Ed25519PublicKey") b v
  | rsaPkcs1 {b k v} : RsaSsaPkcs1PublicKey.fromString b = .ok k → OfRsaPkcs1 k v →
    StoredIn (ps! "type.googleapis.com/google.crypto.tink.RsaSsaPkcs1PublicKey") b v
  | rsaPss {b k v} : RsaSsaPssPublicKey.fromString b = .ok k → OfRsaPss k v →
    StoredIn (ps! "type.googleapis.com/google.crypto.tink.RsaSsaPssPublicKey") b v

end PubKey

/-! ## Private keys -/

/-- The private keys, with their public parts.  Numbers are strings, as they are stored. -/
inductive SigKey
  | ecdsa (g : EcGroup) (x y d : Bytes) (hash encoding : EnumVal)
  | ed25519 (pub priv : Bytes)
  | rsaPkcs1 (k : RsaKey) (hash : EnumVal)
  | rsaPss (k : RsaKey) (sigHash mgf1Hash : EnumVal) (salt : Int)

namespace SigKey

def publicPart : SigKey → PubKey
  | ecdsa g x y _ hash encoding => .ecdsa g x y hash encoding
  | ed25519 pub _ => .ed25519 pub
  | rsaPkcs1 k hash => .rsaPkcs1 k.n k.e hash
  | rsaPss k sigHash mgf1Hash salt => .rsaPss k.n k.e sigHash mgf1Hash salt

/-- The signature of `data`, if there is one. -/
def signature (lib : SigSsl) (seed : Seed) (data : Bytes) : SigKey → Option Bytes
  | ecdsa g _ _ d hash encoding =>
    (lib.ecdsaSign seed g (fromBytesBE d) (lib.digest hash data)).map (ecdsaEncode g encoding)
  | ed25519 _ priv => some (lib.ed25519Sign priv data)
  | rsaPkcs1 k hash => lib.rsaSign hash k.numbers (lib.digest hash data)
  | rsaPss k sigHash mgf1Hash salt =>
    (lib.pssPad seed k.numbers.n sigHash mgf1Hash salt (lib.digest sigHash data)).bind
      (lib.rsaPrivateEncrypt k.numbers)

/-- Is the key acceptable?  RSA keys have to pass the checks of the library, and a test message is signed. -/
def Ok (lib : SigSsl) (k : SigKey) : Prop :=
  k.publicPart.Ok lib ∧
  match k with
  | ecdsa g _ _ d _ _ => lib.ecScalar g (fromBytesBE d) = true
  | ed25519 _ priv => priv.length = 32
  | rsaPkcs1 k hash => lib.rsaCheckKey k.numbers = true ∧ lib.rsaCheckFips k.numbers = true ∧
    ∃ sig, (rsaPkcs1 k hash).signature lib lib.testSeed (by! "Wycheproof and Tink.") = some sig
  | rsaPss k sigHash mgf1Hash salt => lib.rsaCheckKey k.numbers = true ∧ lib.rsaCheckFips k.numbers = true ∧
    ∃ sig, (rsaPss k sigHash mgf1Hash salt).signature lib lib.testSeed (by! "Wycheproof and Tink.") = some sig

/-- What is checked of a private key before its public part is handed out: not that the public part of an
ECDSA key is on the curve, and nothing about the private part except, for Ed25519, its size. -/
def Checked : SigKey → Prop
  | ecdsa g _ _ _ hash encoding => HashFor g hash ∧
    (encoding = EcdsaSignatureEncoding.DER ∨ encoding = EcdsaSignatureEncoding.IEEE_P1363)
  | ed25519 pub priv => pub.length = 32 ∧ priv.length = 32
  | rsaPkcs1 k hash => RsaOk k.n k.e ∧ SafeHash hash
  | rsaPss k sigHash mgf1Hash salt => RsaOk k.n k.e ∧ SafeHash sigHash ∧ mgf1Hash = sigHash ∧ 0 ≤ salt

/-- Is the public part that of the private key?  For RSA keys, the checks of the library see to that. -/
def Matches (lib : SigSsl) : SigKey → Prop
  | ecdsa g x y d _ _ => (fromBytesBE x, fromBytesBE y) = lib.ecPublic g (fromBytesBE d)
  | ed25519 pub priv => pub = lib.ed25519Public priv
  | _ => True

/-- For RSA-SSA-PSS: does the salt fit? -/
def Roomy : SigKey → Prop
  | rsaPss k sigHash _ salt => ∀ h, Digest sigHash h → SaltFits k.numbers.n h salt
  | _ => True

/-- The number of bytes of the strings in it. -/
def size : SigKey → Nat
  | ecdsa _ x y d _ _ => x.length + y.length + d.length
  | ed25519 pub priv => pub.length + priv.length
  | rsaPkcs1 k _ => rsaSize k
  | rsaPss k _ _ _ => rsaSize k
where
  rsaSize (k : RsaKey) : Nat := k.n.length + k.e.length + k.d.length + k.p.length + k.q.length +
    k.dp.length + k.dq.length + k.crt.length

/-- The key in a message. -/
inductive OfEcdsa : EcdsaPrivateKey → SigKey → Prop
  | mk {k g x y hash encoding} : k.version = 0 →
    PubKey.OfEcdsa k.getPublicKey (.ecdsa g x y hash encoding) →
    OfEcdsa k (ecdsa g x y k.keyValue hash encoding)

inductive OfEd25519 : Ed25519PrivateKey → SigKey → Prop
  | mk {k pub} : k.version = 0 → PubKey.OfEd25519 k.getPublicKey (.ed25519 pub) →
    OfEd25519 k (ed25519 pub k.keyValue)

inductive OfRsaPkcs1 : RsaSsaPkcs1PrivateKey → SigKey → Prop
  | mk {k n e hash} : k.version = 0 → PubKey.OfRsaPkcs1 k.getPublicKey (.rsaPkcs1 n e hash) →
    OfRsaPkcs1 k (rsaPkcs1 ⟨n, e, k.d, k.p, k.q, k.dp, k.dq, k.crt⟩ hash)

inductive OfRsaPss : RsaSsaPssPrivateKey → SigKey → Prop
  | mk {k n e sigHash mgf1Hash salt} : k.version = 0 →
    PubKey.OfRsaPss k.getPublicKey (.rsaPss n e sigHash mgf1Hash salt) →
    OfRsaPss k (rsaPss ⟨n, e, k.d, k.p, k.q, k.dp, k.dq, k.crt⟩ sigHash mgf1Hash salt)

/-- Key data with this type URL and this value hold the key. -/
inductive StoredIn : PStr → Bytes → SigKey → Prop
  | ecdsa {b k s} : EcdsaPrivateKey.fromString b = .ok k → OfEcdsa k s →
    StoredIn (ps! "type.googleapis.com/google.crypto.tink.EcdsaPrivateKey") b s
  | ed25519 {b k s} : Ed25519PrivateKey.fromString b = .ok k → OfEd25519 k s →
    StoredIn (ps! "type.googleapis.com/google.crypto.tink.Ed25519PrivateKey") b s
  | rsaPkcs1 {b k s} : RsaSsaPkcs1PrivateKey.fromString b = .ok k → OfRsaPkcs1 k s →
    StoredIn (ps! "type.googleapis.com/google.crypto.tink.RsaSsaPkcs1PrivateKey") b s
  | rsaPss {b k s} : RsaSsaPssPrivateKey.fromString b = .ok k → OfRsaPss k s →
    StoredIn (ps! "type.googleapis.com/google.crypto.tink.RsaSsaPssPrivateKey") b s

/-- A number in as few bytes as possible. -/
def bytesOf (n : Nat) : Bytes := digitsBE (bnNumBytes n) n

/-- A generated RSA key, as it is stored. -/
def rsaKey (k : RsaNumbers) : RsaKey where
  n := bytesOf k.n
  e := bytesOf k.e
  d := bytesOf k.d
  p := bytesOf k.p
  q := bytesOf k.q
  dp := bytesOf k.dp
  dq := bytesOf k.dq
  crt := bytesOf k.crt

/-- The key that a key template with this type URL and this value asks for, made with the given randomness.
For RSA, the library may fail to make one. -/
inductive AskedFor (lib : SigSsl) (seed : Seed) : PStr → Bytes → SigKey → Prop
  | ecdsa {b f g x y} : EcdsaKeyFormat.fromString b = .ok f → Curve f.getParams.curve g →
    lib.ecPublic g (lib.ecGenerate seed g) = (x, y) →
    AskedFor lib seed (ps! "type.googleapis.com/google.crypto.tink.EcdsaPrivateKey") b
      (ecdsa g (digitsBE g.fieldSize x) (digitsBE g.fieldSize y) (digitsBE g.fieldSize (lib.ecGenerate seed g))
        f.getParams.hashType f.getParams.encoding)
  | ed25519 {b f} : Ed25519KeyFormat.fromString b = .ok f →
    AskedFor lib seed (ps! "type.googleapis.com/google.crypto.tink.Ed25519PrivateKey") b
      (ed25519 (lib.ed25519Public (lib.random seed 0 32)) (lib.random seed 0 32))
  | rsaPkcs1 {b f k} : RsaSsaPkcs1KeyFormat.fromString b = .ok f →
    lib.rsaGenerate seed (Cpp.toInt f.modulusSizeInBits) (fromBytesBE f.publicExponent) = some k →
    AskedFor lib seed (ps! "type.googleapis.com/google.crypto.tink.RsaSsaPkcs1PrivateKey") b
      (rsaPkcs1 (rsaKey k) f.getParams.hashType)
  | rsaPss {b f k} : RsaSsaPssKeyFormat.fromString b = .ok f →
    lib.rsaGenerate seed (Cpp.toInt f.modulusSizeInBits) (fromBytesBE f.publicExponent) = some k →
    AskedFor lib seed (ps! "type.googleapis.com/google.crypto.tink.RsaSsaPssPrivateKey") b
      (rsaPss (rsaKey k) f.getParams.sigHash f.getParams.mgf1Hash (Cpp.toInt f.getParams.saltLength))

end SigKey

/-- The key type of the public keys, for the key type of private keys. -/
inductive PublicType : PStr → PStr → Prop
  | ecdsa : PublicType (ps! "type.googleapis.com/google.crypto.tink.EcdsaPrivateKey")
      (ps! "type.googleapis.com/google.crypto.tink.EcdsaPublicKey")
  | ed25519 : PublicType (ps! "type.googleapis.com/google.crypto.tink.Ed25519PrivateKey")
      (ps! "type.googleapis.com/google.crypto.tink.Ed25519PublicKey")
  | rsaPkcs1 : PublicType (ps! "type.googleapis.com/google.crypto.tink.RsaSsaPkcs1PrivateKey")
      (ps! "type.googleapis.com/google.crypto.tink.RsaSsaPkcs1PublicKey")
  | rsaPss : PublicType (ps! "type.googleapis.com/google.crypto.tink.RsaSsaPssPrivateKey")
      (ps! "type.googleapis.com/google.crypto.tink.RsaSsaPssPublicKey")

end Tink.Spec
