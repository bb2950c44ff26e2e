import Verif.Cc.HybridSsl
import Verif.Spec.Hkdf
import Verif.Spec.SignatureKeys
import Verif.Spec.SymmetricKeysets

/-!
# Specification vocabulary for C100 and C101: hybrid encryption keys and ciphertexts

What is assumed of BoringSSL; the public and private keys, where they are stored, from which key format they
are made and when they are acceptable; which ciphertexts they make and which they decrypt.
-/

namespace Tink.Spec
open Cc

/-! ## What is assumed of BoringSSL -/

/-- The number of points of a curve (FIPS 186-4, D.1.2). -/
def curveOrder : EcGroup → Nat
  | .p256 => 0xffffffff00000000ffffffffffffffffbce6faada7179e84f3b9cac2fc632551
  | .p384 => 0xffffffffffffffffffffffffffffffffffffffffffffffffc7634d81f4372ddf581a0db248b0a77aecec196accc52973
  | .p521 =>
    0x01fffffffffffffffffffffffffffffffffffffffffffffffffffffffffffffffffa51868783bf2f966b7fcc0148f709a5d03bb5c9b8899c47aebb6fb71e91386409

/-- A private key for a curve. -/
def IsScalar (g : EcGroup) (d : Nat) : Prop := 1 ≤ d ∧ d < curveOrder g

/-- The AEADs of HPKE. -/
def HpkeAeadKnown (aead : EnumVal) : Prop :=
  aead = HpkeAead.AES_128_GCM ∨ aead = HpkeAead.AES_256_GCM ∨ aead = HpkeAead.CHACHA20_POLY1305

/-- HMAC with a hash function, its key first. -/
def hmacWith (lib : Ssl) (hash : EnumVal) (key data : Bytes) : Bytes := (lib.hmac hash key data).getD []

/-- What is assumed of BoringSSL.  Nothing of it is about secrecy. -/
structure LawfulHyb (lib : HybSsl) : Prop where
  sym : LawfulSsl lib.sym
  /-- Elliptic curves. -/
  generate : ∀ seed g, IsScalar g (lib.ecGenerate seed g)
  onCurve : ∀ g d, IsScalar g d → lib.ecPoint g (lib.ecPublic g d).1 (lib.ecPublic g d).2 = true
  point : ∀ g x y, lib.ecPoint g x y = true → x < 256 ^ g.fieldSize ∧ y < 256 ^ g.fieldSize
  mulTotal : ∀ g d x y, IsScalar g d → lib.ecPoint g x y = true → ∃ s, lib.ecMul g d (x, y) = some s
  mulOnCurve : ∀ g d x y s, lib.ecPoint g x y = true → lib.ecMul g d (x, y) = some s →
    lib.ecPoint g s.1 s.2 = true
  /-- Diffie-Hellman. -/
  ecdh : ∀ g d e, IsScalar g d → IsScalar g e →
    lib.ecMul g d (lib.ecPublic g e) = lib.ecMul g e (lib.ecPublic g d)
  decompress : ∀ g x odd y, lib.ecDecompress g x odd = some y ↔
    lib.ecPoint g x y = true ∧ (y % 2 = 1 ↔ odd = true)
  /-- X25519. -/
  x25519Generate : ∀ seed, (lib.x25519Generate seed).length = 32
  x25519Public : ∀ d, d.length = 32 → (lib.x25519Public d).length = 32
  x25519 : ∀ d e, d.length = 32 → e.length = 32 →
    lib.x25519 d (lib.x25519Public e) = lib.x25519 e (lib.x25519Public d)
  x25519Total : ∀ d e, d.length = 32 → e.length = 32 → ∃ s, lib.x25519 d (lib.x25519Public e) = some s
  /-- HKDF (RFC 5869). -/
  hkdf : ∀ hash d secret salt info n, Digest hash d → lib.hkdf hash secret salt info n =
    if n ≤ 255 * d then some ((Hkdf.output (hmacWith lib.sym hash) salt secret info).take n) else none
  /-- HPKE (RFC 9180) with X25519 and HKDF-SHA256: the encapsulated key has 32 bytes; with the private key, the
  recipient finds the context of the sender; what is sealed with it can be opened, and nothing else; a tag of
  16 bytes is added; and there are no failures for texts below 2 GiB. -/
  hpkeKey : ∀ priv, lib.hpkeKey priv = true ↔ priv.length = 32
  hpkeLength : ∀ seed aead pub info enc ctx, lib.hpkeSender seed aead pub info = some (enc, ctx) →
    enc.length = 32
  hpke : ∀ seed aead priv info enc ctx, priv.length = 32 →
    lib.hpkeSender seed aead (lib.x25519Public priv) info = some (enc, ctx) →
    lib.hpkeRecipient aead priv enc info = some ctx
  hpkeTotal : ∀ seed aead priv info, HpkeAeadKnown aead → priv.length = 32 →
    ∃ r, lib.hpkeSender seed aead (lib.x25519Public priv) info = some r
  hpkeOpens : ∀ ctx ct ad pt, lib.hpkeOpen ctx ct ad = some pt ↔ lib.hpkeSeal ctx pt ad = some ct
  hpkeOverhead : ∀ ctx ct ad pt, lib.hpkeSeal ctx pt ad = some ct → ct.length = pt.length + 16
  hpkeSeals : ∀ seed aead pub info enc ctx pt ad, lib.hpkeSender seed aead pub info = some (enc, ctx) →
    pt.length < 2 ^ 31 → ad.length < 2 ^ 31 → ∃ ct, lib.hpkeSeal ctx pt ad = some ct

/-! ## Data encapsulation -/

/-- How ECIES encrypts the data, with sizes in bytes. -/
inductive Dem
  | aesGcm (size : Nat)
  | aesCtrHmac (aesSize ivSize hmacSize : Nat) (hash : EnumVal) (tagSize : Nat)
  | xChaCha20Poly1305
  | aesSiv (size : Nat)

namespace Dem

/-- What a key template for the data encryption asks for. -/
inductive AskedFor : PStr → Bytes → Dem → Prop
  | aesGcm {b f} : AesGcmKeyFormat.fromString b = .ok f →
    AskedFor (ps! "type.googleapis.com/google.crypto.tink.AesGcmKey") b (aesGcm f.keySize.toNat)
  | aesCtrHmac {b f} : AesCtrHmacAeadKeyFormat.fromString b = .ok f →
    AskedFor (ps! "type.googleapis.com/google.crypto.tink.AesCtrHmacAeadKey") b
      (aesCtrHmac f.getAesCtrKeyFormat.keySize.toNat f.getAesCtrKeyFormat.getParams.ivSize.toNat
        f.getHmacKeyFormat.keySize.toNat f.getHmacKeyFormat.getParams.hash
        f.getHmacKeyFormat.getParams.tagSize.toNat)
  | xChaCha20Poly1305 {b f} : XChaCha20Poly1305KeyFormat.fromString b = .ok f →
    AskedFor (ps! "type.googleapis.com/google.crypto.tink.XChaCha20Poly1305Key") b xChaCha20Poly1305
  | aesSiv {b f} : AesSivKeyFormat.fromString b = .ok f →
    AskedFor (ps! "type.googleapis.com/google.crypto.tink.AesSivKey") b (aesSiv f.keySize.toNat)

/-- Do the sizes make sense? -/
def Ok : Dem → Prop
  | aesGcm n => n = 16 ∨ n = 32
  | aesCtrHmac n iv m hash tag => (n = 16 ∨ n = 32) ∧ 12 ≤ iv ∧ iv ≤ 16 ∧ 16 ≤ m ∧ 10 ≤ tag ∧
    ∃ d, Digest hash d ∧ tag ≤ d
  | xChaCha20Poly1305 => True
  | aesSiv n => n = 64

/-- The size of the key. -/
def keySize : Dem → Nat
  | aesGcm n => n
  | aesCtrHmac n _ m _ _ => n + m
  | xChaCha20Poly1305 => 32
  | aesSiv n => n

/-- The size of the random nonce that a ciphertext begins with. -/
def nonceSize : Dem → Nat
  | aesGcm _ => 12
  | aesCtrHmac _ iv _ _ _ => iv
  | xChaCha20Poly1305 => 24
  | aesSiv _ => 0

/-- By how many bytes a ciphertext is longer than the plaintext. -/
def overhead : Dem → Nat
  | aesGcm _ => 12 + 16
  | aesCtrHmac _ iv _ _ tag => iv + tag
  | xChaCha20Poly1305 => 24 + 16
  | aesSiv _ => 16

/-- The ciphertext of a text, without associated data.  The key of AES-CTR-HMAC is that of AES-CTR and then
that of HMAC. -/
def ciphertext (lib : Ssl) (key nonce pt : Bytes) : Dem → Option Bytes
  | aesGcm _ => (AeadKey.aesGcm key).ciphertext lib nonce [] pt
  | aesCtrHmac n iv _ hash tag =>
    (AeadKey.aesCtrHmac (key.take n) iv (key.drop n) hash tag).ciphertext lib nonce [] pt
  | xChaCha20Poly1305 => (AeadKey.xChaCha20Poly1305 key).ciphertext lib nonce [] pt
  | aesSiv _ => some (SivKey.ciphertext lib ⟨key⟩ [] pt)

end Dem

/-! ## Key encapsulation -/

/-- The encodings of a point of a curve (SEC 1, 2.3.3), with a format. -/
inductive PointBytes (g : EcGroup) : EnumVal → Nat × Nat → Bytes → Prop
  | uncompressed {x y} : PointBytes g EcPointFormat.UNCOMPRESSED (x, y)
      (4 :: (digitsBE g.fieldSize x ++ digitsBE g.fieldSize y))
  | even {x y} : y % 2 = 0 → PointBytes g EcPointFormat.COMPRESSED (x, y) (2 :: digitsBE g.fieldSize x)
  | odd {x y} : y % 2 = 1 → PointBytes g EcPointFormat.COMPRESSED (x, y) (3 :: digitsBE g.fieldSize x)
  | crunchy {x y} : PointBytes g EcPointFormat.DO_NOT_USE_CRUNCHY_UNCOMPRESSED (x, y)
      (digitsBE g.fieldSize x ++ digitsBE g.fieldSize y)

/-- The parameters of ECIES. -/
structure EciesParams where
  curve : EnumVal
  hash : EnumVal
  salt : Bytes
  demType : PStr
  demFormat : Bytes
  format : EnumVal

namespace EciesParams

/-- A public key is a point, or 32 bytes. -/
inductive PublicFor (lib : HybSsl) (curve : EnumVal) (x y : Bytes) : Prop
  | nist {g} : Curve curve g → x ≠ [] → y ≠ [] → lib.ecPoint g (fromBytesBE x) (fromBytesBE y) = true →
    PublicFor lib curve x y
  | x25519 : curve = EllipticCurveType.CURVE25519 → x.length = 32 → y = [] → PublicFor lib curve x y

/-- The sender makes an ephemeral key: the encoding of its public part, and the secret shared with the holder
of the public key. -/
inductive Encapsulates (lib : HybSsl) (seed : Seed) (p : EciesParams) (x y : Bytes) : Bytes → Bytes → Prop
  | nist {g kem s} : Curve p.curve g → PointBytes g p.format (lib.ecPublic g (lib.ecGenerate seed g)) kem →
    lib.ecMul g (lib.ecGenerate seed g) (fromBytesBE x, fromBytesBE y) = some s →
    Encapsulates lib seed p x y kem (digitsBE g.fieldSize s.1)
  | x25519 {s} : p.curve = EllipticCurveType.CURVE25519 → p.format = EcPointFormat.COMPRESSED →
    lib.x25519 (lib.x25519Generate seed) x = some s →
    Encapsulates lib seed p x y (lib.x25519Public (lib.x25519Generate seed)) s

/-- The recipient finds the secret from the encoding of the ephemeral public key, with the private key. -/
inductive Decapsulates (lib : HybSsl) (p : EciesParams) (d : Bytes) : Bytes → Bytes → Prop
  | nist {g q kem s} : Curve p.curve g → PointBytes g p.format q kem → lib.ecPoint g q.1 q.2 = true →
    lib.ecMul g (fromBytesBE d) q = some s → Decapsulates lib p d kem (digitsBE g.fieldSize s.1)
  | x25519 {kem s} : p.curve = EllipticCurveType.CURVE25519 → p.format = EcPointFormat.COMPRESSED →
    kem.length = 32 → lib.x25519 d kem = some s → Decapsulates lib p d kem s

/-- The key for the data: HKDF of the encapsulated key and the shared secret. -/
inductive DerivedKey (lib : HybSsl) (p : EciesParams) (dem : Dem) (info kem secret : Bytes) : Bytes → Prop
  | mk {n} : Digest p.hash n → dem.keySize ≤ 255 * n →
    DerivedKey lib p dem info kem secret
      ((Hkdf.output (hmacWith lib.sym p.hash) p.salt (kem ++ secret) info).take dem.keySize)

/-- The size of an encapsulated key. -/
inductive KemSize (p : EciesParams) : Nat → Prop
  | uncompressed {g} : Curve p.curve g → p.format = EcPointFormat.UNCOMPRESSED → KemSize p (1 + 2 * g.fieldSize)
  | compressed {g} : Curve p.curve g → p.format = EcPointFormat.COMPRESSED → KemSize p (1 + g.fieldSize)
  | crunchy {g} : Curve p.curve g → p.format = EcPointFormat.DO_NOT_USE_CRUNCHY_UNCOMPRESSED →
    KemSize p (2 * g.fieldSize)
  | x25519 : p.curve = EllipticCurveType.CURVE25519 → KemSize p 32

/-- Is the combination of algorithms one that works? -/
def Usable (p : EciesParams) : Prop :=
  ∃ dem n, Dem.AskedFor p.demType p.demFormat dem ∧ dem.Ok ∧ Digest p.hash n ∧ dem.keySize ≤ 255 * n ∧
    ((∃ g, Curve p.curve g ∧ (p.format = EcPointFormat.UNCOMPRESSED ∨ p.format = EcPointFormat.COMPRESSED ∨
        p.format = EcPointFormat.DO_NOT_USE_CRUNCHY_UNCOMPRESSED)) ∨
      (p.curve = EllipticCurveType.CURVE25519 ∧ p.format = EcPointFormat.COMPRESSED))

/-- Do the sizes of the keys of AES-CTR and HMAC add up to less than `2 ^ 32`? -/
def NoOverflow (p : EciesParams) : Prop :=
  ∀ dem, Dem.AskedFor p.demType p.demFormat dem → dem.keySize < 2 ^ 32

/-- The number of bytes of the strings in it; characters have up to 4 bytes. -/
def size (p : EciesParams) : Nat := p.salt.length + 4 * p.demType.length + p.demFormat.length

/-- The parameters in a message; none of its parts may be missing. -/
inductive InMessage : EciesAeadHkdfParams → EciesParams → Prop
  | mk {q kem dem t} : q.kemParams = some kem → q.demParams = some dem → dem.aeadDem = some t →
    InMessage q { curve := kem.curveType, hash := kem.hkdfHashType, salt := kem.hkdfSalt,
                  demType := t.typeUrl, demFormat := t.value, format := q.ecPointFormat }

end EciesParams

/-! ## Public keys -/

/-- The public keys. -/
inductive HybPub
  | ecies (p : EciesParams) (x y : Bytes)
  | hpke (kem kdf aead : EnumVal) (pub : Bytes)

namespace HybPub

/-- What is checked before a public key is handed out. -/
def Checked : HybPub → Prop
  | ecies p _ _ => p.curve ≠ EllipticCurveType.UNKNOWN_CURVE ∧ p.hash ≠ HashType.UNKNOWN_HASH ∧
    p.format ≠ EcPointFormat.UNKNOWN_FORMAT
  | hpke kem kdf aead _ => kem ≠ HpkeKem.KEM_UNKNOWN ∧ kdf ≠ HpkeKdf.KDF_UNKNOWN ∧ aead ≠ HpkeAead.AEAD_UNKNOWN

/-- Is the key acceptable?  The hash function, the format, the sizes for the data encryption and the AEAD of
HPKE may be any. -/
def Ok (lib : HybSsl) : HybPub → Prop
  | ecies p x y => p.hash ≠ HashType.UNKNOWN_HASH ∧ p.format ≠ EcPointFormat.UNKNOWN_FORMAT ∧
    EciesParams.PublicFor lib p.curve x y ∧ ∃ dem, Dem.AskedFor p.demType p.demFormat dem
  | hpke kem kdf aead pub => kem = HpkeKem.DHKEM_X25519_HKDF_SHA256 ∧ kdf = HpkeKdf.HKDF_SHA256 ∧
    aead ≠ HpkeAead.AEAD_UNKNOWN ∧ pub ≠ []

/-- Is the combination of algorithms one that works? -/
def Usable : HybPub → Prop
  | ecies p _ _ => p.Usable
  | hpke kem kdf aead _ => kem = HpkeKem.DHKEM_X25519_HKDF_SHA256 ∧ kdf = HpkeKdf.HKDF_SHA256 ∧
    HpkeAeadKnown aead

/-- Does the library not end the computation in another way than with a result or a status? -/
def NoOverflow : HybPub → Prop
  | ecies p _ _ => p.NoOverflow
  | hpke .. => True

/-- By how many bytes ciphertexts are longer than the plaintexts. -/
inductive Overhead : HybPub → Nat → Prop
  | ecies {p x y dem n} : Dem.AskedFor p.demType p.demFormat dem → p.KemSize n →
    Overhead (ecies p x y) (n + dem.overhead)
  | hpke {kem kdf aead pub} : Overhead (hpke kem kdf aead pub) 48

/-- The number of bytes of the strings in it. -/
def size : HybPub → Nat
  | ecies p x y => p.size + x.length + y.length
  | hpke _ _ _ pub => pub.length

/-- With this randomness, `ct` is the ciphertext of `pt`.  The encapsulated key comes first. -/
def Encrypts (lib : HybSsl) (seed : Seed) (info pt ct : Bytes) : HybPub → Prop
  | ecies p x y => ∃ dem kem secret key c, Dem.AskedFor p.demType p.demFormat dem ∧ dem.Ok ∧
    p.Encapsulates lib seed x y kem secret ∧ p.DerivedKey lib dem info kem secret key ∧
    dem.ciphertext lib.sym key (lib.sym.random seed 0 dem.nonceSize) pt = some c ∧ ct = kem ++ c
  | hpke _ _ aead pub => ∃ enc ctx c, HpkeAeadKnown aead ∧
    lib.hpkeSender seed aead pub info = some (enc, ctx) ∧ lib.hpkeSeal ctx pt [] = some c ∧ ct = enc ++ c

/-- The key in a message. -/
inductive OfEcies : EciesAeadHkdfPublicKey → HybPub → Prop
  | mk {k q p} : k.version = 0 → k.params = some q → EciesParams.InMessage q p → OfEcies k (ecies p k.x k.y)

inductive OfHpke : HpkePublicKey → HybPub → Prop
  | mk {k q} : k.version = 0 → k.params = some q → OfHpke k (hpke q.kem q.kdf q.aead k.publicKey)

/-- Key data with this type URL and this value hold the key. -/
inductive StoredIn : PStr → Bytes → HybPub → Prop
  | ecies {b k v} : EciesAeadHkdfPublicKey.fromString b = .ok k → OfEcies k v →
    StoredIn (ps! "type.googleapis.com/google.crypto.tink.EciesAeadHkdfPublicKey") b v
  | hpke {b k v} : HpkePublicKey.fromString b = .ok k → OfHpke k v →
    StoredIn (ps! "type.googleapis.com/google.crypto.tink.HpkePublicKey") b v

end HybPub

/-! ## Private keys -/

/-- The private keys, with their public parts. -/
inductive HybPriv
  | ecies (p : EciesParams) (x y d : Bytes)
  | hpke (kem kdf aead : EnumVal) (pub priv : Bytes)

namespace HybPriv

def publicPart : HybPriv → HybPub
  | ecies p x y _ => .ecies p x y
  | hpke kem kdf aead pub _ => .hpke kem kdf aead pub

/-- Is the key acceptable?  Nothing is checked of the public part of an HPKE key; of that of an ECIES key only
whether there are two coordinates; and nothing of the private part for a curve of NIST or for HPKE, except that it is
not empty. -/
def Ok : HybPriv → Prop
  | ecies p x y d => p.hash ≠ HashType.UNKNOWN_HASH ∧ p.format ≠ EcPointFormat.UNKNOWN_FORMAT ∧ x ≠ [] ∧
    (((∃ g, Curve p.curve g) ∧ y ≠ [] ∧ d ≠ []) ∨
      (p.curve = EllipticCurveType.CURVE25519 ∧ y = [] ∧ d.length = 32)) ∧
    ∃ dem, Dem.AskedFor p.demType p.demFormat dem
  | hpke kem kdf aead _ priv => kem = HpkeKem.DHKEM_X25519_HKDF_SHA256 ∧ kdf = HpkeKdf.HKDF_SHA256 ∧
    aead ≠ HpkeAead.AEAD_UNKNOWN ∧ priv ≠ []

/-- Is the private part a private key of the curve, and the public part the one that belongs to it? -/
def Matches (lib : HybSsl) : HybPriv → Prop
  | ecies p x y d =>
    (∃ g, Curve p.curve g ∧ IsScalar g (fromBytesBE d) ∧
      (fromBytesBE x, fromBytesBE y) = lib.ecPublic g (fromBytesBE d)) ∨
    (p.curve = EllipticCurveType.CURVE25519 ∧ d.length = 32 ∧ x = lib.x25519Public d)
  | hpke _ _ _ pub priv => priv.length = 32 ∧ pub = lib.x25519Public priv

/-- The number of bytes of the strings in it. -/
def size (k : HybPriv) : Nat :=
  k.publicPart.size +
  match k with
  | ecies _ _ _ d => d.length
  | hpke _ _ _ _ priv => priv.length

/-- `ct` is a ciphertext of `pt`: the encapsulated key and a ciphertext for the key derived from it, with some
nonce. -/
def Decrypts (lib : HybSsl) (info ct pt : Bytes) : HybPriv → Prop
  | ecies p _ _ d => ∃ dem kem secret key nonce c, Dem.AskedFor p.demType p.demFormat dem ∧ dem.Ok ∧
    p.Decapsulates lib d kem secret ∧ p.DerivedKey lib dem info kem secret key ∧
    nonce.length = dem.nonceSize ∧ dem.ciphertext lib.sym key nonce pt = some c ∧ ct = kem ++ c
  | hpke _ _ aead _ priv => ∃ enc ctx c, HpkeAeadKnown aead ∧ priv.length = 32 ∧ enc.length = 32 ∧
    lib.hpkeRecipient aead priv enc info = some ctx ∧ lib.hpkeSeal ctx pt [] = some c ∧ ct = enc ++ c

/-- The key in a message. -/
inductive OfEcies : EciesAeadHkdfPrivateKey → HybPriv → Prop
  | mk {k pub p x y} : k.version = 0 → k.publicKey = some pub → HybPub.OfEcies pub (.ecies p x y) →
    OfEcies k (ecies p x y k.keyValue)

inductive OfHpke : HpkePrivateKey → HybPriv → Prop
  | mk {k pub kem kdf aead b} : k.version = 0 → k.publicKey = some pub →
    HybPub.OfHpke pub (.hpke kem kdf aead b) → OfHpke k (hpke kem kdf aead b k.privateKey)

/-- Key data with this type URL and this value hold the key. -/
inductive StoredIn : PStr → Bytes → HybPriv → Prop
  | ecies {b k s} : EciesAeadHkdfPrivateKey.fromString b = .ok k → OfEcies k s →
    StoredIn (ps! "type.googleapis.com/google.crypto.tink.EciesAeadHkdfPrivateKey") b s
  | hpke {b k s} : HpkePrivateKey.fromString b = .ok k → OfHpke k s →
    StoredIn (ps! "type.googleapis.com/google.crypto.tink.HpkePrivateKey") b s

/-- A new key for a curve: the coordinates of the public key, or the public key of X25519 and nothing, and the
private key. -/
inductive NewKey (lib : HybSsl) (seed : Seed) : EnumVal → Bytes → Bytes → Bytes → Prop
  | nist {curve g x y} : Curve curve g → lib.ecPublic g (lib.ecGenerate seed g) = (x, y) →
    NewKey lib seed curve (digitsBE g.fieldSize x) (digitsBE g.fieldSize y)
      (digitsBE g.fieldSize (lib.ecGenerate seed g))
  | x25519 : NewKey lib seed EllipticCurveType.CURVE25519 (lib.x25519Public (lib.x25519Generate seed)) []
      (lib.x25519Generate seed)

/-- The curves of the KEMs of HPKE. -/
inductive KemCurve : EnumVal → EcGroup → Prop
  | p256 : KemCurve HpkeKem.DHKEM_P256_HKDF_SHA256 .p256
  | p384 : KemCurve HpkeKem.DHKEM_P384_HKDF_SHA384 .p384
  | p521 : KemCurve HpkeKem.DHKEM_P521_HKDF_SHA512 .p521

/-- A new key for HPKE (RFC 9180, 7.1.1): the public key, and the private key. -/
inductive NewHpkeKey (lib : HybSsl) (seed : Seed) : EnumVal → Bytes → Bytes → Prop
  | nist {kem g pub} : KemCurve kem g →
    PointBytes g EcPointFormat.UNCOMPRESSED (lib.ecPublic g (lib.ecGenerate seed g)) pub →
    NewHpkeKey lib seed kem pub (digitsBE g.fieldSize (lib.ecGenerate seed g))
  | x25519 : NewHpkeKey lib seed HpkeKem.DHKEM_X25519_HKDF_SHA256
      (lib.x25519Public (lib.x25519Generate seed)) (lib.x25519Generate seed)

/-- The key that a key template with this type URL and this value asks for, made with the given
randomness. -/
inductive AskedFor (lib : HybSsl) (seed : Seed) : PStr → Bytes → HybPriv → Prop
  | ecies {b f q p x y d} : EciesAeadHkdfKeyFormat.fromString b = .ok f → f.params = some q →
    EciesParams.InMessage q p → NewKey lib seed p.curve x y d →
    AskedFor lib seed (ps! "type.googleapis.com/google.crypto.tink.EciesAeadHkdfPrivateKey") b (ecies p x y d)
  | hpke {b f q pub priv} : HpkeKeyFormat.fromString b = .ok f → f.params = some q →
    NewHpkeKey lib seed q.kem pub priv →
    AskedFor lib seed (ps! "type.googleapis.com/google.crypto.tink.HpkePrivateKey") b
      (hpke q.kem q.kdf q.aead pub priv)

end HybPriv

/-- The key type of the public keys, for the key type of private keys. -/
inductive HybridType : PStr → PStr → Prop
  | ecies : HybridType (ps! "type.googleapis.com/google.crypto.tink.EciesAeadHkdfPrivateKey")
      (ps! "type.googleapis.com/google.crypto.tink.EciesAeadHkdfPublicKey")
  | hpke : HybridType (ps! "type.googleapis.com/google.crypto.tink.HpkePrivateKey")
      (ps! "type.googleapis.com/google.crypto.tink.HpkePublicKey")

end Tink.Spec
