import Verif.Cc.Ssl
import Verif.Core.CcKeyManager
import Verif.Proto.Gen
import Verif.Py.Lit
import Verif.Spec.BlockModes

/-!
# Specification vocabulary for C89 to C93: symmetric keys and their primitives

What is assumed of BoringSSL; the keys of each type, where they are stored, from which key format they are
made and when they are strong enough; what an AEAD, a deterministic AEAD and a MAC have to do.
-/

namespace Tink.Spec
open Cc

/-- The size of the digest of a hash function, in bytes. -/
inductive Digest : EnumVal → Nat → Prop
  | sha1 : Digest HashType.SHA1 20
  | sha224 : Digest HashType.SHA224 28
  | sha256 : Digest HashType.SHA256 32
  | sha384 : Digest HashType.SHA384 48
  | sha512 : Digest HashType.SHA512 64

/-- An AES-128 or AES-256 key. -/
def IsAesKey (key : Bytes) : Prop := key.length = 16 ∨ key.length = 32

/-- The keys and the nonces of an `EVP_AEAD`. -/
def EvpSizes : EvpAead → Bytes → Bytes → Prop
  | .aesGcm, key, nonce => IsAesKey key ∧ nonce.length = 12
  | .aesGcmSiv, key, nonce => IsAesKey key ∧ nonce.length = 12
  | .xChaCha20Poly1305, key, nonce => key.length = 32 ∧ nonce.length = 24

/-- What is assumed of BoringSSL.  Nothing of it is about secrecy or about how hard it is to forge. -/
structure LawfulSsl (lib : Ssl) : Prop where
  /-- AES encrypts blocks to blocks. -/
  aes : ∀ key, IsAesKey key → ∀ b, (lib.aes key b).length = 16
  /-- An `EVP_AEAD` opens what it seals, and nothing else. -/
  opens : ∀ alg key nonce ad c p,
    lib.evpOpen alg key nonce ad c = some p ↔ lib.evpSeal alg key nonce ad p = some c
  /-- It adds a tag of 16 bytes. -/
  overhead : ∀ alg key nonce ad c p, lib.evpSeal alg key nonce ad p = some c → c.length = p.length + 16
  /-- It does not fail for texts below 2 GiB. -/
  seals : ∀ alg key nonce ad p, EvpSizes alg key nonce → p.length < 2 ^ 31 → ad.length < 2 ^ 31 →
    ∃ c, lib.evpSeal alg key nonce ad p = some c
  /-- HMAC does not fail, and its result has the size of the digest. -/
  hmac : ∀ hash n, Digest hash n → ∀ key data, ∃ t, lib.hmac hash key data = some t ∧ t.length = n
  /-- CMAC is CMAC. -/
  cmac : ∀ key, IsAesKey key → ∀ data, lib.cmac key data = some (Modes.cmac (lib.aes key) data)
  /-- The random number generator returns as many bytes as asked for. -/
  random_length : ∀ seed i n, (lib.random seed i n).length = n
  /-- Any bytes may be returned. -/
  random_any : ∀ i b, ∃ seed, lib.random seed i b.length = b

/-! ## AEAD -/

/-- The AEAD keys. -/
inductive AeadKey
  | aesGcm (key : Bytes)
  | aesGcmSiv (key : Bytes)
  | aesEax (key : Bytes) (ivSize : Nat)
  | xChaCha20Poly1305 (key : Bytes)
  | aesCtrHmac (aesKey : Bytes) (ivSize : Nat) (hmacKey : Bytes) (hash : EnumVal) (tagSize : Nat)

/-- Is an HMAC key strong enough: at least 16 bytes, tags of at least 10 bytes and at most a digest? -/
def HmacOk (key : Bytes) (hash : EnumVal) (tagSize : Nat) : Prop :=
  16 ≤ key.length ∧ 10 ≤ tagSize ∧ ∃ n, Digest hash n ∧ tagSize ≤ n

namespace AeadKey

/-- Is the key strong enough? -/
def Ok : AeadKey → Prop
  | aesGcm key => IsAesKey key
  | aesGcmSiv key => IsAesKey key
  | aesEax key ivSize => IsAesKey key ∧ (ivSize = 12 ∨ ivSize = 16)
  | xChaCha20Poly1305 key => key.length = 32
  | aesCtrHmac aesKey ivSize hmacKey hash tagSize =>
    IsAesKey aesKey ∧ 12 ≤ ivSize ∧ ivSize ≤ 16 ∧ HmacOk hmacKey hash tagSize

/-- By how many bytes a ciphertext is longer than the plaintext. -/
def overhead : AeadKey → Nat
  | aesGcm _ => 12 + 16
  | aesGcmSiv _ => 12 + 16
  | aesEax _ ivSize => ivSize + 16
  | xChaCha20Poly1305 _ => 24 + 16
  | aesCtrHmac _ ivSize _ _ tagSize => ivSize + tagSize

/-- The number of bytes of key material. -/
def size : AeadKey → Nat
  | aesGcm key => key.length
  | aesGcmSiv key => key.length
  | aesEax key _ => key.length
  | xChaCha20Poly1305 key => key.length
  | aesCtrHmac aesKey _ hmacKey _ _ => aesKey.length + hmacKey.length

/-- Key data with this type URL and this value hold the key. -/
inductive StoredIn : PStr → Bytes → AeadKey → Prop
  | aesGcm {b k} : AesGcmKey.fromString b = .ok k → k.version = 0 →
    StoredIn (ps! "type.googleapis.com/google.crypto.tink.AesGcmKey") b (aesGcm k.keyValue)
  | aesGcmSiv {b k} : AesGcmSivKey.fromString b = .ok k → k.version = 0 →
    StoredIn (ps! "type.googleapis.com/google.crypto.tink.AesGcmSivKey") b (aesGcmSiv k.keyValue)
  | aesEax {b k} : AesEaxKey.fromString b = .ok k → k.version = 0 →
    StoredIn (ps! "type.googleapis.com/google.crypto.tink.AesEaxKey") b
      (aesEax k.keyValue k.getParams.ivSize.toNat)
  | xChaCha20Poly1305 {b k} : XChaCha20Poly1305Key.fromString b = .ok k → k.version = 0 →
    StoredIn (ps! "type.googleapis.com/google.crypto.tink.XChaCha20Poly1305Key") b
      (xChaCha20Poly1305 k.keyValue)
  | aesCtrHmac {b k} : AesCtrHmacAeadKey.fromString b = .ok k → k.version = 0 →
    k.getAesCtrKey.version = 0 → k.getHmacKey.version = 0 →
    StoredIn (ps! "type.googleapis.com/google.crypto.tink.AesCtrHmacAeadKey") b
      (aesCtrHmac k.getAesCtrKey.keyValue k.getAesCtrKey.getParams.ivSize.toNat k.getHmacKey.keyValue
        k.getHmacKey.getParams.hash k.getHmacKey.getParams.tagSize.toNat)

/-- The key that a key template with this type URL and this value asks for, filled with the given
randomness. -/
inductive AskedFor (random : Nat → Nat → Bytes) : PStr → Bytes → AeadKey → Prop
  | aesGcm {b f} : AesGcmKeyFormat.fromString b = .ok f →
    AskedFor random (ps! "type.googleapis.com/google.crypto.tink.AesGcmKey") b
      (aesGcm (random 0 f.keySize.toNat))
  | aesGcmSiv {b f} : AesGcmSivKeyFormat.fromString b = .ok f →
    AskedFor random (ps! "type.googleapis.com/google.crypto.tink.AesGcmSivKey") b
      (aesGcmSiv (random 0 f.keySize.toNat))
  | aesEax {b f} : AesEaxKeyFormat.fromString b = .ok f →
    AskedFor random (ps! "type.googleapis.com/google.crypto.tink.AesEaxKey") b
      (aesEax (random 0 f.keySize.toNat) f.getParams.ivSize.toNat)
  | xChaCha20Poly1305 {b f} : XChaCha20Poly1305KeyFormat.fromString b = .ok f →
    AskedFor random (ps! "type.googleapis.com/google.crypto.tink.XChaCha20Poly1305Key") b
      (xChaCha20Poly1305 (random 0 32))
  | aesCtrHmac {b f} : AesCtrHmacAeadKeyFormat.fromString b = .ok f →
    AskedFor random (ps! "type.googleapis.com/google.crypto.tink.AesCtrHmacAeadKey") b
      (aesCtrHmac (random 0 f.getAesCtrKeyFormat.keySize.toNat)
        f.getAesCtrKeyFormat.getParams.ivSize.toNat (random 1 f.getHmacKeyFormat.keySize.toNat)
        f.getHmacKeyFormat.getParams.hash f.getHmacKeyFormat.getParams.tagSize.toNat)

end AeadKey

namespace AeadKey

/-- The size of the random nonce that a ciphertext begins with. -/
def nonceSize : AeadKey → Nat
  | aesGcm _ => 12
  | aesGcmSiv _ => 12
  | aesEax _ n => n
  | xChaCha20Poly1305 _ => 24
  | aesCtrHmac _ n _ _ _ => n

/-- What AES-CTR-HMAC computes the tag of: the associated data, the nonce and the encrypted text, and the
length of the associated data in bits, in 8 bytes. -/
def macInput (ad payload : Bytes) : Bytes := ad ++ payload ++ digitsBE 8 (8 * ad.length)

/-- The ciphertext of a text with a nonce: the nonce, the encrypted text and the tag.  AES-CTR-HMAC does
not encrypt 2 GiB or more, and does not take 2 EiB of associated data. -/
def ciphertext (lib : Ssl) (nonce ad pt : Bytes) : AeadKey → Option Bytes
  | aesGcm key => (lib.evpSeal .aesGcm key nonce ad pt).map (nonce ++ ·)
  | aesGcmSiv key => (lib.evpSeal .aesGcmSiv key nonce ad pt).map (nonce ++ ·)
  | aesEax key _ =>
    let r := Modes.eax (lib.aes key) nonce ad pt
    some (nonce ++ r.1 ++ r.2)
  | xChaCha20Poly1305 key => (lib.evpSeal .xChaCha20Poly1305 key nonce ad pt).map (nonce ++ ·)
  | aesCtrHmac key n hmacKey hash t =>
    let payload := nonce ++ Modes.ctr (lib.aes key) (nonce ++ List.replicate (16 - n) 0) pt
    if pt.length < 2 ^ 31 ∧ ad.length < 2 ^ 61 then
      some (payload ++ ((lib.hmac hash hmacKey (macInput ad payload)).getD []).take t)
    else none

end AeadKey

/-- An AEAD decrypts exactly the ciphertexts that it may produce, to the plaintexts they were made from;
they are longer than the plaintext by a fixed number of bytes; and it encrypts everything below 2 GiB. -/
structure ExactAead (a : Cpp.Aead) (overhead : Nat) : Prop where
  exact : ∀ ct ad pt, a.decrypt ct ad = .ok pt ↔ ∃ seed, a.encrypt seed pt ad = .ok ct
  length : ∀ seed pt ad ct, a.encrypt seed pt ad = .ok ct → ct.length = pt.length + overhead
  total : ∀ seed pt ad, pt.length < 2 ^ 31 → ad.length < 2 ^ 31 → ∃ ct, a.encrypt seed pt ad = .ok ct

/-! ## Deterministic AEAD -/

/-- The deterministic AEAD keys: AES-SIV keys. -/
structure SivKey where
  key : Bytes

namespace SivKey

def Ok (k : SivKey) : Prop := k.key.length = 64

def size (k : SivKey) : Nat := k.key.length

inductive StoredIn : PStr → Bytes → SivKey → Prop
  | aesSiv {b k} : AesSivKey.fromString b = .ok k → k.version = 0 →
    StoredIn (ps! "type.googleapis.com/google.crypto.tink.AesSivKey") b ⟨k.keyValue⟩

inductive AskedFor (random : Nat → Nat → Bytes) : PStr → Bytes → SivKey → Prop
  | aesSiv {b f} : AesSivKeyFormat.fromString b = .ok f →
    AskedFor random (ps! "type.googleapis.com/google.crypto.tink.AesSivKey") b
      ⟨random 0 f.keySize.toNat⟩

end SivKey

/-- The same as `ExactAead`, for encryption without randomness. -/
structure ExactDaead (a : Cpp.DeterministicAead) (overhead : Nat) : Prop where
  exact : ∀ ct ad pt, a.decryptDeterministically ct ad = .ok pt ↔ a.encryptDeterministically pt ad = .ok ct
  length : ∀ pt ad ct, a.encryptDeterministically pt ad = .ok ct → ct.length = pt.length + overhead
  total : ∀ pt ad, ∃ ct, a.encryptDeterministically pt ad = .ok ct

/-! ## MAC -/

/-- The MAC keys. -/
inductive MacKey
  | hmac (key : Bytes) (hash : EnumVal) (tagSize : Nat)
  | aesCmac (key : Bytes) (tagSize : Nat)

namespace MacKey

def Ok : MacKey → Prop
  | hmac key hash tagSize => HmacOk key hash tagSize
  | aesCmac key tagSize => key.length = 32 ∧ 10 ≤ tagSize ∧ tagSize ≤ 16

def size : MacKey → Nat
  | hmac key _ _ => key.length
  | aesCmac key _ => key.length

def tagSize : MacKey → Nat
  | hmac _ _ n => n
  | aesCmac _ n => n

/-- The tag: the first bytes of HMAC, or of AES-CMAC. -/
def tag (lib : Ssl) : MacKey → Bytes → Bytes
  | hmac key hash n, data => ((lib.hmac hash key data).getD []).take n
  | aesCmac key n, data => (Modes.cmac (lib.aes key) data).take n

inductive StoredIn : PStr → Bytes → MacKey → Prop
  | hmac {b k} : HmacKey.fromString b = .ok k → k.version = 0 →
    StoredIn (ps! "type.googleapis.com/google.crypto.tink.HmacKey") b
      (hmac k.keyValue k.getParams.hash k.getParams.tagSize.toNat)
  | aesCmac {b k} : AesCmacKey.fromString b = .ok k → k.version = 0 →
    StoredIn (ps! "type.googleapis.com/google.crypto.tink.AesCmacKey") b
      (aesCmac k.keyValue k.getParams.tagSize.toNat)

inductive AskedFor (random : Nat → Nat → Bytes) : PStr → Bytes → MacKey → Prop
  | hmac {b f} : HmacKeyFormat.fromString b = .ok f →
    AskedFor random (ps! "type.googleapis.com/google.crypto.tink.HmacKey") b
      (hmac (random 0 f.keySize.toNat) f.getParams.hash f.getParams.tagSize.toNat)
  | aesCmac {b f} : AesCmacKeyFormat.fromString b = .ok f →
    AskedFor random (ps! "type.googleapis.com/google.crypto.tink.AesCmacKey") b
      (aesCmac (random 0 f.keySize.toNat) f.getParams.tagSize.toNat)

end MacKey

/-- A MAC computes the given tags, and accepts exactly these. -/
structure ExactMac (a : Cpp.Mac) (tag : Bytes → Bytes) : Prop where
  compute : ∀ data, a.computeMac data = .ok (tag data)
  verify : ∀ t data, a.verifyMac t data = .ok () ↔ t = tag data

/-! ## PRF -/

/-- The PRF keys. -/
inductive PrfKey
  | hmac (key : Bytes) (hash : EnumVal)
  | aesCmac (key : Bytes)
  | hkdf (key : Bytes) (hash : EnumVal) (salt : Bytes)

namespace PrfKey

def Ok : PrfKey → Prop
  | hmac key hash => 16 ≤ key.length ∧ ∃ n, Digest hash n
  | aesCmac key => key.length = 32
  | hkdf key hash _ => 32 ≤ key.length ∧ key.length < 2 ^ 31 ∧ (hash = HashType.SHA256 ∨ hash = HashType.SHA512)

def size : PrfKey → Nat
  | hmac key _ => key.length
  | aesCmac key => key.length
  | hkdf key _ salt => key.length + salt.length

inductive StoredIn : PStr → Bytes → PrfKey → Prop
  | hmac {b k} : HmacPrfKey.fromString b = .ok k → k.version = 0 →
    StoredIn (ps! "type.googleapis.com/google.crypto.tink.HmacPrfKey") b (hmac k.keyValue k.getParams.hash)
  | aesCmac {b k} : AesCmacPrfKey.fromString b = .ok k → k.version = 0 →
    StoredIn (ps! "type.googleapis.com/google.crypto.tink.AesCmacPrfKey") b (aesCmac k.keyValue)
  | hkdf {b k} : HkdfPrfKey.fromString b = .ok k → k.version = 0 →
    StoredIn (ps! "type.googleapis.com/google.crypto.tink.HkdfPrfKey") b
      (hkdf k.keyValue k.getParams.hash k.getParams.salt)

inductive AskedFor (random : Nat → Nat → Bytes) : PStr → Bytes → PrfKey → Prop
  | hmac {b f} : HmacPrfKeyFormat.fromString b = .ok f → f.version = 0 →
    AskedFor random (ps! "type.googleapis.com/google.crypto.tink.HmacPrfKey") b
      (hmac (random 0 f.keySize.toNat) f.getParams.hash)
  | aesCmac {b f} : AesCmacPrfKeyFormat.fromString b = .ok f → f.version = 0 →
    AskedFor random (ps! "type.googleapis.com/google.crypto.tink.AesCmacPrfKey") b
      (aesCmac (random 0 f.keySize.toNat))
  | hkdf {b f} : HkdfPrfKeyFormat.fromString b = .ok f → f.version = 0 →
    AskedFor random (ps! "type.googleapis.com/google.crypto.tink.HkdfPrfKey") b
      (hkdf (random 0 f.keySize.toNat) f.getParams.hash f.getParams.salt)

end PrfKey

end Tink.Spec
