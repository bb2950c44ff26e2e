import Verif.Spec.CcStreaming
import Verif.Stream.SegmentCrypters

/-!
# Specification vocabulary for the two kinds of streaming AEAD keys: what is assumed of the cryptography
-/

namespace Tink.Spec
open Segment

/-- The sizes of what the functions return, and that AES-CTR is undone. -/
structure SoundLibrary (lib : SegmentLibrary) : Prop where
  hkdf : ∀ h ikm salt info n k, lib.hkdf h ikm salt info n = some k → k.length = n
  random : ∀ seed n, (lib.random seed n).length = n
  random' : ∀ seed n, (lib.random' seed n).length = n
  gcmLength : ∀ k n b c, lib.gcmEncrypt k n b = some c → c.length = b.length + 16
  ctrSame : ∀ k n b c, lib.ctrEncrypt k n b = some c → lib.ctrDecrypt k n c = some b
  hmacLength : ∀ h k d t, lib.hmac h k d = some t →
    t.length = if h = HashType.SHA1 then 20 else if h = HashType.SHA256 then 32
      else if h = HashType.SHA512 then 64 else 0

/-- What the functions of the library do when they are used as they should be.  `gcmLast` and `hmacLast`
are idealisations: a segment that was encrypted as the last one does not pass for one that is not the
last, with the same number.  (For the real functions this fails with negligible probability.) -/
structure LawfulLibrary (lib : SegmentLibrary) : Prop extends SoundLibrary lib where
  gcmSame : ∀ k n b c, lib.gcmEncrypt k n b = some c → lib.gcmDecrypt k n c = some b
  gcmLast : ∀ k n b c, lib.gcmEncrypt k (n ++ [1]) b = some c → lib.gcmDecrypt k (n ++ [0]) c = none
  hmacSame : ∀ h k d t size, lib.hmac h k d = some t → 10 ≤ size →
    lib.hmacVerify h k (t.take size) d = some true
  hmacLast : ∀ h k n c t size, n.length = 11 → lib.hmac h k (n ++ [1, 0, 0, 0, 0] ++ c) = some t →
    10 ≤ size → lib.hmacVerify h k (t.take size) (n ++ [0, 0, 0, 0, 0] ++ c) ≠ some true

/-- A message that was encrypted with a key: what the random choices were, the associated data, and the
plaintexts of the segments.  (One that is not finished counts as any message that it could become.) -/
structure StreamMessage where
  seed : Seed
  ad : Bytes
  segments : List Bytes

/-- Place `j` in a message, with `nonce` for the segment there. -/
def StreamMessage.At (m : StreamMessage) (noncePrefix : Bytes) (j : Nat) (nonce b : Bytes) : Prop :=
  ∃ hj : j < m.segments.length, j < 2 ^ 32 ∧ b = m.segments[j] ∧
    nonce = noncePrefix ++ be32 j ++ [if j + 1 = m.segments.length then 1 else 0]

/-- Ideal AES-GCM and HKDF, for an AES-GCM-HKDF key that encrypted the messages `msgs`, and a recipient
who expects the associated data `ad`.  Decryption is ideal: it succeeds only with what was encrypted.  (So
`gcmDecrypt` is not the function itself, but what remains of it as long as nobody finds a forgery.) -/
structure GcmIdeal (lib : SegmentLibrary) (p : AesGcmHkdf.Params) (ad : Bytes)
    (msgs : StreamMessage → Prop) : Prop where
  /-- With a key that the recipient may derive, only what was encrypted with it can be decrypted. -/
  unforgeable : ∀ salt key n c b,
    lib.hkdf p.hkdfHash p.ikm salt ad p.derivedKeySize.toNat = some key →
    lib.gcmDecrypt key n c = some b →
    ∃ m, msgs m ∧ lib.hkdf p.hkdfHash p.ikm (lib.random m.seed p.derivedKeySize.toNat) m.ad
      p.derivedKeySize.toNat = some key ∧ ∃ j, m.At (lib.random' m.seed 7) j n b
  /-- Messages differ in the derived key or in the prefix of the nonces. -/
  fresh : ∀ m m' key, msgs m → msgs m' →
    lib.hkdf p.hkdfHash p.ikm (lib.random m.seed p.derivedKeySize.toNat) m.ad
      p.derivedKeySize.toNat = some key →
    lib.hkdf p.hkdfHash p.ikm (lib.random m'.seed p.derivedKeySize.toNat) m'.ad
      p.derivedKeySize.toNat = some key →
    lib.random' m.seed 7 = lib.random' m'.seed 7 → m = m'
  /-- For other associated data other keys are derived. -/
  separate : ∀ m salt key, msgs m →
    lib.hkdf p.hkdfHash p.ikm (lib.random m.seed p.derivedKeySize.toNat) m.ad
      p.derivedKeySize.toNat = some key →
    lib.hkdf p.hkdfHash p.ikm salt ad p.derivedKeySize.toNat = some key → m.ad = ad

/-- The two keys derived with an AES-CTR-HMAC key: the first bytes are for AES-CTR, the next 32 for
HMAC. -/
def CtrHmacKeys (lib : SegmentLibrary) (p : AesCtrHmac.Params) (salt ad key hmacKey : Bytes) : Prop :=
  lib.hkdf p.hkdfAlgo p.ikm salt ad (p.keySize.toNat + 32) = some (key ++ hmacKey) ∧
    key.length = p.keySize.toNat

/-- Ideal HMAC and HKDF, for an AES-CTR-HMAC key that encrypted the messages `msgs`, and a recipient who
expects the associated data `ad`.  Verification is ideal: it succeeds only with what was authenticated. -/
structure CtrHmacIdeal (lib : SegmentLibrary) (p : AesCtrHmac.Params) (ad : Bytes)
    (msgs : StreamMessage → Prop) : Prop where
  /-- With a key that the recipient may derive, a tag is accepted only for what was authenticated with
  it. -/
  unforgeable : ∀ salt key hmacKey d t, CtrHmacKeys lib p salt ad key hmacKey →
    lib.hmacVerify p.tagAlgo hmacKey t d = some true →
    ∃ m key', msgs m ∧ CtrHmacKeys lib p (lib.random m.seed p.keySize.toNat) m.ad key' hmacKey ∧
      ∃ j n b c, m.At (lib.random' m.seed 7) j n b ∧
        lib.ctrEncrypt key' (n ++ [0, 0, 0, 0]) b = some c ∧ d = n ++ [0, 0, 0, 0] ++ c
  /-- Messages differ in the derived key for HMAC or in the prefix of the nonces. -/
  fresh : ∀ m m' key key' hmacKey, msgs m → msgs m' →
    CtrHmacKeys lib p (lib.random m.seed p.keySize.toNat) m.ad key hmacKey →
    CtrHmacKeys lib p (lib.random m'.seed p.keySize.toNat) m'.ad key' hmacKey →
    lib.random' m.seed 7 = lib.random' m'.seed 7 → m = m'
  /-- For other associated data other keys are derived, and the key for HMAC determines the other. -/
  separate : ∀ m salt key key' hmacKey, msgs m →
    CtrHmacKeys lib p (lib.random m.seed p.keySize.toNat) m.ad key hmacKey →
    CtrHmacKeys lib p salt ad key' hmacKey → m.ad = ad ∧ key = key'

/-- The nonce of segment number `j` of `count`, without what AES-CTR adds. -/
def segmentNonce (noncePrefix : Bytes) (j count : Nat) : Bytes :=
  noncePrefix ++ be32 j ++ [if j + 1 = count then 1 else 0]

/-- The format of a ciphertext, `/repo/cc/subtle/aes_gcm_hkdf_stream_segment_encrypter.h:42-55` and
`/repo/cc/subtle/aes_ctr_hmac_streaming.h:48-61`: the size of the header, the salt, the prefix of the
nonces, and the encrypted segments of the plaintext.  `f` and `n` are the sizes of the first plaintext
segment and of the others, but the last; `enc` encrypts a segment with a nonce. -/
def StreamFormat (enc : Bytes → Bytes → Option Bytes) (f n : Nat) (salt noncePrefix P C : Bytes) : Prop :=
  ∃ (full : List Bytes) (last : Bytes) (cs : List Bytes), Divided f n P full last ∧
    cs.length = full.length + 1 ∧ cs.length ≤ 2 ^ 32 ∧
    C = UInt8.ofNat (1 + salt.length + noncePrefix.length) :: (salt ++ noncePrefix ++ cs.flatten) ∧
    ∀ j b c, (full ++ [last])[j]? = some b → cs[j]? = some c →
      enc (segmentNonce noncePrefix j cs.length) b = some c

/-- A segment as AES-CTR-HMAC encrypts it: encrypted with the nonce and four zero bytes, and
authenticated together with them. -/
def ctrHmacSegment (lib : SegmentLibrary) (p : AesCtrHmac.Params) (key hmacKey nonce b : Bytes) :
    Option Bytes := do
  let ct ← lib.ctrEncrypt key (nonce ++ [0, 0, 0, 0]) b
  let tag ← lib.hmac p.tagAlgo hmacKey (nonce ++ [0, 0, 0, 0] ++ ct)
  return ct ++ tag.take p.tagSize.toNat

end Tink.Spec
