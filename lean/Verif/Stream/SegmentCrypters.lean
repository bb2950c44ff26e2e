import Verif.Stream.CcStreaming
import Verif.Proto.Gen

/-!
# The two kinds of streaming AEAD keys

`/repo/cc/subtle/aes_gcm_hkdf_streaming.cc`, `aes_gcm_hkdf_stream_segment_encrypter.cc`,
`aes_gcm_hkdf_stream_segment_decrypter.cc`, `aes_ctr_hmac_streaming.cc`.

Sizes that the code has as `int` are unbounded here.  The checks for FIPS mode, which is off, and for
null pointers are left out, and so are failures to allocate.
-/

namespace Tink

/-- What the OpenSSL functions compute.  Encryption and decryption are with a key and a nonce (and no
associated data); `hmac` is the whole digest, and `hmacVerify` compares one, or the beginning of one, with
a tag (`HmacBoringSsl::VerifyMac`, `hmac_boringssl.cc:87-111`; `none` if there is no digest); `random seed n` and `random' seed n` are the first and the
second string that is drawn.  A function that fails is `none`; the code then returns the status INTERNAL
(or INVALID_ARGUMENT). -/
structure SegmentLibrary where
  hkdf : EnumVal → Bytes → Bytes → Bytes → Nat → Option Bytes
  gcmEncrypt : Bytes → Bytes → Bytes → Option Bytes
  gcmDecrypt : Bytes → Bytes → Bytes → Option Bytes
  ctrEncrypt : Bytes → Bytes → Bytes → Option Bytes
  ctrDecrypt : Bytes → Bytes → Bytes → Option Bytes
  hmac : EnumVal → Bytes → Bytes → Option Bytes
  hmacVerify : EnumVal → Bytes → Bytes → Bytes → Option Bool
  random : Seed → Nat → Bytes
  random' : Seed → Nat → Bytes

namespace Segment

def invalidArgument {α : Type} : StatusOr α := .error ⟨.invalidArgument, false⟩

/-- A failure of OpenSSL. -/
def checked {α : Type} : Option α → StatusOr α
  | some a => .ok a
  | none => .error ⟨.internal, false⟩

/-- `kNoncePrefixSizeInBytes`, `aes_gcm_hkdf_stream_segment_encrypter.h:71`,
`aes_ctr_hmac_streaming.h:87`. -/
def noncePrefixSize : Nat := 7

/-- The hash functions that are accepted, e.g. `aes_gcm_hkdf_streaming.cc:43-44`. -/
def hashSupported (h : EnumVal) : Bool :=
  h = HashType.SHA1 || h = HashType.SHA256 || h = HashType.SHA512

/-- The header: `CreateHeader`, `aes_gcm_hkdf_stream_segment_encrypter.cc:86-96`, `MakeHeader`,
`aes_ctr_hmac_streaming.cc:150-155`. -/
def makeHeader (salt noncePrefix : Bytes) : Bytes :=
  UInt8.ofNat (1 + salt.length + noncePrefix.length) :: (salt ++ noncePrefix)

/-- The start of a nonce: `ConstructNonce`, `aes_gcm_hkdf_stream_segment_encrypter.cc:100-112`, and
`NonceForSegment`, `aes_ctr_hmac_streaming.cc:53-60`, which adds four zero bytes. -/
def nonce (noncePrefix : Bytes) (j : Nat) (last : Bool) : Bytes :=
  noncePrefix ++ be32 j ++ [if last then 1 else 0]

/-- What a decrypter has after `Init`: the prefix of the nonces, the key, and the key for HMAC (which is
empty in the case of AES-GCM). -/
abbrev State := Option (Bytes × Bytes × Bytes)

/-- The check for too many segments, e.g. `aes_gcm_hkdf_stream_segment_encrypter.cc:154-159`. -/
def tooMany (j : Nat) (last : Bool) : Bool := 2 ^ 32 - 1 < j || (j = 2 ^ 32 - 1 && !last)

end Segment

/-! ## AES-GCM-HKDF -/

namespace AesGcmHkdf
open Segment

/-- `AesGcmHkdfStreaming::Params`, `aes_gcm_hkdf_streaming.h:38-44`. -/
structure Params where
  ikm : Bytes
  hkdfHash : EnumVal
  derivedKeySize : Int
  ciphertextSegmentSize : Int
  ciphertextOffset : Int

/-- `kTagSizeInBytes`, `aes_gcm_hkdf_stream_segment_encrypter.h:74`. -/
def tagSize : Nat := 16

/-- `Validate`, `aes_gcm_hkdf_streaming.cc:42-66`.  (Line 48 compares without signs; a negative
`derived_key_size` is refused there, and here in the next step.) -/
def validate (p : Params) : StatusOr Unit :=
  if !hashSupported p.hkdfHash then invalidArgument
  else if p.ikm.length < 16 || p.ikm.length < p.derivedKeySize then invalidArgument
  else if p.derivedKeySize ≠ 16 && p.derivedKeySize ≠ 32 then invalidArgument
  else if p.ciphertextOffset < 0 then invalidArgument
  else if p.ciphertextSegmentSize ≤ p.ciphertextOffset + p.derivedKeySize + tagSize then invalidArgument
  else .ok ()

/-- `Validate`, `aes_gcm_hkdf_stream_segment_encrypter.cc:62-84`. -/
def validateEncrypter (p : Params) (key salt : Bytes) : StatusOr Unit :=
  if key.length ≠ 16 && key.length ≠ 32 then invalidArgument
  else if key.length ≠ salt.length then invalidArgument
  else if p.ciphertextOffset < 0 then invalidArgument
  else if p.ciphertextSegmentSize ≤
      p.ciphertextOffset + (1 + salt.length + noncePrefixSize : Nat) + tagSize then invalidArgument
  else .ok ()

/-- `Validate`, `aes_gcm_hkdf_stream_segment_decrypter.cc:64-90`. -/
def validateDecrypter (p : Params) : StatusOr Unit :=
  if !hashSupported p.hkdfHash then invalidArgument
  else if p.derivedKeySize ≠ 16 && p.derivedKeySize ≠ 32 then invalidArgument
  else if p.ikm.length < 16 || p.ikm.length < p.derivedKeySize then invalidArgument
  else if p.ciphertextOffset < 0 then invalidArgument
  else if p.ciphertextSegmentSize ≤
      p.ciphertextOffset + (1 + p.derivedKeySize + noncePrefixSize) + tagSize then invalidArgument
  else .ok ()

/-- `EncryptSegment`, `aes_gcm_hkdf_stream_segment_encrypter.cc:143-182`.  The state is the number of the
segment.  `plaintextSize`, which is positive, is `get_plaintext_segment_size()`. -/
def encryptSegment (lib : SegmentLibrary) (key noncePrefix : Bytes) (plaintextSize : Int) (j : Nat)
    (pt : Bytes) (last : Bool) : Nat × StatusOr Bytes :=
  if plaintextSize < pt.length then (j, invalidArgument)
  else if tooMany j last then (j, invalidArgument)
  else
    match lib.gcmEncrypt key (nonce noncePrefix j last) pt with
    | none => (j, checked none)
    | some ct => (j + 1, .ok ct)

/-- The object: lines 116-126. -/
def encrypter (lib : SegmentLibrary) (p : Params) (key salt noncePrefix : Bytes) :
    SegmentEncrypter Nat where
  encryptSegment := encryptSegment lib key noncePrefix (p.ciphertextSegmentSize - tagSize)
  header := makeHeader salt noncePrefix
  plaintextSegmentSize := p.ciphertextSegmentSize - tagSize
  ciphertextOffset := p.ciphertextOffset

/-- `NewSegmentEncrypter`, `aes_gcm_hkdf_streaming.cc:79-91`, and `New`,
`aes_gcm_hkdf_stream_segment_encrypter.cc:128-141`. -/
def newSegmentEncrypter (lib : SegmentLibrary) (p : Params) (seed : Seed) (ad : Bytes) :
    StatusOr (SegmentEncrypter Nat × Nat) := do
  let salt := lib.random seed p.derivedKeySize.toNat
  let key ← checked (lib.hkdf p.hkdfHash p.ikm salt ad p.derivedKeySize.toNat)
  validateEncrypter p key salt
  return (encrypter lib p key salt (lib.random' seed noncePrefixSize), 0)

/-- `Init`, `aes_gcm_hkdf_stream_segment_decrypter.cc:116-160`. -/
def init (lib : SegmentLibrary) (p : Params) (ad : Bytes) (v : State) (header : Bytes) :
    State × StatusOr Unit :=
  let size := 1 + p.derivedKeySize + noncePrefixSize
  match v with
  | some _ => (v, .error ⟨.failedPrecondition, false⟩)
  | none =>
    if (header.length : Int) ≠ size then (none, invalidArgument)
    else if ((header.headD 0).toNat : Int) ≠ size then (none, invalidArgument)
    else
      let salt := (header.drop 1).take p.derivedKeySize.toNat
      let noncePrefix := (header.drop (1 + p.derivedKeySize.toNat)).take noncePrefixSize
      match lib.hkdf p.hkdfHash p.ikm salt ad p.derivedKeySize.toNat with
      | none => (none, checked none)
      | some key => (some (noncePrefix, key, []), .ok ())

/-- `DecryptSegment`, lines 167-216. -/
def decryptSegment (lib : SegmentLibrary) (p : Params) (v : State) (ct : Bytes) (j : Nat)
    (last : Bool) : StatusOr Bytes :=
  match v with
  | none => .error ⟨.failedPrecondition, false⟩
  | some (noncePrefix, key, _) =>
    if p.ciphertextSegmentSize < ct.length then invalidArgument
    else if ct.length < tagSize then invalidArgument
    else if tooMany j last then invalidArgument
    else checked (lib.gcmDecrypt key (nonce noncePrefix j last) ct)

/-- The object: lines 94-103. -/
def decrypter (lib : SegmentLibrary) (p : Params) (ad : Bytes) : SegmentDecrypter State where
  init := init lib p ad
  decryptSegment := decryptSegment lib p
  headerSize := 1 + p.derivedKeySize + noncePrefixSize
  ciphertextSegmentSize := p.ciphertextSegmentSize
  ciphertextOffset := p.ciphertextOffset

/-- `NewSegmentDecrypter`, `aes_gcm_hkdf_streaming.cc:93-104`, and `New`,
`aes_gcm_hkdf_stream_segment_decrypter.cc:106-114`. -/
def newSegmentDecrypter (lib : SegmentLibrary) (p : Params) (ad : Bytes) :
    StatusOr (SegmentDecrypter State × State) := do
  validateDecrypter p
  return (decrypter lib p ad, none)

/-- `AesGcmHkdfStreaming::New`, `aes_gcm_hkdf_streaming.cc:69-77`. -/
def new (lib : SegmentLibrary) (p : Params) : StatusOr (NonceBased Nat State) := do
  validate p
  return ⟨newSegmentEncrypter lib p, newSegmentDecrypter lib p⟩

end AesGcmHkdf

/-! ## AES-CTR-HMAC -/

namespace AesCtrHmac
open Segment

/-- `AesCtrHmacStreaming::Params`, `aes_ctr_hmac_streaming.h:66-75`. -/
structure Params where
  ikm : Bytes
  hkdfAlgo : EnumVal
  keySize : Int
  ciphertextSegmentSize : Int
  ciphertextOffset : Int
  tagAlgo : EnumVal
  tagSize : Int

/-- `kHmacKeySizeInBytes`, `aes_ctr_hmac_streaming.h:89`. -/
def hmacKeySize : Nat := 32

/-- The size of the header, `aes_ctr_hmac_streaming.h:177-179`. -/
def headerSize (p : Params) : Int := 1 + p.keySize + noncePrefixSize

/-- `Validate`, `aes_ctr_hmac_streaming.cc:80-122`. -/
def validate (p : Params) : StatusOr Unit :=
  if (p.ikm.length : Int) < max 16 p.keySize then invalidArgument
  else if !hashSupported p.hkdfAlgo then invalidArgument
  else if p.keySize ≠ 16 && p.keySize ≠ 32 then invalidArgument
  else if p.ciphertextSegmentSize ≤ p.ciphertextOffset + headerSize p + p.tagSize then invalidArgument
  else if p.ciphertextOffset < 0 then invalidArgument
  else if p.tagSize < 10 then invalidArgument
  else if !hashSupported p.tagAlgo then invalidArgument
  else if (p.tagAlgo = HashType.SHA1 && 20 < p.tagSize) ||
      (p.tagAlgo = HashType.SHA256 && 32 < p.tagSize) ||
      (p.tagAlgo = HashType.SHA512 && 64 < p.tagSize) then invalidArgument
  else .ok ()

/-- `DeriveKeys`, lines 62-78. -/
def deriveKeys (lib : SegmentLibrary) (p : Params) (salt ad : Bytes) : Option (Bytes × Bytes) :=
  (lib.hkdf p.hkdfAlgo p.ikm salt ad (p.keySize.toNat + hmacKeySize)).map fun m =>
    (m.take p.keySize.toNat, m.drop p.keySize.toNat)

/-- The size of a digest: `EVP_MD_size`. -/
def digestSize (h : EnumVal) : Nat :=
  if h = HashType.SHA1 then 20 else if h = HashType.SHA256 then 32
  else if h = HashType.SHA512 then 64 else 0

/-- `HmacBoringSsl::New`, `/repo/cc/subtle/hmac_boringssl.cc:44-64`; `kMinKeySize` is 16. -/
def newHmac (p : Params) (hmacKey : Bytes) : StatusOr Unit :=
  if (digestSize p.tagAlgo : Int) < p.tagSize then invalidArgument
  else if hmacKey.length < 16 then invalidArgument
  else .ok ()

/-- `ComputeMac`, `hmac_boringssl.cc:66-85`. -/
def computeMac (lib : SegmentLibrary) (p : Params) (hmacKey data : Bytes) : Option Bytes :=
  (lib.hmac p.tagAlgo hmacKey data).map (·.take p.tagSize.toNat)

/-- `NonceForSegment`, `aes_ctr_hmac_streaming.cc:53-60`. -/
def nonceForSegment (noncePrefix : Bytes) (j : Nat) (last : Bool) : Bytes :=
  nonce noncePrefix j last ++ [0, 0, 0, 0]

/-- `EncryptSegment`, lines 192-251.  The state is the number of the segment. -/
def encryptSegment (lib : SegmentLibrary) (p : Params) (key hmacKey noncePrefix : Bytes) (j : Nat)
    (pt : Bytes) (last : Bool) : Nat × StatusOr Bytes :=
  if p.ciphertextSegmentSize - p.tagSize < pt.length then (j, invalidArgument)
  else if tooMany j last then (j, invalidArgument)
  else
    match lib.ctrEncrypt key (nonceForSegment noncePrefix j last) pt with
    | none => (j, checked none)
    | some ct =>
      if ct.length ≠ pt.length then (j, checked none)
      else
        match computeMac lib p hmacKey (nonceForSegment noncePrefix j last ++ ct) with
        | none => (j, checked none)
        | some tag => (j + 1, .ok (ct ++ tag))

/-- The object: `aes_ctr_hmac_streaming.h:121-157`. -/
def encrypter (lib : SegmentLibrary) (p : Params) (key hmacKey salt noncePrefix : Bytes) :
    SegmentEncrypter Nat where
  encryptSegment := encryptSegment lib p key hmacKey noncePrefix
  header := makeHeader salt noncePrefix
  plaintextSegmentSize := p.ciphertextSegmentSize - p.tagSize
  ciphertextOffset := p.ciphertextOffset

/-- `AesCtrHmacStreamSegmentEncrypter::New`, `aes_ctr_hmac_streaming.cc:157-190`.  The cipher exists, by
`Validate`. -/
def newSegmentEncrypter (lib : SegmentLibrary) (p : Params) (seed : Seed) (ad : Bytes) :
    StatusOr (SegmentEncrypter Nat × Nat) := do
  validate p
  let salt := lib.random seed p.keySize.toNat
  let noncePrefix := lib.random' seed noncePrefixSize
  let (key, hmacKey) ← checked (deriveKeys lib p salt ad)
  newHmac p hmacKey
  return (encrypter lib p key hmacKey salt noncePrefix, 0)

/-- `Init`, lines 267-308. -/
def init (lib : SegmentLibrary) (p : Params) (ad : Bytes) (v : State) (header : Bytes) :
    State × StatusOr Unit :=
  match v with
  | some _ => (v, .error ⟨.failedPrecondition, false⟩)
  | none =>
    if (header.length : Int) ≠ headerSize p then (none, invalidArgument)
    else if (header.headD 0).toNat ≠ header.length then (none, invalidArgument)
    else
      let salt := (header.drop 1).take p.keySize.toNat
      let noncePrefix := (header.drop (1 + p.keySize.toNat)).take noncePrefixSize
      match deriveKeys lib p salt ad with
      | none => (none, checked none)
      | some (key, hmacKey) =>
        match newHmac p hmacKey with
        | .error e => (none, .error e)
        | .ok _ => (some (noncePrefix, key, hmacKey), .ok ())

/-- `DecryptSegment`, lines 310-374. -/
def decryptSegment (lib : SegmentLibrary) (p : Params) (v : State) (c : Bytes) (j : Nat)
    (last : Bool) : StatusOr Bytes :=
  match v with
  | none => .error ⟨.failedPrecondition, false⟩
  | some (noncePrefix, key, hmacKey) =>
    if p.ciphertextSegmentSize < c.length then invalidArgument
    else if (c.length : Int) < p.tagSize then invalidArgument
    else if tooMany j last then invalidArgument
    else
      let ct := c.take (c.length - p.tagSize.toNat)
      let tag := c.drop (c.length - p.tagSize.toNat)
      match lib.hmacVerify p.tagAlgo hmacKey tag (nonceForSegment noncePrefix j last ++ ct) with
      | none => checked none
      | some ok =>
        if !ok then invalidArgument
        else
          match lib.ctrDecrypt key (nonceForSegment noncePrefix j last) ct with
          | none => checked none
          | some pt => if pt.length ≠ ct.length then checked none else .ok pt

/-- The object: `aes_ctr_hmac_streaming.h:177-213`. -/
def decrypter (lib : SegmentLibrary) (p : Params) (ad : Bytes) : SegmentDecrypter State where
  init := init lib p ad
  decryptSegment := decryptSegment lib p
  headerSize := headerSize p
  ciphertextSegmentSize := p.ciphertextSegmentSize
  ciphertextOffset := p.ciphertextOffset

/-- `AesCtrHmacStreamSegmentDecrypter::New`, `aes_ctr_hmac_streaming.cc:254-265`. -/
def newSegmentDecrypter (lib : SegmentLibrary) (p : Params) (ad : Bytes) :
    StatusOr (SegmentDecrypter State × State) := do
  validate p
  return (decrypter lib p ad, none)

/-- `AesCtrHmacStreaming::New`, lines 125-133. -/
def new (lib : SegmentLibrary) (p : Params) : StatusOr (NonceBased Nat State) := do
  validate p
  return ⟨newSegmentEncrypter lib p, newSegmentDecrypter lib p⟩

end AesCtrHmac
end Tink
