import Verif.Spec.SegmentCrypters

/-!
# Specification vocabulary for C70: which streaming AEAD keys there are

The conditions on the fields of the messages in `/repo/proto/aes_gcm_hkdf_streaming.proto` and
`/repo/proto/aes_ctr_hmac_streaming.proto`, with whole numbers instead of `uint32`.
-/

namespace Tink.Spec

/-- SHA1, SHA256 or SHA512. -/
def StreamHash (h : EnumVal) : Prop := h = HashType.SHA1 ∨ h = HashType.SHA256 ∨ h = HashType.SHA512

/-- The derived keys are AES-128 or AES-256 keys, and a segment has room for the header, the tag and at
least one byte. -/
structure GcmParamsOk (p : AesGcmHkdfStreamingParams) : Prop where
  hash : StreamHash p.hkdfHashType
  derived : p.derivedKeySize.toNat = 16 ∨ p.derivedKeySize.toNat = 32
  segment : (1 + p.derivedKeySize.toNat + 7) + 16 < p.ciphertextSegmentSize.toNat

/-- The same for AES-CTR-HMAC; the tag has at least ten bytes, and not more than the digest has, and the
segment size is an `int`. -/
structure CtrParamsOk (p : AesCtrHmacStreamingParams) : Prop where
  hash : StreamHash p.hkdfHashType
  derived : p.derivedKeySize.toNat = 16 ∨ p.derivedKeySize.toNat = 32
  hmacHash : StreamHash p.getHmacParams.hash
  tagMin : 10 ≤ p.getHmacParams.tagSize.toNat
  tagMax : p.getHmacParams.tagSize.toNat ≤
    if p.getHmacParams.hash = HashType.SHA1 then 20
    else if p.getHmacParams.hash = HashType.SHA256 then 32 else 64
  segment : (1 + p.derivedKeySize.toNat + 7) + p.getHmacParams.tagSize.toNat <
    p.ciphertextSegmentSize.toNat
  int : p.ciphertextSegmentSize.toNat < 2 ^ 31

/-- The key of an AES-GCM-HKDF streaming AEAD that C++ makes for a key format. -/
def gcmKey (lib : SegmentLibrary) (seed : Seed) (f : AesGcmHkdfStreamingKeyFormat) : AesGcmHkdf.Params where
  ikm := lib.random seed f.keySize.toNat
  hkdfHash := f.getParams.hkdfHashType
  derivedKeySize := f.getParams.derivedKeySize.toNat
  ciphertextSegmentSize := f.getParams.ciphertextSegmentSize.toNat
  ciphertextOffset := 0

/-- The key of an AES-CTR-HMAC streaming AEAD that C++ makes for a key format. -/
def ctrKey (lib : SegmentLibrary) (seed : Seed) (f : AesCtrHmacStreamingKeyFormat) : AesCtrHmac.Params where
  ikm := lib.random seed f.keySize.toNat
  hkdfAlgo := f.getParams.hkdfHashType
  keySize := f.getParams.derivedKeySize.toNat
  ciphertextSegmentSize := f.getParams.ciphertextSegmentSize.toNat
  ciphertextOffset := 0
  tagAlgo := f.getParams.getHmacParams.hash
  tagSize := f.getParams.getHmacParams.tagSize.toNat

/-- Streams can be made: a decrypting stream always, and an encrypting stream whenever the destination is
writable and HKDF does not fail for outputs of at most 64 bytes. -/
def Opens (lib : SegmentLibrary) (p : NonceBased Nat Segment.State) : Prop :=
  (∀ buffer ad, ∃ t, p.newRawDecryptingStream buffer ad = .ok t) ∧
  ((∀ h ikm salt info n, StreamHash h → n ≤ 64 → lib.hkdf h ikm salt info n ≠ none) →
    ∀ (σ : Type) (object : σ) seed buffer ad,
      ∃ t, p.newRawEncryptingStream seed ⟨true, object, buffer⟩ ad = .ok t)

end Tink.Spec
