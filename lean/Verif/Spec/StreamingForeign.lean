import Verif.Spec.SegmentCrypters
import Verif.Spec.CliStreaming

/-!
# Specification vocabulary for ciphertexts that were made with another streaming AEAD key
-/

namespace Tink.Spec

/-- The ciphertext starts as those of a key with salts of `salt` bytes do: with the size of the header, and the
header is complete. -/
def HasHeader (salt : Nat) (C : Bytes) : Prop :=
  ∃ rest, C = UInt8.ofNat (1 + salt + 7) :: rest ∧ salt + 7 ≤ rest.length

/-- What a ciphertext has in it, for a key with salts of `salt` bytes and segments of `segment` bytes, of which
the first lacks `offset` bytes and the header: the salt ... -/
def saltOf (salt : Nat) (C : Bytes) : Bytes := (C.drop 1).take salt

/-- ... the prefix of the nonces ... -/
def noncePrefixOf (salt : Nat) (C : Bytes) : Bytes := (C.drop (1 + salt)).take 7

/-- ... and the first segment. -/
def firstSegmentOf (salt : Nat) (segment offset : Int) (C : Bytes) : Bytes :=
  (C.drop (1 + salt + 7)).take (segment - offset - (1 + salt + 7 : Nat)).toNat

/-- The ciphertext `C` has no header of the right size for an AES-GCM-HKDF key; or, with the key that is derived
for it, its first segment does not pass AES-GCM: neither as the last nor as one that others follow. -/
def GcmForeign (lib : SegmentLibrary) (p : AesGcmHkdf.Params) (ad C : Bytes) : Prop :=
  HasHeader p.derivedKeySize.toNat C → ∀ key, lib.hkdf p.hkdfHash p.ikm (saltOf p.derivedKeySize.toNat C) ad p.derivedKeySize.toNat = some key →
    ∀ flag ∈ [(0 : UInt8), 1],
      lib.gcmDecrypt key (noncePrefixOf p.derivedKeySize.toNat C ++ [0, 0, 0, 0] ++ [flag])
        (firstSegmentOf p.derivedKeySize.toNat p.ciphertextSegmentSize p.ciphertextOffset C) = none

/-- The ciphertext `C` has no header of the right size for an AES-CTR-HMAC key; or, with the key that is derived for
it, the tag of its first segment is wrong. -/
def CtrHmacForeign (lib : SegmentLibrary) (p : AesCtrHmac.Params) (ad C : Bytes) : Prop :=
  HasHeader p.keySize.toNat C → ∀ key hmacKey, CtrHmacKeys lib p (saltOf p.keySize.toNat C) ad key hmacKey →
    ∀ flag ∈ [(0 : UInt8), 1], ∀ ct tag,
      firstSegmentOf p.keySize.toNat p.ciphertextSegmentSize p.ciphertextOffset C = ct ++ tag →
      tag.length = p.tagSize.toNat →
      lib.hmacVerify p.tagAlgo hmacKey tag
        (noncePrefixOf p.keySize.toNat C ++ [0, 0, 0, 0] ++ [flag] ++ [0, 0, 0, 0] ++ ct) ≠ some true

/-- To this key, of either kind, the ciphertext `C` with the associated data `ad` is foreign. -/
inductive ForeignStream (lib : SegmentLibrary) (ad C : Bytes) : NonceBased Nat Segment.State → Prop
  | gcm {p np} : AesGcmHkdf.new lib p = .ok np → GcmForeign lib p ad C → ForeignStream lib ad C np
  | ctr {p np} : AesCtrHmac.new lib p = .ok np → CtrHmacForeign lib p ad C → ForeignStream lib ad C np

/-- No message that was encrypted with this key has the derived key and the prefix of the nonces that a recipient
gets from the header of `C`. -/
def GcmUnused (lib : SegmentLibrary) (p : AesGcmHkdf.Params) (ad : Bytes) (msgs : StreamMessage → Prop)
    (C : Bytes) : Prop :=
  ∀ m key, msgs m →
    lib.hkdf p.hkdfHash p.ikm (lib.random m.seed p.derivedKeySize.toNat) m.ad p.derivedKeySize.toNat = some key →
    lib.hkdf p.hkdfHash p.ikm (saltOf p.derivedKeySize.toNat C) ad p.derivedKeySize.toNat = some key →
    lib.random' m.seed 7 ≠ noncePrefixOf p.derivedKeySize.toNat C

/-- The same for AES-CTR-HMAC. -/
def CtrHmacUnused (lib : SegmentLibrary) (p : AesCtrHmac.Params) (ad : Bytes) (msgs : StreamMessage → Prop)
    (C : Bytes) : Prop :=
  ∀ m key key' hmacKey, msgs m → CtrHmacKeys lib p (lib.random m.seed p.keySize.toNat) m.ad key hmacKey →
    CtrHmacKeys lib p (saltOf p.keySize.toNat C) ad key' hmacKey →
    lib.random' m.seed 7 ≠ noncePrefixOf p.keySize.toNat C

end Tink.Spec
