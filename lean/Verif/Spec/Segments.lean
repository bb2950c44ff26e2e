import Verif.Spec.CppOutput
import Verif.Spec.CppStream
import Verif.Stream.Segments

/-!
# Specification vocabulary for streams that work in segments
-/

namespace Tink.Spec
variable {κ ν : Type}

/-- How a plaintext is divided: `first`, a full first segment and more full segments, and `last`, which
has at least one byte unless it is the only one.  The first segment is smaller than the others, which
have `n` bytes, because it shares its place with the header; it has `f` bytes. -/
structure Divided (f n : Nat) (P : Bytes) (full : List Bytes) (last : Bytes) : Prop where
  content : P = full.flatten ++ last
  sizes : ∀ j, ∀ h : j < full.length, full[j].length = if j = 0 then f else n
  lastSize : last.length ≤ if full = [] then f else n
  nonempty : full ≠ [] → last ≠ []

/-- The encrypter in state `k` encrypts these segments, none of them as the last one, to those, and is
then in the third state. -/
inductive Emitted (se : SegmentEncrypter κ) (k : κ) : List Bytes → List Bytes → κ → Prop
  | start : Emitted se k [] [] k
  | more {bs cs k1 b k2 c} : Emitted se k bs cs k1 → se.encryptSegment k1 b false = (k2, .ok c) →
      Emitted se k (bs ++ [b]) (cs ++ [c]) k2

/-- `C` is an encryption of `P`: the header, and the encrypted segments of `P`, the last one encrypted
as such. -/
def EncryptionOf (se : SegmentEncrypter κ) (k : κ) (P C : Bytes) : Prop :=
  ∃ full last cs k1 k2 c,
    Divided (EncryptingStream.firstSegmentSize se).toNat se.plaintextSegmentSize.toNat P full last ∧
    Emitted se k full cs k1 ∧ se.encryptSegment k1 last true = (k2, .ok c) ∧
    C = se.header ++ (cs ++ [c]).flatten

/-- A decrypter, new with state `v`, belongs to an encrypter, new with state `k`: their sizes agree, and
after it was given the header it decrypts what the encrypter encrypts, at the same place.  A last
segment does not pass for one that is not the last. -/
structure Matching (se : SegmentEncrypter κ) (k : κ) (sd : SegmentDecrypter ν) (v : ν) : Prop where
  headerSize : sd.headerSize = se.header.length
  header : se.header ≠ []
  offset : sd.ciphertextOffset = se.ciphertextOffset
  overhead : ∃ t : Nat, sd.ciphertextSegmentSize = se.plaintextSegmentSize + t ∧
    ∀ k1 b last k2 c, se.encryptSegment k1 b last = (k2, .ok c) → c.length = b.length + t
  init : ∃ v', sd.init v se.header = (v', .ok ()) ∧
    ∀ bs cs k1, Emitted se k bs cs k1 → ∀ b last k2 c, se.encryptSegment k1 b last = (k2, .ok c) →
      sd.decryptSegment v' c bs.length last = .ok b ∧
      (last = true → ∀ b', sd.decryptSegment v' c bs.length false ≠ .ok b')

/-- Failures of the decrypter are not mistaken for the end of the ciphertext. -/
structure Sober (sd : SegmentDecrypter ν) : Prop where
  init : ∀ v h v' e, sd.init v h = (v', .error e) → e.code ≠ .outOfRange
  decrypt : ∀ v c j last e, sd.decryptSegment v c j last = .error e → e.code ≠ .outOfRange

/-- The decrypter, which has the header, accepts only the segments of one ciphertext: if the decryption
of a segment succeeds, then it is segment number `j` of those with the plaintexts `bs`, and it is
decrypted as the last one if it is the last one. -/
def AcceptsOnly (sd : SegmentDecrypter ν) (v : ν) (bs : List Bytes) : Prop :=
  ∀ c j last b, sd.decryptSegment v c j last = .ok b →
    ∃ hj : j < bs.length, b = bs[j] ∧ (last = true ↔ j + 1 = bs.length)

/-- The decrypter, new with state `v`, accepts only the segments of one ciphertext, whatever the
header. -/
def Authentic (sd : SegmentDecrypter ν) (v : ν) (bs : List Bytes) : Prop :=
  ∀ h v', sd.init v h = (v', .ok ()) → AcceptsOnly sd v' bs

/-- The decrypter, new with state `v`, accepts only what was encrypted: `msgs` are the ciphertexts that
were made, by the plaintexts of their segments.  With any header the segments of at most one of them are
accepted. -/
def AuthenticAmong (sd : SegmentDecrypter ν) (v : ν) (msgs : List Bytes → Prop) : Prop :=
  ∀ h v', sd.init v h = (v', .ok ()) →
    (∃ bs, msgs bs ∧ AcceptsOnly sd v' bs) ∨ ∀ c j last b, sd.decryptSegment v' c j last ≠ .ok b

/-- The decrypter refuses the start of the ciphertext `C`: it is too short for a header, or the header
is refused, or the first segment is. -/
def RefusesStart (sd : SegmentDecrypter ν) (v : ν) (C : Bytes) : Prop :=
  C.length < sd.headerSize.toNat ∨
  (∃ v' e, sd.init v (C.take sd.headerSize.toNat) = (v', .error e)) ∨
  ∃ v', sd.init v (C.take sd.headerSize.toNat) = (v', .ok ()) ∧ ∀ last b,
    sd.decryptSegment v' ((C.drop sd.headerSize.toNat).take
      (DecryptingStream.firstSegmentSize sd).toNat) 0 last ≠ .ok b

end Tink.Spec
