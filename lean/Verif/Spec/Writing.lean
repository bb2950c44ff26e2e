import Verif.Spec.Buffered
import Verif.Spec.CcStreaming
import Verif.Spec.StreamingKeys

/-!
# Specification vocabulary for C80: writing comes to an end
-/

namespace Tink.Spec
open Io
variable {σ κ ρ : Type}

/-- The destination does not go on accepting nothing: `patience s` bounds how often, from state `s` on, it
accepts none of the bytes that are written, until it accepts some or raises. -/
def Progresses (snk : CSink σ) (patience : σ → Nat) : Prop :=
  ∀ s d n, d ≠ [] → (snk.write s d).2 = .ok n → n ≤ 0 → patience (snk.write s d).1 < patience s

/-- The destination never raises. -/
structure Reliable (snk : CSink σ) : Prop where
  write : ∀ s d x, (snk.write s d).2 ≠ .error x
  close : ∀ s x, (snk.close s).2 ≠ .error x

/-- Every call of an `io.BufferedWriter` returns, if the bytes `buffer` are waiting in it: whatever it writes
to the raw stream, this returns, and if it returns normally some bytes were accepted, so that there will be
nothing left to be written; and then `flush` and `close` have a result. -/
def EveryWriteReturns (W : ρ → Bytes → ρ → Py Nat → Prop) (C : ρ → ρ → Py Unit → Prop) (t : ρ)
    (buffer : Bytes) : Prop :=
  (∀ data t' rest, Flushed W t data t' rest → ∀ c, c ≠ [] → c.length < 2 ^ 31 →
    ∃ t'' r, W t' c t'' r ∧ ∀ n, r = .ok n → 0 < n ∧ n ≤ c.length) ∧
  (∃ r t' b, BufferedWrite W t buffer .flush r t' b) ∧
  ∃ r t', BufferedClose W C t buffer t' r

/-- The encrypter, new with state `k`, can encrypt every plaintext of up to `limit` bytes: however these are
divided into segments, the encryption of none of them fails. -/
def Encrypts (se : SegmentEncrypter κ) (k : κ) (limit : Nat) : Prop :=
  ∀ P full last, Divided (EncryptingStream.firstSegmentSize se).toNat se.plaintextSegmentSize.toNat P full last →
    P.length ≤ limit → ∃ cs k1 k2 c, Emitted se k full cs k1 ∧ se.encryptSegment k1 last true = (k2, .ok c)

/-- With all encrypting streams of the key, plaintexts of up to `limit` bytes can be encrypted. -/
def EncryptsUpTo {ν : Type} (p : NonceBased κ ν) (limit : Nat) : Prop :=
  ∀ seed ad se k, p.newSegmentEncrypter seed ad = .ok (se, k) → Encrypts se k limit

/-- As many bytes as 2³² segments hold. -/
def segmentsLimit (se : SegmentEncrypter κ) : Nat :=
  (EncryptingStream.firstSegmentSize se).toNat + (2 ^ 32 - 1) * se.plaintextSegmentSize.toNat

/-- The functions of the library do not fail when they are used as they should be: with AES-128 and AES-256
keys, nonces of the right size, and segments whose sizes are `int`s. -/
structure WorkingLibrary (lib : SegmentLibrary) : Prop where
  hkdf : ∀ h ikm salt info n, StreamHash h → n ≤ 64 → lib.hkdf h ikm salt info n ≠ none
  gcm : ∀ k n b, k.length = 16 ∨ k.length = 32 → n.length = 12 → b.length < 2 ^ 31 →
    lib.gcmEncrypt k n b ≠ none
  ctr : ∀ k n b, k.length = 16 ∨ k.length = 32 → n.length = 16 → b.length < 2 ^ 31 →
    ∃ c, lib.ctrEncrypt k n b = some c ∧ c.length = b.length
  hmac : ∀ h k d, StreamHash h → lib.hmac h k d ≠ none

end Tink.Spec
