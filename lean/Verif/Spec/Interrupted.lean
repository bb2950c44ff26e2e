import Verif.Spec.Buffered
import Verif.Spec.SegmentCrypters

/-!
# Specification vocabulary for encrypting streams that are not closed
-/

namespace Tink.Spec
open Io
variable {κ σ δ ε τ ρ : Type}

/-- What an encrypter, new with state `k` and now with state `k'`, has encrypted: the segments `bs`, to
`cs`, and none of them as the last one.  (After that an encryption may have failed.) -/
def EncryptedSoFar (se : SegmentEncrypter κ) (k : κ) (bs cs : List Bytes) (k' : κ) : Prop :=
  ∃ k1, Emitted se k bs cs k1 ∧
    (k' = k1 ∨ ∃ b last x, se.encryptSegment k1 b last = (k', .error x))

/-- What these calls returned is the start of `P`, and is not taken for all of a message: the end is not
reported (`b''` for a size other than 0).  Nothing but `TinkError` is raised. -/
def Unfinished (P : Bytes) (calls : Calls) : Prop :=
  Calls.bytes calls <+: P ∧ (¬ ∃ c ∈ calls, c.1 ≠ 0 ∧ c.2 = .data []) ∧
    ∀ c ∈ calls, ∀ e, c.2 = .raised e → e.isTink = true

/-- With associated data `ad`, the key never takes `D` for a message: on every source that delivers `D` the
reads return first bytes of `P` and never report the end. -/
def NeverComplete (p : RawStreamingAead δ ε τ) (ad D P : Bytes) : Prop :=
  ∀ (σ : Type) (src : Source σ) (rest : σ → Bytes), Faithful src rest → Steady src →
    ∀ s, rest s = D → ∀ t, p.newRawDecryptingStream ad = .ok t →
    ∀ calls t' s', Session p.stream src t s calls t' s' → Unfinished P calls

/-- As `NeverComplete`, except that the end may be reported after all of `P`. -/
def NotCutShort (p : RawStreamingAead δ ε τ) (ad D P : Bytes) : Prop :=
  ∀ (σ : Type) (src : Source σ) (rest : σ → Bytes), Faithful src rest → Steady src →
    ∀ s, rest s = D → ∀ t, p.newRawDecryptingStream ad = .ok t →
    ∀ calls t' s', Session p.stream src t s calls t' s' →
      Calls.bytes calls <+: P ∧ (∀ c ∈ calls, ∀ e, c.2 = .raised e → e.isTink = true) ∧
      ((∃ c ∈ calls, c.1 ≠ 0 ∧ c.2 = .data []) → Calls.bytes calls = P)

/-- With associated data `ad`, whatever the source and whatever calls are made, the key delivers nothing but
the messages, and perhaps the start of `P`, of which it never reports the end. -/
def DeliversUnfinished (p : RawStreamingAead δ ε τ) (ad : Bytes) (msgs : Bytes → Prop) (P : Bytes) : Prop :=
  ∀ (σ : Type) (src : Source σ) (s : σ) (t : τ), p.newRawDecryptingStream ad = .ok t →
    ∀ calls t' s', Session p.stream src t s calls t' s' → FromOneOf msgs calls ∨ Unfinished P calls

/-- Until a call raises, which then is `TinkError`, the calls are like those on a file whose content starts
with `P` and goes on, no matter how.  So no byte after those of `P` was returned, and no call showed that
there are no more. -/
def ReadsUnfinished (P : Bytes) (ops : List (ReadOp × ReadResult)) : Prop :=
  ∃ pre post, ops = pre ++ post ∧
    (post = [] ∨ ∃ op e rest, post = (op, .raised e) :: rest ∧ e.isTink = true) ∧
    ∃ pos, pos ≤ P.length ∧ ∀ more, more ≠ [] → ReadsLikeFile (P ++ more) pre pos

/-- The messages `msgs`, and one with the segments `bs`, to which more will be added. -/
def andOneMore (msgs : StreamMessage → Prop) (seed : Seed) (ad : Bytes) (bs more : List Bytes) :
    StreamMessage → Prop := fun m => msgs m ∨ m = ⟨seed, ad, bs ++ more⟩

/-- Ideal cryptography while a message is being encrypted, of which so far there are the segments `bs` and
not yet the last one: whatever the last one will be, so far nothing is accepted but what belongs to that
message, or to the others. -/
def GcmIdealSoFar (lib : SegmentLibrary) (p : AesGcmHkdf.Params) (ad : Bytes) (msgs : StreamMessage → Prop)
    (seed : Seed) (bs : List Bytes) : Prop :=
  ∀ last, GcmIdeal lib p ad (andOneMore msgs seed ad bs [last])

/-- The same for AES-CTR-HMAC. -/
def CtrHmacIdealSoFar (lib : SegmentLibrary) (p : AesCtrHmac.Params) (ad : Bytes)
    (msgs : StreamMessage → Prop) (seed : Seed) (bs : List Bytes) : Prop :=
  ∀ last, CtrHmacIdeal lib p ad (andOneMore msgs seed ad bs [last])

/-- `with stream: …`, and what follows the block: whether the block was left normally or by an exception
(`body`), `__exit__` of `io.IOBase` calls `close()`, and an exception of the block goes on unless `close()`
raises another.  `ops` are the calls in the block.  Dropping the last reference to a stream has the same
effect on it: `__del__` of `io.IOBase` calls `close()`. -/
inductive WithBlock (W : ρ → Bytes → ρ → Py Nat → Prop) (C : ρ → ρ → Py Unit → Prop) (t : ρ) :
    List (WriteOp × Py Nat) → Py Unit → ρ → Py Unit → Prop
  | closed {ops t1 b t2} (body : Py Unit) : WriterHistory W t ops t1 b →
      BufferedClose W C t1 b t2 (.ok ()) → WithBlock W C t ops body t2 body
  | failed {ops t1 b t2 e} (body : Py Unit) : WriterHistory W t ops t1 b →
      BufferedClose W C t1 b t2 (.error e) → WithBlock W C t ops body t2 (.error e)

end Tink.Spec
