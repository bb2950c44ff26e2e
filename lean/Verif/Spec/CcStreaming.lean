import Verif.Spec.Segments
import Verif.Spec.Stream
import Verif.Stream.CcStreaming

/-!
# Specification vocabulary for the streaming AEAD of one key
-/

namespace Tink.Spec
variable {κ ν σ δ ε τ : Type}

/-- The decrypter that a key makes for some associated data belongs to the encrypters that it makes
for it. -/
def SoundStreaming (p : NonceBased κ ν) : Prop :=
  ∀ seed ad se k, p.newSegmentEncrypter seed ad = .ok (se, k) →
    0 ≤ se.ciphertextOffset ∧
    ∃ sd v, p.newSegmentDecrypter ad = .ok (sd, v) ∧ Matching se k sd v

/-- These bytes were written: some calls of `write`, none of which failed.  (A call writes as many
bytes as it returned.) -/
inductive Written (snk : CSink σ) (t : CcEncrypting κ σ) : Bytes → CcEncrypting κ σ → Prop
  | start : Written snk t [] t
  | write {P t1 b t2 n} (fuel : Nat) : Written snk t P t1 → b.length < 2 ^ 31 →
      t1.write snk fuel b = some (t2, .returned (.ok n)) → Written snk t (P ++ b.take n) t2

/-- With associated data `ad`, the key never delivers anything but `P`: whatever the source and
whatever calls are made, the bytes returned are the first bytes of `P`; once `b''` was returned, for a
size other than 0, they are all of `P`; and nothing but `TinkError` is raised. -/
def DeliversOnly (p : RawStreamingAead δ ε τ) (ad P : Bytes) : Prop :=
  ∀ (σ : Type) (src : Source σ) (s : σ) (t : τ), p.newRawDecryptingStream ad = .ok t →
    ∀ calls t' s', Session p.stream src t s calls t' s' →
      Calls.bytes calls <+: P ∧ (∀ c ∈ calls, ∀ e, c.2 = .raised e → e.isTink = true) ∧
      ((∃ c ∈ calls, c.1 ≠ 0 ∧ c.2 = .data []) → Calls.bytes calls = P)

/-- What the calls returned comes from one of the messages: nothing was returned (and no end reported),
or the bytes are the first bytes of one message, and whenever `b''` was returned for a size other than 0,
all of it had been returned before.  Nothing but `TinkError` was raised. -/
def FromOneOf (msgs : Bytes → Prop) (calls : Calls) : Prop :=
  (∀ c ∈ calls, ∀ e, c.2 = .raised e → e.isTink = true) ∧
  ((Calls.bytes calls = [] ∧ ¬ ∃ c ∈ calls, c.1 ≠ 0 ∧ c.2 = .data []) ∨
    ∃ P, msgs P ∧ Calls.bytes calls <+: P ∧
      ∀ pre c post, calls = pre ++ c :: post → c.1 ≠ 0 → c.2 = .data [] → Calls.bytes pre = P)

/-- With associated data `ad`, the key never delivers anything but the messages, whatever the source and
whatever calls are made. -/
def DeliversOneOf (p : RawStreamingAead δ ε τ) (ad : Bytes) (msgs : Bytes → Prop) : Prop :=
  ∀ (σ : Type) (src : Source σ) (s : σ) (t : τ), p.newRawDecryptingStream ad = .ok t →
    ∀ calls t' s', Session p.stream src t s calls t' s' → FromOneOf msgs calls

end Tink.Spec
