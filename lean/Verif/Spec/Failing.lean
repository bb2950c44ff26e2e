import Verif.Spec.Buffered

/-!
# Specification vocabulary for decrypting streams that have failed
-/

namespace Tink.Spec
open Io
variable {δ ε τ : Type}

/-- After a call that raised `TinkError`, all calls did. -/
def StaysFailed (calls : Calls) : Prop :=
  ∀ pre c post, calls = pre ++ c :: post → RaisedTink c.2 → ∀ x ∈ post, RaisedTink x.2

/-- The decrypting streams of a key, for some associated data, do not recover from `TinkError`, whatever the
source. -/
def FailsForGood (p : RawStreamingAead δ ε τ) (ad : Bytes) : Prop :=
  ∀ (σ : Type) (src : Source σ) (s : σ) (t : τ), p.newRawDecryptingStream ad = .ok t →
    ∀ calls t' s', Session p.stream src t s calls t' s' → StaysFailed calls

/-- Calls with these results could be made on a file with the content `P`, and led to position `pos`, except
that some raised `TinkError`, which did not change the position. -/
inductive ReadsOrFails (P : Bytes) : List (ReadOp × ReadResult) → Nat → Prop
  | start : ReadsOrFails P [] 0
  | read {ops pos op b} : ReadsOrFails P ops pos → FileRead P pos op b →
      ReadsOrFails P (ops ++ [(op, .data b)]) (pos + b.length)
  | failed {ops pos r} (op : ReadOp) : ReadsOrFails P ops pos → RaisedTink r →
      ReadsOrFails P (ops ++ [(op, r)]) pos

/-- All calls are like those on a file whose content is one of the messages, except that some raised
`TinkError`; or nothing was read: they raised `TinkError` or asked for 0 bytes. -/
def OnlyReadsOneOf (msgs : Bytes → Prop) (ops : List (ReadOp × ReadResult)) : Prop :=
  (∀ o ∈ ops, RaisedTink o.2 ∨ o = (.read 0, .data []) ∨ o = (.read1 0, .data [])) ∨
    ∃ P pos, msgs P ∧ ReadsOrFails P ops pos

end Tink.Spec
