import Verif.Spec.CcStreaming
import Verif.Stream.Buffered

/-!
# Specification vocabulary for the streams that users get
-/

namespace Tink.Spec
open Io
variable {σ ρ τ : Type}

/-- The result of a call on a file with the content `P`, at position `pos`: `read(n)` returns the next
`n` bytes, or those that are left; `read()` returns all that are left; `read1(n)` returns some, at least
one unless `n` is 0 or none are left. -/
def FileRead (P : Bytes) (pos : Nat) : ReadOp → Bytes → Prop
  | .read n, b => b = (P.drop pos).take n
  | .readAll, b => b = P.drop pos
  | .read1 n, b => b <+: P.drop pos ∧ b.length ≤ n ∧ (b = [] → n = 0 ∨ P.length ≤ pos)

/-- Calls with these results could be made, one after the other, on a file with the content `P`: they
lead from the start of the file to position `pos`. -/
inductive ReadsLikeFile (P : Bytes) : List (ReadOp × ReadResult) → Nat → Prop
  | start : ReadsLikeFile P [] 0
  | read {ops pos op b} : ReadsLikeFile P ops pos → FileRead P pos op b →
      ReadsLikeFile P (ops ++ [(op, .data b)]) (pos + b.length)

/-- A history of calls on an `io.BufferedReader` whose raw stream starts in state `t`. -/
inductive ReaderHistory (R : ρ → Nat → ρ → ReadResult → Prop) (t : ρ) :
    List (ReadOp × ReadResult) → ρ → Bytes → Prop
  | start : ReaderHistory R t [] t []
  | call {ops t1 b1 op r t2 b2} : ReaderHistory R t ops t1 b1 → BufferedRead R t1 b1 op r t2 b2 →
      ReaderHistory R t (ops ++ [(op, r)]) t2 b2

/-- Until a call raises, which then is `TinkError`, the calls are like those on a file whose content is one
of the messages; or nothing was read: they asked for 0 bytes. -/
def ReadsOneOf (msgs : Bytes → Prop) (ops : List (ReadOp × ReadResult)) : Prop :=
  ∃ pre post, ops = pre ++ post ∧
    (post = [] ∨ ∃ op e rest, post = (op, .raised e) :: rest ∧ e.isTink = true) ∧
    ((∀ o ∈ pre, o = (.read 0, .data []) ∨ o = (.read1 0, .data [])) ∨
      ∃ P pos, msgs P ∧ ReadsLikeFile P pre pos)

/-- A history of calls on an `io.BufferedWriter` whose raw stream starts in state `t`. -/
inductive WriterHistory (W : ρ → Bytes → ρ → Py Nat → Prop) (t : ρ) :
    List (WriteOp × Py Nat) → ρ → Bytes → Prop
  | start : WriterHistory W t [] t []
  | call {ops t1 b1 op r t2 b2} : WriterHistory W t ops t1 b1 → BufferedWrite W t1 b1 op r t2 b2 →
      WriterHistory W t (ops ++ [(op, r)]) t2 b2

/-- The arguments of the calls of `write`, one after the other. -/
def writtenBytes (ops : List (WriteOp × Py Nat)) : Bytes :=
  ops.flatMap fun o => match o.1 with | .write b => b | .flush => []

/-- `read(n)` returns at most `n` bytes, and never `None`. -/
def PlainReads (st : RawStream τ) : Prop :=
  ∀ (σ : Type) (src : Source σ) fuel t (n : Nat) s t' s' r, st.run src fuel t n s = some (t', s', r) →
    (∀ d, r = .data d → d.length ≤ n) ∧ r ≠ .none ∧ r ≠ .blocking

end Tink.Spec
