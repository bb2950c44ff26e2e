import Verif.Spec.Buffered

/-!
# Specification vocabulary for C79: reading comes to an end
-/

namespace Tink.Spec
open Io
variable {σ τ δ ε ρ : Type}

/-- The source comes to an end: `left s` bounds the number of bytes that it delivers from state `s` on,
together with the number of times that it has "no data at the moment".  After that, all that a read can do
is return `b''` or raise.  Nothing is said about which bytes it delivers, how many at a time, or when it
returns `b''` or raises. -/
structure Exhaustible (src : Source σ) (left : σ → Nat) : Prop where
  data : ∀ s n b, (src.read s n).2 = .data b → left (src.read s n).1 + b.length ≤ left s
  waits : ∀ s n, (src.read s n).2 = .none ∨ (src.read s n).2 = .blocking →
    left (src.read s n).1 < left s
  raised : ∀ s n e, (src.read s n).2 = .raised e → left (src.read s n).1 ≤ left s

/-- `read(size)` returns, with this result: its loops end after some number of turns. -/
def Returns (st : RawStream τ) (src : Source σ) (t : τ) (size : Int) (s : σ) (q : τ × σ × ReadResult) :
    Prop := ∃ turns, ∀ fuel, turns ≤ fuel → st.run src fuel t size s = some q

/-- Calls of `read`, with sizes other than 0 and whatever results, lead from the states `x` of the stream and
the source to others. -/
inductive Reaches (st : RawStream τ) (src : Source σ) (x : τ × σ) : τ × σ → Prop
  | none : Reaches st src x x
  | call {y : τ × σ} {fuel size t s r} : Reaches st src x y → size ≠ 0 → size < 2 ^ 63 →
      st.run src fuel y.1 size y.2 = some (t, s, r) → Reaches st src x (t, s)

/-- From the states `x` some calls of `read`, with sizes other than 0, of which the last returns some bytes,
lead to the states `y`. -/
def Advances (st : RawStream τ) (src : Source σ) (y x : τ × σ) : Prop :=
  ∃ z, Reaches st src x z ∧ ∃ fuel size d, size ≠ 0 ∧ size < 2 ^ 63 ∧ d ≠ [] ∧
    st.run src fuel z.1 size z.2 = some (y.1, y.2, .data d)

/-- Whatever calls of `read`, with sizes other than 0, are made from state `t` on, and whatever sources that
come to an end they find (the caller may exchange it): each call returns, and with the same source only
finitely many return bytes, also if others in between return `b''` or `None` or raise. -/
def Live (st : RawStream τ) (t : τ) : Prop :=
  ∃ ok : τ → Prop, ok t ∧
    ∀ (σ : Type) (src : Source σ) (left : σ → Nat), Exhaustible src left → ∀ t s, ok t →
      (∀ size : Int, size ≠ 0 → size < 2 ^ 63 → (∃ q, Returns st src t size s q) ∧
        ∀ fuel t' s' r, st.run src fuel t size s = some (t', s', r) → ok t') ∧
      Acc (Advances st src) (t, s)

/-- The decrypting streams of a key do not hang. -/
def NeverHangs (p : RawStreamingAead δ ε τ) (ad : Bytes) : Prop :=
  ∀ t, p.newRawDecryptingStream ad = .ok t → Live p.stream t

/-- Reads of a raw stream, with whatever results, lead from its state `t` to others. -/
inductive ReadOn (R : ρ → Nat → ρ → ReadResult → Prop) (t : ρ) : ρ → Prop
  | none : ReadOn R t t
  | read {t1 t2 r} (n : Nat) : ReadOn R t t1 → 0 < n → n < 2 ^ 63 → R t1 n t2 r → ReadOn R t t2

/-- Whatever reads of a raw stream are made from state `t` on, only finitely many return some bytes, also if
others in between return `b''` or `None` or raise. -/
def Finishes (R : ρ → Nat → ρ → ReadResult → Prop) (t : ρ) : Prop :=
  Acc (fun y x => ∃ z, ReadOn R x z ∧ ∃ n d, 0 < n ∧ n < 2 ^ 63 ∧ d ≠ [] ∧ R z n y (.data d)) t

/-- Every call of an `io.BufferedReader` returns: each read of the raw stream that it may make returns,
it makes finitely many, and then there is a result. -/
def EveryCallReturns (R : ρ → Nat → ρ → ReadResult → Prop) (t : ρ) (buffer : Bytes) : Prop :=
  (∀ t' b, Filled R t buffer t' b → ∀ n, 0 < n → n < 2 ^ 63 → ∃ t'' r, R t' n t'' r) ∧
  Finishes R t ∧
  ∀ op, ∃ r t' b, BufferedRead R t buffer op r t' b

/-- Calls of an `io.BufferedReader` that return some bytes do not follow each other forever: a user who reads
until there is nothing more, in whatever pieces, gets there. -/
def ReadingEnds (R : ρ → Nat → ρ → ReadResult → Prop) (t : ρ) (buffer : Bytes) : Prop :=
  Acc (fun y x : ρ × Bytes => ∃ op d, d ≠ [] ∧ BufferedRead R x.1 x.2 op (.data d) y.1 y.2) (t, buffer)

end Tink.Spec
