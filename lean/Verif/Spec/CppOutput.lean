import Verif.Stream.CppOutput

/-!
# Specification vocabulary for output streams
-/

namespace Tink.Spec
variable {σ ο : Type}

/-- A sink with a log of the bytes it accepted: of every write, the number it reported. -/
def recordedSink (snk : CSink σ) : CSink (σ × Bytes) where
  write s data :=
    match snk.write s.1 data with
    | (s', .ok n) => ((s', s.2 ++ data.take n.toNat), .ok n)
    | (s', .error e) => ((s', s.2), .error e)
  close s := (((snk.close s.1).1, s.2), (snk.close s.1).2)

/-- The sink never reports a negative number of bytes, or more than it was given. -/
def Honest (snk : CSink σ) : Prop :=
  ∀ s d n, (snk.write s d).2 = .ok n → 0 ≤ n ∧ n ≤ d.length

/-- What a user of an output stream may do: ask for a buffer and fill it (with bytes that may depend
on its size), back up, close. -/
inductive OutputOp where
  | next (fill : Nat → Bytes)
  | backUp (count : Int)
  | close (fuel : Nat)

/-- `k` bytes, `d` as far as it goes. -/
def exactly (k : Nat) (d : Bytes) : Bytes := (d ++ List.replicate k 0).take k

/-- The stream with what its user knows: the bytes committed so far, how many of the last buffer are
not backed up, and whether closing it has failed. -/
structure OutputUser (σ : Type) where
  stream : PythonOutputStream (σ × Bytes)
  committed : Bytes := []
  last : Nat := 0
  closeFailed : Bool := false

/-- One operation; `none` if it does not return. -/
def OutputUser.op (snk : CSink σ) (u : OutputUser σ) : OutputOp → Option (OutputUser σ)
  | .next fill =>
    match u.stream.next (recordedSink snk) with
    | (p, .ok k) =>
      some { u with
        stream := p.store (exactly k (fill k))
        committed := u.committed ++ exactly k (fill k)
        last := k }
    | (p, .error _) => some { u with stream := p, last := 0 }
  | .backUp count =>
    some { u with
      stream := u.stream.backUp count
      committed := u.committed.take (u.committed.length - min count.toNat u.last)
      last := u.last - min count.toNat u.last }
  | .close fuel =>
    match u.stream.close (recordedSink snk) fuel with
    | none => none
    | some (p, .ok _) => some { u with stream := p, last := 0 }
    | some (p, .error _) => some { u with stream := p, last := 0, closeFailed := true }

/-- A history of operations. -/
def OutputUser.history (snk : CSink σ) (u : OutputUser σ) : List OutputOp → Option (OutputUser σ)
  | [] => some u
  | o :: os => (u.op snk o).bind fun u' => u'.history snk os

/-- The bytes the Python object has accepted. -/
def OutputUser.written (u : OutputUser σ) : Bytes := u.stream.adapter.2

/-- A new stream over a sink in state `s`, with an uninitialised buffer. -/
def OutputUser.start (s : σ) (buffer : Bytes) : OutputUser σ :=
  { stream := .new (s, []) buffer }

/-- The contract of `OutputStream`.  `inv s P`: the stream is in state `s` after its caller has handed
over the bytes `P`; `bad s P`: the same, after a failure; `done s P`: it was closed successfully. -/
structure LawfulOut (st : COutputStream ο) (inv bad done : ο → Bytes → Prop) : Prop where
  put : ∀ s P s' k d, inv s P → st.next s = some (s', .ok k) → d.length ≤ k →
    inv (OutputStreamAdapter.put st s' k d) (P ++ d)
  failed : ∀ s P s' e, inv s P → st.next s = some (s', .error e) → bad s' P
  close : ∀ s P s', inv s P → st.close s = some (s', .ok ()) → done s' P

end Tink.Spec
