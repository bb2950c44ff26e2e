import Verif.Spec.Stream
import Verif.Stream.CppInput

/-!
# Specification vocabulary for the C++ stream adapters
-/

namespace Tink.Spec
variable {σ ι : Type}

/-- The bytes obtained. -/
def got : StatusOr Bytes → Bytes
  | .ok b => b
  | .error _ => []

/-- The same source, which also records all bytes that it has delivered. -/
def recordedC (src : CSource σ) : CSource (σ × Bytes) where
  read s n := (((src.read s.1 n).1, s.2 ++ got (src.read s.1 n).2), (src.read s.1 n).2)

/-- What a user does with an input stream. -/
inductive InputOp where
  | next
  | backUp (count : Int)
  deriving DecidableEq, Repr

/-- A user of a `PythonInputStream`: the bytes consumed so far (received and not backed up), and how many
of the last received bytes can still be backed up. -/
structure InputUser (σ : Type) where
  stream : PythonInputStream σ
  consumed : Bytes := []
  last : Nat := 0
  results : List (StatusOr Bytes) := []

/-- One operation.  `BackUp(count)` takes back the last `count` bytes of the last buffer, or as many
as are left of it; a failed `Next` leaves nothing to back up. -/
def InputUser.op (src : CSource σ) (u : InputUser σ) : InputOp → InputUser σ
  | .next =>
    ⟨(u.stream.next src).1, u.consumed ++ got (u.stream.next src).2,
      (got (u.stream.next src).2).length, u.results ++ [(u.stream.next src).2]⟩
  | .backUp count =>
    ⟨u.stream.backUp count, u.consumed.take (u.consumed.length - min count.toNat u.last),
      u.last - min count.toNat u.last, u.results⟩

/-- A history of operations. -/
def InputUser.history (src : CSource σ) (s : PythonInputStream σ) (ops : List InputOp) :
    InputUser σ :=
  ops.foldl (InputUser.op src) { stream := s }

/-- The contract of an input stream, over a source.  `inv i s R`: with the stream in state `i` and the
source in state `s`, `R` is still to be delivered.  `Next` delivers the next bytes; what is backed up
right after it is delivered again; a failure loses nothing, and `OUT_OF_RANGE` is reported only at the
end. -/
structure Lawful (st : CInputStream ι) (src : Source σ) (inv : ι → σ → Bytes → Prop) : Prop where
  next : ∀ i s R i' s' d, inv i s R → (st.next i).run src s = some (s', i', .ok d) →
    ∃ R', R = d ++ R' ∧ inv i' s' R' ∧
      ∀ n, n ≤ d.length → inv (st.backUp i' (n : Nat)) s' (d.drop (d.length - n) ++ R')
  failed : ∀ i s R i' s' e, inv i s R → (st.next i).run src s = some (s', i', .error e) →
    inv i' s' R ∧ (e.code = .outOfRange → R = [])

/-- The only failure is the one at the end. -/
def Clean (st : CInputStream ι) (src : Source σ) (inv : ι → σ → Bytes → Prop) : Prop :=
  ∀ i s R i' s' e, inv i s R → (st.next i).run src s = some (s', i', .error e) →
    e.code = .outOfRange

/-- As `Faithful`, of a source seen from C++; there, an end of file is an error, and an
error that is taken for the end of the file is reported only there. -/
structure FaithfulC (src : CSource σ) (rest : σ → Bytes) : Prop where
  data : ∀ s n d, (src.read s n).2 = .ok d → rest s = d ++ rest (src.read s n).1
  failed : ∀ s n e, (src.read s n).2 = .error e → rest (src.read s n).1 = rest s ∧
    (0 < n → PythonInputStream.isEof e = true → rest s = [])

end Tink.Spec
