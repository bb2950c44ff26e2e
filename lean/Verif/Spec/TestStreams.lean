import Verif.Testing.BytesIO
import Verif.Spec.Stream
import Verif.Spec.Writing

/-!
# Vocabulary for streams for tests
-/

namespace Tink.Spec
open Testing

/-- A call that changes a `BytesIOWithValueAfterClose`. -/
inductive FileOp where
  | write (b : Bytes)
  | close

/-- The effect of the call. -/
def FileOp.run (f : BytesIOWithValueAfterClose) : FileOp → BytesIOWithValueAfterClose
  | .write b => (BytesIOWithValueAfterClose.sink.write f b).1
  | .close => (BytesIOWithValueAfterClose.sink.close f).1

/-- All that is written before the first `close`. -/
def writtenBeforeClose : List FileOp → Bytes
  | [] => []
  | .write b :: ops => b ++ writtenBeforeClose ops
  | .close :: _ => []

variable {σ : Type}

/-- Reads of these sizes, one after the other. -/
def readMany (src : Source σ) (s : σ) : List Nat → σ × List ReadResult
  | [] => (s, [])
  | n :: ns => ((readMany src (src.read s n).1 ns).1, (src.read s n).2 :: (readMany src (src.read s n).1 ns).2)

/-- All bytes that were read. -/
def allBytes (rs : List ReadResult) : Bytes := rs.flatMap ReadResult.bytes

/-- How many of the first `k` calls are not among the first, fourth, seventh and so on. -/
def unblockedCalls (k : Nat) : Nat := ((List.range k).filter (fun i => i % 3 ≠ 0)).length

end Tink.Spec
