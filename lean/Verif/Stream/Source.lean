import Verif.Py.Basic

/-!
# File-like objects

Readable and writable Python objects supplied by the caller.  Their behaviour is arbitrary: short
reads, "no data at the moment" (`None` or `BlockingIOError`), exceptions, and partial writes.
-/

namespace Tink

/-- What `read` of a Python stream does. -/
inductive ReadResult where
  /-- returns bytes; `b''` means end of file (if some were asked for) -/
  | data (b : Bytes)
  /-- returns `None`: no data at the moment (`io.RawIOBase`) -/
  | none
  /-- raises `BlockingIOError`: no data at the moment (`io.BufferedIOBase`) -/
  | blocking
  /-- raises anything else -/
  | raised (e : Exc)
  deriving DecidableEq, Repr

/-- The bytes obtained. -/
def ReadResult.bytes : ReadResult → Bytes
  | .data b => b
  | _ => []

/-- A readable object with state `σ`.  Only `read(n)` with `n ≥ 0` occurs: `FileObjectAdapter.read`
refuses negative sizes (`/repo/python/tink/streaming_aead/_file_object_adapter.py:58-59`) and
`RewindableInputStream.read` turns them into reads of a fixed size. -/
structure Source (σ : Type) where
  read : σ → Nat → σ × ReadResult

/-- What `write` of a Python stream does; `wrote none` is a return value `None`, `blocking n` is
`BlockingIOError` with `characters_written = n`. -/
inductive WriteResult where
  | wrote (n : Option Int)
  | blocking (n : Int)
  | raised (e : Exc)
  deriving DecidableEq, Repr

/-- A writable object with state `σ`. -/
structure Sink (σ : Type) where
  write : σ → Bytes → σ × WriteResult
  close : σ → σ × Py Unit

end Tink
