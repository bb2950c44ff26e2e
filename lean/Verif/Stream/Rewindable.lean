import Verif.Stream.Source

/-!
# `RewindableInputStream`

`/repo/python/tink/streaming_aead/_rewindable_input_stream.py`.
-/

namespace Tink

/-- The attributes of `RewindableInputStream`, lines 26-33. -/
structure Rewindable (σ : Type) where
  source : σ
  buffer : Bytes := []
  pos : Nat := 0
  rewindable : Bool := true

namespace Rewindable
variable {σ : Type}

/-- `__init__`, lines 26-33; `readable` is the result of `input_stream.readable()`. -/
def new (source : σ) (readable : Bool) : Py (Rewindable σ) :=
  if readable then .ok { source := source } else .error .valueError

/-- Lines 58-61: the buffer is dropped when it is not needed any more. -/
def dropBuffer (r : Rewindable σ) : Rewindable σ :=
  if !r.rewindable && !r.buffer.isEmpty then { r with buffer := [], pos := 0 } else r

/-- Lines 70-72. -/
def received (r : Rewindable σ) (data : Bytes) : Rewindable σ :=
  if r.rewindable then { r with buffer := r.buffer ++ data, pos := r.pos + data.length } else r

/-- Lines 62-73: read from the wrapped stream. -/
def readSource (src : Source σ) (r : Rewindable σ) (n : Nat) : Rewindable σ × ReadResult :=
  match src.read r.source n with
  | (s, .blocking) => ({ r with source := s }, .none)
  | (s, .none) => ({ r with source := s }, .none)
  | (s, .raised e) => ({ r with source := s }, .raised e)
  | (s, .data d) => (received { r with source := s } d, .data d)

/-- `read(size)` for `size ≥ 0`, lines 51-73. -/
def read (src : Source σ) (r : Rewindable σ) (n : Nat) : Rewindable σ × ReadResult :=
  if r.pos < r.buffer.length then
    let newPos := min r.buffer.length (r.pos + n)
    ({ r with pos := newPos }, .data ((r.buffer.take newPos).drop r.pos))
  else readSource src r.dropBuffer n

/-- `io.DEFAULT_BUFFER_SIZE`, the size with which `io.RawIOBase.readall` calls `read`. -/
def chunkSize : Nat := 8192

/-- The loop of `io.RawIOBase.readall`; `chunks` is what was read so far, `fuel` bounds the number
of turns (`none`: not finished). -/
def readallLoop (src : Source σ) :
    Nat → Rewindable σ → List Bytes → Option (Rewindable σ × ReadResult)
  | 0, _, _ => .none
  | fuel + 1, r, chunks =>
    match read src r chunkSize with
    | (r', .data b) =>
      if b.isEmpty then some (r', .data chunks.flatten)
      else readallLoop src fuel r' (chunks ++ [b])
    | (r', .none) =>
      if chunks.isEmpty then some (r', .none) else some (r', .data chunks.flatten)
    | (r', .blocking) => some (r', .blocking)
    | (r', .raised e) => some (r', .raised e)

/-- `read(size)` for `size < 0` or `None`, lines 49-50. -/
def readall (src : Source σ) (fuel : Nat) (r : Rewindable σ) : Option (Rewindable σ × ReadResult) :=
  readallLoop src fuel r []

/-- `rewind`, lines 75-78. -/
def rewind (r : Rewindable σ) : Rewindable σ × Py Unit :=
  if r.rewindable then ({ r with pos := 0 }, .ok ()) else (r, .error .valueError)

/-- `disable_rewind`, lines 80-81. -/
def disableRewind (r : Rewindable σ) : Rewindable σ := { r with rewindable := false }

end Rewindable
end Tink
