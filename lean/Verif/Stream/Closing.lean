import Verif.Stream.Buffered

/-!
# Closing streams

`close()` of `_DecryptingStreamWrapper` and of the streams below it:
`/repo/python/tink/streaming_aead/_streaming_aead_wrapper.py:124-132`,
`_rewindable_input_stream.py:86-91`, `_decrypting_stream.py:122-128`.  `io.RawIOBase.close()`, the
`super().close()` of these methods, calls `flush()`, which does nothing, and sets `closed`.

The `io.BufferedReader` around a decrypting stream passes `close()` on.
-/

namespace Tink

/-- A `RewindableInputStream` with its attribute `closed`. -/
structure ClosableRewindable (σ : Type) where
  stream : Rewindable σ
  closed : Bool := false

/-- `RewindableInputStream.close`, `_rewindable_input_stream.py:86-91`; `closeSource` is what `close()` of
the ciphertext source does. -/
def ClosableRewindable.close {σ : Type} (closeSource : σ → σ × Py Unit) (r : ClosableRewindable σ) :
    ClosableRewindable σ × Py Unit :=
  if r.closed then (r, .ok ())
  else
    match closeSource r.stream.source with
    | (s, .ok _) => ({ stream := { r.stream with source := s }, closed := true }, .ok ())
    | (s, .error e) => ({ r with stream := { r.stream with source := s } }, .error e)

/-- What `close()` of the decrypting stream of a key does: given what `close()` of its ciphertext source, an
object with state `ρ`, does, it changes its own state and that of the source. -/
abbrev RawClosing (ρ τ : Type) := (ρ → ρ × Py Unit) → τ → ρ → τ × ρ × Py Unit

/-- `RawDecryptingStream.close`, `_decrypting_stream.py:122-128`, for the streams whose C++ is modelled. -/
def CcDecrypting.close {ρ ν : Type} : RawClosing ρ (CcDecrypting ν) := fun closeFile t r =>
  if !t.raw.closed && t.raw.closeSource then
    ({ t with raw := (t.raw.close (closeFile r).2).1 }, (closeFile r).1, (t.raw.close (closeFile r).2).2)
  else ({ t with raw := (t.raw.close (.ok ())).1 }, r, (t.raw.close (.ok ())).2)

/-- A `_DecryptingStreamWrapper` with the attributes `closed` of it and of its `RewindableInputStream`. -/
structure ClosableDecrypting (σ δ ε τ : Type) where
  stream : DecryptingStreamWrapper σ δ ε τ
  sourceClosed : Bool := false
  closed : Bool := false

namespace ClosableDecrypting
variable {σ δ ε τ : Type}

/-- The attribute `_ciphertext_source`. -/
def source (w : ClosableDecrypting σ δ ε τ) : ClosableRewindable σ := ⟨w.stream.source, w.sourceClosed⟩

/-- `close()` of `_matching_stream` or `_attempting_stream`, if there is one
(`_streaming_aead_wrapper.py:127-130`). -/
def closeKey (closeRaw : RawClosing (ClosableRewindable σ) τ) (closeSource : σ → σ × Py Unit)
    (r : ClosableRewindable σ) :
    Option (RawStream τ × τ) → Option (RawStream τ × τ) × ClosableRewindable σ × Py Unit
  | none => (none, r, .ok ())
  | some (st, t) =>
    let q := closeRaw (ClosableRewindable.close closeSource) t r
    (some (st, q.1), q.2)

/-- The state with these attributes. -/
def updated (w : ClosableDecrypting σ δ ε τ) (m a : Option (RawStream τ × τ)) (r : ClosableRewindable σ) :
    ClosableDecrypting σ δ ε τ :=
  { stream := { w.stream with matching := m, attempting := a, source := r.stream }
    sourceClosed := r.closed
    closed := w.closed }

/-- `close`, `_streaming_aead_wrapper.py:124-132`. -/
def close (closeRaw : RawClosing (ClosableRewindable σ) τ) (closeSource : σ → σ × Py Unit)
    (w : ClosableDecrypting σ δ ε τ) : ClosableDecrypting σ δ ε τ × Py Unit :=
  if w.closed then (w, .ok ())
  else
    match closeKey closeRaw closeSource w.source w.stream.matching with
    | (m, r, .error e) => (w.updated m w.stream.attempting r, .error e)
    | (m, r, .ok _) =>
      match closeKey closeRaw closeSource r w.stream.attempting with
      | (a, r, .error e) => (w.updated m a r, .error e)
      | (a, r, .ok _) =>
        match r.close closeSource with
        | (r, .error e) => (w.updated m a r, .error e)
        | (r, .ok _) => ({ w.updated m a r with closed := true }, .ok ())

/-- `read`, `_streaming_aead_wrapper.py:70-113`. -/
def read (src : Source σ) (fuel : Nat) (w : ClosableDecrypting σ δ ε τ) (size : Int) :
    Option (ClosableDecrypting σ δ ε τ × ReadResult) :=
  if w.closed then some (w, .raised .valueError)
  else (w.stream.read src fuel size).map fun q => ({ w with stream := q.1 }, q.2)

/-- The decrypting stream of a key that was given up is garbage, and `io.IOBase.__del__` closes it, in some
state `t`.  Exceptions are ignored then. -/
def collect (closeRaw : RawClosing (ClosableRewindable σ) τ) (closeSource : σ → σ × Py Unit)
    (w : ClosableDecrypting σ δ ε τ) (t : τ) : ClosableDecrypting σ δ ε τ :=
  w.updated w.stream.matching w.stream.attempting
    (closeRaw (ClosableRewindable.close closeSource) t w.source).2.1

end ClosableDecrypting
end Tink
