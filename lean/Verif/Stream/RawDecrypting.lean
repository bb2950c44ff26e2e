import Verif.Stream.CppInput

/-!
# `RawDecryptingStream`

`/repo/python/tink/streaming_aead/_decrypting_stream.py`.  The C++ decrypting stream is an arbitrary
C++ input stream.
-/

namespace Tink

/-- What the `read` of `InputStreamAdapter`, called through `_read_from_input_stream_adapter`, may
raise: `PythonTinkStreamFinishedException`, `TinkError` for the other errors of the stream, or pybind's
`TypeError` for a size that is no `int64_t` (`cc/pybind/input_stream_adapter.cc:59-72`,
`streaming_aead/_decrypting_stream.py:64-67`, `core/_tink_error.py:29-37`). -/
inductive AdapterExc where
  | finished
  | tink
  | type
  deriving DecidableEq

/-- What becomes of the status: lines 64-67. -/
def adapterExc {ι : Type} : ι × StatusOr Bytes → ι × Except AdapterExc Bytes
  | (s', .ok d) => (s', .ok d)
  | (s', .error e) => (s', .error (if e.code = .outOfRange then .finished else .tink))

/-- `_read_from_input_stream_adapter`, lines 64-67.  Only sizes that are not negative are passed. -/
def readFromAdapter {ι : Type} (st : CInputStream ι) (s : ι) (size : Int) :
    Prog (ι × Except AdapterExc Bytes) :=
  if size ≥ 2 ^ 63 then .ret (s, .error .type)
  else (InputStreamAdapter.read st s size).map adapterExc

/-- The state of `RawDecryptingStream`, lines 48-57. -/
structure RawDecryptingStream (ι : Type) where
  adapter : ι
  closeSource : Bool := true
  closed : Bool := false

namespace RawDecryptingStream
variable {ι : Type}

/-- The `while True` loop, lines 97-100, with the `except` clause of lines 101-102; `fuel` bounds
the number of turns. -/
def loop (st : CInputStream ι) (size : Int) :
    Nat → RawDecryptingStream ι → Prog (RawDecryptingStream ι × Py Bytes)
  | 0, _ => .out
  | fuel + 1, r =>
    (readFromAdapter st r.adapter size).bind fun
      | (s, .error .finished) => .ret ({ r with adapter := s }, .ok [])
      | (s, .error .tink) => .ret ({ r with adapter := s }, .error .tinkError)
      | (s, .error .type) => .ret ({ r with adapter := s }, .error .typeError)
      | (s, .ok data) =>
        if data.isEmpty then loop st size fuel { r with adapter := s }
        else .ret ({ r with adapter := s }, .ok data)

/-- `read(size)` for a size that is not negative, lines 84-102. -/
def readSome (st : CInputStream ι) (fuel : Nat) (r : RawDecryptingStream ι) (size : Nat) :
    Prog (RawDecryptingStream ι × Py Bytes) :=
  if r.closed then .ret (r, .error .valueError) else loop st size fuel r

/-- `io.RawIOBase.readall`: reads of `io.DEFAULT_BUFFER_SIZE` (8192) bytes until `b''`. -/
def readallLoop (st : CInputStream ι) (fuel : Nat) :
    Nat → RawDecryptingStream ι → Bytes → Prog (RawDecryptingStream ι × Py Bytes)
  | 0, _, _ => .out
  | turns + 1, r, chunks =>
    (readSome st fuel r 8192).bind fun
      | (r', .error e) => .ret (r', .error e)
      | (r', .ok b) =>
        if b.isEmpty then .ret (r', .ok chunks) else readallLoop st fuel turns r' (chunks ++ b)

/-- `read(size)`, lines 69-102; `none` is Python's `None`. -/
def read (st : CInputStream ι) (fuel : Nat) (r : RawDecryptingStream ι) (size : Option Int) :
    Prog (RawDecryptingStream ι × Py Bytes) :=
  if r.closed then .ret (r, .error .valueError)
  else
    let size := match size with | none => -1 | some n => n
    if size < 0 then readallLoop st fuel fuel r [] else readSome st fuel r size.toNat

/-- `readinto(b)`, lines 104-120: the number of bytes read and the new content of `b`. -/
def readinto (st : CInputStream ι) (fuel : Nat) (r : RawDecryptingStream ι) (b : Bytes) :
    Prog (RawDecryptingStream ι × Py (Nat × Bytes)) :=
  (r.read st fuel (some b.length)).map fun
    | (r', .error e) => (r', .error e)
    | (r', .ok data) => (r', .ok (data.length, data ++ b.drop data.length))

/-- `close`, lines 122-128; `closeFile` is what closing the ciphertext source does. -/
def close (closeFile : Py Unit) (r : RawDecryptingStream ι) : RawDecryptingStream ι × Py Unit :=
  if r.closed then (r, .ok ())
  else if r.closeSource then
    match closeFile with
    | .ok _ => ({ r with closed := true }, .ok ())
    | .error e => (r, .error e)
  else ({ r with closed := true }, .ok ())

end RawDecryptingStream
end Tink
