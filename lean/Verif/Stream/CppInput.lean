import Verif.Stream.Prog

/-!
# Input streams between Python and C++

`/repo/python/tink/streaming_aead/_file_object_adapter.py`,
`/repo/python/tink/cc/pybind/python_file_object_adapter.cc`,
`/repo/python/tink/cc/python_input_stream.cc`, `/repo/python/tink/cc/input_stream_adapter.cc`.

C++ `int`s are unbounded here: no count exceeds the size of a buffer or of a `bytes` object.
-/

namespace Tink

/-- The status codes of absl that occur. -/
inductive Code where
  | outOfRange
  | unknown
  | failedPrecondition
  | other (n : Nat)
  deriving DecidableEq, Repr

/-- A status other than OK.  Of the message it matters only whether it contains `EOFError`. -/
structure Status where
  code : Code
  eofText : Bool := false
  deriving DecidableEq, Repr

/-- `util::StatusOr<T>`. -/
abbrev StatusOr (α : Type) := Except Status α

/-! ## `FileObjectAdapter` -/

namespace FileObjectAdapter
variable {σ : Type}

/-- The exceptions of `FileObjectAdapter.read`: its own `EOFError('EOF')`, or one of the file. -/
inductive ReadExc where
  | eof
  | raised (e : Exc)

/-- `read`, `_file_object_adapter.py:46-69`, for `size ≥ 0` (C++ passes the size of a buffer). -/
def read (src : Source σ) (s : σ) (size : Nat) : σ × Except ReadExc Bytes :=
  match src.read s size with
  | (s', .none) => (s', .ok [])
  | (s', .blocking) => (s', .ok [])
  | (s', .raised e) => (s', .error (.raised e))
  | (s', .data d) => if d.isEmpty && 0 < size then (s', .error .eof) else (s', .ok d)

/-- `write`, `_file_object_adapter.py:34-40`. -/
def write (snk : Sink σ) (s : σ) (data : Bytes) : σ × Py Int :=
  match snk.write s data with
  | (s', .wrote none) => (s', .ok 0)
  | (s', .wrote (some n)) => (s', .ok n)
  | (s', .blocking n) => (s', .ok n)
  | (s', .raised e) => (s', .error e)

/-- `close`, `_file_object_adapter.py:42-43`. -/
def close (snk : Sink σ) (s : σ) : σ × Py Unit := snk.close s

end FileObjectAdapter

/-- A `PythonFileObjectAdapter` as C++ sees it, for reading. -/
structure CSource (σ : Type) where
  read : σ → Nat → σ × StatusOr Bytes

/-- `Pybind11PythonFileObjectAdapter::Read`, `pybind/python_file_object_adapter.cc:76-92`: exceptions
become `kUnknown` with the exception's text as message.  `text e` says whether that text contains
`EOFError`; the text of an exception `EOFError` does. -/
def pybindSource {σ : Type} (text : Exc → Bool) (src : Source σ) : CSource σ where
  read s size :=
    match FileObjectAdapter.read src s size with
    | (s', .ok d) => (s', .ok d)
    | (s', .error .eof) => (s', .error ⟨.unknown, true⟩)
    | (s', .error (.raised e)) => (s', .error ⟨.unknown, text e⟩)

/-! ## `PythonInputStream` -/

/-- The members of `PythonInputStream`, `python_input_stream.cc:44-55`; status `none` is OK. -/
structure PythonInputStream (σ : Type) where
  adapter : σ
  buffer : Bytes
  countInBuffer : Nat := 0
  countBackedUp : Nat := 0
  position : Int := 0
  bufferOffset : Nat := 0
  status : Option Status := none

namespace PythonInputStream
variable {σ : Type}

/-- `is_eof`, `python_input_stream.cc:37-40`. -/
def isEof (st : Status) : Bool := st.code = .unknown && st.eofText

/-- The constructor, lines 44-55.  The buffer is not initialised: any bytes of the right number. -/
def new (adapter : σ) (buffer : Bytes) : PythonInputStream σ := { adapter, buffer }

/-- The bytes that `*data` points to. -/
def view (p : PythonInputStream σ) : Bytes := (p.buffer.drop p.bufferOffset).take p.countInBuffer

/-- Lines 60-67: the backed-up bytes are returned. -/
def again (p : PythonInputStream σ) : PythonInputStream σ :=
  { p with
    bufferOffset := p.bufferOffset + (p.countInBuffer - p.countBackedUp)
    countInBuffer := p.countBackedUp
    countBackedUp := 0
    position := p.position + p.countBackedUp }

/-- Lines 82-89: new bytes are put into the buffer. -/
def filled (p : PythonInputStream σ) (s : σ) (d : Bytes) : PythonInputStream σ :=
  { p with
    adapter := s
    buffer := d ++ p.buffer.drop d.length
    bufferOffset := 0
    countBackedUp := 0
    countInBuffer := d.length
    position := p.position + d.length }

/-- Lines 71-80: the status to keep, given that of a failed read. -/
def failure (st : Status) : Status :=
  if isEof st then ⟨.outOfRange, false⟩
  else if st.code = .outOfRange then ⟨.unknown, st.eofText⟩
  else st

/-- `Next`, lines 57-91. -/
def next (src : CSource σ) (p : PythonInputStream σ) : PythonInputStream σ × StatusOr Bytes :=
  match p.status with
  | some st => (p, .error st)
  | none =>
    if 0 < p.countBackedUp then (p.again, .ok p.again.view)
    else
      match src.read p.adapter p.buffer.length with
      | (s, .error st) => ({ p with adapter := s, status := some (failure st) }, .error (failure st))
      | (s, .ok d) => (p.filled s d, .ok (p.filled s d).view)

/-- `BackUp`, lines 93-98. -/
def backUp (p : PythonInputStream σ) (count : Int) : PythonInputStream σ :=
  if p.status.isSome || count < 1 || p.countBackedUp = p.countInBuffer then p
  else
    let actual := min count.toNat (p.countInBuffer - p.countBackedUp)
    { p with countBackedUp := p.countBackedUp + actual, position := p.position - actual }

end PythonInputStream

/-! ## `InputStreamAdapter` -/

/-- A C++ `InputStream`, `/repo/cc/input_stream.h`, whose bytes come from a Python object; `next`
returns the bytes that `*data` points to. -/
structure CInputStream (ι : Type) where
  next : ι → Prog (ι × StatusOr Bytes)
  backUp : ι → Int → ι

namespace PythonInputStream

/-- The same stream with this object. -/
def over {σ σ' : Type} (p : PythonInputStream σ) (s : σ') : PythonInputStream σ' :=
  { p with adapter := s }

/-- What C++ gets when `read(n)` of the Python object does this: `pybindSource`. -/
def answer (text : Exc → Bool) (n : Nat) (r : ReadResult) : StatusOr Bytes :=
  ((pybindSource text ⟨fun _ _ => ((), r)⟩).read () n).2

/-- Lines 69-90, with what the Python object did. -/
def received (text : Exc → Bool) (p : PythonInputStream Unit) (r : ReadResult) :
    PythonInputStream Unit × StatusOr Bytes :=
  match answer text p.buffer.length r with
  | .error st => ({ p with status := some (failure st) }, .error (failure st))
  | .ok d => (p.filled () d, .ok (p.filled () d).view)

/-- `Next` as code that reads from a Python object; `run_nextProg` (in `Props/CppInput`) shows that it
is `next`. -/
def nextProg (text : Exc → Bool) (p : PythonInputStream Unit) :
    Prog (PythonInputStream Unit × StatusOr Bytes) :=
  match p.status with
  | some st => .ret (p, .error st)
  | none =>
    if 0 < p.countBackedUp then .ret (p.again, .ok p.again.view)
    else .ask p.buffer.length fun r => .ret (p.received text r)

/-- `PythonInputStream` is an input stream. -/
def stream (text : Exc → Bool) : CInputStream (PythonInputStream Unit) where
  next := nextProg text
  backUp := backUp

end PythonInputStream

/-- Lines 32-39 of `input_stream_adapter.cc`, with the result of `Next`. -/
def InputStreamAdapter.taken {ι : Type} (st : CInputStream ι) (size : Int) :
    ι × StatusOr Bytes → ι × StatusOr Bytes
  | (s', .error e) => (s', .error e)
  | (s', .ok data) =>
    let available := data.length
    let readCount := if size < 0 then available else min available size.toNat
    (if readCount < available then st.backUp s' (available - readCount : Nat) else s',
      .ok (data.take readCount))

/-- `InputStreamAdapter::Read`, `input_stream_adapter.cc:30-40`. -/
def InputStreamAdapter.read {ι : Type} (st : CInputStream ι) (s : ι) (size : Int) :
    Prog (ι × StatusOr Bytes) :=
  (st.next s).map (InputStreamAdapter.taken st size)

end Tink
