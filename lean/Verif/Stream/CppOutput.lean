import Verif.Stream.CppInput

/-!
# Output streams between Python and C++

`/repo/python/tink/cc/python_output_stream.cc`, `/repo/python/tink/cc/output_stream_adapter.cc`,
`/repo/python/tink/cc/pybind/python_file_object_adapter.cc`.
-/

namespace Tink

/-- A `PythonFileObjectAdapter` as C++ sees it, for writing. -/
structure CSink (σ : Type) where
  write : σ → Bytes → σ × StatusOr Int
  close : σ → σ × StatusOr Unit

/-- `Pybind11PythonFileObjectAdapter::Write` and `Close`, `pybind/python_file_object_adapter.cc:41-74`:
exceptions become `kUnknown`, and so does a number that is no C++ `int`.  `text` as in
`pybindSource`. -/
def pybindSink {σ : Type} (text : Exc → Bool) (snk : Sink σ) : CSink σ where
  write s data :=
    match FileObjectAdapter.write snk s data with
    | (s', .ok n) =>
      if -(2 ^ 31) ≤ n ∧ n < 2 ^ 31 then (s', .ok n) else (s', .error ⟨.unknown, false⟩)
    | (s', .error e) => (s', .error ⟨.unknown, text e⟩)
  close s :=
    match FileObjectAdapter.close snk s with
    | (s', .ok _) => (s', .ok ())
    | (s', .error e) => (s', .error ⟨.unknown, text e⟩)

/-! ## `PythonOutputStream` -/

/-- The members of `PythonOutputStream`, `python_output_stream.cc:33-43`; status `none` is OK. -/
structure PythonOutputStream (σ : Type) where
  adapter : σ
  buffer : Bytes
  isFirstCall : Bool := true
  position : Int := 0
  countInBuffer : Nat := 0
  bufferOffset : Nat := 0
  status : Option Status := none

namespace PythonOutputStream
variable {σ : Type}

/-- The constructor, lines 33-43.  The buffer is not initialised: any bytes of the right number. -/
def new (adapter : σ) (buffer : Bytes) : PythonOutputStream σ := { adapter, buffer }

/-- Lines 50-54: the first call. -/
def first (p : PythonOutputStream σ) : PythonOutputStream σ :=
  { p with
    isFirstCall := false
    countInBuffer := p.buffer.length
    position := p.buffer.length }

/-- Lines 59-64: the space that was backed up. -/
def again (p : PythonOutputStream σ) : PythonOutputStream σ :=
  { p with
    position := p.position + (p.buffer.length - p.countInBuffer : Nat)
    bufferOffset := p.countInBuffer
    countInBuffer := p.buffer.length }

/-- Lines 75-85: `written` bytes of the buffer were written, the others are moved to the front. -/
def shifted (p : PythonOutputStream σ) (s : σ) (written : Nat) : PythonOutputStream σ :=
  { p with
    adapter := s
    position := p.position + written
    countInBuffer := p.buffer.length
    bufferOffset := p.buffer.length - written
    buffer := if written < p.buffer.length then
        p.buffer.drop written ++ p.buffer.drop (p.buffer.length - written)
      else p.buffer }

/-- `Next`, lines 45-86: the number of bytes at `*data`, which is `bufferOffset` in the buffer.  A
number of written bytes that is negative or exceeds the buffer makes the C++ code undefined; here it
is cut off, and the theorems exclude it. -/
def next (snk : CSink σ) (p : PythonOutputStream σ) : PythonOutputStream σ × StatusOr Nat :=
  match p.status with
  | some st => (p, .error st)
  | none =>
    if p.isFirstCall then (p.first, .ok p.buffer.length)
    else if p.countInBuffer < p.buffer.length then
      (p.again, .ok (p.buffer.length - p.countInBuffer))
    else
      match snk.write p.adapter p.buffer with
      | (s, .error st) => ({ p with adapter := s, status := some st }, .error st)
      | (s, .ok n) => (p.shifted s n.toNat, .ok n.toNat)

/-- The caller stores `d` at `*data`. -/
def store (p : PythonOutputStream σ) (d : Bytes) : PythonOutputStream σ :=
  { p with
    buffer := p.buffer.take p.bufferOffset ++ d ++ p.buffer.drop (p.bufferOffset + d.length) }

/-- `BackUp`, lines 88-93. -/
def backUp (p : PythonOutputStream σ) (count : Int) : PythonOutputStream σ :=
  if p.status.isSome || count < 1 || p.countInBuffer = 0 then p
  else
    let actual := min count.toNat (p.countInBuffer - p.bufferOffset)
    { p with countInBuffer := p.countInBuffer - actual, position := p.position - actual }

/-- The loop of `Close`, lines 101-107.  `none`: not finished after `fuel` turns. -/
def flush (snk : CSink σ) (p : PythonOutputStream σ) :
    Nat → σ → Nat → Option (σ × StatusOr Unit)
  | 0, _, _ => none
  | fuel + 1, s, written =>
    if written < p.countInBuffer then
      match snk.write s ((p.buffer.drop written).take (p.countInBuffer - written)) with
      | (s', .error st) => some (s', .error st)
      | (s', .ok n) => flush snk p fuel s' (written + n.toNat)
    else some (s, .ok ())

/-- `Close`, lines 97-114.  (The destructor, line 95, is `Close` with the result ignored.) -/
def close (snk : CSink σ) (fuel : Nat) (p : PythonOutputStream σ) :
    Option (PythonOutputStream σ × StatusOr Unit) :=
  match p.status with
  | some st => some (p, .error st)
  | none =>
    match flush snk p fuel p.adapter 0 with
    | none => none
    | some (s, .error st) => some ({ p with adapter := s }, .error st)
    | some (s, .ok _) =>
      match snk.close s with
      | (s', .error st) => some ({ p with adapter := s', status := some st }, .error st)
      | (s', .ok _) =>
        some ({ p with adapter := s', status := some ⟨.failedPrecondition, false⟩ }, .ok ())

end PythonOutputStream

/-! ## `OutputStreamAdapter` -/

/-- A C++ `OutputStream`, `/repo/cc/output_stream.h`; `store` is the caller writing bytes at
`*data`.  `none`: the call does not return. -/
structure COutputStream (ο : Type) where
  next : ο → Option (ο × StatusOr Nat)
  store : ο → Bytes → ο
  backUp : ο → Int → ο
  close : ο → Option (ο × StatusOr Unit)

/-- `PythonOutputStream` is one; `fuel` bounds the loop of `Close`. -/
def PythonOutputStream.stream {σ : Type} (snk : CSink σ) (fuel : Nat) :
    COutputStream (PythonOutputStream σ) where
  next p := some (PythonOutputStream.next snk p)
  store := PythonOutputStream.store
  backUp := PythonOutputStream.backUp
  close := PythonOutputStream.close snk fuel

/-- What a call of C++ code comes to; `undefined` is undefined behaviour. -/
inductive Ran (α : Type) where
  | returned (r : α)
  | undefined

/-- `static_cast<int>` of a `size_t`: the value modulo 2^32, between -2^31 and 2^31. -/
def castInt (n : Nat) : Int :=
  if n % 2 ^ 32 < 2 ^ 31 then (n % 2 ^ 32 : Nat) else (n % 2 ^ 32 : Nat) - 2 ^ 32

/-- One turn of the loop, lines 35-38: `count` bytes are stored and the rest is backed up. -/
def OutputStreamAdapter.put {ο : Type} (st : COutputStream ο) (s : ο) (available : Nat) (d : Bytes) :
    ο :=
  if d.length < available then st.backUp (st.store s d) (available - d.length : Nat)
  else st.store s d

/-- `OutputStreamAdapter::Write`, `output_stream_adapter.cc:28-42`; a `memcpy` of a negative number of
bytes is undefined.  `none`: not finished after `fuel` turns. -/
def OutputStreamAdapter.write {ο : Type} (st : COutputStream ο) (data : Bytes) :
    Nat → ο → Nat → Option (ο × Ran (StatusOr Nat))
  | 0, _, _ => none
  | fuel + 1, s, written =>
    if written < data.length then
      match st.next s with
      | none => none
      | some (s', .error e) => some (s', .returned (.error e))
      | some (s', .ok available) =>
        let count := min (available : Int) (castInt (data.length - written))
        if count < 0 then some (s', .undefined)
        else
          OutputStreamAdapter.write st data fuel
            (OutputStreamAdapter.put st s' available ((data.drop written).take count.toNat))
            (written + count.toNat)
    else some (s, .returned (.ok written))

end Tink
