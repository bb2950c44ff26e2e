import Verif.Stream.Source

/-!
# Streams for tests

`/repo/python/tink/testing/bytes_io.py`, with `io.BytesIO` and `io.RawIOBase.read` of the standard library.
-/

namespace Tink.Testing

/-- An `io.BytesIO`. -/
structure BytesIO where
  value : Bytes
  pos : Nat := 0
  closed : Bool := false

/-- `BytesIO.read(size)`; the position is never behind the end here, since nothing seeks. -/
def BytesIO.read (f : BytesIO) (size : Option Int) : BytesIO × ReadResult :=
  if f.closed then (f, .raised .valueError)
  else
    let n := match size with
      | none => f.value.length - f.pos
      | some k => if k < 0 then f.value.length - f.pos else min k.toNat (f.value.length - f.pos)
    ({ f with pos := f.pos + n }, .data ((f.value.drop f.pos).take n))

/-- `BytesIO.write(b)`: overwrites what is there, from the position on. -/
def BytesIO.write (f : BytesIO) (b : Bytes) : BytesIO × WriteResult :=
  if f.closed then (f, .raised .valueError)
  else ({ f with value := f.value.take f.pos ++ b ++ f.value.drop (f.pos + b.length), pos := f.pos + b.length },
    .wrote (some b.length))

/-! ## `BytesIOWithValueAfterClose` -/

/-- The members; `valueAfterClose` is `none` as long as the attribute does not exist. -/
structure BytesIOWithValueAfterClose where
  io : BytesIO
  valueAfterClose : Option Bytes := none

namespace BytesIOWithValueAfterClose

/-- `__init__`, `bytes_io.py:31-36`. -/
def new (initialBytes : Option Bytes) : BytesIOWithValueAfterClose := ⟨{ value := initialBytes.getD [] }, none⟩

/-- `close`, `bytes_io.py:38-41`. -/
def close (f : BytesIOWithValueAfterClose) : BytesIOWithValueAfterClose :=
  let f := if !f.io.closed then { f with valueAfterClose := some f.io.value } else f
  { f with io := { f.io with closed := true } }

/-- `value_after_close`, `bytes_io.py:43-46`. -/
def value (f : BytesIOWithValueAfterClose) : Py Bytes :=
  if !f.io.closed then .error .valueError
  else match f.valueAfterClose with
    | none => .error .attributeError
    | some v => .ok v

/-- As something that can be written to. -/
def sink : Sink BytesIOWithValueAfterClose where
  write f b := ({ f with io := (f.io.write b).1 }, (f.io.write b).2)
  close f := (f.close, .ok ())

end BytesIOWithValueAfterClose

/-! ## `SlowBytesIO` -/

/-- `AssertionError`. -/
def assertionError : Exc := .other 11

/-- The members; `calls` is `_state + 1`. -/
structure SlowBytesIO where
  io : BytesIO
  calls : Nat := 0

/-- `__init__`, `bytes_io.py:52-55`. -/
def SlowBytesIO.new (data : Bytes) : SlowBytesIO := ⟨{ value := data }, 0⟩

/-- `read`, `bytes_io.py:57-68`. -/
def SlowBytesIO.read (f : SlowBytesIO) (size : Option Int) : SlowBytesIO × ReadResult :=
  match size with
  | none => ({ f with io := (f.io.read none).1 }, (f.io.read none).2)
  | some k =>
    if k > 0 then
      let state := f.calls
      let f := { f with calls := f.calls + 1 }
      if state > 10000000 then (f, .raised assertionError)
      else if state % 3 = 0 then (f, .blocking)
      else ({ f with io := (f.io.read (some (min k 5))).1 }, (f.io.read (some (min k 5))).2)
    else ({ f with io := (f.io.read (some k)).1 }, (f.io.read (some k)).2)

/-- As something that can be read. -/
def slowSource : Source SlowBytesIO where
  read f n := f.read (some n)

/-! ## `SlowReadableRawBytes` -/

/-- The members; `calls` is `_state + 1`. -/
structure SlowReadableRawBytes where
  io : BytesIO
  calls : Nat := 0

/-- `__init__`, `bytes_io.py:82-86`. -/
def SlowReadableRawBytes.new (data : Bytes) : SlowReadableRawBytes := ⟨{ value := data }, 0⟩

/-- `readinto`, `bytes_io.py:88-100`, with a `bytearray`, which `b[:len(q)] = q` makes longer if it is shorter
than `q`: the array afterwards and the return value. -/
def SlowReadableRawBytes.readinto (f : SlowReadableRawBytes) (b : Bytes) :
    SlowReadableRawBytes × Bytes × Py (Option Nat) :=
  let state := f.calls
  let f := { f with calls := f.calls + 1 }
  if state > 10000000 then (f, b, .error assertionError)
  else if state % 3 = 0 then (f, b, .ok none)
  else
    let r := f.io.read (some 5)
    let f := { f with io := r.1 }
    match r.2 with
    | .data q => (f, q ++ b.drop q.length, .ok (some q.length))
    | .raised e => (f, b, .error e)
    | _ => (f, b, .error .valueError)

/-- `io.RawIOBase.read(n)` of the standard library, for `n ≥ 0`: a new `bytearray` of `n` bytes is filled by
`readinto`, and that many bytes of it are returned.  Recent versions of Python (`checks`) raise `ValueError` if
`readinto` reports more than `n`. -/
def SlowReadableRawBytes.read (checks : Bool) (f : SlowReadableRawBytes) (n : Nat) :
    SlowReadableRawBytes × ReadResult :=
  match f.readinto (List.replicate n 0) with
  | (f', _, .error e) => (f', .raised e)
  | (f', _, .ok none) => (f', .none)
  | (f', b, .ok (some k)) => if checks && n < k then (f', .raised .valueError) else (f', .data (b.take k))

/-- As something that can be read. -/
def slowRawSource (checks : Bool) : Source SlowReadableRawBytes where
  read f n := f.read checks n

end Tink.Testing
