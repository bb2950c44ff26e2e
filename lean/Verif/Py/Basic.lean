/-!
# Python basics: bytes, exceptions, loops over candidates

Conventions shared by the whole model.  Nothing here is specific to Tink, except
`Exc`, whose constructors are the exception classes that the modelled code
raises or catches.
-/

namespace Tink

/-- Python `bytes`. -/
abbrev Bytes := List UInt8

/-- A proto `string` field: a sequence of Unicode scalar values. -/
abbrev PStr := List Char

/-- Exception classes.  Messages are not modelled.

`tinkError` is `core.TinkError` (`/repo/python/tink/core/_tink_error.py:40-41`),
`jwtInvalidError` is `JwtInvalidError`, a subclass of it
(`/repo/python/tink/jwt/_jwt_error.py:19-20`).  `parseError` is
`google.protobuf.json_format.ParseError`, not a `ValueError`.  `pythonTinkException` is
`tink_bindings.PythonTinkException`, as which a C++ `TinkException` arrives in Python
(`/repo/python/tink/cc/pybind/tink_bindings.cc:46-47`).  `other n` stands for any further
exception class that a user-supplied object may raise. -/
inductive Exc where
  | tinkError
  | jwtInvalidError
  | decodeError
  | encodeError
  | valueError
  | keyError
  | typeError
  | attributeError
  | indexError
  | structError
  | overflowError
  | unicodeError
  | notImplementedError
  | recursionError
  | osError
  | jsonDecodeError
  | parseError
  | pythonTinkException
  | other (tag : Nat)
  deriving DecidableEq, Repr

/-- `isinstance(e, core.TinkError)`. -/
def Exc.isTink : Exc → Bool
  | .tinkError => true
  | .jwtInvalidError => true
  | _ => false

/-- `isinstance(e, ValueError)`: `UnicodeError` and `json.JSONDecodeError` are
subclasses of `ValueError`. -/
def Exc.isValueError : Exc → Bool
  | .valueError => true
  | .unicodeError => true
  | .jsonDecodeError => true
  | _ => false

/-- The result of running a piece of Python code. -/
abbrev Py (α : Type u) := Except Exc α

instance {α : Type u} [DecidableEq α] : DecidableEq (Py α)
  | .ok a, .ok b => if h : a = b then isTrue (h ▸ rfl) else isFalse (fun e => h (by cases e; rfl))
  | .error a, .error b =>
      if h : a = b then isTrue (h ▸ rfl) else isFalse (fun e => h (by cases e; rfl))
  | .ok _, .error _ => isFalse nofun
  | .error _, .ok _ => isFalse nofun

/-- The Python loop
```
for e in entries:
  try:
    return f(e)
  except core.TinkError:
    pass
<rest>
```
It occurs in every keyset wrapper, e.g.
`/repo/python/tink/aead/_aead_wrapper.py:38-43`.  `rest` is what follows the
loop.  An exception that is not a `TinkError` leaves the loop. -/
def tryEntries {E : Type u} {α : Type v} (f : E → Py α) : List E → Py α → Py α
  | [], rest => rest
  | e :: es, rest =>
    match f e with
    | .ok a => .ok a
    | .error x => if x.isTink then tryEntries f es rest else .error x

/-- `struct.pack('>L', n)` / `struct.pack('>I', n)` for `n < 2^32`: four bytes,
most significant first. -/
def be32 (n : Nat) : Bytes :=
  [UInt8.ofNat (n / 16777216), UInt8.ofNat (n / 65536), UInt8.ofNat (n / 256), UInt8.ofNat n]

/-- `struct.unpack('>I', b)[0]` for four bytes. -/
def ofBe32 (a b c d : UInt8) : Nat :=
  a.toNat * 16777216 + b.toNat * 65536 + c.toNat * 256 + d.toNat

end Tink
