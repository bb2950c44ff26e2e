import Verif.Stream.CppOutput

/-!
# `RawEncryptingStream`

`/repo/python/tink/streaming_aead/_encrypting_stream.py`.  The C++ encrypting stream is an arbitrary
C++ output stream.
-/

namespace Tink

/-- The state of `RawEncryptingStream`, lines 57-63. -/
structure RawEncryptingStream (ο : Type) where
  adapter : ο
  closed : Bool := false

/-- An argument of `write`: a bytes-like object or something else. -/
inductive WriteArg where
  | bytesLike (b : Bytes)
  | other

namespace RawEncryptingStream
variable {ο : Type}

/-- Lines 95-97. -/
def checked (b : Bytes) (written : Nat) : Py Nat :=
  if (written : Int) < 0 ∨ written > b.length then .error .tinkError else .ok written

/-- `write`, lines 76-97, with `cc/pybind/output_stream_adapter.cc:36-45`: a status other than OK becomes
`TinkError`.  `none`: not finished after `fuel` turns of the C++ loop. -/
def write (st : COutputStream ο) (fuel : Nat) (r : RawEncryptingStream ο) (arg : WriteArg) :
    Option (RawEncryptingStream ο × Ran (Py Nat)) :=
  if r.closed then some (r, .returned (.error .valueError))
  else
    match arg with
    | .other => some (r, .returned (.error .typeError))
    | .bytesLike b =>
      match OutputStreamAdapter.write st b fuel r.adapter 0 with
      | none => none
      | some (s, .undefined) => some ({ r with adapter := s }, .undefined)
      | some (s, .returned (.error _)) =>
        some ({ r with adapter := s }, .returned (.error .tinkError))
      | some (s, .returned (.ok n)) => some ({ r with adapter := s }, .returned (checked b n))

/-- `close`, lines 99-105.  (`flush` of an open `io.RawIOBase` does nothing.)  `none`: `Close` of the
C++ stream does not return. -/
def close (st : COutputStream ο) (r : RawEncryptingStream ο) :
    Option (RawEncryptingStream ο × Py Unit) :=
  if r.closed then some (r, .ok ())
  else
    match st.close r.adapter with
    | none => none
    | some (s, .error _) => some ({ r with adapter := s }, .error .tinkError)
    | some (s, .ok _) => some ({ adapter := s, closed := true }, .ok ())

end RawEncryptingStream
end Tink
