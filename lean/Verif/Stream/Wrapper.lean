import Verif.Stream.Prog
import Verif.Stream.Rewindable
import Verif.Wrap.Registered

/-!
# Streaming AEAD over a keyset

`/repo/python/tink/streaming_aead/_streaming_aead_wrapper.py`.

Closing (lines 124-132) is in `Stream/Closing`; `readinto` (lines 115-122), and the `io.BufferedReader` and
`io.BufferedWriter` of the standard library in which the streams are returned (lines 148, 154), are in
`Stream/Buffered`.
-/

namespace Tink

/-- A raw decrypting stream, `io.RawIOBase`, as returned by `new_raw_decrypting_stream`: arbitrary code
with state `τ`.  `read fuel t size` is what `read(size)` does, in state `t`, if its loops are allowed
`fuel` turns.  It has access to the ciphertext source only through `read`. -/
structure RawStream (τ : Type) where
  read : Nat → τ → Int → Prog (τ × ReadResult)

/-- A call of `read(size)`, against a source; `none` if it is not done after `fuel` turns of a loop. -/
def RawStream.run {τ σ : Type} (st : RawStream τ) (src : Source σ) (fuel : Nat) (t : τ) (size : Int)
    (s : σ) : Option (τ × σ × ReadResult) :=
  ((st.read fuel t size).run src s).map fun q => (q.2.1, q.1, q.2.2)

/-- `RawStreamingAead`, `/repo/python/tink/streaming_aead/_raw_streaming_aead.py`.  Opening a
decrypting stream does not read from the source (`RawDecryptingStream.__init__`,
`_decrypting_stream.py:33-57`, does not).  `δ` is the type of destinations, `ε` of encrypting
streams; the random bytes of a ciphertext depend on a seed. -/
structure RawStreamingAead (δ ε τ : Type) where
  newRawEncryptingStream : Seed → δ → Bytes → Py ε
  newRawDecryptingStream : Bytes → Py τ
  stream : RawStream τ

/-- The attributes of `_DecryptingStreamWrapper`, lines 43-56. -/
structure DecryptingStreamWrapper (σ δ ε τ : Type) where
  source : Rewindable σ
  ad : Bytes
  matching : Option (RawStream τ × τ) := none
  attempting : Option (RawStream τ × τ) := none
  remaining : List (RawStreamingAead δ ε τ) := []

namespace DecryptingStreamWrapper
variable {σ δ ε τ : Type}

/-- The rewindable stream as a source for the raw decrypting streams. -/
def rewindableSource (src : Source σ) : Source (Rewindable σ) where
  read := Rewindable.read src

/-- `__init__`, lines 33-56; `primitives` are those of `primitive_set.all()`, in that order. -/
def new (primitives : List (RawStreamingAead δ ε τ)) (source : σ) (readable : Bool) (ad : Bytes) :
    Py (DecryptingStreamWrapper σ δ ε τ) := do
  let r ← Rewindable.new source readable
  match primitives with
  | [] => .error .valueError
  | p :: ps =>
    let t ← p.newRawDecryptingStream ad
    return { source := r, ad := ad, attempting := some (p.stream, t), remaining := ps }

/-- The `while True` loop of `read`, lines 94-113; `cur` is `_attempting_stream` and the list is
`_remaining_primitives`. -/
def attempt (src : Source σ) (fuel : Nat) (ad : Bytes) (size : Int) :
    RawStream τ × τ → Rewindable σ → List (RawStreamingAead δ ε τ) →
    Option (DecryptingStreamWrapper σ δ ε τ × ReadResult)
  | cur, r, remaining =>
    match cur.1.run (rewindableSource src) fuel cur.2 size r with
    | none => none
    | some (t, r', .none) =>
      some ({ source := r', ad, attempting := some (cur.1, t), remaining }, .none)
    | some (t, r', .data b) =>
      some ({ source := r'.disableRewind, ad, matching := some (cur.1, t), remaining }, .data b)
    | some (t, r', .blocking) =>
      some ({ source := r', ad, attempting := some (cur.1, t), remaining }, .blocking)
    | some (t, r', .raised e) =>
      if e.isTink then
        match remaining with
        | [] =>
          some ({ source := r', ad, attempting := some (cur.1, t), remaining := [] },
            .raised .tinkError)
        | p :: ps =>
          match r'.rewind with
          | (r'', .error x) =>
            some ({ source := r'', ad, attempting := some (cur.1, t), remaining := p :: ps },
              .raised x)
          | (r'', .ok _) =>
            match p.newRawDecryptingStream ad with
            | .ok t' => attempt src fuel ad size (p.stream, t') r'' ps
            | .error x =>
              some ({ source := r'', ad, attempting := some (cur.1, t), remaining := ps },
                .raised x)
      else some ({ source := r', ad, attempting := some (cur.1, t), remaining }, .raised e)
termination_by structural _ _ remaining => remaining

/-- `read`, lines 86-113, of a stream that is not closed.  `fuel` bounds the loops of the raw
decrypting streams (`none`: not finished).  The last case cannot occur: `None.read` raises
`AttributeError`. -/
def read (src : Source σ) (fuel : Nat) (w : DecryptingStreamWrapper σ δ ε τ) (size : Int) :
    Option (DecryptingStreamWrapper σ δ ε τ × ReadResult) :=
  if size = 0 then some (w, .data [])
  else
    match w.matching with
    | some (st, t) =>
      match st.run (rewindableSource src) fuel t size w.source with
      | none => none
      | some (t', r', res) => some ({ w with source := r', matching := some (st, t') }, res)
    | none =>
      match w.attempting with
      | some cur => attempt src fuel w.ad size cur w.source w.remaining
      | none => some (w, .raised .attributeError)

end DecryptingStreamWrapper

/-- `StreamingAead`, `/repo/python/tink/streaming_aead/_streaming_aead.py`. -/
structure StreamingAead (σ δ ε τ : Type) where
  newEncryptingStream : Seed → δ → Bytes → Py ε
  newDecryptingStream : σ → Bool → Bytes → Py (DecryptingStreamWrapper σ δ ε τ)

namespace WrappedStreamingAead
variable {σ δ ε τ C : Type}

/-- `new_encrypting_stream`, lines 144-148. -/
def newEncryptingStream (s : PrimitiveSet (RawStreamingAead δ ε τ) C) (r : Seed) (dest : δ)
    (ad : Bytes) : Py ε := do
  let primary ← s.primary
  primary.primitive.newRawEncryptingStream r dest ad

/-- `new_decrypting_stream`, lines 150-154, with the loop of lines 53-55. -/
def newDecryptingStream (s : PrimitiveSet (RawStreamingAead δ ε τ) C) (source : σ) (readable : Bool)
    (ad : Bytes) : Py (DecryptingStreamWrapper σ δ ε τ) :=
  DecryptingStreamWrapper.new (s.all.flatten.map (·.primitive)) source readable ad

/-- `StreamingAeadWrapper.wrap`, lines 162-164. -/
def wrap (s : PrimitiveSet (RawStreamingAead δ ε τ) C) : StreamingAead σ δ ε τ where
  newEncryptingStream := newEncryptingStream s
  newDecryptingStream := newDecryptingStream s
end WrappedStreamingAead

/-- `StreamingAeadWrapper`, lines 157-171: the input primitives are `RawStreamingAead` objects
(class `ci`), the result a `StreamingAead` (class `c`). -/
def streamingAeadWrapper {P C σ δ ε τ : Type} (V : View P (RawStreamingAead δ ε τ))
    (W : View P (StreamingAead σ δ ε τ)) (t : Nat) (ci c : C) : PrimitiveWrapper P C where
  pyType := t
  primitiveClass := c
  inputPrimitiveClass := ci
  wrap s := .ok (W.inj (WrappedStreamingAead.wrap (s.map V.view)))

end Tink
