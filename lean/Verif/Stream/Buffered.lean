import Verif.Stream.CcStreaming

/-!
# The streams that users get

`new_encrypting_stream` and `new_decrypting_stream` return `io.BufferedWriter` and `io.BufferedReader`
objects around the raw streams (`/repo/python/tink/streaming_aead/_streaming_aead_wrapper.py:144-154`).

These two classes are part of Python's standard library, with implementations in C and in Python that
differ in when they call the raw stream and for how many bytes.  They are modelled by relations that
leave these choices open: whatever an implementation does that follows the documentation of `io`
(https://docs.python.org/3/library/io.html) is a case of them.  Left out: `peek`, `readline` and
iteration, `detach`, `seek`; `readinto(b)` of the buffered reader gets the bytes of `read(len(b))`, and
`readinto1(b)` those of `read1(len(b))`.
-/

namespace Tink

namespace DecryptingStreamWrapper
variable {σ δ ε τ : Type}

/-- `readinto(b)`, lines 115-122, for a `memoryview` of `n` bytes, which is what `io.BufferedReader`
passes.  The result is `None`, or the bytes that are stored at the start of `b`.  An assignment of more
bytes than there is room for raises `ValueError`. -/
def readinto (src : Source σ) (fuel : Nat) (w : DecryptingStreamWrapper σ δ ε τ) (n : Nat) :
    Option (DecryptingStreamWrapper σ δ ε τ × ReadResult) :=
  (w.read src fuel n).map fun
    | (w', .data d) => (w', if d.length ≤ n then .data d else .raised .valueError)
    | (w', r) => (w', r)

/-- What a buffered reader calls: `readinto` with a buffer of `n` bytes, or (in `readall`) `read(n)`. -/
def RawRead (src : Source σ) (w : DecryptingStreamWrapper σ δ ε τ) (n : Nat)
    (w' : DecryptingStreamWrapper σ δ ε τ) (r : ReadResult) : Prop :=
  ∃ fuel, w.readinto src fuel n = some (w', r) ∨ w.read src fuel n = some (w', r)

end DecryptingStreamWrapper

namespace Io
variable {ρ : Type}

/-! ## `io.BufferedReader` -/

/-- Some reads of the raw stream, of any sizes, all of which return data, which is added to the buffer.
`R t n t' r`: a read of `n` bytes in state `t` has the result `r` and leads to `t'`. -/
inductive Filled (R : ρ → Nat → ρ → ReadResult → Prop) (t : ρ) (buffer : Bytes) : ρ → Bytes → Prop
  | start : Filled R t buffer t buffer
  | more {t1 b t2 d} (n : Nat) : Filled R t buffer t1 b → 0 < n → n < 2 ^ 63 →
      R t1 n t2 (.data d) → d ≠ [] → Filled R t buffer t2 (b ++ d)

/-- Calls of an `io.BufferedReader`; `readAll` is `read()`, `read(-1)` and `read(None)`. -/
inductive ReadOp where
  | read (n : Nat)
  | readAll
  | read1 (n : Nat)
  deriving DecidableEq

/-- There is not enough in the buffer, so that the raw stream is read. -/
def ReadOp.Wants : ReadOp → Bytes → Prop
  | .read n, b => b.length < n
  | .readAll, _ => True
  | .read1 n, b => b = [] ∧ n ≠ 0

/-- A call in state `t` of the raw stream, with `buffer` read in advance; then the result, the new state
of the raw stream and the new buffer.  The raw stream is read until there is enough, or it returns `b''`
or `None`.  If it raises, bytes that were read in advance may be lost; those that are left are the first of
them (the implementation in C drops all, that in Python keeps `buffer`).  If it raises `BlockingIOError`,
nothing is said about the buffer. -/
inductive BufferedRead (R : ρ → Nat → ρ → ReadResult → Prop) (t : ρ) (buffer : Bytes) :
    ReadOp → ReadResult → ρ → Bytes → Prop
  | full {t1 b} (n : Nat) : Filled R t buffer t1 b → n ≤ b.length →
      BufferedRead R t buffer (.read n) (.data (b.take n)) t1 (b.drop n)
  | one {t1 b} (n : Nat) : Filled R t buffer t1 b → b ≠ [] ∨ n = 0 →
      BufferedRead R t buffer (.read1 n) (.data (b.take n)) t1 (b.drop n)
  | ended {t1 b t2} (op : ReadOp) (m : Nat) : Filled R t buffer t1 b → op.Wants b → 0 < m →
      m < 2 ^ 63 → R t1 m t2 (.data []) → BufferedRead R t buffer op (.data b) t2 []
  | paused {t1 b t2} (op : ReadOp) (m : Nat) : Filled R t buffer t1 b → op.Wants b → 0 < m →
      m < 2 ^ 63 → R t1 m t2 .none →
      BufferedRead R t buffer op (if b = [] then .none else .data b) t2 []
  | blocked {t1 b t2} (op : ReadOp) (m : Nat) (buffer' : Bytes) : Filled R t buffer t1 b →
      op.Wants b → 0 < m → m < 2 ^ 63 → R t1 m t2 .blocking →
      BufferedRead R t buffer op .blocking t2 buffer'
  | raised {t1 b t2 e} (op : ReadOp) (m : Nat) (buffer' : Bytes) : Filled R t buffer t1 b →
      op.Wants b → 0 < m → m < 2 ^ 63 → R t1 m t2 (.raised e) → buffer' <+: b →
      BufferedRead R t buffer op (.raised e) t2 buffer'

/-! ## `io.BufferedWriter` -/

/-- Some writes to the raw stream, of any of the first bytes that are waiting; as many as the raw stream
has accepted are dropped.  `W t c t' r`: `write(c)` in state `t` has the result `r` and leads to `t'`.
The pieces have less than 2 GiB, as they have if the arguments of the user's calls have. -/
inductive Flushed (W : ρ → Bytes → ρ → Py Nat → Prop) (t : ρ) (buffer : Bytes) : ρ → Bytes → Prop
  | start : Flushed W t buffer t buffer
  | more {t1 b t2 n} (c : Bytes) : Flushed W t buffer t1 b → c <+: b → c ≠ [] → c.length < 2 ^ 31 →
      W t1 c t2 (.ok n) → n ≤ c.length → Flushed W t buffer t2 (b.drop n)

/-- Calls of an `io.BufferedWriter`. -/
inductive WriteOp where
  | write (b : Bytes)
  | flush
  deriving DecidableEq

/-- A call in state `t` of the raw stream, with the bytes `buffer` waiting; then the result (0 stands for
the `None` of `flush`), the new state of the raw stream and the new buffer.  If the raw stream raises,
nothing is said about the buffer. -/
inductive BufferedWrite (W : ρ → Bytes → ρ → Py Nat → Prop) (t : ρ) (buffer : Bytes) :
    WriteOp → Py Nat → ρ → Bytes → Prop
  | write {t1 rest} (b : Bytes) : Flushed W t (buffer ++ b) t1 rest →
      BufferedWrite W t buffer (.write b) (.ok b.length) t1 rest
  | flush {t1} : Flushed W t buffer t1 [] → BufferedWrite W t buffer .flush (.ok 0) t1 []
  | writeRaised {t1 rest t2 e} (b c buffer' : Bytes) : Flushed W t (buffer ++ b) t1 rest → c <+: rest →
      c.length < 2 ^ 31 → W t1 c t2 (.error e) →
      BufferedWrite W t buffer (.write b) (.error e) t2 buffer'
  | flushRaised {t1 rest t2 e} (c buffer' : Bytes) : Flushed W t buffer t1 rest → c <+: rest →
      c.length < 2 ^ 31 → W t1 c t2 (.error e) → BufferedWrite W t buffer .flush (.error e) t2 buffer'

/-- `close()`: the buffer is flushed, and the raw stream closed, also if the former fails.  (If both fail
it is not said which exception is raised.) -/
inductive BufferedClose (W : ρ → Bytes → ρ → Py Nat → Prop) (C : ρ → ρ → Py Unit → Prop) (t : ρ)
    (buffer : Bytes) : ρ → Py Unit → Prop
  | closed {t1 t2 r} : Flushed W t buffer t1 [] → C t1 t2 r → BufferedClose W C t buffer t2 r
  | failed {t1 rest t2 t3 e r} (c : Bytes) (e' : Exc) : Flushed W t buffer t1 rest → c <+: rest →
      c.length < 2 ^ 31 → W t1 c t2 (.error e) → C t2 t3 r → BufferedClose W C t buffer t3 (.error e')

end Io

/-- `write(c)` of a raw encrypting stream of one key, as in `Io.Flushed`. -/
def CcEncrypting.RawWrite {κ σ : Type} (snk : CSink σ) (t : CcEncrypting κ σ) (c : Bytes)
    (t' : CcEncrypting κ σ) (r : Py Nat) : Prop :=
  ∃ fuel, t.write snk fuel c = some (t', .returned r)

/-- `close()` of a raw encrypting stream of one key. -/
def CcEncrypting.RawClose {κ σ : Type} (snk : CSink σ) (t t' : CcEncrypting κ σ) (r : Py Unit) : Prop :=
  ∃ fuel, t.close snk fuel = some (t', r)

end Tink
