import Verif.Stream.Wrapper

/-!
# Specification vocabulary for streams
-/

namespace Tink.Spec
variable {σ τ : Type}

/-- The same source, which also records all bytes that it has delivered. -/
def recorded (src : Source σ) : Source (σ × Bytes) where
  read s n := (((src.read s.1 n).1, s.2 ++ (src.read s.1 n).2.bytes), (src.read s.1 n).2)

/-- `rest s` is what a source in state `s` still has to deliver: reads deliver it in order, at most
as much as asked for, `b''` only at the end.  Reads may be short, deliver nothing for now, or raise;
then nothing is lost. -/
structure Faithful (src : Source σ) (rest : σ → Bytes) : Prop where
  data : ∀ s n b, (src.read s n).2 = .data b →
    rest s = b ++ rest (src.read s n).1 ∧ b.length ≤ n ∧ (b = [] → n = 0 ∨ rest s = [])
  noData : ∀ s n, (∀ b, (src.read s n).2 ≠ .data b) → rest (src.read s n).1 = rest s

/-- "No data at the moment", however it is reported, is reported as `None`. -/
def unblocked : ReadResult → ReadResult
  | .blocking => .none
  | r => r

/-- What a user does with a rewindable stream. -/
inductive RewindOp where
  | read (n : Nat)
  | rewind
  | disableRewind
  deriving DecidableEq, Repr

/-- A rewindable stream over a recorded source, with the bytes that its user has received since
the stream was created or last rewound. -/
structure RewindUser (σ : Type) where
  stream : Rewindable (σ × Bytes)
  returned : Bytes

/-- All that the source has delivered. -/
def RewindUser.delivered (u : RewindUser σ) : Bytes := u.stream.source.2

/-- A fresh stream. -/
def RewindUser.start (s : σ) : RewindUser σ := ⟨{ source := (s, []) }, []⟩

/-- One operation. -/
def RewindUser.op (src : Source σ) (u : RewindUser σ) : RewindOp → RewindUser σ
  | .read n =>
    ⟨(u.stream.read (recorded src) n).1, u.returned ++ (u.stream.read (recorded src) n).2.bytes⟩
  | .rewind =>
    match u.stream.rewind with
    | (r, .ok _) => ⟨r, []⟩
    | (r, .error _) => ⟨r, u.returned⟩
  | .disableRewind => ⟨u.stream.disableRewind, u.returned⟩

/-- A history of operations. -/
def RewindUser.history (src : Source σ) (s : σ) (ops : List RewindOp) : RewindUser σ :=
  ops.foldl (RewindUser.op src) (RewindUser.start s)

/-! ## Decrypting streams -/

/-- The source that first delivers the bytes `s.1`, then what `src` delivers from state `s.2` on. -/
def prepended (src : Source σ) : Source (Bytes × σ) where
  read s n :=
    if s.1 = [] then (([], (src.read s.2 n).1), unblocked (src.read s.2 n).2)
    else ((s.1.drop n, s.2), .data (s.1.take n))

/-- Some reads lead the source from `s` to the last state and deliver these bytes. -/
inductive Delivers (src : Source σ) (s : σ) : Bytes → σ → Prop
  | start : Delivers src s [] s
  | read {d s'} (n : Nat) : Delivers src s d s' →
      Delivers src s (d ++ (src.read s' n).2.bytes) (src.read s' n).1

/-- `read(size)` calls with their results. -/
abbrev Calls := List (Int × ReadResult)

/-- These calls of `read` on a raw decrypting stream, made one after the other, had these results,
and led from `(t, s)` to the last states.  Sizes are at most `sys.maxsize`. -/
inductive Session (st : RawStream τ) (src : Source σ) (t : τ) (s : σ) : Calls → τ → σ → Prop
  | start : Session st src t s [] t s
  | read {calls t1 s1 t2 s2 size r} (fuel : Nat) : Session st src t s calls t1 s1 →
      size < 2 ^ 63 → st.run src fuel t1 size s1 = some (t2, s2, r) →
      Session st src t s (calls ++ [(size, r)]) t2 s2

variable {δ ε : Type}

/-- How one key by itself behaves on the ciphertext that the source delivers from state `s` on: its
stream is opened and reads from the first byte on; `d`, what was already taken from the source, is
delivered again. -/
def Alone (p : RawStreamingAead δ ε τ) (ad : Bytes) (src : Source σ) (s : σ) (calls : Calls) : Prop :=
  ∃ t d s' t' s'', p.newRawDecryptingStream ad = .ok t ∧ Delivers src s d s' ∧
    Session p.stream (prepended src) t (d, s') calls t' s''

/-- No call returned bytes (not even `b''`). -/
def NoData (calls : Calls) : Prop := ∀ c ∈ calls, ∀ b, c.2 ≠ .data b

/-- The call raised `TinkError` (or a subclass). -/
def RaisedTink (r : ReadResult) : Prop := ∃ e, r = .raised e ∧ e.isTink = true

/-- The key by itself raises `TinkError` on this ciphertext before it returned anything. -/
def RefusesStream (p : RawStreamingAead δ ε τ) (ad : Bytes) (src : Source σ) (s : σ) : Prop :=
  ∃ calls, Alone p ad src s calls ∧ NoData calls ∧ ∃ c ∈ calls, RaisedTink c.2

/-- Results up to the subclass of `TinkError`. -/
def uptoTink : ReadResult → ReadResult
  | .raised e => if e.isTink then .raised .tinkError else .raised e
  | r => r

/-- A history of `read` calls (of sizes other than 0, and at most `sys.maxsize`) on a keyset's
decrypting stream. -/
inductive StreamHistory (src : Source σ) (w : DecryptingStreamWrapper σ δ ε τ) :
    Calls → DecryptingStreamWrapper σ δ ε τ → Prop
  | start : StreamHistory src w [] w
  | read {calls w1 w2 size r} (fuel : Nat) : StreamHistory src w calls w1 → size ≠ 0 →
      size < 2 ^ 63 → w1.read src fuel size = some (w2, r) → StreamHistory src w (calls ++ [(size, r)]) w2

/-- The bytes that the calls returned. -/
def Calls.bytes (calls : Calls) : Bytes := calls.flatMap (·.2.bytes)

/-! ## What a key does with a whole ciphertext -/

/-- The source never raises an exception other than `BlockingIOError`. -/
def Steady (src : Source σ) : Prop := ∀ s n e, (src.read s n).2 ≠ .raised e

/-- With associated data `ad`, the key decrypts the ciphertext `C` to the plaintext `P`: on every
source that delivers `C`, whatever calls are made, it raises nothing, the bytes it returns are the
first bytes of `P`, and once it has returned `b''` for a size other than 0 they are all of `P`. -/
def DecryptsTo (p : RawStreamingAead δ ε τ) (ad C P : Bytes) : Prop :=
  (∃ t, p.newRawDecryptingStream ad = .ok t) ∧
  ∀ (σ : Type) (src : Source σ) (rest : σ → Bytes), Faithful src rest → Steady src →
    ∀ s, rest s = C → ∀ t, p.newRawDecryptingStream ad = .ok t →
    ∀ calls t' s', Session p.stream src t s calls t' s' →
      Calls.bytes calls <+: P ∧ (∀ c ∈ calls, ∀ e, c.2 ≠ .raised e) ∧
      ((∃ c ∈ calls, c.1 ≠ 0 ∧ c.2 = .data []) → Calls.bytes calls = P)

/-- With associated data `ad`, the key refuses the ciphertext `C`: on every source that delivers
`C` it never returns bytes and raises nothing but `TinkError`. -/
def RefusesContent (p : RawStreamingAead δ ε τ) (ad C : Bytes) : Prop :=
  (∃ t, p.newRawDecryptingStream ad = .ok t) ∧
  ∀ (σ : Type) (src : Source σ) (rest : σ → Bytes), Faithful src rest → Steady src →
    ∀ s, rest s = C → ∀ t, p.newRawDecryptingStream ad = .ok t →
    ∀ calls t' s', Session p.stream src t s calls t' s' →
      NoData calls ∧ ∀ c ∈ calls, ∀ e, c.2 = .raised e → e.isTink = true

end Tink.Spec
