import Verif.Spec.Buffered
import Verif.Stream.Closing

/-!
# Specification vocabulary for closing streams
-/

namespace Tink.Spec
variable {σ δ ε τ κ : Type}

/-! ## Decrypting streams -/

/-- A source that counts how often it is closed. -/
def countingSource (src : Source σ) : Source (σ × Nat) where
  read s n := (((src.read s.1 n).1, s.2), (src.read s.1 n).2)

/-- ... and its `close()`. -/
def countingClose (close : σ → σ × Py Unit) (s : σ × Nat) : (σ × Nat) × Py Unit :=
  (((close s.1).1, s.2 + 1), (close s.1).2)

/-- Code can return `a`, if the object that it reads from returns something suitable. -/
inductive CanReturn {α : Type} : Prog α → α → Prop
  | ret (a : α) : CanReturn (.ret a) a
  | ask {n k a} (r : ReadResult) : CanReturn (k r) a → CanReturn (.ask n k) a

/-- The states that the decrypting stream of a key can be in, after some calls of `read` and `close()`. -/
inductive KeyState (closeRaw : RawClosing (ClosableRewindable σ) τ) (p : RawStreamingAead δ ε τ) (ad : Bytes) :
    τ → Prop
  | opened {t} : p.newRawDecryptingStream ad = .ok t → KeyState closeRaw p ad t
  | read {t t' r} (fuel : Nat) (n : Int) : KeyState closeRaw p ad t → CanReturn (p.stream.read fuel t n) (t', r) →
      KeyState closeRaw p ad t'
  | closed {t} (closeFile : ClosableRewindable σ → ClosableRewindable σ × Py Unit) (r : ClosableRewindable σ) :
      KeyState closeRaw p ad t → KeyState closeRaw p ad (closeRaw closeFile t r).1

/-- `close()` of a key's decrypting stream does not raise and does not use the source, and afterwards `read`
raises `ValueError` and does not use the source either. -/
def ClosesQuietly (closeRaw : RawClosing (ClosableRewindable σ) τ) (p : RawStreamingAead δ ε τ) (ad : Bytes) :
    Prop :=
  ∀ t, KeyState closeRaw p ad t → ∀ closeFile r, ∃ t', closeRaw closeFile t r = (t', r, .ok ()) ∧
    ∀ fuel n, p.stream.read fuel t' n = .ret (t', .raised .valueError)

/-- Calls on a stream, with their results. -/
inductive StreamCall where
  | read (size : Int) (r : ReadResult)
  | close (r : Py Unit)

/-- A history of calls on a keyset's decrypting stream, which is `w0` at first.  `ps` are the keys; at any
time streams of keys may be garbage collected. -/
inductive CloseHistory (src : Source σ) (closeSource : σ → σ × Py Unit)
    (closeRaw : RawClosing (ClosableRewindable σ) τ) (ps : List (RawStreamingAead δ ε τ)) (ad : Bytes)
    (w0 : DecryptingStreamWrapper σ δ ε τ) : List StreamCall → ClosableDecrypting σ δ ε τ → Prop
  | start : CloseHistory src closeSource closeRaw ps ad w0 [] { stream := w0 }
  | read {calls w w' r} (fuel : Nat) (n : Int) : CloseHistory src closeSource closeRaw ps ad w0 calls w →
      w.read src fuel n = some (w', r) →
      CloseHistory src closeSource closeRaw ps ad w0 (calls ++ [.read n r]) w'
  | close {calls w w' r} : CloseHistory src closeSource closeRaw ps ad w0 calls w →
      w.close closeRaw closeSource = (w', r) →
      CloseHistory src closeSource closeRaw ps ad w0 (calls ++ [.close r]) w'
  | collect {calls w p} (t : τ) : CloseHistory src closeSource closeRaw ps ad w0 calls w → p ∈ ps →
      KeyState closeRaw p ad t →
      CloseHistory src closeSource closeRaw ps ad w0 calls (w.collect closeRaw closeSource t)

/-- The number of calls of `close()` that raised. -/
def failedCloses (calls : List StreamCall) : Nat :=
  calls.countP fun | .close (.error _) => true | _ => false

/-- How often the source has been closed. -/
def closings (w : ClosableDecrypting (σ × Nat) δ ε τ) : Nat := w.stream.source.source.2

/-! ## Encrypting streams -/

/-- A destination that counts how often it is closed. -/
def countingSink (snk : CSink σ) : CSink (σ × Nat) where
  write s d := (((snk.write s.1 d).1, s.2), (snk.write s.1 d).2)
  close s := (((snk.close s.1).1, s.2 + 1), (snk.close s.1).2)

/-- Calls of a raw encrypting stream, with their results. -/
inductive EncryptingCall where
  | write (b : Bytes) (r : Py Nat)
  | close (r : Py Unit)

/-- A history of calls on a raw encrypting stream of one key. -/
inductive EncryptingHistory (snk : CSink σ) (t0 : CcEncrypting κ σ) :
    List EncryptingCall → CcEncrypting κ σ → Prop
  | start : EncryptingHistory snk t0 [] t0
  | write {calls t t' r} (b : Bytes) : EncryptingHistory snk t0 calls t → CcEncrypting.RawWrite snk t b t' r →
      EncryptingHistory snk t0 (calls ++ [.write b r]) t'
  | close {calls t t' r} : EncryptingHistory snk t0 calls t → CcEncrypting.RawClose snk t t' r →
      EncryptingHistory snk t0 (calls ++ [.close r]) t'

end Tink.Spec
