import Verif.Stream.RawEncrypting
import Verif.Props.CppOutput

/-!
# C56: the Python side of an encrypting stream
-/

namespace Tink.Props
open Spec RawEncryptingStream

variable {ο : Type} {st : COutputStream ο} {inv bad done : ο → Bytes → Prop}

/-- C56.  `write(b)` on an encrypting stream, with less than 2 GiB, returns the length of `b` and hands
over exactly `b` to the C++ stream, or raises `TinkError` and has handed over the start of `b`.
(`inv s P`, `bad s P`: the C++ stream is in state `s` and has been given `P`; the latter after a
failure.) -/
theorem C56_raw_write (h : LawfulOut st inv bad done) {r r' : RawEncryptingStream ο} {P : Bytes}
    (hi : inv r.adapter P) (hc : r.closed = false) {b : Bytes} (hmax : b.length < 2 ^ 31)
    {fuel : Nat} {x : Ran (Py Nat)} (hx : r.write st fuel (.bytesLike b) = some (r', x)) :
    r'.closed = false ∧ match x with
      | .returned (.ok n) => n = b.length ∧ inv r'.adapter (P ++ b)
      | .returned (.error e) => e = .tinkError ∧ ∃ d, d <+: b ∧ bad r'.adapter (P ++ d)
      | .undefined => False := by
  unfold RawEncryptingStream.write at hx
  rw [if_neg (by simp [hc])] at hx
  simp only at hx
  cases hw : OutputStreamAdapter.write st b fuel r.adapter 0 with
  | none => rw [hw] at hx; cases hx
  | some q =>
    obtain ⟨s, y⟩ := q
    have a2 := C56_adapter_write h hmax hi hw
    rw [hw] at hx
    cases y with
    | undefined => exact a2.elim
    | returned z =>
      cases z with
      | error e => cases hx; exact ⟨hc, rfl, a2⟩
      | ok n =>
        obtain ⟨rfl, a3⟩ := a2
        have hn : checked b b.length = .ok b.length := by
          unfold checked
          rw [if_neg (by omega)]
        simp only [hn] at hx
        cases hx
        exact ⟨hc, rfl, a3⟩

/-- C56.  A closed encrypting stream refuses to be written, with `ValueError`, and closing it again
does nothing. -/
theorem C56_raw_closed {r : RawEncryptingStream ο} (hc : r.closed = true) (fuel : Nat)
    (arg : WriteArg) :
    r.write st fuel arg = some (r, .returned (.error .valueError)) ∧
      r.close st = some (r, .ok ()) := by
  simp [RawEncryptingStream.write, RawEncryptingStream.close, hc]

/-- C56.  If `close` returns normally, the stream is closed and so is the C++ stream, which has handled
all the bytes handed over; else `close` raises `TinkError`, and the stream is not closed. -/
theorem C56_raw_close (h : LawfulOut st inv bad done) {r r' : RawEncryptingStream ο} {P : Bytes}
    (hi : inv r.adapter P) (hc : r.closed = false) {x : Py Unit}
    (hx : r.close st = some (r', x)) :
    (x = .ok () ∧ r'.closed = true ∧ done r'.adapter P) ∨
      (x = .error .tinkError ∧ r'.closed = false) := by
  unfold RawEncryptingStream.close at hx
  rw [if_neg (by simp [hc])] at hx
  cases hq : st.close r.adapter with
  | none => rw [hq] at hx; cases hx
  | some q =>
    obtain ⟨s, y⟩ := q
    rw [hq] at hx
    cases y with
    | ok u => cases hx; exact .inl ⟨rfl, rfl, h.close _ _ _ hi hq⟩
    | error e => cases hx; exact .inr ⟨rfl, hc⟩

/-- Writing five bytes, through a buffer of four, to a file that takes two at a time. -/
example : (RawEncryptingStream.write (PythonOutputStream.stream (recordedSink (twos 100)) 9) 9
    ⟨.new (([], false), []) [0, 0, 0, 0], false⟩ (.bytesLike [1, 2, 3, 4, 5])).map
    (fun q => committedOf q.1.adapter) = some [1, 2, 3, 4, 5] := by
  decide +kernel

end Tink.Props
