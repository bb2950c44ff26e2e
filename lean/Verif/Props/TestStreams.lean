import Verif.Testing.BytesIOLemmas
import Verif.Props.Rewindable

/-!
# C107: streams for tests
-/

namespace Tink.Props
open Spec Testing

/-! ## `BytesIOWithValueAfterClose` -/

/-- C107.  After any calls of `write` and `close`, `value_after_close` gives what was written before the first
`close`, which overwrites the initial bytes; without a `close` it raises `ValueError`. -/
theorem C107_value (init : Option Bytes) (ops : List FileOp) :
    (FileOp.close ∈ ops → (ops.foldl FileOp.run (.new init)).value =
      .ok (writtenBeforeClose ops ++ (init.getD []).drop (writtenBeforeClose ops).length)) ∧
    (FileOp.close ∉ ops → (ops.foldl FileOp.run (.new init)).value = .error .valueError) := by
  have closed : ∀ (ops : List FileOp) (f : BytesIOWithValueAfterClose), f.io.closed = true →
      (ops.foldl FileOp.run f).value = f.value := by
    intro ops
    induction ops with
    | nil => intro f _; rfl
    | cons o ops ih =>
      intro f hf
      have hrun : FileOp.run f o = f := by
        obtain ⟨⟨v, p, c⟩, a⟩ := f
        dsimp only at hf
        subst hf
        cases o <;> rfl
      rw [List.foldl_cons, hrun]
      exact ih f hf
  have key : ∀ (ops : List FileOp) (f : BytesIOWithValueAfterClose) (w rest : Bytes), f.io.closed = false →
      f.io.value = w ++ rest → f.io.pos = w.length →
      (FileOp.close ∈ ops → (ops.foldl FileOp.run f).value =
        .ok (w ++ writtenBeforeClose ops ++ rest.drop (writtenBeforeClose ops).length)) ∧
      (FileOp.close ∉ ops → (ops.foldl FileOp.run f).value = .error .valueError) := by
    intro ops
    induction ops with
    | nil =>
      intro f w rest hf _ _
      refine ⟨fun h => absurd h List.not_mem_nil, fun _ => ?_⟩
      show f.value = _
      unfold BytesIOWithValueAfterClose.value
      rw [hf]; rfl
    | cons o ops ih =>
      intro f w rest hf hv hp
      cases o with
      | close =>
        refine ⟨fun _ => ?_, fun h => absurd List.mem_cons_self h⟩
        rw [List.foldl_cons, closed _ _ (by rfl)]
        obtain ⟨⟨v, p, c⟩, a⟩ := f
        dsimp only at hf hv hp
        subst hf hv hp
        show Except.ok _ = _
        simp [writtenBeforeClose]
      | write b =>
        have h := ih (FileOp.run f (.write b)) (w ++ b) (rest.drop b.length)
          (by
            obtain ⟨⟨v, p, c⟩, a⟩ := f
            dsimp only at hf
            subst hf; rfl)
          (by
            obtain ⟨⟨v, p, c⟩, a⟩ := f
            dsimp only at hf hv hp
            subst hf hv hp
            show List.take _ _ ++ b ++ List.drop _ _ = _
            rw [List.take_left, ← List.drop_drop, List.drop_left])
          (by
            obtain ⟨⟨v, p, c⟩, a⟩ := f
            dsimp only at hf hv hp
            subst hf hv hp
            show _ + _ = _
            rw [List.length_append])
        rw [List.foldl_cons]
        refine ⟨fun hm => ?_, fun hm => ?_⟩
        · rw [h.1 (by simpa using hm)]
          simp [writtenBeforeClose, List.drop_drop]
        · exact h.2 (by simpa using hm)
  have h := key ops (.new init) [] (init.getD []) rfl rfl rfl
  simpa using h

/-- C107.  As a destination of an encrypting stream, it accepts all that is written: it never accepts more than
it was given, nor nothing of it. -/
theorem C107_destination (text : Exc → Bool) :
    Honest (pybindSink text BytesIOWithValueAfterClose.sink) ∧
    Progresses (pybindSink text BytesIOWithValueAfterClose.sink) (fun _ => 0) := by
  have key : ∀ s d n, ((pybindSink text BytesIOWithValueAfterClose.sink).write s d).2 = .ok n → n = d.length := by
    intro s d n h
    obtain ⟨⟨v, p, c⟩, a⟩ := s
    cases c with
    | true => cases h
    | false =>
      unfold pybindSink at h
      dsimp only at h
      have hw : FileObjectAdapter.write BytesIOWithValueAfterClose.sink ⟨⟨v, p, false⟩, a⟩ d =
        (⟨⟨v.take p ++ d ++ v.drop (p + d.length), p + d.length, false⟩, a⟩, .ok (d.length : Int)) := rfl
      rw [hw] at h
      dsimp only at h
      split at h
      · cases h; rfl
      · cases h
  refine ⟨fun s d n h => ?_, fun s d n hd h hn => ?_⟩
  · rw [key s d n h]; omega
  · have := key s d n h
    cases d with
    | nil => exact absurd rfl hd
    | cons x xs => rw [List.length_cons] at this; omega

/-! ## `SlowBytesIO` -/

/-- C107.  A `SlowBytesIO` delivers its data in order, without loss, and `b''` only at the end. -/
theorem C107_slow_faithful : Faithful slowSource (fun f => f.io.value.drop f.io.pos) := by
  have hclosed : ∀ (s : SlowBytesIO) (n : Nat), s.io.closed = true →
      (∀ b, (slowSource.read s n).2 ≠ .data b) ∧ (slowSource.read s n).1.io = s.io := by
    intro s n hc
    obtain ⟨⟨v, p, c⟩, k⟩ := s
    dsimp only at hc
    subst hc
    unfold slowSource SlowBytesIO.read BytesIO.read
    dsimp only
    split
    · split
      · exact ⟨fun b h => (nomatch h), rfl⟩
      · split
        · exact ⟨fun b h => (nomatch h), rfl⟩
        · exact ⟨fun b h => (nomatch h), rfl⟩
    · exact ⟨fun b h => (nomatch h), rfl⟩
  have hzero : ∀ (s : SlowBytesIO), s.io.closed = false → (slowSource.read s 0).2 = .data [] ∧
      (slowSource.read s 0).1.io.rest = s.io.rest := by
    intro s hc
    have h := read_some hc 0
    rw [List.take_zero, List.drop_zero] at h
    exact ⟨h.1, h.2.1⟩
  constructor
  · intro s n b h
    cases hc : s.io.closed with
    | true => exact absurd h ((hclosed s n hc).1 b)
    | false =>
      by_cases hn : n = 0
      · subst hn
        obtain ⟨h1, h2⟩ := hzero s hc
        rw [h1] at h
        cases h
        exact ⟨h2.symm, Nat.le_refl _, fun _ => .inl rfl⟩
      · have hn : 0 < n := by omega
        have hb := (slow_step.bytes hc hn).1
        rw [h] at hb
        refine ⟨hb, ?_, fun hbn => .inr ?_⟩
        · by_cases hl : s.calls > 10000000
          · rw [(slow_step.limit s n hc hn hl).1] at h; cases h
          · by_cases h3 : s.calls % 3 = 0
            · rcases (slow_step.blocked s n hc hn (by omega) h3).1 with h' | h' <;> rw [h'] at h <;> cases h
            · rw [(slow_step.data s n hc hn (by omega) h3).1] at h
              cases h
              rw [List.length_take]; omega
        · by_cases hl : s.calls > 10000000
          · rw [(slow_step.limit s n hc hn hl).1] at h; cases h
          · by_cases h3 : s.calls % 3 = 0
            · rcases (slow_step.blocked s n hc hn (by omega) h3).1 with h' | h' <;> rw [h'] at h <;> cases h
            · rw [(slow_step.data s n hc hn (by omega) h3).1] at h
              subst hbn
              injection h with h
              rcases List.take_eq_nil_iff.1 h with h | h
              · omega
              · exact h
  · intro s n h
    cases hc : s.io.closed with
    | true => rw [(hclosed s n hc).2]
    | false =>
      by_cases hn : n = 0
      · subst hn
        exact absurd (hzero s hc).1 (h _)
      · have hn : 0 < n := by omega
        have hb := (slow_step.bytes hc hn).1
        have he : (slowSource.read s n).2.bytes = [] := by
          cases hr : (slowSource.read s n).2 with
          | data b => exact absurd hr (h b)
          | none => rfl
          | blocking => rfl
          | raised e => rfl
        rw [he] at hb
        exact hb.symm

/-- C107.  With reads of five bytes or more, every third, beginning with the first, is blocked, and the others
deliver five bytes each (up to the end): after `k` reads, up to ten million and one, exactly that much of the data
was delivered, and nothing was raised. -/
theorem C107_slow_reads (data : Bytes) (sizes : List Nat) (h5 : ∀ n ∈ sizes, 5 ≤ n)
    (hlen : sizes.length ≤ 10000001) :
    allBytes (readMany slowSource (.new data) sizes).2 = data.take (5 * unblockedCalls sizes.length) ∧
    ∀ i (hi : i < (readMany slowSource (.new data) sizes).2.length),
      ((readMany slowSource (.new data) sizes).2[i] = .none ∨
        (readMany slowSource (.new data) sizes).2[i] = .blocking ↔ i % 3 = 0) ∧
      ∀ e, (readMany slowSource (.new data) sizes).2[i] ≠ .raised e := by
  obtain ⟨d, h1, h2, h3⟩ := slow_step.exact sizes (.new data) rfl
    (fun n hn => ⟨by have := h5 n hn; omega, by have := h5 n hn; omega⟩)
    (by show 0 + _ ≤ _; omega)
  have hd : d = 5 * unblockedCalls sizes.length := by
    have e : (SlowBytesIO.new data).calls = 0 := rfl
    rw [e, Nat.zero_add] at h1
    exact h1
  rw [h2, hd]
  refine ⟨rfl, fun i hi => ?_⟩
  have := h3 i hi
  have e : (SlowBytesIO.new data).calls + i = i := Nat.zero_add i
  rw [e] at this
  exact this

/-- C107.  However it is read, in reads of one byte or more, what was delivered is a beginning of the data, and
never more than 33333335 bytes; every read after ten million and one raises `AssertionError`. -/
theorem C107_slow_limit (data : Bytes) (sizes : List Nat) (hpos : ∀ n ∈ sizes, 0 < n) :
    allBytes (readMany slowSource (.new data) sizes).2 <+: data ∧
    (allBytes (readMany slowSource (.new data) sizes).2).length ≤ 33333335 ∧
    (10000001 ≤ sizes.length → ∀ n, 0 < n →
      (slowSource.read (readMany slowSource (.new data) sizes).1 n).2 = .raised assertionError) := by
  obtain ⟨h1, h2, h3⟩ := slow_step.prefix sizes (.new data) rfl hpos
  refine ⟨⟨_, h1.symm⟩, ?_, fun hl n hn => ?_⟩
  · have h := slow_step.atMost (fun n => Nat.min_le_right n 5) sizes (.new data) rfl hpos
    have e : (SlowBytesIO.new data).calls = 0 := rfl
    rw [e, Nat.zero_add, unblockedCalls_eq, unblockedCalls_eq] at h
    have : ∀ k L : Nat, 5 * (min k (L + 1) - (min k (L + 1) + 2) / 3) ≤ 5 * (L + 1 - (L + 3) / 3) := by
      intro k L; omega
    have := this sizes.length 10000000
    omega
  · refine (slow_step.limit _ n h3 hn ?_).1
    rw [h2]
    show 0 + _ > _
    omega

/-! ## `SlowReadableRawBytes` -/

/-- C107.  A `SlowReadableRawBytes` does the same, with `None` for `BlockingIOError`, if five bytes or more are
asked for. -/
theorem C107_raw_reads (checks : Bool) (data : Bytes) (sizes : List Nat) (h5 : ∀ n ∈ sizes, 5 ≤ n) :
    allBytes (readMany (slowRawSource checks) (.new data) sizes).2 <+: data ∧
    (sizes.length ≤ 10000001 →
      allBytes (readMany (slowRawSource checks) (.new data) sizes).2 = data.take (5 * unblockedCalls sizes.length)) := by
  obtain ⟨h1, _, _⟩ := (raw_step checks).prefix sizes (.new data) rfl h5
  refine ⟨⟨_, h1.symm⟩, fun hlen => ?_⟩
  obtain ⟨d, h1, h2, _⟩ := (raw_step checks).exact sizes (.new data) rfl (fun n hn => ⟨h5 n hn, rfl⟩)
    (by show 0 + _ ≤ _; omega)
  have hd : d = 5 * unblockedCalls sizes.length := by
    have e : (SlowReadableRawBytes.new data).calls = 0 := rfl
    rw [e, Nat.zero_add] at h1
    exact h1
  rw [h2, hd]; rfl

/-- C107, violation.  If fewer than five bytes are asked for, `read` may return more than that; or, with versions
of Python that check this, raise `ValueError` and lose the bytes. -/
theorem C107_raw_too_many (data : Bytes) {n : Nat} (hn : n < 5) (hd : 5 ≤ data.length) :
    (readMany (slowRawSource false) (.new data) [n, n]).2 = [.none, .data (data.take 5)] ∧
    (data.take 5).length > n ∧
    (readMany (slowRawSource true) (.new data) [n, n]).2 = [.none, .raised .valueError] ∧
    (readMany (slowRawSource true) (.new data) [n, n, 5]).2 =
      [.none, .raised .valueError, .data ((data.drop 5).take 5)] := by
  have hl : (data.take 5).length = 5 := by rw [List.length_take]; omega
  have h1 : ∀ checks, (slowRawSource checks).read (.new data) n = (⟨(SlowReadableRawBytes.new data).io, 1⟩, .none) := by
    intro checks
    rw [raw_read checks _ rfl]; rfl
  have h2 : ∀ checks, (slowRawSource checks).read ⟨(SlowReadableRawBytes.new data).io, 1⟩ n =
      (⟨((SlowReadableRawBytes.new data).io.read (some (5 : Nat))).1, 2⟩,
        if checks && n < 5 then .raised .valueError else .data (data.take 5)) := by
    intro checks
    rw [raw_read checks _ rfl, if_neg (by simp), if_neg (by simp)]
    have : (SlowReadableRawBytes.new data).io.rest = data := rfl
    dsimp only
    rw [this, hl]
  have hr := (read_some (f := (SlowReadableRawBytes.new data).io) rfl 5)
  have h3 : ((slowRawSource true).read ⟨((SlowReadableRawBytes.new data).io.read (some (5 : Nat))).1, 2⟩ 5).2 =
      .data ((data.drop 5).take 5) := by
    rw [raw_read true ⟨((SlowReadableRawBytes.new data).io.read (some (5 : Nat))).1, 2⟩ hr.2.2, if_neg (by simp),
      if_neg (by simp)]
    dsimp only
    rw [hr.2.1]
    have : (SlowReadableRawBytes.new data).io.rest = data := rfl
    rw [this, if_neg]
    simp only [Bool.true_and, decide_eq_true_eq, List.length_take]
    omega
  refine ⟨?_, by omega, ?_, ?_⟩
  · unfold readMany readMany readMany
    rw [h1, h2]; rfl
  · unfold readMany readMany readMany
    rw [h1, h2]; simp [hn]
  · unfold readMany readMany readMany readMany
    rw [h1, h2, h3]; simp [hn]

/-! ## Examples -/

namespace TestStreamsExample

/-- Writes after the first `close` do not count; the initial bytes are overwritten. -/
example : ([FileOp.write [1, 2], .write [3], .close, .write [4], .close].foldl FileOp.run
    (.new (some [9, 9, 9, 9]))).value = .ok [1, 2, 3, 9] :=
  (C107_value _ _).1 (by simp)

/-- Six reads of twelve bytes. -/
example : allBytes (readMany slowSource (.new [1, 2, 3, 4, 5, 6, 7, 8, 9, 10, 11, 12]) [7, 5, 7, 8, 9, 10]).2 =
    [1, 2, 3, 4, 5, 6, 7, 8, 9, 10, 11, 12] :=
  (C107_slow_reads _ _ (by decide) (by decide)).1

/-- Through a rewindable stream, with reads of any size: only bytes of the data, in order. -/
example (data : Bytes) (ops : List RewindOp) :
    (RewindUser.history slowSource (.new data) ops).returned <+: data :=
  (C53_content C107_slow_faithful (.new data) ops).1

/-- Two bytes are asked for and five are returned. -/
example : (readMany (slowRawSource false) (.new [1, 2, 3, 4, 5, 6]) [2, 2]).2 = [.none, .data [1, 2, 3, 4, 5]] :=
  (C107_raw_too_many _ (by decide) (by decide)).1

end TestStreamsExample
end Tink.Props
