import Verif.Spec.CppOutput

/-!
# C56: output streams between Python and C++
-/

namespace Tink.Props
open Spec PythonOutputStream

variable {σ : Type} {snk : CSink σ}

theorem exactly_length (k : Nat) (d : Bytes) : (exactly k d).length = k := by
  simp [exactly]

theorem recorded_honest (h : Honest snk) : Honest (recordedSink snk) := by
  intro s d n hn
  simp only [recordedSink] at hn
  cases hx : snk.write s.1 d with
  | mk s' r =>
    rw [hx] at hn
    cases r with
    | error e => simp at hn
    | ok m =>
      simp only [Except.ok.injEq] at hn
      subst hn
      exact h s.1 d _ (by rw [hx])

theorem recorded_ok {s s' : σ × Bytes} {d : Bytes} {n : Int}
    (h : (recordedSink snk).write s d = (s', .ok n)) : s'.2 = s.2 ++ d.take n.toNat := by
  simp only [recordedSink] at h
  cases hx : snk.write s.1 d with
  | mk t r =>
    rw [hx] at h
    cases r with
    | error e => simp at h
    | ok m =>
      simp only [Prod.mk.injEq, Except.ok.injEq] at h
      obtain ⟨rfl, rfl⟩ := h
      rfl

theorem recorded_error {s s' : σ × Bytes} {d : Bytes} {e : Status}
    (h : (recordedSink snk).write s d = (s', .error e)) : s'.2 = s.2 := by
  simp only [recordedSink] at h
  cases hx : snk.write s.1 d with
  | mk t r =>
    rw [hx] at h
    cases r with
    | ok m => simp at h
    | error m =>
      simp only [Prod.mk.injEq] at h
      rw [← h.1]

/-- What holds of an open stream, its log `w` and the bytes committed so far. -/
structure Open (p : PythonOutputStream (σ × Bytes)) (c : Bytes) (last : Nat) : Prop where
  content : p.adapter.2 ++ p.buffer.take p.countInBuffer = c
  count : p.countInBuffer ≤ p.buffer.length
  offset : p.bufferOffset ≤ p.countInBuffer
  position : p.position = c.length
  last : last = p.countInBuffer - p.bufferOffset
  first : p.isFirstCall = true → p.countInBuffer = 0 ∧ c = []

theorem open_new (s : σ) (buffer : Bytes) :
    Open (PythonOutputStream.new (s, []) buffer) [] 0 := by
  constructor <;> simp [PythonOutputStream.new]

/-- Storing `d` in the space of `k` bytes given out. -/
theorem store_content {p : PythonOutputStream (σ × Bytes)} {d : Bytes}
    (hd : p.bufferOffset + d.length ≤ p.buffer.length) :
    (p.store d).buffer.take (p.bufferOffset + d.length) = p.buffer.take p.bufferOffset ++ d ∧
      (p.store d).buffer.length = p.buffer.length := by
  have h1 : (p.buffer.take p.bufferOffset).length = p.bufferOffset := by
    rw [List.length_take]; omega
  constructor
  · unfold PythonOutputStream.store
    rw [List.take_left' (by rw [List.length_append, h1])]
  · unfold PythonOutputStream.store
    simp only [List.length_append, h1, List.length_drop]
    omega

/-- What `Next` leaves: the space given out is the end of the buffer, what is before it is what was
committed and not yet written. -/
theorem next_open (h : Honest snk) {p : PythonOutputStream (σ × Bytes)} {c : Bytes} {last : Nat}
    (ho : Open p c last) (hs : p.status = none) {p' : PythonOutputStream (σ × Bytes)} {k : Nat}
    (hn : p.next (recordedSink snk) = (p', .ok k)) :
    p'.status = none ∧ p'.buffer.length = p.buffer.length ∧
      p'.bufferOffset + k = p'.buffer.length ∧ p'.countInBuffer = p'.buffer.length ∧
      p'.adapter.2 ++ p'.buffer.take p'.bufferOffset = c ∧ p'.position = c.length + k ∧
      p'.isFirstCall = false := by
  obtain ⟨h1, h2, h3, h4, h5, h6⟩ := ho
  unfold PythonOutputStream.next at hn
  rw [hs] at hn
  simp only at hn
  by_cases hf : p.isFirstCall = true
  · rw [if_pos hf] at hn
    cases hn
    obtain ⟨h0, rfl⟩ := h6 hf
    have hoff : p.bufferOffset = 0 := by omega
    rw [h0] at h1
    simp only [List.take_zero, List.append_nil] at h1
    refine ⟨hs, rfl, by simp [first, hoff], rfl, by simp [first, hoff, h1], ?_, rfl⟩
    simp [first]
  · rw [if_neg hf] at hn
    have hf' : p.isFirstCall = false := by simpa using hf
    by_cases hb : p.countInBuffer < p.buffer.length
    · rw [if_pos hb] at hn
      cases hn
      refine ⟨hs, rfl, ?_, rfl, h1, ?_, hf'⟩
      · simp only [PythonOutputStream.again]; omega
      · simp only [PythonOutputStream.again]; omega
    · rw [if_neg hb] at hn
      cases hw : (recordedSink snk).write p.adapter p.buffer with
      | mk s r =>
        rw [hw] at hn
        cases r with
        | error e => simp at hn
        | ok n =>
          simp only [Prod.mk.injEq, Except.ok.injEq] at hn
          obtain ⟨rfl, rfl⟩ := hn
          have hh := recorded_honest h p.adapter p.buffer n (by rw [hw])
          have hlog := recorded_ok hw
          have hcount : p.countInBuffer = p.buffer.length := by omega
          rw [hcount, List.take_length] at h1
          have hlen : (p.shifted s n.toNat).buffer.length = p.buffer.length := by
            simp only [PythonOutputStream.shifted]
            split
            · simp only [List.length_append, List.length_drop]; omega
            · rfl
          refine ⟨hs, hlen, ?_, ?_, ?_, ?_, hf'⟩
          · rw [hlen]; simp only [PythonOutputStream.shifted]; omega
          · rw [hlen]; rfl
          · have hb' : (p.shifted s n.toNat).buffer.take (p.buffer.length - n.toNat) =
                p.buffer.drop n.toNat := by
              simp only [PythonOutputStream.shifted]
              split
              · rw [List.take_left' (by rw [List.length_drop])]
              · rename_i hge
                rw [show p.buffer.length - n.toNat = 0 by omega, List.take_zero,
                  List.drop_of_length_le (by omega)]
            show s.2 ++ (p.shifted s n.toNat).buffer.take (p.buffer.length - n.toNat) = c
            rw [hb', hlog, List.append_assoc, List.take_append_drop]
            exact h1
          · simp only [PythonOutputStream.shifted]; omega

theorem next_failed {p : PythonOutputStream (σ × Bytes)} (hs : p.status = none)
    {p' : PythonOutputStream (σ × Bytes)} {e : Status}
    (hn : p.next (recordedSink snk) = (p', .error e)) :
    p'.status = some e ∧ p'.adapter.2 = p.adapter.2 ∧ p'.buffer = p.buffer ∧
      p'.countInBuffer = p.countInBuffer := by
  unfold PythonOutputStream.next at hn
  rw [hs] at hn
  simp only at hn
  by_cases hf : p.isFirstCall = true
  · rw [if_pos hf] at hn; cases hn
  · rw [if_neg hf] at hn
    by_cases hb : p.countInBuffer < p.buffer.length
    · rw [if_pos hb] at hn; cases hn
    · rw [if_neg hb] at hn
      cases hw : (recordedSink snk).write p.adapter p.buffer with
      | mk s r =>
        rw [hw] at hn
        cases r with
        | ok n => simp at hn
        | error e' =>
          simp only [Prod.mk.injEq, Except.error.injEq] at hn
          obtain ⟨rfl, rfl⟩ := hn
          exact ⟨rfl, recorded_error hw, rfl, rfl⟩

/-- Filling the space given out, wholly. -/
theorem store_open {p' : PythonOutputStream (σ × Bytes)} {c d : Bytes} {k : Nat}
    (hoff : p'.bufferOffset + k = p'.buffer.length) (hcount : p'.countInBuffer = p'.buffer.length)
    (hc : p'.adapter.2 ++ p'.buffer.take p'.bufferOffset = c) (hpos : p'.position = c.length + k)
    (hf : p'.isFirstCall = false) (hd : d.length = k) : Open (p'.store d) (c ++ d) k := by
  obtain ⟨h1, h2⟩ := store_content (p := p') (d := d) (by omega)
  refine ⟨?_, ?_, ?_, ?_, ?_, ?_⟩
  · have : (p'.store d).countInBuffer = p'.bufferOffset + d.length := by
      show p'.countInBuffer = _; omega
    rw [this, h1, ← List.append_assoc, ← hc]
    rfl
  · rw [h2]; show p'.countInBuffer ≤ _; omega
  · show p'.bufferOffset ≤ p'.countInBuffer; omega
  · show p'.position = _; rw [List.length_append]; omega
  · show k = p'.countInBuffer - p'.bufferOffset; omega
  · intro h; rw [show (p'.store d).isFirstCall = p'.isFirstCall from rfl, hf] at h; cases h

theorem backUp_open {p : PythonOutputStream (σ × Bytes)} {c : Bytes} {last : Nat}
    (ho : Open p c last) (hs : p.status = none) (n : Int) :
    (p.backUp n).status = none ∧ (p.backUp n).adapter = p.adapter ∧
      Open (p.backUp n) (c.take (c.length - min n.toNat last)) (last - min n.toNat last) := by
  obtain ⟨h1, h2, h3, h4, h5, h6⟩ := ho
  unfold PythonOutputStream.backUp
  by_cases hz : (p.status.isSome || decide (n < 1) || decide (p.countInBuffer = 0)) = true
  · rw [if_pos hz]
    simp only [hs, Option.isSome_none, Bool.false_or, Bool.or_eq_true, decide_eq_true_eq] at hz
    have h0 : min n.toNat last = 0 := by omega
    rw [h0, Nat.sub_zero, Nat.sub_zero, List.take_length]
    exact ⟨hs, rfl, h1, h2, h3, h4, h5, h6⟩
  · rw [if_neg hz]
    simp only [hs, Option.isSome_none, Bool.false_or, Bool.or_eq_true, decide_eq_true_eq,
      not_or] at hz
    rw [← h5]
    obtain ⟨a, ha⟩ : ∃ a, a = min n.toNat last := ⟨_, rfl⟩
    rw [← ha]
    have hlen := congrArg List.length h1
    rw [List.length_append, List.length_take] at hlen
    refine ⟨hs, rfl, ?_, ?_, ?_, ?_, ?_, ?_⟩
    · simp only
      have hi : c.length - a = p.adapter.2.length + (p.countInBuffer - a) := by omega
      rw [hi, ← h1, List.take_length_add_append, List.take_take,
        Nat.min_eq_left (Nat.sub_le _ _)]
    · simp only; omega
    · simp only; omega
    · simp only [List.length_take]; omega
    · simp only; omega
    · intro hf; exact absurd (h6 hf).1 hz.2

theorem flush_spec (h : Honest snk) (p : PythonOutputStream (σ × Bytes)) :
    ∀ (fuel : Nat) (s : σ × Bytes) (written : Nat) {s' r},
    flush (recordedSink snk) p fuel s written = some (s', r) →
      p.countInBuffer ≤ p.buffer.length →
      ∃ m, s'.2 = s.2 ++ ((p.buffer.take p.countInBuffer).drop written).take m ∧
        (r = .ok () → p.countInBuffer ≤ written + m) := by
  intro fuel
  induction fuel with
  | zero => intro s written s' r hr; cases hr
  | succ fuel ih =>
    intro s written s' r hr hle
    unfold flush at hr
    by_cases hw : written < p.countInBuffer
    · rw [if_pos hw] at hr
      obtain ⟨data, hdata⟩ : ∃ d, d = (p.buffer.drop written).take (p.countInBuffer - written) :=
        ⟨_, rfl⟩
      have hdata' : data = (p.buffer.take p.countInBuffer).drop written := by
        rw [hdata, List.drop_take]
      rw [← hdata] at hr
      cases hx : (recordedSink snk).write s data with
      | mk t x =>
        rw [hx] at hr
        cases x with
        | error e =>
          cases hr
          refine ⟨0, by rw [recorded_error hx, List.take_zero, List.append_nil], ?_⟩
          intro h; cases h
        | ok n =>
          simp only at hr
          obtain ⟨m, hm, hm'⟩ := ih t _ hr hle
          have hh := recorded_honest h s data n (by rw [hx])
          refine ⟨n.toNat + m, ?_, fun hok => by have := hm' hok; omega⟩
          rw [hm, recorded_ok hx, hdata', List.append_assoc, List.take_add, List.drop_drop]
    · rw [if_neg hw] at hr
      cases hr
      exact ⟨0, by rw [List.take_zero, List.append_nil], fun _ => by omega⟩

/-- What holds after a history in which closing has not failed. -/
structure OutputInv (u : OutputUser σ) : Prop where
  isOpen : u.stream.status = none → Open u.stream u.committed u.last
  done : ∀ e, u.stream.status = some e → u.last = 0 ∧
    ∃ k ≤ u.stream.buffer.length, u.written = u.committed.take (u.committed.length - k)

theorem written_prefix {u : OutputUser σ} (hi : OutputInv u) :
    ∃ k ≤ u.stream.buffer.length, u.written = u.committed.take (u.committed.length - k) := by
  cases hs : u.stream.status with
  | some e => exact (hi.done e hs).2
  | none =>
    have ho := hi.isOpen hs
    have hl := congrArg List.length ho.content
    rw [List.length_append, List.length_take] at hl
    have := ho.count
    refine ⟨u.stream.countInBuffer, this, ?_⟩
    show u.stream.adapter.2 = _
    have hc := ho.content
    have : u.committed.length - u.stream.countInBuffer = u.stream.adapter.2.length := by omega
    rw [this, ← hc, List.take_left]

theorem close_spec (h : Honest snk) {p : PythonOutputStream (σ × Bytes)} {c : Bytes} {last : Nat}
    (ho : Open p c last) (hs : p.status = none) {fuel : Nat} {p' : PythonOutputStream (σ × Bytes)}
    {r : StatusOr Unit} (hr : p.close (recordedSink snk) fuel = some (p', r)) :
    p'.adapter.2 <+: c ∧ (r = .ok () → p'.adapter.2 = c ∧ p'.status ≠ none) := by
  have hc := ho.content
  unfold PythonOutputStream.close at hr
  rw [hs] at hr
  simp only at hr
  cases hf : flush (recordedSink snk) p fuel p.adapter 0 with
  | none => rw [hf] at hr; cases hr
  | some q =>
    obtain ⟨s, x⟩ := q
    obtain ⟨m, hm, hm'⟩ := flush_spec h p fuel _ _ hf ho.count
    rw [List.drop_zero] at hm
    have hpre : s.2 <+: c := by
      rw [hm, ← hc]
      exact (List.prefix_append_right_inj _).mpr (List.take_prefix _ _)
    rw [hf] at hr
    cases x with
    | error e => cases hr; exact ⟨hpre, by intro h; cases h⟩
    | ok y =>
      have hall : s.2 = c := by
        rw [hm, ← hc]
        congr 1
        apply List.take_of_length_le
        rw [List.length_take]
        have := hm' rfl
        omega
      simp only at hr
      cases hcl : (recordedSink snk).close s with
      | mk t z =>
        have ht : t.2 = s.2 := by
          simp only [recordedSink, Prod.mk.injEq] at hcl
          rw [← hcl.1]
        rw [hcl] at hr
        cases z with
        | error e =>
          cases hr
          exact ⟨by simp only; rw [ht]; exact hpre, by intro h; cases h⟩
        | ok _ =>
          cases hr
          exact ⟨by simp only; rw [ht]; exact hpre, fun _ => ⟨by simp only; rw [ht, hall], by simp⟩⟩

theorem close_buffer {p p' : PythonOutputStream (σ × Bytes)} {fuel : Nat} {r : StatusOr Unit}
    (hr : p.close (recordedSink snk) fuel = some (p', r)) : p'.buffer = p.buffer := by
  unfold PythonOutputStream.close at hr
  cases hs : p.status with
  | some st => rw [hs] at hr; cases hr; rfl
  | none =>
    rw [hs] at hr
    simp only at hr
    cases hf : flush (recordedSink snk) p fuel p.adapter 0 with
    | none => rw [hf] at hr; cases hr
    | some q =>
      obtain ⟨s, x⟩ := q
      rw [hf] at hr
      cases x with
      | error e => cases hr; rfl
      | ok y =>
        simp only at hr
        cases hcl : (recordedSink snk).close s with
        | mk t z =>
          rw [hcl] at hr
          cases z <;> (cases hr; rfl)

theorem closeFailed_mono {u u' : OutputUser σ} {o : OutputOp} (hr : u.op snk o = some u')
    (hf : u'.closeFailed = false) : u.closeFailed = false := by
  cases o with
  | next fill =>
    simp only [OutputUser.op] at hr
    cases hn : u.stream.next (recordedSink snk) with
    | mk p x => rw [hn] at hr; cases x <;> (cases hr; exact hf)
  | backUp n => simp only [OutputUser.op] at hr; cases hr; exact hf
  | close fuel =>
    simp only [OutputUser.op] at hr
    cases hc : u.stream.close (recordedSink snk) fuel with
    | none => rw [hc] at hr; cases hr
    | some q =>
      obtain ⟨p, x⟩ := q
      rw [hc] at hr
      cases x with
      | ok _ => cases hr; exact hf
      | error e => cases hr; cases hf

/-- One operation keeps the invariant. -/
theorem output_op (h : Honest snk) {u u' : OutputUser σ} {o : OutputOp} (hi : OutputInv u)
    (hr : u.op snk o = some u') (hf : u'.closeFailed = false) : OutputInv u' := by
  cases o with
  | next fill =>
    simp only [OutputUser.op] at hr
    cases hn : u.stream.next (recordedSink snk) with
    | mk p x =>
      rw [hn] at hr
      cases hs : u.stream.status with
      | some st =>
        simp only [PythonOutputStream.next, hs] at hn
        cases hn
        cases hr
        exact ⟨fun h0 => absurd h0 (by simp [hs]), fun e he => ⟨rfl, (hi.done e he).2⟩⟩
      | none =>
        have ho := hi.isOpen hs
        cases x with
        | ok k =>
          cases hr
          obtain ⟨a1, a2, a3, a4, a5, a6, a7⟩ := next_open h ho hs hn
          have := store_open a3 a4 a5 a6 a7 (exactly_length k (fill k))
          exact ⟨fun _ => this, fun e he => absurd he (by
            show p.status ≠ some e
            rw [a1]; simp)⟩
        | error e =>
          cases hr
          obtain ⟨a1, a2, a3, a4⟩ := next_failed hs hn
          refine ⟨fun h0 => absurd h0 (by simp [a1]), fun e' _ => ⟨rfl, ?_⟩⟩
          obtain ⟨k, hk, hw⟩ := written_prefix hi
          exact ⟨k, by rw [a3]; exact hk, by
            show p.adapter.2 = _
            rw [a2]; exact hw⟩
  | backUp n =>
    simp only [OutputUser.op] at hr
    cases hr
    cases hs : u.stream.status with
    | none =>
      obtain ⟨a1, a2, a3⟩ := backUp_open (hi.isOpen hs) hs n
      exact ⟨fun _ => a3, fun e he => absurd he (by simp [a1])⟩
    | some st =>
      have hsame : u.stream.backUp n = u.stream := by simp [PythonOutputStream.backUp, hs]
      obtain ⟨b1, b2⟩ := hi.done st hs
      rw [hsame, b1]
      refine ⟨fun h0 => absurd h0 (by simp [hs]), fun e he => ⟨by simp, ?_⟩⟩
      obtain ⟨k, hk, hw⟩ := b2
      refine ⟨k, hk, ?_⟩
      simp only [Nat.min_zero, Nat.sub_zero, List.take_length]
      exact hw
  | close fuel =>
    simp only [OutputUser.op] at hr
    cases hc : u.stream.close (recordedSink snk) fuel with
    | none => rw [hc] at hr; cases hr
    | some q =>
      obtain ⟨p, x⟩ := q
      rw [hc] at hr
      cases x with
      | error e => cases hr; cases hf
      | ok y =>
        cases hr
        cases hs : u.stream.status with
        | some st => simp [PythonOutputStream.close, hs] at hc
        | none =>
          obtain ⟨-, a2⟩ := close_spec h (hi.isOpen hs) hs hc
          obtain ⟨b1, b2⟩ := a2 rfl
          refine ⟨fun h0 => absurd h0 b2, fun e _ => ⟨rfl, 0, Nat.zero_le _, ?_⟩⟩
          show p.adapter.2 = _
          rw [b1]; simp

theorem output_history (h : Honest snk) : ∀ (os : List OutputOp) {u u' : OutputUser σ},
    OutputInv u → u.history snk os = some u' → u'.closeFailed = false → OutputInv u' := by
  have mono : ∀ (os : List OutputOp) {u u' : OutputUser σ}, u.history snk os = some u' →
      u'.closeFailed = false → u.closeFailed = false := by
    intro os
    induction os with
    | nil => intro u u' hh hf; cases hh; exact hf
    | cons o os ih =>
      intro u u' hh hf
      simp only [OutputUser.history] at hh
      cases ho : u.op snk o with
      | none => rw [ho] at hh; cases hh
      | some v => rw [ho] at hh; exact closeFailed_mono ho (ih hh hf)
  intro os
  induction os with
  | nil => intro u u' hi hh _; cases hh; exact hi
  | cons o os ih =>
    intro u u' hi hh hf
    simp only [OutputUser.history] at hh
    cases ho : u.op snk o with
    | none => rw [ho] at hh; cases hh
    | some v =>
      rw [ho] at hh
      exact ih (output_op h hi ho (mono os hh hf)) hh hf

theorem start_inv (s : σ) (buffer : Bytes) : OutputInv (OutputUser.start s buffer) :=
  ⟨fun _ => open_new s buffer, fun _ he => by cases he⟩

/-- C56.  After any history in which closing has not failed, the Python object has accepted the bytes
committed so far, in order and once each, but for at most one buffer at the end. -/
theorem C56_in_order (h : Honest snk) {s : σ} {buffer : Bytes} {os : List OutputOp}
    {u : OutputUser σ} (hu : (OutputUser.start s buffer).history snk os = some u)
    (hf : u.closeFailed = false) :
    ∃ held, u.committed = u.written ++ held ∧ held.length ≤ u.stream.buffer.length := by
  obtain ⟨k, hk, hw⟩ := written_prefix (output_history h os (start_inv s buffer) hu hf)
  refine ⟨u.committed.drop (u.committed.length - k), ?_, ?_⟩
  · rw [hw, List.take_append_drop]
  · rw [List.length_drop]; omega

/-- C56.  As long as nothing has failed and the stream is not closed, what the Python object has not
accepted is what is in the buffer, and the position is the number of bytes committed. -/
theorem C56_open (h : Honest snk) {s : σ} {buffer : Bytes} {os : List OutputOp}
    {u : OutputUser σ} (hu : (OutputUser.start s buffer).history snk os = some u)
    (hf : u.closeFailed = false) (hs : u.stream.status = none) :
    u.committed = u.written ++ u.stream.buffer.take u.stream.countInBuffer ∧
      u.stream.position = u.committed.length := by
  have ho := (output_history h os (start_inv s buffer) hu hf).isOpen hs
  exact ⟨ho.content.symm, ho.position⟩

/-- C56.  When closing succeeds, the Python object has accepted exactly the bytes committed. -/
theorem C56_close (h : Honest snk) {s : σ} {buffer : Bytes} {os : List OutputOp}
    {u : OutputUser σ} (hu : (OutputUser.start s buffer).history snk os = some u)
    (hf : u.closeFailed = false) {fuel : Nat} {p : PythonOutputStream (σ × Bytes)}
    (hc : u.stream.close (recordedSink snk) fuel = some (p, .ok ())) :
    p.adapter.2 = u.committed := by
  have hi := output_history h os (start_inv s buffer) hu hf
  cases hs : u.stream.status with
  | some st => simp [PythonOutputStream.close, hs] at hc
  | none => exact ((close_spec h (hi.isOpen hs) hs hc).2 rfl).1

/-- C56.  When closing fails for the first time, the Python object has accepted the bytes committed, in
order, as far as it got. -/
theorem C56_close_failed (h : Honest snk) {s : σ} {buffer : Bytes} {os : List OutputOp}
    {u : OutputUser σ} (hu : (OutputUser.start s buffer).history snk os = some u)
    (hf : u.closeFailed = false) {fuel : Nat} {p : PythonOutputStream (σ × Bytes)} {e : Status}
    (hc : u.stream.close (recordedSink snk) fuel = some (p, .error e)) :
    p.adapter.2 <+: u.committed := by
  have hi := output_history h os (start_inv s buffer) hu hf
  cases hs : u.stream.status with
  | some st =>
    simp only [PythonOutputStream.close, hs] at hc
    cases hc
    obtain ⟨k, -, hw⟩ := written_prefix hi
    exact ⟨u.committed.drop (u.committed.length - k), by
      rw [show u.stream.adapter.2 = _ from hw, List.take_append_drop]⟩
  | none => exact (close_spec h (hi.isOpen hs) hs hc).1

theorem sticky_aux {u u' : OutputUser σ} {e : Status} (hs : u.stream.status = some e)
    (hl : u.last = 0) : ∀ {os : List OutputOp}, u.history snk os = some u' →
      u'.stream = u.stream ∧ u'.committed = u.committed := by
  intro os
  induction os generalizing u with
  | nil => intro hh; cases hh; exact ⟨rfl, rfl⟩
  | cons o os ih =>
    intro hh
    simp only [OutputUser.history] at hh
    cases ho : u.op snk o with
    | none => rw [ho] at hh; cases hh
    | some v =>
      rw [ho] at hh
      have hv : v.stream = u.stream ∧ v.committed = u.committed ∧ v.last = 0 := by
        cases o with
        | next fill =>
          simp only [OutputUser.op, PythonOutputStream.next, hs] at ho
          cases ho; exact ⟨rfl, rfl, rfl⟩
        | backUp n =>
          simp only [OutputUser.op, PythonOutputStream.backUp, hs, hl] at ho
          cases ho; simp
        | close fuel =>
          simp only [OutputUser.op, PythonOutputStream.close, hs] at ho
          cases ho; exact ⟨rfl, rfl, rfl⟩
      obtain ⟨c1, c2⟩ := ih (by rw [hv.1]; exact hs) hv.2.2 hh
      exact ⟨c1.trans hv.1, c2.trans hv.2.1⟩

/-- An operation after which a status other than OK is kept leaves nothing to back up. -/
theorem last_of_status {u u' : OutputUser σ} {o : OutputOp}
    (hl : u.stream.status ≠ none → u.last = 0) (ho : u.op snk o = some u') :
    u'.stream.status ≠ none → u'.last = 0 := by
  intro hne
  cases o with
  | next fill =>
    simp only [OutputUser.op] at ho
    cases hn : u.stream.next (recordedSink snk) with
    | mk p x =>
      rw [hn] at ho
      cases x with
      | error e => cases ho; rfl
      | ok k =>
        cases ho
        refine absurd ?_ hne
        show p.status = none
        cases hs : u.stream.status with
        | some e => simp [PythonOutputStream.next, hs] at hn
        | none =>
          simp only [PythonOutputStream.next, hs] at hn
          by_cases hf : u.stream.isFirstCall = true
          · rw [if_pos hf] at hn; cases hn; exact hs
          · rw [if_neg hf] at hn
            by_cases hb : u.stream.countInBuffer < u.stream.buffer.length
            · rw [if_pos hb] at hn; cases hn; exact hs
            · rw [if_neg hb] at hn
              cases hw : (recordedSink snk).write u.stream.adapter u.stream.buffer with
              | mk s y =>
                rw [hw] at hn
                cases y with
                | error e => simp at hn
                | ok n => simp only [Prod.mk.injEq] at hn; rw [← hn.1]; exact hs
  | backUp n =>
    simp only [OutputUser.op] at ho
    cases ho
    have : (u.stream.backUp n).status = u.stream.status := by
      unfold PythonOutputStream.backUp
      split <;> rfl
    simp only at hne ⊢
    rw [this] at hne
    rw [hl hne]; simp
  | close fuel =>
    simp only [OutputUser.op] at ho
    cases hc : u.stream.close (recordedSink snk) fuel with
    | none => rw [hc] at ho; cases ho
    | some q =>
      obtain ⟨p, x⟩ := q
      rw [hc] at ho
      cases x <;> (cases ho; rfl)

/-- C56.  Once a status other than OK is kept (after a failed write in `Next`, or when the stream is
closed), no operation writes or commits anything any more. -/
theorem C56_sticky {s : σ} {buffer : Bytes} {os os' : List OutputOp} {u u' : OutputUser σ}
    (hu : (OutputUser.start s buffer).history snk os = some u) (hs : u.stream.status ≠ none)
    (hu' : u.history snk os' = some u') :
    u'.written = u.written ∧ u'.committed = u.committed := by
  have hl : ∀ (os : List OutputOp) {v v' : OutputUser σ},
      (v.stream.status ≠ none → v.last = 0) → v.history snk os = some v' →
      v'.stream.status ≠ none → v'.last = 0 := by
    intro os
    induction os with
    | nil => intro v v' h hh; cases hh; exact h
    | cons o os ih =>
      intro v v' h hh
      simp only [OutputUser.history] at hh
      cases ho : v.op snk o with
      | none => rw [ho] at hh; cases hh
      | some w => rw [ho] at hh; exact ih (last_of_status h ho) hh
  have h0 := hl os (v := OutputUser.start s buffer) (fun _ => rfl) hu hs
  cases hst : u.stream.status with
  | none => exact absurd hst hs
  | some e =>
    obtain ⟨a, b⟩ := sticky_aux hst h0 hu'
    exact ⟨by unfold OutputUser.written; rw [a], b⟩

/-- C56.  `Close` returns if every write of the Python object fails or accepts something. -/
theorem C56_close_terminates (hpos : ∀ s d n, d ≠ [] → (snk.write s d).2 = .ok n → 0 < n)
    {p : PythonOutputStream σ} (hle : p.countInBuffer ≤ p.buffer.length) :
    ∃ q, p.close snk (p.countInBuffer + 1) = some q := by
  have key : ∀ (fuel : Nat) (s : σ) (written : Nat), p.countInBuffer - written < fuel →
      ∃ q, flush snk p fuel s written = some q := by
    intro fuel
    induction fuel with
    | zero => intro s w h; omega
    | succ fuel ih =>
      intro s w h
      unfold flush
      by_cases hw : w < p.countInBuffer
      · rw [if_pos hw]
        cases hx : snk.write s ((p.buffer.drop w).take (p.countInBuffer - w)) with
        | mk t x =>
          cases x with
          | error e => exact ⟨_, rfl⟩
          | ok n =>
            have hne : (p.buffer.drop w).take (p.countInBuffer - w) ≠ [] := by
              intro h0
              have := congrArg List.length h0
              rw [List.length_take, List.length_drop, List.length_nil] at this
              omega
            have hn := hpos s _ n hne (by rw [hx])
            exact ih t _ (by omega)
      · rw [if_neg hw]; exact ⟨_, rfl⟩
  unfold PythonOutputStream.close
  cases hs : p.status with
  | some st => exact ⟨_, rfl⟩
  | none =>
    obtain ⟨⟨s, x⟩, hq⟩ := key (p.countInBuffer + 1) p.adapter 0 (by omega)
    simp only [hq]
    cases x with
    | error e => exact ⟨_, rfl⟩
    | ok y =>
      cases hc : snk.close s with
      | mk t z => cases z <;> exact ⟨_, by simp only [hc]; rfl⟩

/-- C56, violation.  `Close` never returns if there is something in the buffer and the Python object
accepts nothing (a non-blocking file that is not ready). -/
theorem C56_close_hangs (hzero : ∀ s d, (snk.write s d).2 = .ok 0) {p : PythonOutputStream σ}
    (hs : p.status = none) (hc : 0 < p.countInBuffer) (fuel : Nat) : p.close snk fuel = none := by
  have key : ∀ (fuel : Nat) (s : σ), flush snk p fuel s 0 = none := by
    intro fuel
    induction fuel with
    | zero => intro s; rfl
    | succ fuel ih =>
      intro s
      unfold flush
      rw [if_pos hc]
      have hz := hzero s ((p.buffer.drop 0).take (p.countInBuffer - 0))
      cases hx : snk.write s ((p.buffer.drop 0).take (p.countInBuffer - 0)) with
      | mk t x =>
        rw [hx] at hz
        simp only at hz
        subst hz
        exact ih t
  unfold PythonOutputStream.close
  rw [hs]
  simp only [key]

/-! ## The adapter -/

/-- The bytes handed over to a stream: accepted by the Python object, or in the buffer. -/
def committedOf (p : PythonOutputStream (σ × Bytes)) : Bytes :=
  p.adapter.2 ++ p.buffer.take p.countInBuffer

/-- What holds of a stream as long as it is used through its interface. -/
def OutputOk (p : PythonOutputStream (σ × Bytes)) : Prop :=
  p.status = none → ∃ last, Open p (committedOf p) last

/-- C56.  The Python output stream meets the contract of a C++ output stream; when it was closed
successfully, the Python object has accepted exactly the bytes handed over. -/
theorem C56_lawful (h : Honest snk) (fuel : Nat) :
    LawfulOut (PythonOutputStream.stream (recordedSink snk) fuel)
      (fun p P => OutputOk p ∧ committedOf p = P) (fun p P => OutputOk p ∧ committedOf p = P)
      (fun p P => p.adapter.2 = P) := by
  constructor
  · rintro p P p' k d ⟨hok, rfl⟩ hn hd
    have hx : p.next (recordedSink snk) = (p', .ok k) := Option.some.inj hn
    have hs : p.status = none := by
      cases hs : p.status with
      | none => rfl
      | some e => simp [PythonOutputStream.next, hs] at hx
    obtain ⟨last, ho⟩ := hok hs
    obtain ⟨a1, a2, a3, a4, a5, a6, a7⟩ := next_open h ho hs hx
    have hst : p'.store d = p'.store (d ++ p'.buffer.drop (p'.bufferOffset + d.length)) := by
      unfold PythonOutputStream.store
      congr 1
      rw [List.length_append, List.length_drop,
        List.drop_of_length_le (i := p'.bufferOffset + (d.length + _)) (by omega),
        List.append_nil, List.append_assoc]
    have hopen := store_open (d := d ++ p'.buffer.drop (p'.bufferOffset + d.length)) a3 a4 a5 a6 a7
      (by rw [List.length_append, List.length_drop]; omega)
    rw [← hst] at hopen
    have hss : (p'.store d).status = none := a1
    have fin : ∀ (q : PythonOutputStream (σ × Bytes)) (l : Nat),
        Open q (committedOf p ++ d) l → OutputOk q ∧ committedOf q = committedOf p ++ d := by
      intro q l hq
      have hc : committedOf q = committedOf p ++ d := hq.content
      exact ⟨fun _ => ⟨l, by rw [hc]; exact hq⟩, hc⟩
    unfold OutputStreamAdapter.put
    by_cases hlt : d.length < k
    · rw [if_pos hlt]
      obtain ⟨b1, b2, b3⟩ := backUp_open hopen hss ((k - d.length : Nat) : Int)
      apply fin _ (k - min ((k - d.length : Nat) : Int).toNat k)
      rw [Int.toNat_natCast, Nat.min_eq_left (Nat.sub_le _ _)] at b3 ⊢
      have hlen : (committedOf p ++ (d ++ p'.buffer.drop (p'.bufferOffset + d.length))).length -
          (k - d.length) = (committedOf p ++ d).length := by
        simp only [List.length_append, List.length_drop]; omega
      rw [hlen, ← List.append_assoc, List.take_left] at b3
      exact b3
    · rw [if_neg hlt]
      have hnil : p'.buffer.drop (p'.bufferOffset + d.length) = [] :=
        List.drop_of_length_le (by omega)
      rw [hnil, List.append_nil] at hopen
      exact fin _ _ hopen
  · rintro p P p' e ⟨hok, rfl⟩ hn
    have hx : p.next (recordedSink snk) = (p', .error e) := Option.some.inj hn
    cases hs : p.status with
    | some st =>
      have : p.next (recordedSink snk) = (p, .error st) := by simp [PythonOutputStream.next, hs]
      rw [this] at hx
      cases hx
      exact ⟨hok, rfl⟩
    | none =>
      obtain ⟨a1, a2, a3, a4⟩ := next_failed hs hx
      exact ⟨fun h0 => absurd h0 (by simp [a1]), by simp only [committedOf, a2, a3, a4]⟩
  · rintro p P p' ⟨hok, rfl⟩ hc
    have hc' : p.close (recordedSink snk) fuel = some (p', .ok ()) := hc
    have hs : p.status = none := by
      cases hs : p.status with
      | none => rfl
      | some e => simp [PythonOutputStream.close, hs] at hc'
    obtain ⟨last, ho⟩ := hok hs
    exact ((close_spec h ho hs hc').2 rfl).1

variable {ο : Type} {st : COutputStream ο} {inv bad done : ο → Bytes → Prop}

theorem castInt_small {n : Nat} (h : n < 2 ^ 31) : castInt n = n := by
  unfold castInt
  rw [Nat.mod_eq_of_lt (by omega), if_pos h]

theorem adapter_write_spec (h : LawfulOut st inv bad done) {data : Bytes}
    (hmax : data.length < 2 ^ 31) : ∀ (fuel : Nat) (s : ο) (P : Bytes) (written : Nat), inv s P →
    written ≤ data.length → ∀ {s' r}, OutputStreamAdapter.write st data fuel s written = some (s', r) →
      match r with
      | .returned (.ok n) => n = data.length ∧ inv s' (P ++ data.drop written)
      | .returned (.error _) => ∃ m, bad s' (P ++ (data.drop written).take m)
      | .undefined => False := by
  intro fuel
  induction fuel with
  | zero => intro s P w _ _ s' r hr; cases hr
  | succ fuel ih =>
    intro s P w hi hle s' r hr
    unfold OutputStreamAdapter.write at hr
    by_cases hw : w < data.length
    · rw [if_pos hw] at hr
      cases hx : st.next s with
      | none => rw [hx] at hr; cases hr
      | some q =>
        obtain ⟨t, x⟩ := q
        rw [hx] at hr
        cases x with
        | error e =>
          cases hr
          exact ⟨0, by rw [List.take_zero, List.append_nil]; exact h.failed s P _ e hi hx⟩
        | ok k =>
          simp only [castInt_small (show data.length - w < 2 ^ 31 by omega)] at hr
          obtain ⟨c, hc⟩ : ∃ c, c = min k (data.length - w) := ⟨_, rfl⟩
          have hci : min (k : Int) ((data.length - w : Nat) : Int) = (c : Int) := by omega
          rw [hci, if_neg (by omega), Int.toNat_natCast] at hr
          have hdl : ((data.drop w).take c).length = c := by
            rw [List.length_take, List.length_drop]; omega
          have a1 := h.put s P t k ((data.drop w).take c) hi hx (by rw [hdl]; omega)
          have b2 := ih _ _ (w + c) a1 (by omega) hr
          cases r with
          | undefined => exact b2
          | returned y =>
            cases y with
            | ok n =>
              refine ⟨b2.1, ?_⟩
              have := b2.2
              rwa [List.append_assoc, ← List.drop_drop, List.take_append_drop] at this
            | error e =>
              obtain ⟨m, hm⟩ := b2
              refine ⟨c + m, ?_⟩
              rwa [List.append_assoc, ← List.drop_drop, ← List.take_add] at hm
    · rw [if_neg hw] at hr
      cases hr
      refine ⟨by omega, ?_⟩
      rw [List.drop_of_length_le (by omega), List.append_nil]
      exact hi

/-- C56.  `OutputStreamAdapter::Write` of less than 2 GiB hands over all the data to the stream, or
fails, having handed over some bytes at the start of the data. -/
theorem C56_adapter_write (h : LawfulOut st inv bad done) {data P : Bytes}
    (hmax : data.length < 2 ^ 31) {fuel : Nat} {s s' : ο} (hi : inv s P) {r : Ran (StatusOr Nat)}
    (hr : OutputStreamAdapter.write st data fuel s 0 = some (s', r)) :
    match r with
      | .returned (.ok n) => n = data.length ∧ inv s' (P ++ data)
      | .returned (.error _) => ∃ d, d <+: data ∧ bad s' (P ++ d)
      | .undefined => False := by
  have a2 := adapter_write_spec h hmax fuel s P 0 hi (Nat.zero_le _) hr
  rw [List.drop_zero] at a2
  cases r with
  | undefined => exact a2
  | returned y =>
    cases y with
    | ok n => exact a2
    | error e =>
      obtain ⟨m, hm⟩ := a2
      exact ⟨data.take m, List.take_prefix _ _, hm⟩

/-- C56, violation.  Writing between 2 and 4 GiB in one call copies a negative number of bytes, which
is undefined behaviour in C++. -/
theorem C56_write_2GiB_undefined {data : Bytes} (h1 : 2 ^ 31 ≤ data.length)
    (h2 : data.length < 2 ^ 32) {s s' : ο} {k : Nat} (hn : st.next s = some (s', .ok k)) (fuel : Nat) :
    OutputStreamAdapter.write st data (fuel + 1) s 0 = some (s', .undefined) := by
  have hc : castInt (data.length - 0) = (data.length : Int) - 2 ^ 32 := by
    unfold castInt
    rw [Nat.sub_zero, Nat.mod_eq_of_lt h2, if_neg (by omega)]
  unfold OutputStreamAdapter.write
  rw [if_pos (by omega), hn]
  simp only [hc]
  rw [if_pos (by omega)]

/-! ## Examples -/

section Examples

/-- A file that accepts at most two bytes at a time and fails once, when it holds `n` bytes or more.
The state is what it holds and whether it has failed. -/
def twos (n : Nat) : CSink (Bytes × Bool) where
  write s d :=
    if n ≤ s.1.length ∧ s.2 = false then ((s.1, true), .error ⟨.unknown, false⟩)
    else ((s.1 ++ d.take 2, s.2), .ok (min 2 d.length : Nat))
  close s := (s, .ok ())

theorem twos_honest (n : Nat) : Honest (twos n) := by
  intro s d m hm
  simp only [twos] at hm
  split at hm
  · cases hm
  · simp only [Except.ok.injEq] at hm
    omega

/-- A history with partial writes, backing up and closing. -/
def someOps : List OutputOp :=
  [.next (fun _ => [1, 2, 3, 4]), .next (fun _ => [5, 6, 7, 8]), .backUp 1,
   .next (fun _ => [9, 10]), .next (fun _ => [11, 12, 13]), .close 9]

example : ((OutputUser.start ([], false) [0, 0, 0, 0]).history (twos 100) someOps).map
    (fun u => (u.written, u.committed, u.closeFailed)) =
    some ([1, 2, 3, 4, 5, 9, 11, 12], [1, 2, 3, 4, 5, 9, 11, 12], false) := by
  decide +kernel

/-- C56, violation.  A `Close` that fails midway and is tried again, with success, writes bytes
twice. -/
theorem C56_close_retried_duplicates :
    ((OutputUser.start ([], false) [0, 0, 0, 0]).history (twos 2)
      [.next (fun _ => [1, 2, 3, 4]), .close 9, .close 9]).map
      (fun u => (u.written, u.committed, u.stream.status)) =
      some ([1, 2, 1, 2, 3, 4], [1, 2, 3, 4], some ⟨.failedPrecondition, false⟩) := by
  decide +kernel

/-- A file that is never ready. -/
def stuck : CSink Unit where
  write _ _ := ((), .ok 0)
  close _ := ((), .ok ())

example (fuel : Nat) :
    ((PythonOutputStream.new () [0, 0]).next stuck).1.close stuck fuel = none :=
  C56_close_hangs (fun _ _ => rfl) rfl (by decide) fuel

/-- Writing five bytes through a buffer of four. -/
example : (OutputStreamAdapter.write (PythonOutputStream.stream (recordedSink (twos 100)) 9)
    [1, 2, 3, 4, 5] 9 (.new (([], false), []) [0, 0, 0, 0]) 0).map
    (fun q => committedOf q.1) = some [1, 2, 3, 4, 5] := by
  decide +kernel

end Examples
end Tink.Props
