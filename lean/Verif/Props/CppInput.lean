import Verif.Spec.CppStream

/-!
# C55: the Python-to-C++ input stream
-/

namespace Tink.Props
open Spec PythonInputStream

variable {σ ι : Type}

/-- What holds between a user's view and the stream, whatever happened before. -/
structure InputInv (u : InputUser (σ × Bytes)) : Prop where
  room : u.stream.bufferOffset + u.stream.countInBuffer ≤ u.stream.buffer.length
  backed : u.stream.countBackedUp ≤ u.stream.countInBuffer
  last : u.last = if u.stream.status = none then
    u.stream.countInBuffer - u.stream.countBackedUp else 0
  bytes : ∃ before, u.stream.adapter.2 = before ++ u.stream.view ∧ u.consumed = before ++
    u.stream.view.take (u.stream.countInBuffer - u.stream.countBackedUp)
  position : u.stream.position = u.consumed.length
  bad : u.stream.status ≠ none → u.stream.countBackedUp = 0

theorem view_length {p : PythonInputStream σ}
    (h : p.bufferOffset + p.countInBuffer ≤ p.buffer.length) : p.view.length = p.countInBuffer := by
  simp only [view, List.length_take, List.length_drop]; omega

theorem filled_view (p : PythonInputStream σ) (s : σ) (d : Bytes) : (p.filled s d).view = d := by
  simp [view, filled]

theorem again_view {p : PythonInputStream σ} (hb : p.countBackedUp ≤ p.countInBuffer) :
    p.again.view = p.view.drop (p.countInBuffer - p.countBackedUp) := by
  simp only [view, again, List.drop_take, List.drop_drop]
  congr 1
  omega

theorem inputInv_next (src : CSource σ) {u : InputUser (σ × Bytes)}
    (h : InputInv u) : InputInv (u.op (recordedC src) .next) := by
  obtain ⟨h1, h2, h3, ⟨before, h4, h5⟩, h6, h7⟩ := h
  cases hs : u.stream.status with
  | some st =>
    have hn : next (recordedC src) u.stream = (u.stream, .error st) := by
      simp [next, hs]
    unfold InputUser.op
    simp only [hn, got, List.append_nil, List.length_nil]
    exact ⟨h1, h2, by simp [hs], ⟨before, h4, h5⟩, h6, h7⟩
  | none =>
    by_cases hb : 0 < u.stream.countBackedUp
    · have hn : next (recordedC src) u.stream =
          (u.stream.again, .ok u.stream.again.view) := by
        simp [next, hs, hb]
      unfold InputUser.op
      simp only [hn, got]
      have hv := view_length h1
      have hav := again_view h2
      have hal : u.stream.again.view.length = u.stream.countBackedUp := by
        rw [hav, List.length_drop, hv]; omega
      refine ⟨?_, by simp [again], ?_, ⟨u.consumed, ?_, ?_⟩, ?_, by simp [again]⟩
      · simp only [again]; omega
      · have hst : u.stream.again.status = none := hs
        simp only [hal, hst, if_true]
        simp [again]
      · show u.stream.adapter.2 = _
        rw [h4, h5, hav, List.append_assoc, List.take_append_drop]
      · congr 1
        rw [List.take_of_length_le]
        rw [hal]; simp [again]
      · show u.stream.position + _ = _
        rw [h6, List.length_append, hal]
        simp
    · have hb0 : u.stream.countBackedUp = 0 := by omega
      have hcons : u.consumed = u.stream.adapter.2 := by
        rw [h4, h5, hb0]
        congr 1
        exact List.take_of_length_le (by rw [view_length h1]; omega)
      cases hr : (src.read u.stream.adapter.1 u.stream.buffer.length) with
      | mk s res =>
        cases res with
        | error st =>
          have hn : next (recordedC src) u.stream =
              ({ u.stream with adapter := (s, u.stream.adapter.2), status := some (failure st) },
                .error (failure st)) := by
            simp [next, hs, hb, recordedC, hr, got]
          unfold InputUser.op
          simp only [hn, got, List.append_nil, List.length_nil]
          exact ⟨h1, h2, by simp, ⟨before, h4, h5⟩, h6, fun _ => hb0⟩
        | ok d =>
          have hn : next (recordedC src) u.stream =
              (u.stream.filled (s, u.stream.adapter.2 ++ d) d, .ok d) := by
            simp only [next, hs, if_neg hb, recordedC, hr, got, filled_view]
          unfold InputUser.op
          simp only [hn, got]
          refine ⟨by simp [filled], by simp [filled], by simp [filled, hs],
            ⟨u.consumed, ?_, ?_⟩, ?_, by simp [filled]⟩
          · rw [filled_view, hcons]; rfl
          · rw [filled_view]
            simp [filled]
          · show u.stream.position + _ = _
            rw [h6, List.length_append]
            simp

theorem inputInv_backUp (src : CSource σ) {u : InputUser (σ × Bytes)}
    (h : InputInv u) (count : Int) :
    InputInv (u.op (recordedC src) (.backUp count)) := by
  obtain ⟨h1, h2, h3, ⟨before, h4, h5⟩, h6, h7⟩ := h
  have hv := view_length h1
  have hnothing : u.last = 0 ∨ count.toNat = 0 →
      backUp u.stream count = u.stream →
      InputInv (u.op (recordedC src) (.backUp count)) := by
    intro h0 hn
    unfold InputUser.op
    have : min count.toNat u.last = 0 := by omega
    simp only [hn, this, Nat.sub_zero, List.take_length]
    exact ⟨h1, h2, h3, ⟨before, h4, h5⟩, h6, h7⟩
  cases hs : u.stream.status with
  | some st =>
    exact hnothing (.inl (by simp [h3, hs])) (by simp [backUp, hs])
  | none =>
    rw [hs] at h3
    simp only [if_true] at h3
    by_cases hc : count < 1
    · exact hnothing (.inr (by omega)) (by simp [backUp, hc])
    by_cases he : u.stream.countBackedUp = u.stream.countInBuffer
    · exact hnothing (.inl (by omega)) (by simp [backUp, he])
    have hlen : u.consumed.length = before.length +
        (u.stream.countInBuffer - u.stream.countBackedUp) := by
      rw [h5, List.length_append, List.length_take, hv]; omega
    unfold InputUser.op
    simp only [backUp, hs, hc, he, Option.isSome_none, Bool.false_or, decide_false,
      Bool.false_eq_true, if_false, h3]
    refine ⟨h1, ?_, ?_, ⟨before, h4, ?_⟩, ?_, by simp [hs]⟩
    · simp only; omega
    · simp only [hs, if_true]; omega
    · simp only
      rw [hlen, h5, List.take_append, List.take_of_length_le (by omega), List.take_take]
      refine congrArg (before ++ ·) ?_
      show List.take _ u.stream.view = List.take _ u.stream.view
      congr 1
      omega
    · simp only [List.length_take, h6, hlen]
      omega

theorem inputInv (src : CSource σ) (s : σ) (buffer : Bytes) (ops : List InputOp) :
    InputInv (InputUser.history (recordedC src) (new (s, []) buffer) ops) := by
  have : ∀ (ops : List InputOp) (u : InputUser (σ × Bytes)), InputInv u →
      InputInv (ops.foldl (InputUser.op (recordedC src)) u) := by
    intro ops
    induction ops with
    | nil => intro u h; exact h
    | cons o ops ih =>
      intro u h
      cases o with
      | next => exact ih _ (inputInv_next src h)
      | backUp c => exact ih _ (inputInv_backUp src h c)
  exact this ops _ ⟨by simp [new], by simp [new], by simp [new], ⟨[], by simp [new, view]⟩,
    by simp [new], by simp [new]⟩

/-- C55.  After any history of `Next` and `BackUp` calls, on any source: what the user has consumed
are the first bytes that the Python object delivered, in order; `Position` is their number. -/
theorem C55_prefix (src : CSource σ) (s : σ) (buffer : Bytes) (ops : List InputOp) :
    let u := InputUser.history (recordedC src) (new (s, []) buffer) ops
    u.consumed <+: u.stream.adapter.2 ∧ u.stream.position = u.consumed.length := by
  intro u
  obtain ⟨h1, h2, h3, ⟨before, h4, h5⟩, h6, h7⟩ := inputInv src s buffer ops
  refine ⟨?_, h6⟩
  rw [h4, h5]
  exact (List.prefix_append_right_inj _).mpr (List.take_prefix _ _)

/-- C55.  Nothing is lost: what is not consumed is what was backed up; if nothing was backed up
after the last `Next`, or the stream has ended or failed, all that was delivered is consumed. -/
theorem C55_complete (src : CSource σ) (s : σ) (buffer : Bytes) (ops : List InputOp) :
    let u := InputUser.history (recordedC src) (new (s, []) buffer) ops
    let v := InputUser.history (recordedC src) (new (s, []) buffer) (ops ++ [.next])
    v.consumed = v.stream.adapter.2 ∧ (u.stream.status ≠ none → u.consumed = u.stream.adapter.2) := by
  intro u v
  have all : ∀ (w : InputUser (σ × Bytes)), InputInv w →
      w.stream.countBackedUp = 0 → w.consumed = w.stream.adapter.2 := by
    rintro w ⟨h1, h2, h3, ⟨before, h4, h5⟩, h6, h7⟩ h0
    rw [h4, h5, h0]
    congr 1
    exact List.take_of_length_le (by rw [view_length h1]; omega)
  have hu := inputInv src s buffer ops
  have hv := inputInv src s buffer (ops ++ [.next])
  refine ⟨all v hv ?_, fun h => all u hu (hu.bad h)⟩
  have hstep : v = u.op (recordedC src) .next := by
    show InputUser.history _ _ _ = _
    unfold InputUser.history
    rw [List.foldl_append]
    rfl
  show v.stream.countBackedUp = 0
  rw [hstep]
  show (next (recordedC src) u.stream).1.countBackedUp = 0
  simp only [next]
  split
  · rename_i st hst
    exact hu.bad (by rw [hst]; simp)
  · split
    · rfl
    · rename_i hb
      split
      · show u.stream.countBackedUp = 0
        omega
      · rfl

/-- C55.  Once `Next` has reported a status other than OK, it reports the same status for ever, and
the Python object is not read any more. -/
theorem C55_sticky (src : CSource σ) (p : PythonInputStream σ) (st : Status)
    (h : (next src p).2 = .error st) (ops : List InputOp) :
    let u := InputUser.history src (next src p).1 ops
    u.stream = (next src p).1 ∧ (∀ r ∈ u.results, r = .error st) ∧ u.consumed = [] := by
  intro u
  have hst : (next src p).1.status = some st := by
    unfold next at h ⊢
    cases hs : p.status with
    | some st' => rw [hs] at h; cases h; exact hs
    | none =>
      rw [hs] at h
      simp only at h ⊢
      split at h
      · cases h
      · rename_i hb
        rw [if_neg hb]
        split at h
        · cases h; rfl
        · cases h
  have key : ∀ (ops : List InputOp) (u : InputUser σ),
      u.stream.status = some st → (∀ r ∈ u.results, r = .error st) → u.consumed = [] →
      (ops.foldl (InputUser.op src) u).stream = u.stream ∧
      (∀ r ∈ (ops.foldl (InputUser.op src) u).results, r = .error st) ∧
      (ops.foldl (InputUser.op src) u).consumed = [] := by
    intro ops
    induction ops with
    | nil => intro u h1 h2 h3; exact ⟨rfl, h2, h3⟩
    | cons o ops ih =>
      intro u h1 h2 h3
      have hstream : (u.op src o).stream = u.stream := by
        cases o with
        | next => simp [InputUser.op, next, h1]
        | backUp c => simp [InputUser.op, backUp, h1]
      have := ih (u.op src o) (by rw [hstream]; exact h1) ?_ ?_
      · rw [hstream] at this; exact this
      · cases o with
        | next =>
          intro r hr
          simp only [InputUser.op, next, h1, List.mem_append, List.mem_singleton] at hr
          rcases hr with hr | hr
          · exact h2 r hr
          · exact hr
        | backUp c => exact h2
      · cases o with
        | next => simp [InputUser.op, next, h1, h3, got]
        | backUp c => simp [InputUser.op, h3]
  exact key ops _ hst (by simp) rfl

/-! ## The content of a file -/

/-- A file-like object that delivers its content, seen through `FileObjectAdapter` and pybind. -/
theorem faithfulC {src : Source σ} {rest : σ → Bytes} {text : Exc → Bool} (h : Faithful src rest)
    (htext : ∀ s n e, (src.read s n).2 = .raised e → text e = false) :
    FaithfulC (pybindSource text src) rest := by
  constructor
  · intro s n d hd
    simp only [pybindSource, FileObjectAdapter.read] at hd ⊢
    cases hr : src.read s n with
    | mk s' r =>
      have h2 : (src.read s n).2 = r := by rw [hr]
      have h1 : (src.read s n).1 = s' := by rw [hr]
      cases r with
      | none =>
        rw [hr] at hd; cases hd
        rw [← h1]
        exact (h.noData s n (by simp [h2])).symm
      | blocking =>
        rw [hr] at hd; cases hd
        rw [← h1]
        exact (h.noData s n (by simp [h2])).symm
      | raised e => rw [hr] at hd; cases hd
      | data b =>
        rw [hr] at hd
        by_cases hc : (b.isEmpty && decide (0 < n)) = true
        · simp only [if_pos hc] at hd
          cases hd
        · simp only [if_neg hc, Except.ok.injEq] at hd ⊢
          subst hd
          rw [← h1]
          exact (h.data s n _ h2).1
  · intro s n e he
    simp only [pybindSource, FileObjectAdapter.read] at he ⊢
    cases hr : src.read s n with
    | mk s' r =>
      have h2 : (src.read s n).2 = r := by rw [hr]
      have h1 : (src.read s n).1 = s' := by rw [hr]
      cases r with
      | none => rw [hr] at he; cases he
      | blocking => rw [hr] at he; cases he
      | raised x =>
        rw [hr] at he
        simp only [Except.error.injEq] at he ⊢
        subst he
        refine ⟨by rw [← h1]; exact h.noData s n (by simp [h2]), ?_⟩
        intro _ hx
        simp [isEof, htext s n x h2] at hx
      | data b =>
        rw [hr] at he
        by_cases hc : (b.isEmpty && decide (0 < n)) = true
        · simp only [if_pos hc] at he ⊢
          simp only [Bool.and_eq_true, List.isEmpty_iff, decide_eq_true_eq] at hc
          obtain ⟨rfl, hn⟩ := hc
          obtain ⟨d1, d2, d3⟩ := h.data s n [] h2
          refine ⟨by rw [d1, ← h1]; rfl, fun _ _ => ?_⟩
          rcases d3 rfl with h0 | h0
          · omega
          · exact h0
        · simp only [if_neg hc] at he
          cases he

/-- The states that occur over a source that delivers `rest`. -/
structure InputOk (rest : σ → Bytes) (p : PythonInputStream σ) : Prop where
  room : p.bufferOffset + p.countInBuffer ≤ p.buffer.length
  backed : p.countBackedUp ≤ p.countInBuffer
  size : 0 < p.buffer.length
  bad : ∀ st, p.status = some st →
    p.countBackedUp = 0 ∧ (st.code = .outOfRange → rest p.adapter = [])

/-- What the stream still has to deliver: what was backed up, and what the source has. -/
def toCome (rest : σ → Bytes) (p : PythonInputStream σ) : Bytes :=
  p.view.drop (p.countInBuffer - p.countBackedUp) ++ rest p.adapter

theorem next_cases {src : CSource σ} {rest : σ → Bytes} (h : FaithfulC src rest)
    {p : PythonInputStream σ} (hp : InputOk rest p) :
    (∃ st, next src p = (p, .error st) ∧ p.status = some st) ∨
    (p.status = none ∧ 0 < p.countBackedUp ∧ next src p = (p.again, .ok p.again.view)) ∨
    (p.status = none ∧ p.countBackedUp = 0 ∧ ∃ s d, next src p = (p.filled s d, .ok d) ∧
      rest p.adapter = d ++ rest s) ∨
    (p.status = none ∧ p.countBackedUp = 0 ∧ ∃ s st, next src p =
        ({ p with adapter := s, status := some st }, .error st) ∧ rest s = rest p.adapter ∧
      (st.code = .outOfRange → rest p.adapter = [])) := by
  cases hs : p.status with
  | some st => exact .inl ⟨st, by simp [next, hs], rfl⟩
  | none =>
    right
    by_cases hb : 0 < p.countBackedUp
    · exact .inl ⟨rfl, hb, by simp [next, hs, hb]⟩
    · right
      have hb0 : p.countBackedUp = 0 := by omega
      cases hr : src.read p.adapter p.buffer.length with
      | mk s res =>
        have h1 : (src.read p.adapter p.buffer.length).1 = s := by rw [hr]
        have h2 : (src.read p.adapter p.buffer.length).2 = res := by rw [hr]
        cases res with
        | ok d =>
          refine .inl ⟨rfl, hb0, s, d, ?_, ?_⟩
          · simp only [next, hs, if_neg hb, hr, filled_view]
          · rw [← h1]; exact h.data _ _ _ h2
        | error st =>
          refine .inr ⟨rfl, hb0, s, PythonInputStream.failure st, ?_, ?_, ?_⟩
          · simp only [next, hs, if_neg hb, hr]
          · rw [← h1]; exact (h.failed _ _ _ h2).1
          · intro hc
            refine (h.failed _ _ _ h2).2 hp.size ?_
            unfold PythonInputStream.failure at hc
            split at hc
            · assumption
            · split at hc
              · cases hc
              · rename_i h3; exact absurd hc h3

theorem toCome_again {rest : σ → Bytes} {p : PythonInputStream σ} (hp : InputOk rest p) :
    toCome rest p = p.again.view ++ toCome rest p.again := by
  have hl : p.again.view.length = p.countBackedUp := by
    rw [again_view hp.backed, List.length_drop, view_length hp.room]
    have := hp.backed
    omega
  unfold toCome
  rw [← again_view hp.backed]
  have : p.again.view.drop (p.again.countInBuffer - p.again.countBackedUp) = [] := by
    apply List.drop_eq_nil_of_le
    rw [hl]; simp [again]
  rw [this]
  rfl

theorem toCome_none {rest : σ → Bytes} {p : PythonInputStream σ} (hp : InputOk rest p)
    (h : p.countBackedUp = 0) : toCome rest p = rest p.adapter := by
  unfold toCome
  rw [List.drop_eq_nil_of_le (by rw [view_length hp.room, h]; omega)]
  rfl

theorem inputOk_again {rest : σ → Bytes} {p : PythonInputStream σ} (hp : InputOk rest p)
    (hs : p.status = none) : InputOk rest p.again := by
  obtain ⟨h1, h2, h3, h4⟩ := hp
  refine ⟨?_, by simp [again], h3, ?_⟩
  · simp only [again]; omega
  · intro st hst
    simp [again, hs] at hst

theorem inputOk_filled {rest : σ → Bytes} {p : PythonInputStream σ} (hp : InputOk rest p)
    (hs : p.status = none) (s : σ) (d : Bytes) : InputOk rest (p.filled s d) := by
  obtain ⟨h1, h2, h3, h4⟩ := hp
  refine ⟨by simp [filled], by simp [filled], ?_, ?_⟩
  · simp only [filled, List.length_append, List.length_drop]; omega
  · intro st hst
    simp [filled, hs] at hst

theorem backUp_toCome {rest : σ → Bytes} {p : PythonInputStream σ} (hp : InputOk rest p)
    (hs : p.status = none) (hb : p.countBackedUp = 0) {n : Nat} (hn : n ≤ p.countInBuffer) :
    toCome rest (p.backUp n) = p.view.drop (p.countInBuffer - n) ++ rest p.adapter := by
  have hv := view_length hp.room
  unfold backUp
  by_cases h0 : n = 0
  · subst h0
    have : ((p.status.isSome || decide (((0 : Nat) : Int) < 1)) ||
        decide (p.countBackedUp = p.countInBuffer)) = true := by simp
    rw [if_pos this]
    unfold toCome
    rw [hb]
  · by_cases he : p.countInBuffer = 0
    · omega
    · have : ¬ ((p.status.isSome || decide ((n : Int) < 1)) ||
          decide (p.countBackedUp = p.countInBuffer)) = true := by
        simp [hs, hb]; omega
      rw [if_neg this]
      unfold toCome
      simp only [hb, view]
      congr 2
      simp only [Int.toNat_natCast]
      omega

theorem inputOk_backUp {rest : σ → Bytes} {p : PythonInputStream σ} (hp : InputOk rest p)
    (n : Int) : InputOk rest (backUp p n) := by
  obtain ⟨h1, h2, h3, h4⟩ := hp
  unfold backUp
  split
  · exact ⟨h1, h2, h3, h4⟩
  · rename_i hc
    simp only [Bool.or_eq_true, Option.isSome_iff_ne_none, not_or, Decidable.not_not] at hc
    refine ⟨h1, ?_, h3, ?_⟩
    · simp only; omega
    · intro st hst
      rw [hc.1.1] at hst
      cases hst

theorem next_lawful {src : CSource σ} {rest : σ → Bytes} (h : FaithfulC src rest) :
    (∀ p R p' d, InputOk rest p ∧ toCome rest p = R → next src p = (p', .ok d) →
      ∃ R', R = d ++ R' ∧ (InputOk rest p' ∧ toCome rest p' = R') ∧
        ∀ n, n ≤ d.length → InputOk rest (backUp p' (n : Nat)) ∧
          toCome rest (backUp p' (n : Nat)) = d.drop (d.length - n) ++ R') ∧
    (∀ p R p' e, InputOk rest p ∧ toCome rest p = R → next src p = (p', .error e) →
      (InputOk rest p' ∧ toCome rest p' = R) ∧ (e.code = .outOfRange → R = [])) := by
  constructor
  · rintro p R p' d ⟨hp, rfl⟩ hd'
    rcases next_cases h hp with ⟨st, hn, _⟩ | ⟨hs, _, hn⟩ | ⟨hs, hb, s, d', hn, hr⟩ |
      ⟨hs, hb, s, st, hn, hr, he⟩
    · rw [hn] at hd'; cases hd'
    · rw [hn] at hd'
      cases hd'
      have ho := inputOk_again hp hs
      have hv := view_length ho.room
      refine ⟨_, toCome_again hp, ⟨ho, rfl⟩, fun n hn' => ⟨inputOk_backUp ho _, ?_⟩⟩
      show toCome rest (backUp p.again n) = _
      rw [backUp_toCome ho hs rfl (by omega), toCome_none ho rfl, hv]
    · rw [hn] at hd'
      cases hd'
      have ho := inputOk_filled hp hs s d
      have hv := view_length ho.room
      rw [filled_view] at hv
      refine ⟨_, ?_, ⟨ho, rfl⟩, fun n hn' => ⟨inputOk_backUp ho _, ?_⟩⟩
      · rw [toCome_none hp hb, hr, toCome_none ho rfl]
        rfl
      · show toCome rest (backUp (p.filled s d) n) = _
        rw [backUp_toCome ho hs rfl (by omega), toCome_none ho rfl, filled_view, hv]
    · rw [hn] at hd'; cases hd'
  · rintro p R p' e ⟨hp, rfl⟩ he'
    rcases next_cases h hp with ⟨st, hn, hst⟩ | ⟨hs, _, hn⟩ | ⟨hs, hb, s, d', hn, hr⟩ |
      ⟨hs, hb, s, st, hn, hr, hx⟩
    · rw [hn] at he'
      cases he'
      obtain ⟨h1, h2⟩ := hp.bad _ hst
      exact ⟨⟨hp, rfl⟩, fun hc => by rw [toCome_none hp h1]; exact h2 hc⟩
    · rw [hn] at he'; cases he'
    · rw [hn] at he'; cases he'
    · rw [hn] at he'
      cases he'
      refine ⟨⟨⟨hp.room, hp.backed, hp.size, ?_⟩, ?_⟩, fun hc => by
        rw [toCome_none hp hb]; exact hx hc⟩
      · intro st' hst
        simp only [Option.some.injEq] at hst
        subst hst
        exact ⟨hb, fun hc => by simp only; rw [hr]; exact hx hc⟩
      · rw [toCome_none hp hb, ← hr]
        unfold toCome
        simp only [view]
        rw [List.drop_eq_nil_of_le]
        · rfl
        · simp only [List.length_take, List.length_drop]; omega

/-- What C++ gets from the Python object. -/
theorem pybind_read (text : Exc → Bool) (src : Source σ) (s : σ) (n : Nat) :
    (pybindSource text src).read s n =
      ((src.read s n).1, answer text n (src.read s n).2) := by
  simp only [pybindSource, answer, FileObjectAdapter.read]
  rcases src.read s n with ⟨s', d | _ | _ | e⟩
  · by_cases hd : (d.isEmpty && decide (0 < n)) = true
    · simp only [if_pos hd]
    · simp only [if_neg hd]
  all_goals rfl

theorem backUp_over {σ' : Type} (p : PythonInputStream σ) (s : σ') (n : Int) :
    backUp (p.over s) n = (backUp p n).over s := by
  by_cases hc : (p.status.isSome || decide (n < 1) || decide (p.countBackedUp = p.countInBuffer)) = true
  · simp only [backUp, if_pos hc]
    exact if_pos hc
  · simp only [backUp, if_neg hc]
    exact if_neg hc

/-- `nextProg`, run against a source, is `next`. -/
theorem run_nextProg (text : Exc → Bool) (src : Source σ) (p : PythonInputStream Unit) (s : σ) :
    (nextProg text p).run src s =
      some ((next (pybindSource text src) (p.over s)).1.adapter,
        (next (pybindSource text src) (p.over s)).1.over (),
        (next (pybindSource text src) (p.over s)).2) := by
  have hst : (p.over s).status = p.status := rfl
  have hcb : (p.over s).countBackedUp = p.countBackedUp := rfl
  cases hs : p.status with
  | some st => simp only [nextProg, next, hst, hs, Prog.run]; rfl
  | none =>
    by_cases hb : 0 < p.countBackedUp
    · simp only [nextProg, next, hst, hcb, hs, if_pos hb, Prog.run]
      rfl
    · have hr := pybind_read text src s p.buffer.length
      simp only [nextProg, next, hst, hcb, hs, if_neg hb, Prog.run, received]
      rw [show (p.over s).adapter = s from rfl, show (p.over s).buffer = p.buffer from rfl, hr]
      cases answer text p.buffer.length (src.read s p.buffer.length).2 <;> rfl

theorem over_adapter (p : PythonInputStream σ) (q : PythonInputStream Unit) (s : σ)
    (h1 : p.adapter = s) (h2 : p.over () = q) : p = q.over s := by
  subst h1 h2; rfl

/-- C55.  Over a source that delivers its content, the input stream delivers that content, and
reports the end only at the end. -/
theorem C55_lawful {src : Source σ} {rest : σ → Bytes} {text : Exc → Bool} (h : Faithful src rest)
    (htext : ∀ s n e, (src.read s n).2 = .raised e → text e = false) :
    Lawful (stream text) src
      (fun p s R => InputOk rest (p.over s) ∧ toCome rest (p.over s) = R) := by
  obtain ⟨h1, h2⟩ := next_lawful (faithfulC h htext)
  constructor
  · intro p s R p' s' d hp hd
    have hd' : (nextProg text p).run src s = some (s', p', .ok d) := hd
    rw [run_nextProg] at hd'
    simp only [Option.some.injEq, Prod.mk.injEq] at hd'
    obtain ⟨e1, e2, e3⟩ := hd'
    have e4 := over_adapter _ _ _ e1 e2
    obtain ⟨R', a1, a2, a3⟩ := h1 _ _ (p'.over s') _ hp (Prod.ext e4 e3)
    refine ⟨R', a1, a2, fun n hn => ?_⟩
    have h3 := a3 n hn
    rw [show backUp _ (n : Int) = (backUp p' n).over s' from backUp_over p' s' n] at h3
    exact h3
  · intro p s R p' s' e hp he
    have he' : (nextProg text p).run src s = some (s', p', .error e) := he
    rw [run_nextProg] at he'
    simp only [Option.some.injEq, Prod.mk.injEq] at he'
    obtain ⟨e1, e2, e3⟩ := he'
    exact h2 _ _ _ _ hp (Prod.ext (over_adapter _ _ _ e1 e2) e3)

/-- The status is OK, or says that the end has been reached. -/
def StatusClean (p : PythonInputStream Unit) : Prop := ∀ st, p.status = some st → st.code = .outOfRange

theorem nextProg_clean {src : Source σ} {text : Exc → Bool} (hs : Steady src)
    {p p' : PythonInputStream Unit} {s s' : σ} {x : StatusOr Bytes} (hp : StatusClean p)
    (hx : (nextProg text p).run src s = some (s', p', x)) :
    StatusClean p' ∧ ∀ e, x = .error e → e.code = .outOfRange := by
  unfold nextProg at hx
  cases hst : p.status with
  | some st =>
    rw [hst] at hx
    cases hx
    exact ⟨hp, fun e he => by cases he; exact hp _ hst⟩
  | none =>
    rw [hst] at hx
    simp only at hx
    by_cases hb : 0 < p.countBackedUp
    · rw [if_pos hb] at hx
      cases hx
      refine ⟨fun st h => ?_, fun e he => by cases he⟩
      rw [show p.again.status = p.status from rfl, hst] at h
      cases h
    · rw [if_neg hb] at hx
      simp only [Prog.run, received, answer, pybindSource, FileObjectAdapter.read] at hx
      have hfill : ∀ d, StatusClean (p.filled () d) := fun d st h => by
        rw [show (p.filled () d).status = p.status from rfl, hst] at h; cases h
      cases hr : (src.read s p.buffer.length).2 with
      | raised x => exact absurd hr (hs _ _ _)
      | none | blocking =>
        rw [hr] at hx
        cases hx
        exact ⟨hfill _, fun e he => by cases he⟩
      | data d =>
        rw [hr] at hx
        by_cases hd : (d.isEmpty && decide (0 < p.buffer.length)) = true
        · simp only [if_pos hd] at hx
          cases hx
          exact ⟨(fun st h => by cases h; rfl), (fun e he => by cases he; rfl)⟩
        · simp only [if_neg hd] at hx
          cases hx
          exact ⟨hfill _, fun e he => by cases he⟩

/-- C55.  If the source never raises, the input stream fails only at the end. -/
theorem C55_steady {src : Source σ} {rest : σ → Bytes} {text : Exc → Bool} (h : Faithful src rest)
    (hs : Steady src) {inv : PythonInputStream Unit → σ → Bytes → Prop}
    (hinv : inv = fun p s R =>
      (InputOk rest (p.over s) ∧ toCome rest (p.over s) = R) ∧ StatusClean p) :
    Lawful (stream text) src inv ∧ Clean (stream text) src inv := by
  subst hinv
  have hl := C55_lawful (text := text) h (fun s n e he => absurd he (hs s n e))
  refine ⟨⟨?_, ?_⟩, ?_⟩
  · rintro p s R p' s' d ⟨hp, hc⟩ hd
    obtain ⟨R', a1, a2, a3⟩ := hl.next p s R p' s' d hp hd
    obtain ⟨b1, -⟩ := nextProg_clean hs hc hd
    refine ⟨R', a1, ⟨a2, b1⟩, fun n hn => ⟨a3 n hn, ?_⟩⟩
    intro st hst
    refine b1 st ?_
    have hst' : (backUp p' (n : Int)).status = some st := hst
    unfold backUp at hst'
    split at hst' <;> exact hst'
  · rintro p s R p' s' e ⟨hp, hc⟩ he
    obtain ⟨a1, a2⟩ := hl.failed p s R p' s' e hp he
    exact ⟨⟨a1, (nextProg_clean hs hc he).1⟩, a2⟩
  · rintro p s R p' s' e ⟨hp, hc⟩ he
    exact (nextProg_clean hs hc he).2 e rfl

/-- A `Read` of `InputStreamAdapter` on a lawful stream. -/
theorem lawful_read {st : CInputStream ι} {src : Source σ} {inv : ι → σ → Bytes → Prop}
    (h : Lawful st src inv) {i : ι} {s : σ} {R : Bytes} (hs : inv i s R) {size : Int} {i' : ι} {s' : σ}
    {r : StatusOr Bytes} (hr : (InputStreamAdapter.read st i size).run src s = some (s', i', r)) :
    match r with
    | .ok d => ∃ R', R = d ++ R' ∧ inv i' s' R' ∧ (0 ≤ size → d.length ≤ size)
    | .error e => inv i' s' R ∧ (e.code = .outOfRange → R = []) ∧
        (st.next i).run src s = some (s', i', .error e) := by
  unfold InputStreamAdapter.read at hr
  rw [Prog.run_map] at hr
  cases hn : (st.next i).run src s with
  | none => rw [hn] at hr; cases hr
  | some q =>
    obtain ⟨s1, i1, x⟩ := q
    rw [hn] at hr
    have hr' := Option.some.inj hr
    simp only [Prod.mk.injEq] at hr'
    obtain ⟨rfl, hr'⟩ := hr'
    cases x with
    | error e =>
      cases hr'
      obtain ⟨a1, a2⟩ := h.failed i s R i' _ e hs hn
      exact ⟨a1, a2, rfl⟩
    | ok data =>
      obtain ⟨R', b1, b2, b3⟩ := h.next i s R i1 _ data hs hn
      obtain ⟨k, hk⟩ : ∃ k, k = (if size < 0 then data.length else min data.length size.toNat) :=
        ⟨_, rfl⟩
      have hkl : k ≤ data.length := by rw [hk]; split <;> omega
      have hks : 0 ≤ size → (k : Int) ≤ size := by intro h0; rw [hk, if_neg (by omega)]; omega
      have hread : InputStreamAdapter.taken st size (i1, .ok data) =
          (if k < data.length then st.backUp i1 (data.length - k : Nat) else i1,
            .ok (data.take k)) := by
        simp only [InputStreamAdapter.taken, ← hk]
      rw [hread] at hr'
      cases hr'
      have hlen : 0 ≤ size → ((data.take k).length : Int) ≤ size := by
        intro h0
        have := hks h0
        rw [List.length_take]
        omega
      by_cases hlt : k < data.length
      · refine ⟨data.drop k ++ R', ?_, ?_, hlen⟩
        · rw [b1, ← List.append_assoc, List.take_append_drop]
        · rw [if_pos hlt]
          have := b3 (data.length - k) (by omega)
          rwa [show data.length - (data.length - k) = k by omega] at this
      · refine ⟨R', ?_, ?_, hlen⟩
        · rw [b1, List.take_of_length_le (by omega)]
        · rw [if_neg hlt]; exact b2

/-- C55.  A `Read` of `InputStreamAdapter` on a file that delivers its content returns the next
bytes of it, at most `size`. -/
theorem C55_adapter_read {src : Source σ} {rest : σ → Bytes} {text : Exc → Bool}
    (h : Faithful src rest) (htext : ∀ s n e, (src.read s n).2 = .raised e → text e = false)
    {p p' : PythonInputStream Unit} {s s' : σ} (hp : InputOk rest (p.over s)) {size : Int} {d : Bytes}
    (hd : (InputStreamAdapter.read (stream text) p size).run src s = some (s', p', .ok d)) :
    InputOk rest (p'.over s') ∧ toCome rest (p.over s) = d ++ toCome rest (p'.over s') ∧
      (0 ≤ size → d.length ≤ size) := by
  obtain ⟨R', a1, ⟨a2, rfl⟩, a3⟩ := lawful_read (C55_lawful h htext) ⟨hp, rfl⟩ hd
  exact ⟨a2, a1, a3⟩

/-- A new stream still has to deliver the whole content. -/
theorem new_ok (rest : σ → Bytes) (s : σ) {buffer : Bytes} (hb : buffer ≠ []) :
    InputOk rest (new s buffer) ∧ toCome rest (new s buffer) = rest s := by
  refine ⟨⟨by simp [new], by simp [new], by simpa [new] using List.length_pos_iff.mpr hb,
    by simp [new]⟩, by simp [toCome, new, view]⟩

/-- Without the record. -/
def forget (p : PythonInputStream (σ × Bytes)) : PythonInputStream σ :=
  { p with adapter := p.adapter.1 }

theorem forget_next (src : CSource σ) (p : PythonInputStream (σ × Bytes)) :
    next src (forget p) = (forget (next (recordedC src) p).1, (next (recordedC src) p).2) := by
  have hs : (forget p).status = p.status := rfl
  unfold next
  rw [hs]
  cases p.status with
  | some st => rfl
  | none =>
    have hb : (forget p).countBackedUp = p.countBackedUp := rfl
    simp only [hb]
    by_cases h : 0 < p.countBackedUp
    · rw [if_pos h, if_pos h]; rfl
    · rw [if_neg h, if_neg h]
      have ha : (forget p).adapter = p.adapter.1 := rfl
      have hl : (forget p).buffer = p.buffer := rfl
      rw [ha, hl]
      cases hr : src.read p.adapter.1 p.buffer.length with
      | mk s r => cases r <;> simp [recordedC, hr, forget, filled, view]

/-- The same user, without the record. -/
def forgetUser (u : InputUser (σ × Bytes)) : InputUser σ :=
  ⟨forget u.stream, u.consumed, u.last, u.results⟩

theorem forget_op (src : CSource σ) (u : InputUser (σ × Bytes)) (o : InputOp) :
    (forgetUser u).op src o = forgetUser (u.op (recordedC src) o) := by
  cases o with
  | next =>
    simp only [InputUser.op, forgetUser, forget_next]
  | backUp c =>
    simp only [InputUser.op, forgetUser]
    congr 1
    unfold backUp
    by_cases hc : (u.stream.status.isSome || decide (c < 1) ||
        decide (u.stream.countBackedUp = u.stream.countInBuffer)) = true
    · rw [if_pos hc]; exact if_pos hc
    · rw [if_neg hc]; exact if_neg hc

theorem forget_history (src : CSource σ) (s : σ) (buffer : Bytes) (ops : List InputOp) :
    InputUser.history src (new s buffer) ops =
      forgetUser (InputUser.history (recordedC src) (new (s, []) buffer) ops) := by
  have : ∀ (ops : List InputOp) (u : InputUser (σ × Bytes)),
      ops.foldl (InputUser.op src) (forgetUser u) =
        forgetUser (ops.foldl (InputUser.op (recordedC src)) u) := by
    intro ops
    induction ops with
    | nil => intro u; rfl
    | cons o ops ih => intro u; rw [List.foldl_cons, forget_op, ih]; rfl
  exact this ops { stream := new (s, []) buffer }

/-- What the source has delivered and what it still has make up the content; a status
`OUT_OF_RANGE` is kept only if it has nothing left. -/
structure ContentInv (rest : σ → Bytes) (C : Bytes)
    (u : InputUser (σ × Bytes)) : Prop where
  size : 0 < u.stream.buffer.length
  content : u.stream.adapter.2 ++ rest u.stream.adapter.1 = C
  ended : ∀ st, u.stream.status = some st → st.code = .outOfRange → rest u.stream.adapter.1 = []
  results : ∀ st, .error st ∈ u.results → u.stream.status = some st

theorem contentInv_op {src : CSource σ} {rest : σ → Bytes} (h : FaithfulC src rest) {C : Bytes}
    {u : InputUser (σ × Bytes)} (hu : ContentInv rest C u) (o : InputOp) :
    ContentInv rest C (u.op (recordedC src) o) := by
  obtain ⟨h1, h2, h3, h4⟩ := hu
  cases o with
  | backUp c =>
    have hst : (backUp u.stream c).status = u.stream.status ∧
        (backUp u.stream c).adapter = u.stream.adapter ∧
        (backUp u.stream c).buffer = u.stream.buffer := by
      unfold backUp; split <;> exact ⟨rfl, rfl, rfl⟩
    refine ⟨?_, ?_, ?_, ?_⟩ <;> simp only [InputUser.op, hst.1, hst.2.1, hst.2.2] <;>
      assumption
  | next =>
    cases hs : u.stream.status with
    | some st =>
      have hn : next (recordedC src) u.stream = (u.stream, .error st) := by
        simp [next, hs]
      unfold InputUser.op
      simp only [hn]
      refine ⟨h1, h2, h3, ?_⟩
      intro st' hm
      simp only [List.mem_append, List.mem_singleton, Except.error.injEq] at hm
      rcases hm with hm | rfl
      · exact h4 st' hm
      · exact hs
    | none =>
      have hno : ∀ st, .error st ∉ u.results := by
        intro st hm
        have := h4 st hm
        rw [hs] at this
        cases this
      by_cases hb : 0 < u.stream.countBackedUp
      · have hn : next (recordedC src) u.stream =
            (u.stream.again, .ok u.stream.again.view) := by
          simp [next, hs, hb]
        unfold InputUser.op
        simp only [hn]
        refine ⟨h1, h2, h3, ?_⟩
        intro st' hm
        simp only [List.mem_append, List.mem_singleton, reduceCtorEq, or_false] at hm
        exact absurd hm (hno st')
      · cases hr : (src.read u.stream.adapter.1 u.stream.buffer.length) with
        | mk s res =>
          have e1 : (src.read u.stream.adapter.1 u.stream.buffer.length).1 = s := by rw [hr]
          have e2 : (src.read u.stream.adapter.1 u.stream.buffer.length).2 = res := by rw [hr]
          cases res with
          | error st =>
            have hn : next (recordedC src) u.stream =
                ({ u.stream with adapter := (s, u.stream.adapter.2),
                                 status := some (PythonInputStream.failure st) },
                  .error (PythonInputStream.failure st)) := by
              simp [next, hs, hb, recordedC, hr, got]
            obtain ⟨f1, f2⟩ := h.failed _ _ _ e2
            rw [e1] at f1
            unfold InputUser.op
            simp only [hn]
            refine ⟨h1, by simp only; rw [f1]; exact h2, ?_, ?_⟩
            · intro st' hst hc
              simp only [Option.some.injEq] at hst
              subst hst
              simp only
              rw [f1]
              refine f2 h1 ?_
              unfold PythonInputStream.failure at hc
              split at hc
              · assumption
              · split at hc
                · cases hc
                · rename_i h3'; exact absurd hc h3'
            · intro st' hm
              simp only [List.mem_append, List.mem_singleton, Except.error.injEq] at hm
              rcases hm with hm | rfl
              · exact absurd hm (hno st')
              · rfl
          | ok d =>
            have hn : next (recordedC src) u.stream =
                (u.stream.filled (s, u.stream.adapter.2 ++ d) d, .ok d) := by
              simp only [next, hs, if_neg hb, recordedC, hr, got, filled_view]
            have f1 := h.data _ _ _ e2
            rw [e1] at f1
            unfold InputUser.op
            simp only [hn]
            refine ⟨?_, ?_, ?_, ?_⟩
            · simp only [filled, List.length_append, List.length_drop]; omega
            · simp only [filled]
              rw [List.append_assoc, ← f1]; exact h2
            · intro st' hst
              simp [filled, hs] at hst
            · intro st' hm
              simp only [List.mem_append, List.mem_singleton, reduceCtorEq, or_false] at hm
              exact absurd hm (hno st')

/-- C55.  Reading a file through the input stream, with any `Next` and `BackUp` calls: what was
consumed are the first bytes of the file, and once `Next` has reported `OUT_OF_RANGE` they are all
of them.  (The exceptions of the file, if any, do not have a text that contains `EOFError`.) -/
theorem C55_content {src : Source σ} {rest : σ → Bytes} {text : Exc → Bool}
    (h : Faithful src rest) (htext : ∀ s n e, (src.read s n).2 = .raised e → text e = false)
    (s : σ) {buffer : Bytes} (hb : buffer ≠ []) (ops : List InputOp) :
    let u := InputUser.history (pybindSource text src) (new s buffer) ops
    u.consumed <+: rest s ∧ u.stream.position = u.consumed.length ∧
      ((∃ st, .error st ∈ u.results ∧ st.code = .outOfRange) → u.consumed = rest s) := by
  intro u
  have hu : u = forgetUser (InputUser.history (recordedC (pybindSource text src))
    (new (s, []) buffer) ops) := forget_history _ _ _ _
  have hc : ContentInv rest (rest s) (InputUser.history
      (recordedC (pybindSource text src)) (new (s, []) buffer) ops) := by
    have : ∀ (ops : List InputOp) (u : InputUser (σ × Bytes)),
        ContentInv rest (rest s) u → ContentInv rest (rest s)
          (ops.foldl (InputUser.op (recordedC (pybindSource text src))) u) := by
      intro ops
      induction ops with
      | nil => intro u h; exact h
      | cons o ops ih => intro u hu; exact ih _ (contentInv_op (faithfulC h htext) hu o)
    exact this ops _ ⟨by simpa [new] using List.length_pos_iff.mpr hb, by simp [new],
      by simp [new], by simp⟩
  obtain ⟨p1, p2⟩ := C55_prefix (pybindSource text src) s buffer ops
  rw [hu]
  refine ⟨?_, p2, ?_⟩
  · rw [← hc.content]
    exact p1.trans (List.prefix_append _ _)
  · rintro ⟨st, hm, hcode⟩
    have hst := hc.results st hm
    have hall := (C55_complete (pybindSource text src) s buffer ops).2 (by rw [hst]; simp)
    rw [show ∀ w : InputUser (σ × Bytes), (forgetUser w).consumed = w.consumed
      from fun _ => rfl, hall, ← hc.content, hc.ended st hst hcode, List.append_nil]

/-! ## An example, and a violation -/

section Examples

/-- A file read two bytes at a time, through a buffer of three bytes. -/
def exampleSource : Source (Bytes × Bool) where
  read s n := if s.2 then ((s.1, false), .blocking)
    else ((s.1.drop (min n 2), true), .data (s.1.take (min n 2)))

def exampleOps : List InputOp :=
  [.next, .backUp 1, .backUp 7, .next, .next, .next, .backUp 1, .next, .next, .next, .next, .next]

example :
    let u := InputUser.history (pybindSource (fun _ => false) exampleSource)
      (new ([1, 2, 3, 4, 5], false) [0, 0, 0]) exampleOps
    u.consumed = [1, 2, 3, 4, 5] ∧ u.stream.status = some ⟨.outOfRange, false⟩ ∧
      u.stream.position = 5 := by
  decide +kernel

/-- The hypotheses of `C55_content` hold for this file. -/
example : Faithful exampleSource (·.1) ∧
    ∀ s n e, (exampleSource.read s n).2 = .raised e → (fun _ => false) e = false := by
  refine ⟨⟨?_, ?_⟩, fun _ _ _ _ => rfl⟩
  · intro s n b h
    obtain ⟨c, f⟩ := s
    cases f
    · simp only [exampleSource, Bool.false_eq_true, if_false, ReadResult.data.injEq] at h ⊢
      subst h
      refine ⟨(List.take_append_drop _ _).symm, by simp only [List.length_take]; omega, ?_⟩
      intro h0
      rw [List.take_eq_nil_iff] at h0
      rcases h0 with h0 | h0
      · left; omega
      · right; exact h0
    · simp [exampleSource] at h
  · intro s n h
    obtain ⟨c, f⟩ := s
    cases f
    · exact absurd rfl (h (c.take (min n 2)))
    · rfl

/-- C55, violation.  An exception whose text contains `EOFError` is taken for the end of the file:
the stream ends with `OUT_OF_RANGE`, as after a complete file, although content is left. -/
theorem C55_error_taken_for_end :
    ∃ (src : Source (Bytes × Bool)) (text : Exc → Bool), Faithful src (·.1) ∧
      let u := InputUser.history (pybindSource text src) (new ([1, 2], false) [0, 0, 0])
        [.next]
      u.results = [.error ⟨.outOfRange, false⟩] ∧ u.stream.adapter.1 = [1, 2] := by
  refine ⟨⟨fun s _ => (s, .raised .osError)⟩, fun _ => true, ⟨?_, ?_⟩, ?_⟩
  · intro s n b hb; cases hb
  · intro s n _; rfl
  · exact ⟨rfl, rfl⟩

end Examples
end Tink.Props
