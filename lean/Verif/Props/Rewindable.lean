import Verif.Spec.Stream

/-!
# C53: the rewindable input stream
-/

namespace Tink.Props
open Spec

variable {σ : Type}

/-- Relates the stream's attributes to what its user has seen. -/
structure RewindInv (u : RewindUser σ) : Prop where
  split : u.returned ++ u.stream.buffer.drop u.stream.pos = u.delivered
  pos : u.stream.pos ≤ u.stream.buffer.length
  buffer : u.stream.rewindable = true → u.stream.buffer = u.delivered

theorem recorded_read (src : Source σ) (s : σ × Bytes) (n : Nat) :
    (recorded src).read s n =
      (((src.read s.1 n).1, s.2 ++ (src.read s.1 n).2.bytes), (src.read s.1 n).2) := rfl

theorem drop_take_append (l : Bytes) (i j : Nat) (h : i ≤ j) :
    (l.take j).drop i ++ l.drop j = l.drop i := by
  rw [List.drop_take]
  have : l.drop j = (l.drop i).drop (j - i) := by rw [List.drop_drop]; congr 1; omega
  rw [this, List.take_append_drop]

theorem RewindInv.read {src : Source σ} {u : RewindUser σ} (h : RewindInv u) (n : Nat) :
    RewindInv (u.op src (.read n)) := by
  obtain ⟨⟨⟨s, d⟩, buf, pos, rw⟩, ret⟩ := u
  obtain ⟨h1, h2, h3⟩ := h
  simp only [RewindUser.delivered] at h1 h2 h3
  simp only [RewindUser.op, Rewindable.read]
  split
  · rename_i hp
    constructor
    · simp only [RewindUser.delivered, ReadResult.bytes, List.append_assoc]
      rw [drop_take_append _ _ _ (by omega), h1]
    · simp only; omega
    · simpa only [RewindUser.delivered] using h3
  · rename_i hp
    have hd : List.drop pos buf = [] := List.drop_eq_nil_of_le (by omega)
    rw [hd, List.append_nil] at h1
    subst h1
    simp only [Rewindable.dropBuffer]
    cases rw with
    | true =>
      have hb := h3 rfl
      subst hb
      simp only [Bool.not_true, Bool.false_and, Bool.false_eq_true, if_false, Rewindable.readSource,
        recorded_read]
      have hpos : pos = buf.length := by omega
      cases hr : (src.read s n).2 with
      | data b =>
        constructor
        · simp only [Rewindable.received, if_true, RewindUser.delivered, ReadResult.bytes]
          rw [List.drop_eq_nil_of_le (by simp; omega), List.append_nil]
        · simp only [Rewindable.received, if_true, List.length_append]; omega
        · simp only [Rewindable.received, if_true, RewindUser.delivered, ReadResult.bytes]
          exact fun _ => trivial
      | none | blocking =>
        exact ⟨by simp only [RewindUser.delivered, ReadResult.bytes, hd, List.append_nil], h2,
          by simp only [RewindUser.delivered, ReadResult.bytes, List.append_nil]; exact fun _ => trivial⟩
      | raised e =>
        exact ⟨by simp only [RewindUser.delivered, ReadResult.bytes, hd, List.append_nil], h2,
          by simp only [RewindUser.delivered, ReadResult.bytes, List.append_nil]; exact fun _ => trivial⟩
    | false =>
      have hnil : ∀ b : Bytes, ∀ p : Nat, b.length ≤ p → List.drop p b = [] :=
        fun b p hl => List.drop_eq_nil_of_le hl
      cases hb : buf with
      | nil =>
        subst hb
        simp only [List.isEmpty_nil, Bool.not_true, Bool.and_false, Bool.false_eq_true, if_false,
          Rewindable.readSource, recorded_read]
        cases hr : (src.read s n).2 <;>
          exact ⟨by simp [Rewindable.received, RewindUser.delivered, ReadResult.bytes],
            by simpa [Rewindable.received] using h2, by simp [Rewindable.received]⟩
      | cons x l =>
        simp only [List.isEmpty_cons, Bool.not_false, Bool.and_self, if_true,
          Rewindable.readSource, recorded_read]
        cases hr : (src.read s n).2 <;>
          exact ⟨by simp [Rewindable.received, RewindUser.delivered, ReadResult.bytes],
            by simp [Rewindable.received], by simp [Rewindable.received]⟩

theorem RewindInv.op {src : Source σ} {u : RewindUser σ} (h : RewindInv u) (o : RewindOp) :
    RewindInv (u.op src o) := by
  cases o with
  | read n => exact h.read n
  | disableRewind => exact ⟨h.split, h.pos, by simp [RewindUser.op, Rewindable.disableRewind]⟩
  | rewind =>
    simp only [RewindUser.op, Rewindable.rewind]
    by_cases hr : u.stream.rewindable = true
    · simp only [hr, if_true]
      exact ⟨by simpa [RewindUser.delivered] using h.buffer hr, Nat.zero_le _, fun _ => h.buffer hr⟩
    · simp only [hr, Bool.false_eq_true, if_false]
      exact h

theorem rewindInv_history (src : Source σ) (s : σ) (ops : List RewindOp) :
    RewindInv (RewindUser.history src s ops) := by
  suffices ∀ u : RewindUser σ, RewindInv u → RewindInv (ops.foldl (RewindUser.op src) u) from
    this _ ⟨rfl, Nat.le_refl _, fun _ => rfl⟩
  induction ops with
  | nil => exact fun u h => h
  | cons o ops ih => exact fun u h => ih _ (h.op o)

/-- C53.  Whatever the source does and after every history of operations, what the user has received
since the last rewind is a prefix of what the source has delivered. -/
theorem C53_prefix (src : Source σ) (s : σ) (ops : List RewindOp) :
    (RewindUser.history src s ops).returned <+: (RewindUser.history src s ops).delivered :=
  ⟨_, (rewindInv_history src s ops).split⟩

/-- C53.  What the next `read(n)` does: as long as the user has not yet seen all that the source
delivered, it returns the next bytes of that and does not touch the source; then it returns exactly
what the source delivers (`BlockingIOError` becoming `None`). -/
theorem C53_read (src : Source σ) (s : σ) (ops : List RewindOp) (n : Nat) :
    let u := RewindUser.history src s ops
    let next := u.stream.read (recorded src) n
    (u.returned ≠ u.delivered →
      next.2 = .data ((u.delivered.drop u.returned.length).take n) ∧
      next.1.source = u.stream.source) ∧
    (u.returned = u.delivered →
      next.2 = unblocked (src.read u.stream.source.1 n).2 ∧
      next.1.source = ((recorded src).read u.stream.source n).1) := by
  intro u next
  have h : RewindInv u := rewindInv_history src s ops
  have hsplit := h.split
  constructor
  · intro hne
    have hlt : u.stream.pos < u.stream.buffer.length := by
      apply Nat.lt_of_not_le
      intro hle
      rw [List.drop_eq_nil_of_le hle, List.append_nil] at hsplit
      exact hne hsplit
    have hnext : next = ({ u.stream with pos := min u.stream.buffer.length (u.stream.pos + n) },
        .data ((u.stream.buffer.take (min u.stream.buffer.length (u.stream.pos + n))).drop
          u.stream.pos)) := by
      simp only [next, Rewindable.read, if_pos hlt]
    rw [hnext]
    refine ⟨?_, rfl⟩
    congr 1
    rw [← hsplit, List.drop_left, List.drop_take, Nat.min_def]
    split
    · rw [List.take_of_length_le (by simp), List.take_of_length_le (by simp; omega)]
    · rw [Nat.add_sub_cancel_left]
  · intro heq
    have hdrop : u.stream.buffer.drop u.stream.pos = [] := by
      rw [← heq] at hsplit
      simpa using hsplit
    have hge : ¬ u.stream.pos < u.stream.buffer.length := by
      rw [List.drop_eq_nil_iff] at hdrop; omega
    have hsrc : u.stream.dropBuffer.source = u.stream.source := by
      unfold Rewindable.dropBuffer; split <;> rfl
    have hnext : next = u.stream.dropBuffer.readSource (recorded src) n := by
      simp only [next, Rewindable.read, if_neg hge]
    rw [hnext]
    simp only [Rewindable.readSource, hsrc]
    rw [recorded_read]
    cases hr : (src.read u.stream.source.1 n).2 with
    | data b =>
      refine ⟨rfl, ?_⟩
      simp only [Rewindable.received]
      split <;> rfl
    | none | blocking => exact ⟨rfl, rfl⟩
    | raised e => exact ⟨rfl, rfl⟩

/-- C53.  `rewind` succeeds exactly as long as `disable_rewind` has not been called; otherwise it
raises `ValueError` and changes nothing. -/
theorem C53_rewind (src : Source σ) (s : σ) (ops : List RewindOp) :
    let u := RewindUser.history src s ops
    (RewindOp.disableRewind ∉ ops → u.stream.rewind.2 = .ok ()) ∧
    (RewindOp.disableRewind ∈ ops → u.stream.rewind = (u.stream, .error .valueError)) := by
  have key : ∀ (ops : List RewindOp) (u : RewindUser σ),
      (ops.foldl (RewindUser.op src) u).stream.rewindable =
        (u.stream.rewindable && decide (RewindOp.disableRewind ∉ ops)) := by
    intro ops
    induction ops with
    | nil => intro u; simp
    | cons o ops ih =>
      intro u
      rw [List.foldl_cons, ih]
      cases o with
      | read n =>
        have : (u.op src (.read n)).stream.rewindable = u.stream.rewindable := by
          have hd : u.stream.dropBuffer.rewindable = u.stream.rewindable := by
            unfold Rewindable.dropBuffer; split <;> rfl
          simp only [RewindUser.op, Rewindable.read]
          split
          · rfl
          · rw [← hd]
            simp only [Rewindable.readSource]
            split <;> try rfl
            simp only [Rewindable.received]
            split <;> rfl
        rw [this]; simp
      | rewind =>
        have : (u.op src .rewind).stream.rewindable = u.stream.rewindable := by
          simp only [RewindUser.op, Rewindable.rewind]
          by_cases hr : u.stream.rewindable = true <;> simp [hr]
        rw [this]; simp
      | disableRewind => simp [RewindUser.op, Rewindable.disableRewind]
  have h : (RewindUser.history src s ops).stream.rewindable =
      (true && decide (RewindOp.disableRewind ∉ ops)) := key ops (RewindUser.start s)
  constructor
  · intro hm
    have hr : (RewindUser.history src s ops).stream.rewindable = true := by rw [h]; simp [hm]
    simp only [Rewindable.rewind, hr, if_true]
  · intro hm
    have hr : (RewindUser.history src s ops).stream.rewindable = false := by rw [h]; simp [hm]
    simp only [Rewindable.rewind, hr, Bool.false_eq_true, if_false]

/-- The recorded bytes and what is left make up the content. -/
theorem faithful_history {src : Source σ} {rest : σ → Bytes} (F : Faithful src rest) (s : σ)
    (ops : List RewindOp) :
    (RewindUser.history src s ops).delivered ++
      rest (RewindUser.history src s ops).stream.source.1 = rest s := by
  have step : ∀ (q : σ × Bytes) (n : Nat),
      ((recorded src).read q n).1.2 ++ rest ((recorded src).read q n).1.1 = q.2 ++ rest q.1 := by
    intro q n
    rw [recorded_read]
    cases hr : (src.read q.1 n).2 with
    | data b =>
      simp only [ReadResult.bytes, List.append_assoc]
      rw [(F.data _ _ _ hr).1]
    | none | blocking =>
      simp only [ReadResult.bytes, List.append_nil]
      rw [F.noData q.1 n (by rw [hr]; simp)]
    | raised e =>
      simp only [ReadResult.bytes, List.append_nil]
      rw [F.noData q.1 n (by rw [hr]; simp)]
  suffices ∀ u : RewindUser σ, RewindInv u →
      (ops.foldl (RewindUser.op src) u).delivered ++
        rest (ops.foldl (RewindUser.op src) u).stream.source.1 =
      u.delivered ++ rest u.stream.source.1 from
    this _ ⟨rfl, Nat.le_refl _, fun _ => rfl⟩
  induction ops with
  | nil => exact fun _ _ => rfl
  | cons o ops ih =>
    intro u hu
    rw [List.foldl_cons, ih _ (hu.op o)]
    cases o with
    | read n =>
      simp only [RewindUser.op, RewindUser.delivered, Rewindable.read]
      split
      · rfl
      · have hd : u.stream.dropBuffer.source = u.stream.source := by
          unfold Rewindable.dropBuffer; split <;> rfl
        have hs : (u.stream.dropBuffer.readSource (recorded src) n).1.source =
            ((recorded src).read u.stream.source n).1 := by
          rw [← hd]
          simp only [Rewindable.readSource]
          split <;> rename_i s' hh <;> rw [hh]
          simp only [Rewindable.received]
          split <;> rfl
        rw [hs]
        exact step _ _
    | rewind =>
      simp only [RewindUser.op, Rewindable.rewind, RewindUser.delivered]
      by_cases hr : u.stream.rewindable = true <;> simp [hr]
    | disableRewind => rfl

/-- C53.  Over a source with a given content: what the user has received since the last rewind is a
prefix of the content, and a `read(n)` with `n > 0` that returns `b''` means that it is all of it. -/
theorem C53_content {src : Source σ} {rest : σ → Bytes} (F : Faithful src rest) (s : σ)
    (ops : List RewindOp) :
    let u := RewindUser.history src s ops
    u.returned <+: rest s ∧
    ∀ n, 0 < n → (u.stream.read (recorded src) n).2 = .data [] → u.returned = rest s := by
  intro u
  have hf := faithful_history F s ops
  have hp := C53_prefix src s ops
  refine ⟨hp.trans ⟨_, hf⟩, ?_⟩
  intro n hn hread
  obtain ⟨hne, heq⟩ := C53_read src s ops n
  by_cases h : u.returned = u.delivered
  · have hr := (heq h).1
    rw [hread] at hr
    have hd : (src.read u.stream.source.1 n).2 = .data [] := by
      cases hx : (src.read u.stream.source.1 n).2 <;> rw [hx] at hr <;> simp [unblocked] at hr
      rw [hr]
    have := (F.data _ _ _ hd).2.2 rfl
    rcases this with h0 | h0
    · omega
    · change u.delivered ++ rest u.stream.source.1 = rest s at hf
      rw [h0, List.append_nil] at hf
      rw [h, hf]
  · have hr := (hne h).1
    rw [hread] at hr
    exfalso
    obtain ⟨t, ht⟩ := hp
    change u.returned ++ t = u.delivered at ht
    have hd : u.delivered.drop u.returned.length = t := by rw [← ht, List.drop_left]
    rw [hd] at hr
    have ht0 : t ≠ [] := by
      intro h0; rw [h0, List.append_nil] at ht; exact h ht
    cases t with
    | nil => exact ht0 rfl
    | cons x l =>
      cases n with
      | zero => omega
      | succ n => simp at hr

/-- A read of a given size never raises `BlockingIOError`. -/
theorem read_not_blocking (src : Source σ) (r : Rewindable σ) (n : Nat) :
    (r.read src n).2 ≠ .blocking := by
  unfold Rewindable.read
  split
  · simp
  · unfold Rewindable.readSource
    split <;> simp

/-- C53.  `read()` (everything) is a number of reads of a fixed size.  If it returns bytes, they are
those of all these reads, of which the last one found the end, or no data for the moment.  If it
returns `None` there was no data for the moment, and nothing was read.  An exception is that of the
last read. -/
theorem C53_readall (src : Source σ) (s : σ) (ops : List RewindOp) (fuel : Nat)
    (r' : Rewindable (σ × Bytes)) (res : ReadResult)
    (h : (RewindUser.history src s ops).stream.readall (recorded src) fuel = some (r', res)) :
    ∃ k u r last,
      u = RewindUser.history src s (ops ++ List.replicate k (.read Rewindable.chunkSize)) ∧
      u.stream.read (recorded src) Rewindable.chunkSize = (r, last) ∧ r' = r ∧
      ((∃ b, res = .data b ∧ (last = .data [] ∨ last = .none) ∧
          u.returned = (RewindUser.history src s ops).returned ++ b) ∨
       (res = .none ∧ last = .none ∧ u.returned = (RewindUser.history src s ops).returned) ∨
       (∃ e, res = .raised e ∧ last = .raised e)) := by
  suffices ∀ fuel (u0 : RewindUser σ) (chunks : List Bytes),
      u0.stream.readallLoop (recorded src) fuel chunks = some (r', res) →
      ∃ k u r last, u = List.foldl (RewindUser.op src) u0
            (List.replicate k (RewindOp.read Rewindable.chunkSize)) ∧
        u.stream.read (recorded src) Rewindable.chunkSize = (r, last) ∧ r' = r ∧
        ((∃ more, res = .data (chunks.flatten ++ more) ∧ (last = .data [] ∨ last = .none) ∧
            u.returned = u0.returned ++ more) ∨
         (res = .none ∧ last = .none ∧ chunks = [] ∧ u.returned = u0.returned) ∨
         (∃ e, res = .raised e ∧ last = .raised e)) by
    obtain ⟨k, u, r, last, hu, h1, h2, h3⟩ := this fuel _ [] h
    refine ⟨k, u, r, last, ?_, h1, h2, ?_⟩
    · rw [hu]; simp only [RewindUser.history, List.foldl_append]
    · rcases h3 with ⟨m, h3, h4, h5⟩ | ⟨h3, h4, _, h5⟩ | h3
      · exact .inl ⟨m, h3, h4, h5⟩
      · exact .inr (.inl ⟨h3, h4, h5⟩)
      · exact .inr (.inr h3)
  intro fuel
  induction fuel with
  | zero => intro u0 chunks h; cases h
  | succ fuel ih =>
    intro u0 chunks h
    rw [Rewindable.readallLoop] at h
    have hb := read_not_blocking (recorded src) u0.stream Rewindable.chunkSize
    cases hr : u0.stream.read (recorded src) Rewindable.chunkSize with
    | mk r1 result =>
      rw [hr] at h hb
      cases result with
      | data c =>
        by_cases hc : c.isEmpty = true
        · simp only [hc, if_true, Option.some.injEq, Prod.mk.injEq] at h
          obtain ⟨rfl, rfl⟩ := h
          have hc' : c = [] := List.isEmpty_iff.mp hc
          subst hc'
          exact ⟨0, u0, _, _, rfl, hr, rfl, .inl ⟨[], by simp, .inl rfl, by simp⟩⟩
        · simp only [hc, Bool.false_eq_true, if_false] at h
          have hop : u0.op src (.read Rewindable.chunkSize) = ⟨r1, u0.returned ++ c⟩ := by
            simp [RewindUser.op, hr, ReadResult.bytes]
          obtain ⟨k, u, r, last, hu, h1, h2, h3⟩ := ih ⟨r1, u0.returned ++ c⟩ _ h
          refine ⟨k + 1, u, r, last, ?_, h1, h2, ?_⟩
          · rw [hu, List.replicate_succ, List.foldl_cons, hop]
          rcases h3 with ⟨m, h3, h4, h5⟩ | ⟨_, _, h3, _⟩ | h3
          · exact .inl ⟨c ++ m, by rw [h3]; simp, h4, by rw [h5]; simp⟩
          · exact absurd h3 (by simp)
          · exact .inr (.inr h3)
      | none =>
        simp only at h
        split at h
        · rename_i hc
          simp only [Option.some.injEq, Prod.mk.injEq] at h
          obtain ⟨rfl, rfl⟩ := h
          exact ⟨0, u0, _, _, rfl, hr, rfl, .inr (.inl ⟨rfl, rfl, List.isEmpty_iff.mp hc, rfl⟩)⟩
        · simp only [Option.some.injEq, Prod.mk.injEq] at h
          obtain ⟨rfl, rfl⟩ := h
          exact ⟨0, u0, _, _, rfl, hr, rfl, .inl ⟨[], by simp, .inr rfl, by simp⟩⟩
      | blocking => exact absurd rfl hb
      | raised e =>
        simp only [Option.some.injEq, Prod.mk.injEq] at h
        obtain ⟨rfl, rfl⟩ := h
        exact ⟨0, u0, _, _, rfl, hr, rfl, .inr (.inr ⟨e, rfl, rfl⟩)⟩

/-! A source with the content `[1, 2]` that raises `OSError` once, after the first byte. -/
namespace FailingExample

def src : Source Nat where
  read s n :=
    if s = 1 then (2, .raised .osError)
    else if n = 0 ∨ 3 ≤ s then (s, .data [])
    else if s = 0 then (1, .data [1]) else (3, .data [2])

def rest (s : Nat) : Bytes := if s = 0 then [1, 2] else if s ≤ 2 then [2] else []

theorem faithful : Faithful src rest := by
  have cases4 : ∀ s : Nat, s = 0 ∨ s = 1 ∨ s = 2 ∨ 3 ≤ s := by omega
  constructor
  · intro s n b h
    rcases cases4 s with rfl | rfl | rfl | hs
    · by_cases hn : n = 0
      · subst hn; cases h; exact ⟨rfl, Nat.le_refl _, fun _ => .inl rfl⟩
      · simp only [src, hn] at h ⊢; cases h
        exact ⟨rfl, by simp; omega, by simp⟩
    · cases h
    · by_cases hn : n = 0
      · subst hn; cases h; exact ⟨rfl, Nat.le_refl _, fun _ => .inl rfl⟩
      · simp only [src, hn] at h ⊢; cases h
        exact ⟨rfl, by simp; omega, by simp⟩
    · have h1 : src.read s n = (s, .data []) := by
        simp only [src]
        rw [if_neg (by omega), if_pos (.inr hs)]
      rw [h1] at h ⊢
      cases h
      refine ⟨rfl, Nat.zero_le _, fun _ => .inr ?_⟩
      simp only [rest]
      rw [if_neg (by omega), if_neg (by omega)]
  · intro s n h
    rcases cases4 s with rfl | rfl | rfl | hs
    · by_cases hn : n = 0
      · subst hn; exact absurd rfl (h [])
      · exact absurd (by simp [src, hn]) (h [1])
    · rfl
    · by_cases hn : n = 0
      · subst hn; exact absurd rfl (h [])
      · exact absurd (by simp [src, hn]) (h [2])
    · refine absurd ?_ (h [])
      simp only [src]
      rw [if_neg (by omega), if_pos (.inr hs)]

end FailingExample

/-- C53, violation.  If the source raises in the middle of a `read()`, the bytes that it had already
delivered are lost: the next `read()` goes on behind them. -/
theorem C53_readall_exception_loses_bytes :
    Faithful FailingExample.src FailingExample.rest ∧ FailingExample.rest 0 = [1, 2] ∧
    ∃ r, (RewindUser.start 0).stream.readall (recorded FailingExample.src) 3 =
        some (r, .raised .osError) ∧
      (r.readall (recorded FailingExample.src) 3).map (·.2) = some (.data [2]) :=
  ⟨FailingExample.faithful, rfl, _, rfl, by decide +kernel⟩

/-! A source that gives at most two bytes at a time and every other time nothing. -/
namespace RewindExample

def src : Source (Bytes × Bool) where
  read s n := if s.2 then ((s.1, false), .blocking)
    else ((s.1.drop (min n 2), true), .data (s.1.take (min n 2)))

theorem faithful : Faithful src (·.1) := by
  constructor
  · intro s n b h
    obtain ⟨c, f⟩ := s
    cases f
    · simp only [src, Bool.false_eq_true, if_false, ReadResult.data.injEq] at h ⊢
      subst h
      refine ⟨(List.take_append_drop _ _).symm, by simp only [List.length_take]; omega, ?_⟩
      intro h0
      rw [List.take_eq_nil_iff] at h0
      rcases h0 with h0 | h0
      · left; omega
      · right; exact h0
    · simp [src] at h
  · intro s n h
    obtain ⟨c, f⟩ := s
    cases f
    · exact absurd rfl (h (c.take (min n 2)))
    · rfl

def ops : List RewindOp :=
  [.read 1, .read 5, .read 5, .rewind, .read 2, .disableRewind, .rewind, .read 9, .read 9, .read 9]

example : (RewindUser.history src ([1, 2, 3, 4, 5], false) ops).returned = [1, 2, 3, 4, 5] := by
  decide +kernel

example : ((RewindUser.history src ([1, 2, 3], false) [.read 1]).stream.readall (recorded src) 3).map
    (·.2) = some .none := by decide +kernel
example : ((RewindUser.history src ([1, 2, 3], true) [.read 1]).stream.readall (recorded src) 3).map
    (·.2) = some (.data [1, 2]) := by decide +kernel

end RewindExample

end Tink.Props
