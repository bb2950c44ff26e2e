import Verif.Spec.Termination
import Verif.Stream.WrapperLemmas

/-!
# Lemmas for C79: the decrypting streams of keysets, and the readers around them
-/

namespace Tink.Props
open Tink.Spec Tink.Io DecryptingStreamWrapper
variable {σ δ ε τ ρ : Type}

/-! ## The rewindable stream -/

theorem rewindable_exhaustible {src : Source σ} {left : σ → Nat} (h : Exhaustible src left) :
    Exhaustible (rewindableSource src) fun r => left r.source + (r.buffer.length - r.pos) := by
  have key : ∀ (r : Rewindable σ) (n : Nat), r.buffer.length ≤ r.pos →
      (r.dropBuffer).buffer.length ≤ (r.dropBuffer).pos ∧ (r.dropBuffer).source = r.source := by
    intro r n hr
    unfold Rewindable.dropBuffer
    split
    · exact ⟨Nat.le_refl _, rfl⟩
    · exact ⟨hr, rfl⟩
  -- a read of the wrapped stream
  have through : ∀ (r : Rewindable σ) (n : Nat), r.buffer.length ≤ r.pos →
      (∀ b, (r.readSource src n).2 = .data b →
        left (r.readSource src n).1.source +
          ((r.readSource src n).1.buffer.length - (r.readSource src n).1.pos) + b.length ≤ left r.source) ∧
      ((r.readSource src n).2 = .none → left (r.readSource src n).1.source +
          ((r.readSource src n).1.buffer.length - (r.readSource src n).1.pos) < left r.source) ∧
      (r.readSource src n).2 ≠ .blocking ∧
      (∀ e, (r.readSource src n).2 = .raised e → left (r.readSource src n).1.source +
          ((r.readSource src n).1.buffer.length - (r.readSource src n).1.pos) ≤ left r.source) := by
    intro r n hr
    have hd := h.data r.source n
    have hw := h.waits r.source n
    have he := h.raised r.source n
    unfold Rewindable.readSource
    generalize hq : src.read r.source n = q at hd hw he
    obtain ⟨s', x⟩ := q
    cases x with
    | none =>
      have := hw (.inl rfl)
      refine ⟨(fun b h => by cases h), fun _ => ?_, (fun h => by cases h), (fun e h => by cases h)⟩
      simp only at this ⊢
      omega
    | blocking =>
      have := hw (.inr rfl)
      refine ⟨(fun b h => by cases h), fun _ => ?_, (fun h => by cases h), (fun e h => by cases h)⟩
      simp only at this ⊢
      omega
    | raised e =>
      have := he e rfl
      refine ⟨(fun b h => by cases h), (fun h => by cases h), (fun h => by cases h), fun e h => ?_⟩
      simp only at this ⊢
      omega
    | data d =>
      have := hd d rfl
      refine ⟨fun b h => ?_, (fun h => by cases h), (fun h => by cases h), (fun e h => by cases h)⟩
      cases h
      show left (Rewindable.received { r with source := s' } d).source +
        ((Rewindable.received { r with source := s' } d).buffer.length -
          (Rewindable.received { r with source := s' } d).pos) + d.length ≤ _
      unfold Rewindable.received
      by_cases hre : r.rewindable = true
      · simp only [if_pos hre, List.length_append] at this ⊢
        omega
      · simp only [if_neg hre] at this ⊢
        omega
  refine ⟨?_, ?_, ?_⟩
  · intro r n b hb
    unfold rewindableSource Rewindable.read at hb ⊢
    simp only at hb ⊢
    by_cases hp : r.pos < r.buffer.length
    · simp only [if_pos hp] at hb ⊢
      cases hb
      simp only [List.length_drop, List.length_take]
      omega
    · simp only [if_neg hp] at hb ⊢
      obtain ⟨k1, k2⟩ := key r n (by omega)
      have := (through r.dropBuffer n k1).1 b hb
      rw [k2] at this
      omega
  · intro r n hb
    unfold rewindableSource Rewindable.read at hb ⊢
    simp only at hb ⊢
    by_cases hp : r.pos < r.buffer.length
    · simp only [if_pos hp] at hb
      rcases hb with hb | hb <;> cases hb
    · simp only [if_neg hp] at hb ⊢
      obtain ⟨k1, k2⟩ := key r n (by omega)
      have := (through r.dropBuffer n k1).2
      rw [k2] at this
      rcases hb with hb | hb
      · have := this.1 hb
        omega
      · exact absurd hb this.2.1
  · intro r n e hb
    unfold rewindableSource Rewindable.read at hb ⊢
    simp only at hb ⊢
    by_cases hp : r.pos < r.buffer.length
    · simp only [if_pos hp] at hb
      cases hb
    · simp only [if_neg hp] at hb ⊢
      obtain ⟨k1, k2⟩ := key r n (by omega)
      have := (through r.dropBuffer n k1).2.2.2 e hb
      rw [k2] at this
      omega

/-! ## The wrapper -/

/-- None of the raw streams of the wrapper hangs. -/
structure LiveWrapper (w : DecryptingStreamWrapper σ δ ε τ) : Prop where
  matching : ∀ st t, w.matching = some (st, t) → Live st t
  attempting : ∀ st t, w.attempting = some (st, t) → Live st t
  remaining : ∀ p ∈ w.remaining, NeverHangs p w.ad

theorem live_step {st : RawStream τ} {t : τ} (h : Live st t) {src : Source σ} {left : σ → Nat}
    (hs : Exhaustible src left) (s : σ) {size : Int} (h0 : size ≠ 0) (hm : size < 2 ^ 63) :
    (∃ q, Returns st src t size s q) ∧
      ∀ fuel t' s' r, st.run src fuel t size s = some (t', s', r) → Live st t' := by
  obtain ⟨ok, h1, h2⟩ := h
  refine ⟨((h2 σ src left hs t s h1).1 size h0 hm).1, fun fuel t' s' r hr => ?_⟩
  exact ⟨ok, ((h2 σ src left hs t s h1).1 size h0 hm).2 fuel t' s' r hr, h2⟩

theorem live_acc {st : RawStream τ} {t : τ} (h : Live st t) {src : Source σ} {left : σ → Nat}
    (hs : Exhaustible src left) (s : σ) : Acc (Advances st src) (t, s) := by
  obtain ⟨ok, h1, h2⟩ := h
  exact (h2 σ src left hs t s h1).2

theorem attempt_returns {src : Source σ} {left : σ → Nat} (hs : Exhaustible src left) {ad : Bytes}
    {size : Int} (h0 : size ≠ 0) (hm : size < 2 ^ 63) (remaining : List (RawStreamingAead δ ε τ))
    (hrem : ∀ p ∈ remaining, NeverHangs p ad) :
    ∀ (cur : RawStream τ × τ) (r : Rewindable σ), Live cur.1 cur.2 →
      (∃ q turns, ∀ fuel, turns ≤ fuel → attempt src fuel ad size cur r remaining = some q) ∧
      ∀ fuel w' x, attempt src fuel ad size cur r remaining = some (w', x) →
        LiveWrapper w' ∧ ∀ d, x = .data d → ∃ m, w'.matching = some m := by
  induction remaining with
  | nil =>
    intro cur r hl
    obtain ⟨⟨⟨t, r', x⟩, turns, hret⟩, hkeep⟩ := live_step hl (rewindable_exhaustible hs) r h0 hm
    constructor
    · cases x with
      | raised e =>
        cases he : e.isTink with
        | true =>
          refine ⟨({ source := r', ad, attempting := some (cur.1, t), remaining := [] }, .raised .tinkError), turns, fun fuel hf => ?_⟩
          rw [attempt, hret fuel hf]; simp [he]
        | false =>
          refine ⟨({ source := r', ad, attempting := some (cur.1, t), remaining := [] }, .raised e), turns, fun fuel hf => ?_⟩
          rw [attempt, hret fuel hf]; simp [he]
      | none => exact ⟨_, turns, fun fuel hf => by rw [attempt, hret fuel hf]⟩
      | blocking => exact ⟨_, turns, fun fuel hf => by rw [attempt, hret fuel hf]⟩
      | data b => exact ⟨_, turns, fun fuel hf => by rw [attempt, hret fuel hf]⟩
    · intro fuel w' x' hx
      rw [attempt] at hx
      cases hrun : cur.1.run (rewindableSource src) fuel cur.2 size r with
      | none => rw [hrun] at hx; cases hx
      | some q =>
        obtain ⟨t1, r1, y⟩ := q
        have hl1 := hkeep fuel t1 r1 y hrun
        rw [hrun] at hx
        have live : ∀ st t2, some (cur.1, t1) = some (st, t2) → Live st t2 := by
          intro st t2 h; cases h; exact hl1
        cases y with
        | none => cases hx; exact ⟨⟨(fun _ _ h => by cases h), live, hrem⟩, (fun d h => by cases h)⟩
        | blocking => cases hx; exact ⟨⟨(fun _ _ h => by cases h), live, hrem⟩, (fun d h => by cases h)⟩
        | data b => cases hx; exact ⟨⟨live, (fun _ _ h => by cases h), hrem⟩, fun d _ => ⟨_, rfl⟩⟩
        | raised e =>
          cases he : e.isTink <;> simp only [he, Bool.false_eq_true, if_true, if_false] at hx <;> cases hx <;>
            exact ⟨⟨(fun _ _ h => by cases h), live, hrem⟩, (fun d h => by cases h)⟩
  | cons p ps ih =>
    intro cur r hl
    have hp : NeverHangs p ad := hrem p (by simp)
    have hps : ∀ q ∈ ps, NeverHangs q ad := fun q hq => hrem q (by simp [hq])
    obtain ⟨⟨⟨t, r', x⟩, turns, hret⟩, hkeep⟩ := live_step hl (rewindable_exhaustible hs) r h0 hm
    constructor
    · cases x with
      | raised e =>
        cases he : e.isTink with
        | true =>
          cases hrw : r'.rewind with
          | mk r'' z =>
            cases z with
            | error y =>
              refine ⟨({ source := r'', ad, attempting := some (cur.1, t), remaining := p :: ps }, .raised y), turns, fun fuel hf => ?_⟩
              rw [attempt, hret fuel hf]; simp [he, hrw]
            | ok u =>
              cases hn : p.newRawDecryptingStream ad with
              | error y =>
                refine ⟨({ source := r'', ad, attempting := some (cur.1, t), remaining := ps }, .raised y), turns, fun fuel hf => ?_⟩
                rw [attempt, hret fuel hf]; simp [he, hrw, hn]
              | ok t' =>
                obtain ⟨⟨q, turns2, hq⟩, -⟩ := ih hps (p.stream, t') r'' (hp t' hn)
                refine ⟨q, max turns turns2, fun fuel hf => ?_⟩
                rw [attempt, hret fuel (by omega)]
                simp only [he, if_true, hrw, hn]
                exact hq fuel (by omega)
        | false =>
          refine ⟨({ source := r', ad, attempting := some (cur.1, t), remaining := p :: ps }, .raised e), turns, fun fuel hf => ?_⟩
          rw [attempt, hret fuel hf]; simp [he]
      | none => exact ⟨_, turns, fun fuel hf => by rw [attempt, hret fuel hf]⟩
      | blocking => exact ⟨_, turns, fun fuel hf => by rw [attempt, hret fuel hf]⟩
      | data b => exact ⟨_, turns, fun fuel hf => by rw [attempt, hret fuel hf]⟩
    · intro fuel w' x' hx
      rw [attempt] at hx
      cases hrun : cur.1.run (rewindableSource src) fuel cur.2 size r with
      | none => rw [hrun] at hx; cases hx
      | some q =>
        obtain ⟨t1, r1, y⟩ := q
        have hl1 := hkeep fuel t1 r1 y hrun
        rw [hrun] at hx
        have live : ∀ st t2, some (cur.1, t1) = some (st, t2) → Live st t2 := by
          intro st t2 h; cases h; exact hl1
        cases y with
        | none => cases hx; exact ⟨⟨(fun _ _ h => by cases h), live, hrem⟩, (fun d h => by cases h)⟩
        | blocking => cases hx; exact ⟨⟨(fun _ _ h => by cases h), live, hrem⟩, (fun d h => by cases h)⟩
        | data b => cases hx; exact ⟨⟨live, (fun _ _ h => by cases h), hrem⟩, fun d _ => ⟨_, rfl⟩⟩
        | raised e =>
          cases he : e.isTink with
          | false =>
            simp only [he, Bool.false_eq_true, if_false] at hx
            cases hx
            exact ⟨⟨(fun _ _ h => by cases h), live, hrem⟩, (fun d h => by cases h)⟩
          | true =>
            simp only [he, if_true] at hx
            cases hrw : r1.rewind with
            | mk r'' z =>
              rw [hrw] at hx
              cases z with
              | error y =>
                cases hx
                exact ⟨⟨(fun _ _ h => by cases h), live, hrem⟩, (fun d h => by cases h)⟩
              | ok u =>
                cases hn : p.newRawDecryptingStream ad with
                | error y =>
                  simp only [hn] at hx
                  cases hx
                  exact ⟨⟨(fun _ _ h => by cases h), live, hps⟩, (fun d h => by cases h)⟩
                | ok t' =>
                  simp only [hn] at hx
                  exact (ih hps (p.stream, t') r'' (hp t' hn)).2 fuel w' x' hx

theorem wrapper_returns {src : Source σ} {left : σ → Nat} (hs : Exhaustible src left)
    {w : DecryptingStreamWrapper σ δ ε τ} (hw : LiveWrapper w) {size : Int} (h0 : size ≠ 0)
    (hm : size < 2 ^ 63) :
    (∃ q turns, ∀ fuel, turns ≤ fuel → w.read src fuel size = some q) ∧
    ∀ fuel w' x, w.read src fuel size = some (w', x) →
      LiveWrapper w' ∧ ∀ d, x = .data d → ∃ m, w'.matching = some m := by
  unfold DecryptingStreamWrapper.read
  simp only [if_neg h0]
  cases hma : w.matching with
  | some m =>
    obtain ⟨st, t⟩ := m
    have hl := hw.matching st t hma
    obtain ⟨⟨⟨t', r', x⟩, turns, hret⟩, hkeep⟩ := live_step hl (rewindable_exhaustible hs) w.source h0 hm
    refine ⟨⟨_, turns, fun fuel hf => by simp only [hret fuel hf]; rfl⟩, ?_⟩
    intro fuel w' x' hx
    simp only at hx
    cases hrun : st.run (rewindableSource src) fuel t size w.source with
    | none => rw [hrun] at hx; cases hx
    | some q =>
      obtain ⟨t1, r1, y⟩ := q
      rw [hrun] at hx
      cases hx
      refine ⟨⟨?_, hw.attempting, hw.remaining⟩, fun d _ => ⟨_, rfl⟩⟩
      intro st' t2 h
      cases h
      exact hkeep fuel _ _ _ hrun
  | none =>
    cases hat : w.attempting with
    | some cur => exact attempt_returns hs h0 hm w.remaining hw.remaining cur w.source (hw.attempting _ _ hat)
    | none =>
      refine ⟨⟨_, 0, fun _ _ => rfl⟩, fun fuel w' x hx => ?_⟩
      cases hx
      exact ⟨hw, (fun d h => by cases h)⟩

/-- What a call of the raw stream by a reader comes to. -/
theorem rawRead_read {src : Source σ} {w w' : DecryptingStreamWrapper σ δ ε τ} {n : Nat} {r : ReadResult}
    (h : RawRead src w n w' r) : ∃ fuel r', w.read src fuel n = some (w', r') ∧
      ∀ d, r = .data d → r' = .data d := by
  obtain ⟨fuel, h | h⟩ := h
  · unfold DecryptingStreamWrapper.readinto at h
    cases hr : w.read src fuel n with
    | none => rw [hr] at h; cases h
    | some q =>
      obtain ⟨w1, x⟩ := q
      rw [hr] at h
      cases x with
      | data d =>
        simp only [Option.map_some, Option.some.injEq, Prod.mk.injEq] at h
        obtain ⟨rfl, h⟩ := h
        refine ⟨fuel, _, hr, fun d' hd' => ?_⟩
        rw [hd'] at h
        split at h
        · exact h
        · cases h
      | none => cases h; exact ⟨fuel, _, hr, (fun d h => by cases h)⟩
      | blocking => cases h; exact ⟨fuel, _, hr, (fun d h => by cases h)⟩
      | raised e => cases h; exact ⟨fuel, _, hr, (fun d h => by cases h)⟩
  · exact ⟨fuel, r, h, fun d h => h⟩

theorem rawRead_live {src : Source σ} {left : σ → Nat} (hs : Exhaustible src left)
    {w : DecryptingStreamWrapper σ δ ε τ} (hw : LiveWrapper w) {n : Nat} (h0 : 0 < n) (hm : n < 2 ^ 63) :
    (∃ w' r, RawRead src w n w' r) ∧ ∀ w' r, RawRead src w n w' r → LiveWrapper w' := by
  obtain ⟨⟨q, turns, hq⟩, hkeep⟩ := wrapper_returns hs hw (size := n) (by omega) (by omega)
  refine ⟨⟨q.1, q.2, turns, .inr (hq turns (Nat.le_refl _))⟩, fun w' r hr => ?_⟩
  obtain ⟨fuel, r', h, -⟩ := rawRead_read hr
  exact (hkeep fuel w' r' h).1

/-- A read once a key was found. -/
theorem matching_read {src : Source σ} {w w' : DecryptingStreamWrapper σ δ ε τ} {st : RawStream τ} {t : τ}
    (hm : w.matching = some (st, t)) {n fuel : Nat} {r : ReadResult} (n0 : 0 < n)
    (h : w.read src fuel n = some (w', r)) :
    ∃ t', w'.matching = some (st, t') ∧
      st.run (rewindableSource src) fuel t n w.source = some (t', w'.source, r) := by
  unfold DecryptingStreamWrapper.read at h
  rw [if_neg (by omega), hm] at h
  simp only at h
  cases hrun : st.run (rewindableSource src) fuel t n w.source with
  | none => rw [hrun] at h; cases h
  | some q =>
    obtain ⟨t1, r1, y⟩ := q
    rw [hrun] at h
    cases h
    exact ⟨t1, rfl, rfl⟩

theorem matching_reaches {src : Source σ} {w z : DecryptingStreamWrapper σ δ ε τ} {st : RawStream τ} {t : τ}
    (hm : w.matching = some (st, t)) (h : ReadOn (RawRead src) w z) :
    ∃ t', z.matching = some (st, t') ∧ Reaches st (rewindableSource src) (t, w.source) (t', z.source) := by
  induction h with
  | none => exact ⟨t, hm, .none⟩
  | read n _ n0 nm hr ih =>
    obtain ⟨t1, h1, h2⟩ := ih
    obtain ⟨fuel, r', h, -⟩ := rawRead_read hr
    obtain ⟨t2, h3, h4⟩ := matching_read h1 n0 h
    exact ⟨t2, h3, .call h2 (by omega) (by omega) h4⟩

theorem readOn_live {src : Source σ} {left : σ → Nat} (hs : Exhaustible src left)
    {w z : DecryptingStreamWrapper σ δ ε τ} (hw : LiveWrapper w) (h : ReadOn (RawRead src) w z) :
    LiveWrapper z := by
  induction h with
  | none => exact hw
  | read n _ n0 nm hr ih => exact (rawRead_live hs ih n0 nm).2 _ _ hr

theorem wrapper_finishes {src : Source σ} {left : σ → Nat} (hs : Exhaustible src left)
    {w : DecryptingStreamWrapper σ δ ε τ} (hw : LiveWrapper w) : Finishes (RawRead src) w := by
  -- once a key was found
  have found : ∀ (st : RawStream τ) (x : τ × Rewindable σ), Acc (Advances st (rewindableSource src)) x →
      ∀ w : DecryptingStreamWrapper σ δ ε τ, w.matching = some (st, x.1) → w.source = x.2 →
        Finishes (RawRead src) w := by
    intro st x hx
    induction hx with
    | intro x _ ih =>
      intro w h1 h2
      refine .intro _ ?_
      rintro w' ⟨z, hz, n, d, n0, nm, hd, hr⟩
      obtain ⟨t, h3, h4⟩ := matching_reaches h1 hz
      obtain ⟨fuel, r', h, hrd⟩ := rawRead_read hr
      rw [hrd d rfl] at h
      obtain ⟨t', h5, h6⟩ := matching_read h3 n0 h
      rw [h2] at h4
      exact ih (t', w'.source) ⟨_, h4, fuel, n, d, by omega, by omega, hd, h6⟩ _ h5 rfl
  have after : ∀ w : DecryptingStreamWrapper σ δ ε τ, LiveWrapper w → (∃ m, w.matching = some m) →
      Finishes (RawRead src) w := by
    rintro w hw ⟨⟨st, t⟩, hm⟩
    exact found st (t, w.source) (live_acc (hw.matching st t hm) (rewindable_exhaustible hs) _) w hm rfl
  refine .intro _ ?_
  rintro w' ⟨z, hz, n, d, n0, nm, hd, hr⟩
  obtain ⟨fuel, r', h, hrd⟩ := rawRead_read hr
  obtain ⟨-, hkeep⟩ := wrapper_returns hs (readOn_live hs hw hz) (size := n) (by omega) (by omega)
  obtain ⟨h1, h2⟩ := hkeep fuel w' r' h
  exact after w' h1 (h2 d (hrd d rfl))

/-! ## The reader -/

section Reader
variable {R : ρ → Nat → ρ → ReadResult → Prop}

theorem filled_inv {ok : ρ → Prop}
    (hok : ∀ t n t' r, ok t → 0 < n → n < 2 ^ 63 → R t n t' r → ok t') {t t' : ρ} {buffer b : Bytes}
    (ht : ok t) (h : Filled R t buffer t' b) : ok t' := by
  induction h with
  | start => exact ht
  | more n _ h1 h2 h3 _ ih => exact hok _ _ _ _ ih h1 h2 h3

theorem bufferedRead_inv {ok : ρ → Prop}
    (hok : ∀ t n t' r, ok t → 0 < n → n < 2 ^ 63 → R t n t' r → ok t') {t t' : ρ} {buffer b : Bytes}
    {op : ReadOp} {r : ReadResult} (ht : ok t) (h : BufferedRead R t buffer op r t' b) : ok t' := by
  cases h with
  | full n hf _ => exact filled_inv hok ht hf
  | one n hf _ => exact filled_inv hok ht hf
  | ended _ m hf _ h1 h2 h3 => exact hok _ _ _ _ (filled_inv hok ht hf) h1 h2 h3
  | paused _ m hf _ h1 h2 h3 => exact hok _ _ _ _ (filled_inv hok ht hf) h1 h2 h3
  | blocked _ m _ hf _ h1 h2 h3 => exact hok _ _ _ _ (filled_inv hok ht hf) h1 h2 h3
  | raised _ m _ hf _ h1 h2 h3 _ => exact hok _ _ _ _ (filled_inv hok ht hf) h1 h2 h3

theorem history_live {ok : ρ → Prop}
    (hok : ∀ t n t' r, ok t → 0 < n → n < 2 ^ 63 → R t n t' r → ok t') {t t' : ρ} {b : Bytes}
    {ops : List (ReadOp × ReadResult)} (ht : ok t) (h : ReaderHistory R t ops t' b) : ok t' := by
  induction h with
  | start => exact ht
  | call _ hc ih => exact bufferedRead_inv hok ih hc

theorem bufferedRead_exists {ok : ρ → Prop}
    (hok : ∀ t n, ok t → 0 < n → n < 2 ^ 63 → (∃ t' r, R t n t' r) ∧ ∀ t' r, R t n t' r → ok t')
    (hfin : ∀ t, ok t → Finishes R t) {t : ρ} (buffer : Bytes) (ht : ok t) (op : ReadOp) :
    ∃ r t' b, BufferedRead R t buffer op r t' b := by
  have : ∀ t1, Finishes R t1 → ∀ b, ok t1 → Filled R t buffer t1 b →
      ∃ r t' b', BufferedRead R t buffer op r t' b' := by
    intro t1 hacc
    induction hacc with
    | intro t1 _ ih =>
      intro b h1 hf
      by_cases hw : op.Wants b
      · obtain ⟨⟨t2, r, hr⟩, hk⟩ := hok t1 8192 h1 (by decide) (by decide)
        cases r with
        | data d =>
          by_cases hd : d = []
          · subst hd
            exact ⟨_, _, _, .ended op 8192 hf hw (by decide) (by decide) hr⟩
          · exact ih t2 ⟨t1, .none, 8192, d, by decide, by decide, hd, hr⟩ (b ++ d) (hk _ _ hr)
              (.more 8192 hf (by decide) (by decide) hr hd)
        | none => exact ⟨_, _, _, .paused op 8192 hf hw (by decide) (by decide) hr⟩
        | blocking => exact ⟨_, _, _, .blocked op 8192 [] hf hw (by decide) (by decide) hr⟩
        | raised e => exact ⟨_, _, _, .raised op 8192 [] hf hw (by decide) (by decide) hr (List.nil_prefix)⟩
      · cases op with
        | read n => exact ⟨_, _, _, .full n hf (by simp only [ReadOp.Wants] at hw; omega)⟩
        | readAll => exact absurd trivial hw
        | read1 n =>
          refine ⟨_, _, _, .one n hf ?_⟩
          simp only [ReadOp.Wants, not_and, Decidable.not_not] at hw
          by_cases hb : b = []
          · exact .inr (hw hb)
          · exact .inl hb
  exact this t (hfin t ht) buffer ht .start

theorem every_call {ok : ρ → Prop}
    (hok : ∀ t n, ok t → 0 < n → n < 2 ^ 63 → (∃ t' r, R t n t' r) ∧ ∀ t' r, R t n t' r → ok t')
    (hfin : ∀ t, ok t → Finishes R t) {t : ρ} (buffer : Bytes) (ht : ok t) :
    EveryCallReturns R t buffer :=
  ⟨fun _ _ hf n h0 hm => (hok _ n (filled_inv (fun t n t' r h1 h2 h3 => (hok t n h1 h2 h3).2 t' r) ht hf)
      h0 hm).1, hfin t ht, bufferedRead_exists hok hfin buffer ht⟩

theorem ReadOn.trans {t1 t2 t3 : ρ} (h : ReadOn R t1 t2) (h' : ReadOn R t2 t3) : ReadOn R t1 t3 := by
  induction h' with
  | none => exact h
  | read n _ h1 h2 h3 ih => exact .read n ih h1 h2 h3

theorem filled_readOn {t t' : ρ} {buffer b : Bytes} (h : Filled R t buffer t' b) : ReadOn R t t' := by
  induction h with
  | start => exact .none
  | more n _ h1 h2 h3 _ ih => exact .read n ih h1 h2 h3

/-- A call that returned bytes has got some from the raw stream, or there are fewer in the buffer. -/
theorem bufferedRead_data {t t' : ρ} {b b' d : Bytes} {op : ReadOp}
    (h : BufferedRead R t b op (.data d) t' b') (hd : d ≠ []) :
    (∃ y, (∃ z, ReadOn R t z ∧ ∃ n d, 0 < n ∧ n < 2 ^ 63 ∧ d ≠ [] ∧ R z n y (.data d)) ∧ ReadOn R y t') ∨
      ReadOn R t t' ∧ b'.length < b.length := by
  have cut : ∀ {b : Bytes} {n : Nat}, b.take n ≠ [] → (b.drop n).length < b.length := by
    intro b n h
    cases n with
    | zero => exact absurd rfl h
    | succ n =>
      cases b with
      | nil => exact absurd List.take_nil h
      | cons a b => rw [List.length_drop, List.length_cons]; omega
  have filled : ∀ {t1 b1}, Filled R t b t1 b1 → ReadOn R t1 t' → b'.length < b1.length →
      (∃ y, (∃ z, ReadOn R t z ∧ ∃ n d, 0 < n ∧ n < 2 ^ 63 ∧ d ≠ [] ∧ R z n y (.data d)) ∧ ReadOn R y t') ∨
      ReadOn R t t' ∧ b'.length < b.length := by
    intro t1 b1 hf hr hl
    cases hf with
    | start => exact .inr ⟨hr, hl⟩
    | more n hf h1 h2 h3 h4 => exact .inl ⟨_, ⟨_, filled_readOn hf, n, _, h1, h2, h4, h3⟩, hr⟩
  generalize hr : ReadResult.data d = r at h
  cases h with
  | full n hf _ => cases hr; exact filled hf .none (cut hd)
  | one n hf _ => cases hr; exact filled hf .none (cut hd)
  | ended _ m hf _ h1 h2 h3 =>
    cases hr; exact filled hf (.read m .none h1 h2 h3) (List.length_pos_iff.2 hd)
  | @paused _ b1 _ _ m hf _ h1 h2 h3 =>
    by_cases hb : b1 = []
    · rw [if_pos hb] at hr; cases hr
    · exact filled hf (.read m .none h1 h2 h3) (List.length_pos_iff.2 hb)
  | blocked => cases hr
  | raised => cases hr

theorem reading_ends {t : ρ} (h : Finishes R t) (b : Bytes) : ReadingEnds R t b := by
  have : ∀ z, ReadOn R t z → ∀ b, ReadingEnds R z b := by
    clear b
    induction h with
    | intro t _ ih =>
      have : ∀ m z, ReadOn R t z → ∀ b : Bytes, b.length ≤ m → ReadingEnds R z b := by
        intro m
        induction m with
        | zero =>
          intro z hz b hb
          refine .intro _ ?_
          rintro ⟨t', b'⟩ ⟨op, d, hd, hr⟩
          rcases bufferedRead_data hr hd with ⟨y, ⟨z', h1, h2⟩, h3⟩ | ⟨-, h2⟩
          · exact ih y ⟨z', ReadOn.trans hz h1, h2⟩ _ h3 _
          · dsimp only at h2; omega
        | succ m ihm =>
          intro z hz b hb
          refine .intro _ ?_
          rintro ⟨t', b'⟩ ⟨op, d, hd, hr⟩
          rcases bufferedRead_data hr hd with ⟨y, ⟨z', h1, h2⟩, h3⟩ | ⟨h1, h2⟩
          · exact ih y ⟨z', ReadOn.trans hz h1, h2⟩ _ h3 _
          · exact ihm t' (ReadOn.trans hz h1) b' (by dsimp only at h2; omega)
      exact fun z hz b => this _ z hz b (Nat.le_refl _)
  exact this t .none b

end Reader

end Tink.Props
