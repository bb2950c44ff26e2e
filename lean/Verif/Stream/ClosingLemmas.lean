import Verif.Spec.Closing
import Verif.Stream.BufferedLemmas

/-!
# Lemmas about closing streams
-/

namespace Tink.Props
open Tink.Spec Tink.Io

/-! ## Code and what it can return -/

section Prog
variable {α β σ : Type}

theorem canReturn_run {src : Source σ} (p : Prog α) :
    ∀ {s s' : σ} {a : α}, p.run src s = some (s', a) → CanReturn p a := by
  induction p with
  | ret a => intro s s' b h; cases h; exact .ret _
  | ask n k ih => intro s s' a h; exact .ask _ (ih _ h)
  | out => intro s s' a h; cases h

theorem canReturn_bind {f : α → Prog β} {b : β} (p : Prog α) (h : CanReturn (p.bind f) b) :
    ∃ a, CanReturn p a ∧ CanReturn (f a) b := by
  induction p with
  | ret a => exact ⟨a, .ret a, h⟩
  | ask n k ih =>
    cases h with
    | ask r h =>
      obtain ⟨a, h1, h2⟩ := ih r h
      exact ⟨a, .ask r h1, h2⟩
  | out => cases h

theorem canReturn_map {f : α → β} {b : β} {p : Prog α} (h : CanReturn (p.map f) b) :
    ∃ a, CanReturn p a ∧ b = f a := by
  obtain ⟨a, h1, h2⟩ := canReturn_bind p h
  cases h2
  exact ⟨a, h1, rfl⟩

end Prog

/-! ## Decrypting streams of keysets -/

section Wrapper
variable {σ δ ε τ : Type} {closeRaw : RawClosing (ClosableRewindable σ) τ}
  {ps : List (RawStreamingAead δ ε τ)} {ad : Bytes}

/-- A stream in use is that of one of the keys. -/
def OfKey (closeRaw : RawClosing (ClosableRewindable σ) τ) (ps : List (RawStreamingAead δ ε τ)) (ad : Bytes)
    (x : RawStream τ × τ) : Prop :=
  ∃ p ∈ ps, x.1 = p.stream ∧ KeyState closeRaw p ad x.2

/-- All streams of a wrapper are those of the keys. -/
structure OfKeys (closeRaw : RawClosing (ClosableRewindable σ) τ) (ps : List (RawStreamingAead δ ε τ)) (ad : Bytes)
    (w : DecryptingStreamWrapper σ δ ε τ) : Prop where
  data : w.ad = ad
  current : w.matching.isSome ∨ w.attempting.isSome
  matching : ∀ x, w.matching = some x → OfKey closeRaw ps ad x
  attempting : ∀ x, w.attempting = some x → OfKey closeRaw ps ad x
  remaining : ∀ p ∈ w.remaining, p ∈ ps

theorem OfKey.run {x : RawStream τ × τ} (h : OfKey closeRaw ps ad x) {ρ : Type} {src : Source ρ} {fuel : Nat}
    {n : Int} {r r' : ρ} {t' : τ} {res : ReadResult} (hr : x.1.run src fuel x.2 n r = some (t', r', res)) :
    OfKey closeRaw ps ad (x.1, t') := by
  obtain ⟨p, hp, hs, hk⟩ := h
  refine ⟨p, hp, hs, ?_⟩
  unfold RawStream.run at hr
  rw [Option.map_eq_some_iff] at hr
  obtain ⟨q, hq, hq2⟩ := hr
  rw [hs] at hq
  simp only [Prod.mk.injEq] at hq2
  obtain ⟨h1, h2, h3⟩ := hq2
  refine .read fuel n hk (r := res) ?_
  have := canReturn_run _ hq
  rw [← h1, ← h3]
  exact this

theorem attempt_ofKeys {src : Source σ} {fuel : Nat} {n : Int}
    {remaining : List (RawStreamingAead δ ε τ)} :
    ∀ {cur : RawStream τ × τ} {r : Rewindable σ} {w : DecryptingStreamWrapper σ δ ε τ} {x : ReadResult},
      OfKey closeRaw ps ad cur → (∀ p ∈ remaining, p ∈ ps) →
      DecryptingStreamWrapper.attempt src fuel ad n cur r remaining = some (w, x) →
      OfKeys closeRaw ps ad w := by
  induction remaining with
  | nil =>
    intro cur r w x hc _ h
    unfold DecryptingStreamWrapper.attempt at h
    cases hr : cur.1.run (DecryptingStreamWrapper.rewindableSource src) fuel cur.2 n r with
    | none => rw [hr] at h; cases h
    | some q =>
      obtain ⟨t, r', res⟩ := q
      rw [hr] at h
      have hc' := hc.run hr
      cases res with
      | none => cases h; exact ⟨rfl, .inr rfl, fun x hx => by (cases hx), fun x hx => by cases hx; exact hc', fun p hp => by (cases hp)⟩
      | blocking => cases h; exact ⟨rfl, .inr rfl, fun x hx => by (cases hx), fun x hx => by cases hx; exact hc', fun p hp => by (cases hp)⟩
      | data b => cases h; exact ⟨rfl, .inl rfl, fun x hx => by cases hx; exact hc', fun x hx => by (cases hx), fun p hp => by (cases hp)⟩
      | raised e =>
        dsimp only at h
        split at h
        · cases h
          exact ⟨rfl, .inr rfl, fun x hx => by (cases hx), fun x hx => by cases hx; exact hc', fun p hp => by (cases hp)⟩
        · cases h
          exact ⟨rfl, .inr rfl, fun x hx => by (cases hx), fun x hx => by cases hx; exact hc', fun p hp => by (cases hp)⟩
  | cons q remaining ih =>
    intro cur r w x hc hrem h
    unfold DecryptingStreamWrapper.attempt at h
    cases hr : cur.1.run (DecryptingStreamWrapper.rewindableSource src) fuel cur.2 n r with
    | none => rw [hr] at h; cases h
    | some y =>
      obtain ⟨t, r', res⟩ := y
      rw [hr] at h
      have hc' := hc.run hr
      cases res with
      | none => cases h; exact ⟨rfl, .inr rfl, fun x hx => by (cases hx), fun x hx => by cases hx; exact hc', hrem⟩
      | blocking => cases h; exact ⟨rfl, .inr rfl, fun x hx => by (cases hx), fun x hx => by cases hx; exact hc', hrem⟩
      | data b => cases h; exact ⟨rfl, .inl rfl, fun x hx => by cases hx; exact hc', fun x hx => by (cases hx), hrem⟩
      | raised e =>
        dsimp only at h
        split at h
        · cases hw : r'.rewind with
          | mk r'' z =>
            rw [hw] at h
            cases z with
            | error e =>
              cases h
              exact ⟨rfl, .inr rfl, fun x hx => by (cases hx), fun x hx => by cases hx; exact hc', hrem⟩
            | ok u =>
              dsimp only at h
              cases ho : q.newRawDecryptingStream ad with
              | error e =>
                rw [ho] at h
                cases h
                exact ⟨rfl, .inr rfl, fun x hx => by (cases hx), fun x hx => by cases hx; exact hc',
                  fun p hp => hrem p (List.mem_cons_of_mem _ hp)⟩
              | ok t' =>
                rw [ho] at h
                exact ih ⟨q, hrem q List.mem_cons_self, rfl, .opened ho⟩
                  (fun p hp => hrem p (List.mem_cons_of_mem _ hp)) h
        · cases h
          exact ⟨rfl, .inr rfl, fun x hx => by (cases hx), fun x hx => by cases hx; exact hc', hrem⟩

theorem read_ofKeys {src : Source σ} {fuel : Nat} {n : Int} {w w' : DecryptingStreamWrapper σ δ ε τ}
    {x : ReadResult} (hw : OfKeys closeRaw ps ad w) (h : w.read src fuel n = some (w', x)) :
    OfKeys closeRaw ps ad w' := by
  unfold DecryptingStreamWrapper.read at h
  by_cases hn : n = 0
  · rw [if_pos hn] at h
    cases h
    exact hw
  · rw [if_neg hn] at h
    cases hm : w.matching with
    | some y =>
      obtain ⟨st, t⟩ := y
      rw [hm] at h
      dsimp only at h
      have hst := hw.matching _ hm
      cases hr : st.run (DecryptingStreamWrapper.rewindableSource src) fuel t n w.source with
      | none => rw [hr] at h; cases h
      | some q =>
        obtain ⟨t', r', res⟩ := q
        rw [hr] at h
        cases h
        exact ⟨hw.data, .inl rfl, fun x hx => by cases hx; exact OfKey.run hst hr, hw.attempting, hw.remaining⟩
    | none =>
      rw [hm] at h
      dsimp only at h
      cases ha : w.attempting with
      | none =>
        rw [ha] at h
        cases h
        exact hw
      | some cur =>
        rw [ha, hw.data] at h
        exact attempt_ofKeys (hw.attempting _ ha) hw.remaining h

theorem new_ofKeys {s : σ} {readable : Bool} {w : DecryptingStreamWrapper σ δ ε τ}
    (h : DecryptingStreamWrapper.new ps s readable ad = .ok w) :
    OfKeys closeRaw ps ad w ∧ w.source.source = s := by
  unfold DecryptingStreamWrapper.new at h
  obtain ⟨r, hr, h⟩ := bind_ok_iff.mp h
  unfold Rewindable.new at hr
  split at hr
  · cases hr
    cases ps with
    | nil => cases h
    | cons p ps =>
      obtain ⟨t, ht, h⟩ := bind_ok_iff.mp h
      cases h
      exact ⟨⟨rfl, .inr rfl, fun x hx => by (cases hx),
        fun x hx => by cases hx; exact ⟨p, List.mem_cons_self, rfl, .opened ht⟩,
        fun q hq => List.mem_cons_of_mem _ hq⟩, rfl⟩
  · cases hr

/-- A stream that was closed. -/
def Dead (x : RawStream τ × τ) : Prop := ∀ fuel n, x.1.read fuel x.2 n = .ret (x.2, .raised .valueError)

/-- A wrapper whose streams were closed, so that `read` raises `ValueError`. -/
def AllDead (w : DecryptingStreamWrapper σ δ ε τ) : Prop :=
  (∀ x, w.matching = some x → Dead x) ∧ (∀ x, w.attempting = some x → Dead x)

theorem dead_run {x : RawStream τ × τ} (h : Dead x) {ρ : Type} (src : Source ρ) (fuel : Nat) (n : Int) (r : ρ) :
    x.1.run src fuel x.2 n r = some (x.2, r, .raised .valueError) := by
  unfold RawStream.run
  rw [h]
  rfl

theorem closeKey_ok (closeSource : σ → σ × Py Unit) (hq : ∀ p ∈ ps, ClosesQuietly closeRaw p ad)
    (r : ClosableRewindable σ) {o : Option (RawStream τ × τ)} (h : ∀ x, o = some x → OfKey closeRaw ps ad x) :
    ∃ o', ClosableDecrypting.closeKey closeRaw closeSource r o = (o', r, .ok ()) ∧ o'.isSome = o.isSome ∧
      ∀ x, o' = some x → OfKey closeRaw ps ad x ∧ Dead x := by
  cases o with
  | none => exact ⟨none, rfl, rfl, fun x hx => by (cases hx)⟩
  | some x =>
    obtain ⟨st, t⟩ := x
    obtain ⟨p, hp, hs, hk⟩ := h _ rfl
    obtain ⟨t', h1, h2⟩ := hq p hp t hk (ClosableRewindable.close closeSource) r
    refine ⟨some (st, t'), ?_, rfl, ?_⟩
    · show (_, _) = _
      rw [h1]
    · intro x hx
      cases hx
      refine ⟨⟨p, hp, hs, ?_⟩, ?_⟩
      · have := KeyState.closed (ClosableRewindable.close closeSource) r hk
        rw [h1] at this
        exact this
      · intro fuel n
        dsimp only at hs ⊢
        rw [hs]
        exact h2 fuel n

theorem run_keeps {ρ α : Type} {src : Source ρ} {I : ρ → Prop} (hI : ∀ s n, I s → I (src.read s n).1) (p : Prog α) :
    ∀ {s s' : ρ} {a : α}, I s → p.run src s = some (s', a) → I s' := by
  induction p with
  | ret a => intro s s' b h0 h; cases h; exact h0
  | ask n k ih => intro s s' a h0 h; exact ih _ (hI _ _ h0) h
  | out => intro s s' a h0 h; cases h

theorem rewindable_keeps {src : Source σ} {I : σ → Prop} (hI : ∀ s n, I s → I (src.read s n).1)
    (r : Rewindable σ) (n : Nat) (h : I r.source) :
    I ((DecryptingStreamWrapper.rewindableSource src).read r n).1.source := by
  show I (Rewindable.read src r n).1.source
  unfold Rewindable.read
  split
  · exact h
  · have h' : I r.dropBuffer.source := by
      unfold Rewindable.dropBuffer
      split <;> exact h
    have := hI _ n h'
    unfold Rewindable.readSource
    split
    all_goals rename_i hx; rw [hx] at this
    · exact this
    · exact this
    · exact this
    · unfold Rewindable.received
      split <;> exact this

theorem stream_keeps {src : Source σ} {I : σ → Prop} (hI : ∀ s n, I s → I (src.read s n).1)
    {st : RawStream τ} {fuel : Nat} {t t' : τ} {n : Int} {r r' : Rewindable σ} {res : ReadResult}
    (h : I r.source) (hr : st.run (DecryptingStreamWrapper.rewindableSource src) fuel t n r = some (t', r', res)) :
    I r'.source := by
  unfold RawStream.run at hr
  rw [Option.map_eq_some_iff] at hr
  obtain ⟨q, hq, hq2⟩ := hr
  simp only [Prod.mk.injEq] at hq2
  obtain ⟨h1, h2, h3⟩ := hq2
  rw [← h2]
  exact run_keeps (I := fun r => I r.source) (fun s n => rewindable_keeps hI s n) _ h hq

theorem attempt_keeps {src : Source σ} {I : σ → Prop} (hI : ∀ s n, I s → I (src.read s n).1)
    {fuel : Nat} {n : Int} {remaining : List (RawStreamingAead δ ε τ)} :
    ∀ {cur : RawStream τ × τ} {r : Rewindable σ} {w : DecryptingStreamWrapper σ δ ε τ} {x : ReadResult},
      I r.source → DecryptingStreamWrapper.attempt src fuel ad n cur r remaining = some (w, x) →
      I w.source.source := by
  induction remaining with
  | nil =>
    intro cur r w x h0 h
    unfold DecryptingStreamWrapper.attempt at h
    cases hr : cur.1.run (DecryptingStreamWrapper.rewindableSource src) fuel cur.2 n r with
    | none => rw [hr] at h; cases h
    | some q =>
      obtain ⟨t, r', res⟩ := q
      rw [hr] at h
      have h1 := stream_keeps hI h0 hr
      cases res with
      | none => cases h; exact h1
      | blocking => cases h; exact h1
      | data b => cases h; exact h1
      | raised e =>
        dsimp only at h
        split at h
        · cases h; exact h1
        · cases h; exact h1
  | cons q remaining ih =>
    intro cur r w x h0 h
    unfold DecryptingStreamWrapper.attempt at h
    cases hr : cur.1.run (DecryptingStreamWrapper.rewindableSource src) fuel cur.2 n r with
    | none => rw [hr] at h; cases h
    | some y =>
      obtain ⟨t, r', res⟩ := y
      rw [hr] at h
      have h1 := stream_keeps hI h0 hr
      cases res with
      | none => cases h; exact h1
      | blocking => cases h; exact h1
      | data b => cases h; exact h1
      | raised e =>
        dsimp only at h
        split at h
        · cases hw : r'.rewind with
          | mk r'' z =>
            have h2 : I r''.source := by
              unfold Rewindable.rewind at hw
              split at hw <;> cases hw <;> exact h1
            rw [hw] at h
            cases z with
            | error e => cases h; exact h2
            | ok u =>
              dsimp only at h
              cases ho : q.newRawDecryptingStream ad with
              | error e => rw [ho] at h; cases h; exact h2
              | ok t' => rw [ho] at h; exact ih h2 h
        · cases h; exact h1

theorem read_keeps {src : Source σ} {I : σ → Prop} (hI : ∀ s n, I s → I (src.read s n).1)
    {fuel : Nat} {n : Int} {w w' : DecryptingStreamWrapper σ δ ε τ} {x : ReadResult}
    (h0 : I w.source.source) (h : w.read src fuel n = some (w', x)) : I w'.source.source := by
  unfold DecryptingStreamWrapper.read at h
  by_cases hn : n = 0
  · rw [if_pos hn] at h
    cases h
    exact h0
  · rw [if_neg hn] at h
    cases hm : w.matching with
    | some y =>
      obtain ⟨st, t⟩ := y
      rw [hm] at h
      dsimp only at h
      cases hr : st.run (DecryptingStreamWrapper.rewindableSource src) fuel t n w.source with
      | none => rw [hr] at h; cases h
      | some q =>
        obtain ⟨t', r', res⟩ := q
        rw [hr] at h
        cases h
        exact stream_keeps hI h0 hr
    | none =>
      rw [hm] at h
      dsimp only at h
      cases ha : w.attempting with
      | none =>
        rw [ha] at h
        cases h
        exact h0
      | some cur =>
        rw [ha] at h
        exact attempt_keeps hI h0 h

/-- After the streams of the keys were closed, `read` raises `ValueError` and nothing changes. -/
theorem read_dead (src : Source σ) (fuel : Nat) {n : Int} {w : DecryptingStreamWrapper σ δ ε τ}
    (hk : OfKeys closeRaw ps ad w) (hd : AllDead w) :
    w.read src fuel n = some (w, if n = 0 then .data [] else .raised .valueError) := by
  unfold DecryptingStreamWrapper.read
  by_cases hn : n = 0
  · rw [if_pos hn, if_pos hn]
  · rw [if_neg hn, if_neg hn]
    obtain ⟨source, d, matching, attempting, remaining⟩ := w
    cases matching with
    | some y =>
      obtain ⟨st, t⟩ := y
      dsimp only
      rw [dead_run (hd.1 _ rfl)]
    | none =>
      dsimp only
      cases attempting with
      | none => rcases hk.current with h | h <;> cases h
      | some cur =>
        dsimp only
        cases remaining <;>
        · unfold DecryptingStreamWrapper.attempt
          rw [dead_run (hd.2 _ rfl)]
          rfl

/-- What `close()` of an open stream does. -/
theorem close_open (closeSource : σ → σ × Py Unit) (hq : ∀ p ∈ ps, ClosesQuietly closeRaw p ad)
    {w : ClosableDecrypting σ δ ε τ} (hk : OfKeys closeRaw ps ad w.stream) (hc : w.closed = false)
    (hs : w.sourceClosed = false) :
    ∃ w', w.close closeRaw closeSource = (w', (closeSource w.stream.source.source).2) ∧
      OfKeys closeRaw ps ad w'.stream ∧ AllDead w'.stream ∧
      w'.stream.source.source = (closeSource w.stream.source.source).1 ∧ w'.sourceClosed = w'.closed ∧
      (w'.closed = true ↔ (closeSource w.stream.source.source).2 = .ok ()) := by
  obtain ⟨m, hm1, hm2, hm3⟩ := closeKey_ok closeSource hq w.source hk.matching
  obtain ⟨a, ha1, ha2, ha3⟩ := closeKey_ok closeSource hq w.source hk.attempting
  unfold ClosableDecrypting.close
  rw [if_neg (by simp [hc]), hm1]
  dsimp only
  rw [ha1]
  dsimp only
  have hcur : m.isSome ∨ a.isSome := by rw [hm2, ha2]; exact hk.current
  unfold ClosableRewindable.close
  rw [if_neg (by simp [ClosableDecrypting.source, hs])]
  have hsrc : w.source.stream.source = w.stream.source.source := rfl
  rw [hsrc]
  rcases hx : closeSource w.stream.source.source with ⟨s, e | u⟩
  · exact ⟨_, rfl, ⟨hk.data, hcur, fun x hx => (hm3 x hx).1, fun x hx => (ha3 x hx).1, hk.remaining⟩,
      ⟨fun x hx => (hm3 x hx).2, fun x hx => (ha3 x hx).2⟩, rfl, by
        show w.sourceClosed = w.closed
        rw [hs, hc], by
        show w.closed = true ↔ _
        simp [hc]⟩
  · exact ⟨_, rfl, ⟨hk.data, hcur, fun x hx => (hm3 x hx).1, fun x hx => (ha3 x hx).1, hk.remaining⟩,
      ⟨fun x hx => (hm3 x hx).2, fun x hx => (ha3 x hx).2⟩, rfl, rfl, by simp⟩

/-- Streams that are garbage collected change nothing. -/
theorem collect_eq (closeSource : σ → σ × Py Unit) {p : RawStreamingAead δ ε τ} (hq : ClosesQuietly closeRaw p ad)
    (w : ClosableDecrypting σ δ ε τ) {t : τ} (ht : KeyState closeRaw p ad t) :
    w.collect closeRaw closeSource t = w := by
  obtain ⟨t', h1, h2⟩ := hq t ht (ClosableRewindable.close closeSource) w.source
  unfold ClosableDecrypting.collect
  rw [h1]
  rfl

/-- What holds throughout a history of calls. -/
structure ClosingSoFar (closeRaw : RawClosing (ClosableRewindable σ) τ) (ps : List (RawStreamingAead δ ε τ))
    (ad : Bytes) (calls : List StreamCall) (w : ClosableDecrypting σ δ ε τ) : Prop where
  ofKeys : OfKeys closeRaw ps ad w.stream
  source : w.sourceClosed = w.closed
  closed : w.closed = true ↔ .close (.ok ()) ∈ calls
  dead : (∃ r, .close r ∈ calls) → AllDead w.stream

theorem closingSoFar {src : Source σ} {closeSource : σ → σ × Py Unit} (hq : ∀ p ∈ ps, ClosesQuietly closeRaw p ad)
    {w0 : DecryptingStreamWrapper σ δ ε τ} (h0 : OfKeys closeRaw ps ad w0) {calls : List StreamCall}
    {w : ClosableDecrypting σ δ ε τ} (h : CloseHistory src closeSource closeRaw ps ad w0 calls w) :
    ClosingSoFar closeRaw ps ad calls w := by
  induction h with
  | start => exact ⟨h0, rfl, by simp, by simp⟩
  | @read calls w w' r fuel n _ hr ih =>
    unfold ClosableDecrypting.read at hr
    split at hr
    · cases hr
      exact ⟨ih.ofKeys, ih.source, by rw [ih.closed]; simp, fun ⟨r, h⟩ => ih.dead ⟨r, by simpa using h⟩⟩
    · rw [Option.map_eq_some_iff] at hr
      obtain ⟨q, hq1, hq2⟩ := hr
      simp only [Prod.mk.injEq] at hq2
      obtain ⟨rfl, rfl⟩ := hq2
      refine ⟨read_ofKeys ih.ofKeys hq1, ih.source, by rw [ih.closed]; simp, ?_⟩
      rintro ⟨r, h⟩
      have hd := ih.dead ⟨r, by simpa using h⟩
      rw [read_dead src fuel ih.ofKeys hd] at hq1
      cases hq1
      exact hd
  | @close calls w w' r _ hc ih =>
    by_cases hcl : w.closed = true
    · unfold ClosableDecrypting.close at hc
      rw [if_pos hcl] at hc
      cases hc
      exact ⟨ih.ofKeys, ih.source, by simp [hcl], fun _ => ih.dead ⟨_, ih.closed.mp hcl⟩⟩
    · have hcl' : w.closed = false := by simpa using hcl
      obtain ⟨w1, h1, h2, h3, h4, h5, h6⟩ := close_open closeSource hq ih.ofKeys hcl' (ih.source.trans hcl')
      rw [h1] at hc
      cases hc
      refine ⟨h2, h5, ?_, fun _ => h3⟩
      rw [h6]
      have : StreamCall.close (.ok ()) ∉ calls := fun h => hcl (ih.closed.mpr h)
      simp only [List.mem_append, this, List.mem_singleton, StreamCall.close.injEq, false_or]
      exact eq_comm
  | collect t _ hp ht ih => rw [collect_eq _ (hq _ hp) _ ht]; exact ih

end Wrapper

/-- How often the source was closed. -/
theorem closings_eq {σ δ ε τ : Type} {closeRaw : RawClosing (ClosableRewindable (σ × Nat)) τ}
    {ps : List (RawStreamingAead δ ε τ)} {ad : Bytes}
    {src : Source σ} {closeSource : σ → σ × Py Unit} (hq : ∀ p ∈ ps, ClosesQuietly closeRaw p ad)
    {w0 : DecryptingStreamWrapper (σ × Nat) δ ε τ} (h0 : OfKeys closeRaw ps ad w0) {calls : List StreamCall}
    {w : ClosableDecrypting (σ × Nat) δ ε τ}
    (h : CloseHistory (countingSource src) (countingClose closeSource) closeRaw ps ad w0 calls w) :
    closings w = w0.source.source.2 + failedCloses calls + (if w.closed then 1 else 0) := by
  induction h with
  | start => rfl
  | @read calls w w' r fuel n h hr ih =>
    have hf : failedCloses (calls ++ [.read n r]) = failedCloses calls := by simp [failedCloses]
    rw [hf]
    unfold ClosableDecrypting.read at hr
    split at hr
    · cases hr
      exact ih
    · rw [Option.map_eq_some_iff] at hr
      obtain ⟨q, hq1, hq2⟩ := hr
      simp only [Prod.mk.injEq] at hq2
      obtain ⟨rfl, rfl⟩ := hq2
      rw [← ih]
      exact read_keeps (I := fun s => s.2 = w.stream.source.source.2) (fun s n h => h) rfl hq1
  | @close calls w w' r h hc ih =>
    have so := closingSoFar hq h0 h
    by_cases hcl : w.closed = true
    · unfold ClosableDecrypting.close at hc
      rw [if_pos hcl] at hc
      cases hc
      rw [ih]
      simp [failedCloses]
    · have hcl' : w.closed = false := by simpa using hcl
      obtain ⟨w1, h1, h2, h3, h4, h5, h6⟩ :=
        close_open (countingClose closeSource) hq so.ofKeys hcl' (so.source.trans hcl')
      rw [h1] at hc
      cases hc
      unfold closings at ih ⊢
      rw [h4]
      show w.stream.source.source.2 + 1 = _
      rw [ih, if_neg hcl]
      cases hx : (countingClose closeSource w.stream.source.source).2 with
      | ok u => rw [if_pos (h6.mpr hx)]; simp [failedCloses]
      | error e =>
        rw [if_neg (fun h => by rw [h6.mp h] at hx; cases hx)]
        simp [failedCloses]
        omega
  | collect t _ hp ht ih => rw [collect_eq _ (hq _ hp) _ ht]; exact ih

/-! ## The decrypting streams of single keys -/

section Cc
variable {κ ν σ ρ ι : Type}

theorem loop_closeSource {st : CInputStream ι} {size : Int} :
    ∀ {fuel : Nat} {r r' : RawDecryptingStream ι} {x : Py Bytes},
      CanReturn (RawDecryptingStream.loop st size fuel r) (r', x) → r'.closeSource = r.closeSource := by
  intro fuel
  induction fuel with
  | zero => intro r r' x h; cases h
  | succ fuel ih =>
    intro r r' x h
    unfold RawDecryptingStream.loop at h
    obtain ⟨⟨s, y⟩, -, h⟩ := canReturn_bind _ h
    cases y with
    | error e => cases e <;> cases h <;> rfl
    | ok data =>
      dsimp only at h
      split at h
      · have := ih h
        exact this
      · cases h; rfl

theorem readSome_closeSource {st : CInputStream ι} {size fuel : Nat} {r r' : RawDecryptingStream ι} {x : Py Bytes}
    (h : CanReturn (RawDecryptingStream.readSome st fuel r size) (r', x)) : r'.closeSource = r.closeSource := by
  unfold RawDecryptingStream.readSome at h
  split at h
  · cases h; rfl
  · exact loop_closeSource h

theorem readall_closeSource {st : CInputStream ι} {fuel : Nat} :
    ∀ {turns : Nat} {r r' : RawDecryptingStream ι} {chunks : Bytes} {x : Py Bytes},
      CanReturn (RawDecryptingStream.readallLoop st fuel turns r chunks) (r', x) →
      r'.closeSource = r.closeSource := by
  intro turns
  induction turns with
  | zero => intro r r' chunks x h; cases h
  | succ turns ih =>
    intro r r' chunks x h
    unfold RawDecryptingStream.readallLoop at h
    obtain ⟨⟨s, y⟩, h1, h⟩ := canReturn_bind _ h
    have h2 := readSome_closeSource h1
    cases y with
    | error e => cases h; exact h2
    | ok data =>
      dsimp only at h
      split at h
      · cases h; exact h2
      · exact (ih h).trans h2

theorem keyState_closeSource {p : NonceBased κ ν} {text : Exc → Bool} {buffer ad : Bytes}
    {closing : RawClosing (ClosableRewindable ρ) (CcDecrypting ν)} (hc : closing = CcDecrypting.close)
    {t : CcDecrypting ν} (h : KeyState closing (p.toRaw (σ := σ) text buffer) ad t) : t.raw.closeSource = false := by
  induction h with
  | opened h =>
    have h : p.newRawDecryptingStream buffer ad = .ok _ := h
    unfold NonceBased.newRawDecryptingStream at h
    cases hx : p.newDecryptingStream (PythonInputStream.new () buffer) ad with
    | error x => rw [hx] at h; cases h
    | ok q => rw [hx] at h; cases h; rfl
  | read fuel n _ h ih =>
    obtain ⟨q, h1, h2⟩ := canReturn_map h
    cases h2
    rw [← ih]
    unfold RawDecryptingStream.read at h1
    split at h1
    · cases h1; rfl
    · dsimp only at h1
      split at h1
      · exact readall_closeSource (x := q.2) h1
      · exact readSome_closeSource (x := q.2) h1
  | closed f r _ ih =>
    rw [hc]
    unfold CcDecrypting.close
    rw [if_neg (by simp [ih])]
    show (RawDecryptingStream.close _ _).1.closeSource = false
    unfold RawDecryptingStream.close
    split
    · exact ih
    · rw [if_neg (by simp [ih])]; exact ih

/-- The streams of the keys whose C++ is modelled close quietly. -/
theorem toRaw_closes (p : NonceBased κ ν) (text : Exc → Bool) (buffer ad : Bytes) :
    ClosesQuietly (CcDecrypting.close (ρ := ClosableRewindable ρ)) (p.toRaw (σ := σ) text buffer) ad := by
  intro t ht f r
  have hs := keyState_closeSource rfl ht
  refine ⟨{ t with raw := { t.raw with closed := true } }, ?_, ?_⟩
  · unfold CcDecrypting.close
    rw [if_neg (by simp [hs])]
    unfold RawDecryptingStream.close
    obtain ⟨d, a, c, cl⟩ := t
    cases cl with
    | true => rfl
    | false => rw [if_neg (by simp), if_neg (by simpa using hs)]
  · intro fuel n
    rfl

end Cc

/-! ## Encrypting streams -/

section Encrypting
variable {κ σ : Type}

abbrev CountedStream (σ : Type) := PythonOutputStream (σ × Nat)

theorem output_next_count (snk : CSink σ) (p : CountedStream σ) :
    (p.next (countingSink snk)).1.adapter.2 = p.adapter.2 := by
  unfold PythonOutputStream.next
  split
  · rfl
  · split
    · rfl
    · split
      · rfl
      · have hw : ((countingSink snk).write p.adapter p.buffer).1.2 = p.adapter.2 := rfl
        split <;> (rename_i hx; rw [hx] at hw; exact hw)

theorem backUp_count (p : CountedStream σ) (n : Int) : (p.backUp n).adapter = p.adapter := by
  unfold PythonOutputStream.backUp
  split <;> rfl

theorem writeToStream_count {snk : CSink σ} {f : Nat} :
    ∀ {fuel : Nat} {p p' : CountedStream σ} {b : Bytes} {x y : Nat} {r : StatusOr Unit},
      writeToStream (PythonOutputStream.stream (countingSink snk) f) fuel p b x y = some (p', r) →
      p'.adapter.2 = p.adapter.2 := by
  intro fuel
  induction fuel with
  | zero => intro p p' b x y r h; cases h
  | succ fuel ih =>
    intro p p' b x y r h
    unfold writeToStream at h
    split at h
    · have hn := output_next_count snk p
      cases hq : PythonOutputStream.next (countingSink snk) p with
      | mk p1 z =>
        rw [hq] at hn
        have hq' : (PythonOutputStream.stream (countingSink snk) f).next p = some (p1, z) := congrArg some hq
        rw [hq'] at h
        cases z with
        | error e => cases h; exact hn
        | ok n => exact (ih h).trans hn
    · cases h
      split
      · exact congrArg Prod.snd (backUp_count p _)
      · rfl

theorem flush_count {snk : CSink σ} {p : CountedStream σ} :
    ∀ {fuel : Nat} {s s' : σ × Nat} {k : Nat} {r : StatusOr Unit},
      p.flush (countingSink snk) fuel s k = some (s', r) → s'.2 = s.2 := by
  intro fuel
  induction fuel with
  | zero => intro s s' k r h; cases h
  | succ fuel ih =>
    intro s s' k r h
    unfold PythonOutputStream.flush at h
    split at h
    · have hw : ((countingSink snk).write s ((p.buffer.drop k).take (p.countInBuffer - k))).1.2 = s.2 := rfl
      split at h
      · rename_i hx; rw [hx] at hw; cases h; exact hw
      · rename_i hx; rw [hx] at hw; exact (ih h).trans hw
    · cases h; rfl

theorem output_close_count {snk : CSink σ} {fuel : Nat} {p p' : CountedStream σ} {r : StatusOr Unit}
    (h : p.close (countingSink snk) fuel = some (p', r)) :
    p'.adapter.2 ≤ p.adapter.2 + 1 ∧ (r = .ok () → p'.adapter.2 = p.adapter.2 + 1) := by
  unfold PythonOutputStream.close at h
  split at h
  · cases h; exact ⟨by omega, fun h => by (cases h)⟩
  · split at h
    · cases h
    · rename_i hx
      have := flush_count hx
      cases h
      exact ⟨by simp [this], fun h => by (cases h)⟩
    · rename_i s _ hx
      have h1 := flush_count hx
      have hw : ((countingSink snk).close s).1.2 = s.2 + 1 := rfl
      split at h
      all_goals
        rename_i hy
        rw [hy] at hw
        cases h
        exact ⟨by simp at hw ⊢; omega, fun _ => by simp at hw ⊢; omega⟩

variable {se : SegmentEncrypter κ} {snk : CSink σ} {f fuel : Nat}

/-- The stream under an encrypting stream. -/
abbrev under (snk : CSink σ) (f : Nat) : COutputStream (CountedStream σ) :=
  PythonOutputStream.stream (countingSink snk) f

theorem emit_count {e e' : EncryptingStream κ (CountedStream σ)} {pt : Bytes} {last : Bool}
    (h : e.emit se (under snk f) fuel pt last = some e') : e'.dest.adapter.2 = e.dest.adapter.2 := by
  unfold EncryptingStream.emit at h
  split at h
  · cases h; rfl
  · split at h
    · cases h
    · rename_i hx; cases h; exact writeToStream_count hx
    · rename_i hx; cases h; exact writeToStream_count hx

theorem emitHeader_count {e e' : EncryptingStream κ (CountedStream σ)}
    (h : e.emitHeader se (under snk f) fuel = some e') : e'.dest.adapter.2 = e.dest.adapter.2 := by
  unfold EncryptingStream.emitHeader at h
  split at h
  · cases h
  · rename_i hx; cases h; exact writeToStream_count hx
  · rename_i hx; cases h; exact writeToStream_count hx

theorem encrypting_next_count {e e' : EncryptingStream κ (CountedStream σ)} {r : StatusOr Nat}
    (h : e.next se (under snk f) fuel = some (e', r)) : e'.dest.adapter.2 = e.dest.adapter.2 := by
  unfold EncryptingStream.next at h
  split at h
  · cases h; rfl
  · split at h
    · split at h
      · cases h
      · rename_i hx
        have := emitHeader_count hx
        split at h <;> cases h <;> exact this
    · split at h
      · cases h; rfl
      · split at h
        · cases h
        · rename_i e1 hx
          have : e1.dest.adapter.2 = e.dest.adapter.2 := by
            split at hx
            · cases hx; rfl
            · exact emit_count hx
          split at h <;> cases h <;> exact this

theorem adapter_write_count {b : Bytes} :
    ∀ {fuel : Nat} {e e' : EncryptingStream κ (CountedStream σ)} {k : Nat} {r : Ran (StatusOr Nat)} {f' : Nat},
      OutputStreamAdapter.write (EncryptingStream.stream se (under snk f) f') b fuel e k = some (e', r) →
      e'.dest.adapter.2 = e.dest.adapter.2 := by
  intro fuel
  induction fuel with
  | zero => intro e e' k r f' h; cases h
  | succ fuel ih =>
    intro e e' k r f' h
    unfold OutputStreamAdapter.write at h
    split at h
    · cases hq : EncryptingStream.next se (under snk f) f' e with
      | none =>
        have hq' : (EncryptingStream.stream se (under snk f) f').next e = none := hq
        rw [hq'] at h; cases h
      | some y =>
        obtain ⟨e1, z⟩ := y
        have hq' : (EncryptingStream.stream se (under snk f) f').next e = some (e1, z) := hq
        have hn := encrypting_next_count hq
        rw [hq'] at h
        cases z with
        | error x => cases h; exact hn
        | ok n =>
          dsimp only at h
          split at h
          · cases h; exact hn
          · rw [ih h, ← hn]
            unfold OutputStreamAdapter.put
            split
            · show (EncryptingStream.backUp (EncryptingStream.store e1 _) _).dest.adapter.2 = _
              unfold EncryptingStream.backUp
              split <;> rfl
            · rfl
    · cases h; rfl

/-- What `Close` does with a destination, and that the status is not OK afterwards. -/
def ClosedOnce (e e' : EncryptingStream κ (CountedStream σ)) (r : StatusOr Unit) : Prop :=
  e'.status ≠ none ∧ e'.dest.adapter.2 ≤ e.dest.adapter.2 + 1 ∧
    (r = .ok () → e'.dest.adapter.2 = e.dest.adapter.2 + 1)

theorem abandon_count {e0 e e' : EncryptingStream κ (CountedStream σ)} {x : Status} {r : StatusOr Unit}
    (h0 : e.dest.adapter.2 = e0.dest.adapter.2) (hs : e.status = some x)
    (h : e.abandon (under snk f) x = some (e', r)) : ClosedOnce e0 e' r := by
  unfold EncryptingStream.abandon at h
  split at h
  · cases h
  · rename_i hx
    obtain ⟨h1, -⟩ := output_close_count hx
    cases h
    refine ⟨?_, ?_, fun h => by (cases h)⟩
    · show e.status ≠ none
      rw [hs]; simp
    · rw [← h0]; exact h1

theorem finish_count {e0 e e' : EncryptingStream κ (CountedStream σ)} {last : Bytes} {r : StatusOr Unit}
    (h0 : e.dest.adapter.2 = e0.dest.adapter.2)
    (h : e.finish se (under snk f) fuel last = some (e', r)) : ClosedOnce e0 e' r := by
  unfold EncryptingStream.finish at h
  split at h
  · cases h
  · rename_i e1 hx
    have h1 := (emit_count hx).trans h0
    split at h
    · rename_i hs
      exact abandon_count h1 hs h
    · split at h
      · cases h
      · rename_i hy
        obtain ⟨h2, h3⟩ := output_close_count hy
        cases h
        refine ⟨by simp, ?_, ?_⟩
        · rw [← h1]; exact h2
        · rw [← h1]; exact h3

theorem closeSegments_count {e0 e e' : EncryptingStream κ (CountedStream σ)} {r : StatusOr Unit}
    (h0 : e.dest.adapter.2 = e0.dest.adapter.2)
    (h : e.closeSegments se (under snk f) fuel = some (e', r)) : ClosedOnce e0 e' r := by
  unfold EncryptingStream.closeSegments at h
  split at h
  · dsimp only at h
    split at h
    · split at h
      · cases h
      · rename_i hx
        have h1 := (emit_count hx).trans h0
        split at h
        · rename_i hs
          exact abandon_count h1 hs h
        · exact finish_count h1 h
    · refine finish_count ?_ h
      exact h0
  · exact finish_count h0 h

theorem close_count {e e' : EncryptingStream κ (CountedStream σ)} {r : StatusOr Unit}
    (h : e.close se (under snk f) fuel = some (e', r)) :
    if e.status = none then ClosedOnce e e' r else e' = e ∧ r ≠ .ok () := by
  unfold EncryptingStream.close at h
  split at h
  · rename_i x hs
    cases h
    rw [if_neg (by simp [hs])]
    exact ⟨rfl, fun h => by (cases h)⟩
  · rename_i hs
    rw [if_pos hs]
    split at h
    · split at h
      · cases h
      · rename_i hx
        have h1 := emitHeader_count hx
        split at h
        · rename_i hy
          cases h
          exact ⟨by rw [hy]; simp, by omega, fun h => by (cases h)⟩
        · exact closeSegments_count h1 h
    · exact closeSegments_count rfl h

/-- What holds throughout the calls of an encrypting stream. -/
structure EncryptingSoFar (n : Nat) (calls : List EncryptingCall) (t : CcEncrypting κ (σ × Nat)) : Prop where
  some : (∃ r, .close r ∈ calls) → t.raw.adapter.status ≠ none
  unclosed : (¬ ∃ r, .close r ∈ calls) → t.object.2 = n
  atMost : t.object.2 ≤ n + 1
  closed : t.raw.closed = true ↔ .close (.ok ()) ∈ calls
  once : t.raw.closed = true → t.object.2 = n + 1

theorem encryptingSoFar {t0 t : CcEncrypting κ (σ × Nat)} {calls : List EncryptingCall}
    (h0 : t0.raw.closed = false) (h : EncryptingHistory (countingSink snk) t0 calls t) :
    EncryptingSoFar t0.object.2 calls t := by
  induction h with
  | start => exact ⟨by simp, fun _ => rfl, by omega, by simp [h0], by simp [h0]⟩
  | @write calls t t' r b _ hw ih =>
    have hm : ∀ x, EncryptingCall.close x ∈ calls ++ [.write b r] ↔ .close x ∈ calls := by simp
    suffices h : t'.raw.closed = t.raw.closed ∧ t'.object.2 = t.object.2 ∧
        (t.raw.adapter.status ≠ none → t'.raw.adapter.status ≠ none) by
      obtain ⟨h1, h2, h3⟩ := h
      refine ⟨?_, ?_, ?_, ?_, ?_⟩
      · intro h
        simp only [hm] at h
        exact h3 (ih.some h)
      · intro h
        simp only [hm] at h
        rw [h2]; exact ih.unclosed h
      · rw [h2]; exact ih.atMost
      · rw [h1, hm]; exact ih.closed
      · rw [h1, h2]; exact ih.once
    cases hcl : t.raw.closed with
    | true =>
      obtain ⟨fuel, hw⟩ := hw
      unfold CcEncrypting.write RawEncryptingStream.write at hw
      rw [if_pos hcl] at hw
      cases hw
      exact ⟨hcl, rfl, id⟩
    | false =>
      obtain ⟨h1, h2, -⟩ := rawWrite_cases hcl hw
      refine ⟨h1, ?_, h2⟩
      obtain ⟨fuel, hw⟩ := hw
      unfold CcEncrypting.write RawEncryptingStream.write at hw
      rw [if_neg (by simp [hcl])] at hw
      dsimp only at hw
      cases hx : OutputStreamAdapter.write (CcEncrypting.stream (countingSink snk) fuel t.encrypter) b fuel
          t.raw.adapter 0 with
      | none => rw [hx] at hw; cases hw
      | some q =>
        obtain ⟨s, x⟩ := q
        rw [hx] at hw
        have hcount := adapter_write_count hx
        cases x with
        | undefined => cases hw
        | returned x => cases x <;> cases hw <;> exact hcount
  | @close calls t t' r _ hc ih =>
    obtain ⟨fuel, hc⟩ := hc
    unfold CcEncrypting.close RawEncryptingStream.close at hc
    cases hcl : t.raw.closed with
    | true =>
      rw [if_pos hcl] at hc
      cases hc
      exact ⟨fun _ => ih.some ⟨_, ih.closed.mp hcl⟩, fun h => absurd ⟨_, List.mem_append_right _ (List.mem_singleton.mpr rfl)⟩ h,
        ih.atMost, by simp [hcl], ih.once⟩
    | false =>
      rw [if_neg (by simp [hcl])] at hc
      have hnot : EncryptingCall.close (.ok ()) ∉ calls := fun h => by
        rw [ih.closed.mpr h] at hcl; cases hcl
      cases hx : (CcEncrypting.stream (countingSink snk) fuel t.encrypter).close t.raw.adapter with
      | none => rw [hx] at hc; cases hc
      | some q =>
        obtain ⟨s, x⟩ := q
        rw [hx] at hc
        have hcount := close_count hx
        have key : s.status ≠ none ∧ s.dest.adapter.2 ≤ t0.object.2 + 1 ∧
            (x = .ok () → s.dest.adapter.2 = t0.object.2 + 1) := by
          split at hcount
          · rename_i hs
            have hu := ih.unclosed (fun h => ih.some h hs)
            obtain ⟨h1, h2, h3⟩ := hcount
            have hu' : t.raw.adapter.dest.adapter.2 = t0.object.2 := hu
            rw [hu'] at h2 h3
            exact ⟨h1, h2, h3⟩
          · rename_i hs
            obtain ⟨rfl, h2⟩ := hcount
            exact ⟨hs, ih.atMost, fun h => absurd h h2⟩
        obtain ⟨k1, k2, k3⟩ := key
        cases x with
        | error y =>
          cases hc
          refine ⟨fun _ => k1, fun h => absurd ⟨_, List.mem_append_right _ (List.mem_singleton.mpr rfl)⟩ h, k2, ?_, ?_⟩
          · show t.raw.closed = true ↔ _
            simp [hcl, hnot]
          · show t.raw.closed = true → _
            simp [hcl]
        | ok u =>
          cases hc
          exact ⟨fun _ => k1, fun h => absurd ⟨_, List.mem_append_right _ (List.mem_singleton.mpr rfl)⟩ h, k2,
            by simp, fun _ => k3 rfl⟩

end Encrypting

end Tink.Props
