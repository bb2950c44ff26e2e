import Verif.Spec.Stream

/-!
# Lemmas about the keyset's decrypting stream
-/

namespace Tink
open Spec DecryptingStreamWrapper

variable {σ τ δ ε : Type}

/-- What a rewindable stream will deliver: the rest of its buffer, then the source. -/
def Rewindable.pending (r : Rewindable σ) : Bytes × σ := (r.buffer.drop r.pos, r.source)

/-- A rewindable stream delivers what it has buffered, then the source. -/
theorem read_pending (src : Source σ) (r : Rewindable σ) (n : Nat) :
    (r.read src n).1.pending = ((prepended src).read r.pending n).1 ∧
    (r.read src n).2 = ((prepended src).read r.pending n).2 := by
  simp only [Rewindable.pending, Rewindable.read, prepended]
  by_cases hp : r.pos < r.buffer.length
  · have hne : r.buffer.drop r.pos ≠ [] := by rw [Ne, List.drop_eq_nil_iff]; omega
    simp only [if_pos hp, if_neg hne]
    constructor
    · congr 1
      rw [List.drop_drop, Nat.min_def]
      split
      · rw [List.drop_eq_nil_of_le (Nat.le_refl _), List.drop_eq_nil_of_le (by omega)]
      · rfl
    · congr 1
      rw [List.drop_take, Nat.min_def]
      split
      · rw [List.take_of_length_le (by simp), List.take_of_length_le (by simp; omega)]
      · rw [Nat.add_sub_cancel_left]
  · have he : r.buffer.drop r.pos = [] := List.drop_eq_nil_of_le (by omega)
    have hd : r.dropBuffer.source = r.source := by unfold Rewindable.dropBuffer; split <;> rfl
    have hl : r.dropBuffer.buffer.length ≤ r.dropBuffer.pos := by
      unfold Rewindable.dropBuffer
      split
      · exact Nat.zero_le _
      · omega
    rw [if_neg hp, if_pos he]
    simp only [Rewindable.readSource, hd]
    cases hr : src.read r.source n with
    | mk s' res =>
      cases res with
      | data b =>
        refine ⟨?_, rfl⟩
        simp only [Rewindable.received]
        split
        · rw [List.drop_eq_nil_of_le (by simp only [List.length_append]; omega)]
        · rw [List.drop_eq_nil_of_le hl]
      | none | blocking => exact ⟨by rw [List.drop_eq_nil_of_le hl], rfl⟩
      | raised e => exact ⟨by rw [List.drop_eq_nil_of_le hl], rfl⟩

theorem prog_pending {α : Type} {src : Source σ} (p : Prog α) {r r' : Rewindable σ} {x : α}
    (h : p.run (rewindableSource src) r = some (r', x)) :
    p.run (prepended src) r.pending = some (r'.pending, x) := by
  induction p generalizing r with
  | out => cases h
  | ret a => cases h; rfl
  | ask n k ih =>
    obtain ⟨h1, h2⟩ := read_pending src r n
    simp only [Prog.run] at h ⊢
    rw [← h1, ← h2]
    exact ih _ h

theorem run_pending {src : Source σ} {st : RawStream τ} {fuel : Nat} {t t' : τ} {size : Int}
    {r r' : Rewindable σ} {res : ReadResult}
    (h : st.run (rewindableSource src) fuel t size r = some (t', r', res)) :
    st.run (prepended src) fuel t size r.pending = some (t', r'.pending, res) := by
  unfold RawStream.run at h ⊢
  cases hr : (st.read fuel t size).run (rewindableSource src) r with
  | none => rw [hr] at h; cases h
  | some q =>
    rw [hr] at h
    cases h
    rw [prog_pending _ hr]
    rfl

/-- While rewinding is possible the buffer holds all that was delivered. -/
structure Keeps (src : Source σ) (s : σ) (r : Rewindable σ) : Prop where
  rewindable : r.rewindable = true
  delivers : Delivers src s r.buffer r.source

theorem Keeps.read {src : Source σ} {s : σ} {r : Rewindable σ} (h : Keeps src s r) (n : Nat) :
    Keeps src s (r.read src n).1 := by
  obtain ⟨h1, h2⟩ := h
  unfold Rewindable.read
  split
  · exact ⟨h1, h2⟩
  · have hd : r.dropBuffer = r := by
      unfold Rewindable.dropBuffer; rw [h1]; simp
    rw [hd]
    have h3 := Delivers.read n h2
    unfold Rewindable.readSource
    cases hr : src.read r.source n with
    | mk s' res =>
      rw [hr] at h3
      cases res with
      | data b =>
        simp only [Rewindable.received, h1, if_true]
        exact ⟨rfl, h3⟩
      | none | blocking => exact ⟨h1, by simpa [ReadResult.bytes] using h3⟩
      | raised e => exact ⟨h1, by simpa [ReadResult.bytes] using h3⟩

theorem Keeps.prog {α : Type} {src : Source σ} {s : σ} (p : Prog α) {r r' : Rewindable σ} {x : α}
    (hk : Keeps src s r) (h : p.run (rewindableSource src) r = some (r', x)) : Keeps src s r' := by
  induction p generalizing r with
  | out => cases h
  | ret a => cases h; exact hk
  | ask n k ih => exact ih _ (hk.read n) h

theorem Keeps.run {src : Source σ} {s : σ} {st : RawStream τ} {fuel : Nat} {t t' : τ} {size : Int}
    {r r' : Rewindable σ} {res : ReadResult} (hk : Keeps src s r)
    (h : st.run (rewindableSource src) fuel t size r = some (t', r', res)) : Keeps src s r' := by
  unfold RawStream.run at h
  cases hr : (st.read fuel t size).run (rewindableSource src) r with
  | none => rw [hr] at h; cases h
  | some q =>
    rw [hr] at h
    cases h
    exact hk.prog _ hr

/-- Which key's stream the wrapper currently reads from, and the calls that stream has seen. -/
structure Current (src : Source σ) (s : σ) (ad : Bytes) (w : DecryptingStreamWrapper σ δ ε τ)
    (p : RawStreamingAead δ ε τ) (calls : Calls) : Prop where
  session : ∃ t0 d s' t, p.newRawDecryptingStream ad = .ok t0 ∧ Delivers src s d s' ∧
    Session p.stream (prepended src) t0 (d, s') calls t w.source.pending ∧
    ((w.matching = none ∧ w.attempting = some (p.stream, t) ∧ Keeps src s w.source ∧
        NoData calls ∧ ((∃ c ∈ calls, RaisedTink c.2) → w.remaining = [])) ∨
      w.matching = some (p.stream, t))

theorem Current.alone {src : Source σ} {s : σ} {ad : Bytes} {w : DecryptingStreamWrapper σ δ ε τ}
    {p : RawStreamingAead δ ε τ} {calls : Calls} (h : Current src s ad w p calls) :
    Alone p ad src s calls := by
  obtain ⟨t0, d, s', t, h1, h2, h3, _⟩ := h.session
  exact ⟨t0, d, s', t, _, h1, h2, h3⟩

theorem noData_snoc {calls : Calls} {size : Int} {r : ReadResult} (h : NoData calls)
    (hr : ∀ b, r ≠ .data b) : NoData (calls ++ [(size, r)]) := by
  intro c hc
  rw [List.mem_append, List.mem_singleton] at hc
  rcases hc with hc | rfl
  · exact h c hc
  · exact hr

theorem raised_snoc {calls : Calls} {size : Int} {r : ReadResult} {q : Prop}
    (h : (∃ c ∈ calls, RaisedTink c.2) → q) (hr : RaisedTink r → q) :
    (∃ c ∈ calls ++ [(size, r)], RaisedTink c.2) → q := by
  rintro ⟨c, hc, ht⟩
  rw [List.mem_append, List.mem_singleton] at hc
  rcases hc with hc | rfl
  · exact h ⟨c, hc, ht⟩
  · exact hr ht

/-- What one pass through the search loop does. -/
theorem attempt_spec {src : Source σ} {s : σ} {ad : Bytes} {fuel : Nat} {size : Int}
    (rem : List (RawStreamingAead δ ε τ))
    (hopen : ∀ p ∈ rem, ∃ t, p.newRawDecryptingStream ad = .ok t)
    {p : RawStreamingAead δ ε τ} {t0 t : τ} {d : Bytes} {s' : σ} {r : Rewindable σ} {calls : Calls}
    (h0 : p.newRawDecryptingStream ad = .ok t0) (hd : Delivers src s d s')
    (hs : Session p.stream (prepended src) t0 (d, s') calls t r.pending) (hk : Keeps src s r)
    (hn : NoData calls) (hq : (∃ c ∈ calls, RaisedTink c.2) → rem = [])
    {w : DecryptingStreamWrapper σ δ ε τ} {res : ReadResult} (hmax : size < 2 ^ 63)
    (h : attempt src fuel ad size (p.stream, t) r rem = some (w, res)) :
    ∃ pre p' res', p :: rem = pre ++ p' :: w.remaining ∧
      (∀ q ∈ pre, RefusesStream q ad src s) ∧ uptoTink res = uptoTink res' ∧
      Current src s ad w p' ((if pre = [] then calls else []) ++ [(size, res')]) ∧ w.ad = ad := by
  induction rem generalizing p t0 t d s' r calls with
  | nil =>
    rw [attempt.eq_def] at h
    simp only at h
    cases hr : p.stream.run (rewindableSource src) fuel t size r with
    | none => rw [hr] at h; cases h
    | some q =>
      obtain ⟨t1, r1, x⟩ := q
      rw [hr] at h
      have hs1 := Session.read fuel hs hmax (run_pending hr)
      have hk1 := hk.run hr
      refine ⟨[], p, x, ?_⟩
      cases x with
      | data b =>
        simp only [Option.some.injEq, Prod.mk.injEq] at h
        obtain ⟨rfl, rfl⟩ := h
        exact ⟨rfl, by simp, rfl, ⟨t0, d, s', t1, h0, hd, hs1, .inr rfl⟩, rfl⟩
      | none | blocking =>
        simp only [Option.some.injEq, Prod.mk.injEq] at h
        obtain ⟨rfl, rfl⟩ := h
        exact ⟨rfl, by simp, rfl, ⟨t0, d, s', t1, h0, hd, hs1, .inl ⟨rfl, rfl, hk1,
          noData_snoc hn (by simp), fun _ => rfl⟩⟩, rfl⟩
      | raised e =>
        simp only at h
        split at h
        · simp only [Option.some.injEq, Prod.mk.injEq] at h
          obtain ⟨rfl, rfl⟩ := h
          rename_i he
          exact ⟨rfl, by simp, by simp only [uptoTink, if_pos he]; rfl, ⟨t0, d, s', t1, h0, hd, hs1,
            .inl ⟨rfl, rfl, hk1, noData_snoc hn (by simp), fun _ => rfl⟩⟩, rfl⟩
        · simp only [Option.some.injEq, Prod.mk.injEq] at h
          obtain ⟨rfl, rfl⟩ := h
          exact ⟨rfl, by simp, rfl, ⟨t0, d, s', t1, h0, hd, hs1,
            .inl ⟨rfl, rfl, hk1, noData_snoc hn (by simp), fun _ => rfl⟩⟩, rfl⟩
  | cons p1 rem ih =>
    have hq' : ¬ ∃ c ∈ calls, RaisedTink c.2 := fun hc => by cases hq hc
    rw [attempt.eq_def] at h
    simp only at h
    cases hr : p.stream.run (rewindableSource src) fuel t size r with
    | none => rw [hr] at h; cases h
    | some q =>
      obtain ⟨t1, r1, x⟩ := q
      rw [hr] at h
      have hs1 := Session.read fuel hs hmax (run_pending hr)
      have hk1 := hk.run hr
      cases x with
      | data b =>
        simp only [Option.some.injEq, Prod.mk.injEq] at h
        obtain ⟨rfl, rfl⟩ := h
        exact ⟨[], p, .data b, rfl, by simp, rfl, ⟨t0, d, s', t1, h0, hd, hs1, .inr rfl⟩, rfl⟩
      | none =>
        simp only [Option.some.injEq, Prod.mk.injEq] at h
        obtain ⟨rfl, rfl⟩ := h
        exact ⟨[], p, .none, rfl, by simp, rfl, ⟨t0, d, s', t1, h0, hd, hs1, .inl ⟨rfl, rfl, hk1,
          noData_snoc hn (by simp), raised_snoc (fun hc => absurd hc hq')
            (by rintro ⟨e, he, _⟩; cases he)⟩⟩, rfl⟩
      | blocking =>
        simp only [Option.some.injEq, Prod.mk.injEq] at h
        obtain ⟨rfl, rfl⟩ := h
        exact ⟨[], p, .blocking, rfl, by simp, rfl, ⟨t0, d, s', t1, h0, hd, hs1, .inl ⟨rfl, rfl, hk1,
          noData_snoc hn (by simp), raised_snoc (fun hc => absurd hc hq')
            (by rintro ⟨e, he, _⟩; cases he)⟩⟩, rfl⟩
      | raised e =>
        simp only at h
        split at h
        · rename_i he
          have hw : r1.rewind = ({ r1 with pos := 0 }, .ok ()) := by
            simp [Rewindable.rewind, hk1.rewindable]
          obtain ⟨u0, hu0⟩ := hopen p1 (by simp)
          rw [hw] at h
          simp only [hu0] at h
          have hk2 : Keeps src s { r1 with pos := 0 } := ⟨hk1.rewindable, hk1.delivers⟩
          obtain ⟨pre, p', res', e1, e2, e3, e4, e5⟩ := ih (fun q hq => hopen q (by simp [hq])) hu0
            hk2.delivers (r := { r1 with pos := 0 }) (calls := []) Session.start hk2
            (by intro c hc; cases hc) (by rintro ⟨c, hc, _⟩; cases hc) h
          refine ⟨p :: pre, p', res', by rw [e1]; rfl, ?_, e3, ?_, e5⟩
          · intro q hqm
            rw [List.mem_cons] at hqm
            rcases hqm with rfl | hqm
            · exact ⟨_, ⟨t0, d, s', t1, _, h0, hd, hs1⟩, noData_snoc hn (by simp),
                (size, .raised e), by simp, e, rfl, he⟩
            · exact e2 q hqm
          · simpa using e4
        · rename_i he
          simp only [Option.some.injEq, Prod.mk.injEq] at h
          obtain ⟨rfl, rfl⟩ := h
          exact ⟨[], p, .raised e, rfl, by simp, rfl, ⟨t0, d, s', t1, h0, hd, hs1, .inl ⟨rfl, rfl,
            hk1, noData_snoc hn (by simp), raised_snoc (fun hc => absurd hc hq')
            (by rintro ⟨e', he', ht⟩; cases he'; exact absurd ht he)⟩⟩, rfl⟩

end Tink
