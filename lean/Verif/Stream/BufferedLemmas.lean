import Verif.Spec.Buffered
import Verif.Keyset.HandleLemmas

/-!
# Lemmas about buffered readers and writers
-/

namespace Tink.Props
open Tink.Spec Tink.Io
variable {ρ : Type} {R : ρ → Nat → ρ → ReadResult → Prop}

/-! ## Reading -/

/-- Calls of the raw stream with their results. -/
inductive Trace (R : ρ → Nat → ρ → ReadResult → Prop) (t : ρ) : List (Nat × ReadResult) → ρ → Prop
  | start : Trace R t [] t
  | read {calls t1 t2 n r} : Trace R t calls t1 → 0 < n → n < 2 ^ 63 → R t1 n t2 r →
      Trace R t (calls ++ [(n, r)]) t2

/-- The bytes that the calls returned. -/
def rawBytes (calls : List (Nat × ReadResult)) : Bytes := calls.flatMap (·.2.bytes)

theorem rawBytes_snoc (calls : List (Nat × ReadResult)) (c : Nat × ReadResult) :
    rawBytes (calls ++ [c]) = rawBytes calls ++ c.2.bytes := by
  simp [rawBytes]

/-- The calls returned the first bytes of `P`, `b''` only after all of it, and never `None`. -/
structure PartOf (P : Bytes) (calls : List (Nat × ReadResult)) : Prop where
  bytes : rawBytes calls <+: P
  ended : ∀ pre c post, calls = pre ++ c :: post → c.2 = .data [] → rawBytes pre = P
  plain : ∀ c ∈ calls, c.2 ≠ .none ∧ c.2 ≠ .blocking

theorem PartOf.prefix {P : Bytes} {calls more : List (Nat × ReadResult)} (h : PartOf P (calls ++ more)) :
    PartOf P calls := by
  refine ⟨?_, ?_, ?_⟩
  · obtain ⟨x, hx⟩ := h.bytes
    refine ⟨rawBytes more ++ x, ?_⟩
    rw [← hx]
    simp [rawBytes]
  · intro pre c post hc hd
    exact h.ended pre c (post ++ more) (by rw [hc]; simp) hd
  · intro c hc
    exact h.plain c (by simp [hc])

theorem trace_prefix {t0 t : ρ} {all calls more : List (Nat × ReadResult)} (hall : all = calls ++ more)
    (h : Trace R t0 all t) : ∃ t', Trace R t0 calls t' := by
  induction h generalizing more with
  | start =>
    have := List.append_eq_nil_iff.mp hall.symm
    rw [this.1]
    exact ⟨_, .start⟩
  | @read all t1 t2 n r h1 h2 h3 h4 ih =>
    rcases List.eq_nil_or_concat more with rfl | ⟨more, x, rfl⟩
    · rw [List.append_nil] at hall
      rw [← hall]
      exact ⟨_, .read h1 h2 h3 h4⟩
    · rw [List.concat_eq_append, ← List.append_assoc] at hall
      exact ih (List.append_inj_left' hall rfl)

theorem filled_trace {t0 t t1 : ρ} {calls : List (Nat × ReadResult)} {buffer b : Bytes}
    (h : Trace R t0 calls t) (hf : Filled R t buffer t1 b) :
    ∃ more, Trace R t0 (calls ++ more) t1 ∧ b = buffer ++ rawBytes more := by
  induction hf with
  | start => exact ⟨[], by simpa using h, by simp [rawBytes]⟩
  | @more t1 b t2 d n _ h1 h2 h3 _ ih =>
    obtain ⟨more, i1, i2⟩ := ih
    refine ⟨more ++ [(n, .data d)], ?_, ?_⟩
    · rw [← List.append_assoc]
      exact .read i1 h1 h2 h3
    · rw [rawBytes_snoc, i2]
      simp [ReadResult.bytes]

/-- What is known after some calls: one of them has raised, and those before are like those on a file;
or all are, and the buffer has what was read in advance. -/
def FileSoFar (P : Bytes) (ops : List (ReadOp × ReadResult)) (b : Bytes)
    (calls : List (Nat × ReadResult)) : Prop :=
  (∃ pre op e post pos, ops = pre ++ (op, .raised e) :: post ∧ (∃ c ∈ calls, c.2 = .raised e) ∧
    ReadsLikeFile P pre pos ∧ pos ≤ P.length ∧ pos ≤ (rawBytes calls).length) ∨
  (∃ pos, ReadsLikeFile P ops pos ∧ pos ≤ P.length ∧ P.take pos ++ b = rawBytes calls)

theorem take_append_drop_prefix {P b : Bytes} {pos : Nat} (hpos : pos ≤ P.length)
    (h : P.take pos ++ b <+: P) : b <+: P.drop pos := by
  obtain ⟨x, hx⟩ := h
  refine ⟨x, ?_⟩
  have h1 : (P.take pos ++ b ++ x).drop pos = b ++ x := by
    rw [List.append_assoc, List.drop_append_of_le_length (by simp; omega)]
    simp [List.drop_take]
  rw [← h1, hx]

theorem take_add_of_prefix {P b : Bytes} {pos : Nat} (h : b <+: P.drop pos) :
    P.take (pos + b.length) = P.take pos ++ b := by
  obtain ⟨x, hx⟩ := h
  rw [List.take_add, ← hx]
  simp

/-- A history of a buffered reader comes from a history of the raw stream; if the latter returned the
first bytes of `P` and so on, the reader is like a file. -/
theorem reader_trace {t0 t : ρ} {ops : List (ReadOp × ReadResult)} {b : Bytes}
    (h : ReaderHistory R t0 ops t b) :
    ∃ calls, Trace R t0 calls t ∧ ∀ P, PartOf P calls → FileSoFar P ops b calls := by
  induction h with
  | start => exact ⟨[], .start, fun P _ => .inr ⟨0, .start, by omega, by simp [rawBytes]⟩⟩
  | @call ops t1 b1 op r t2 b2 _ hc ih =>
    obtain ⟨calls, i1, i2⟩ := ih
    -- what was raised before remains
    have keep : ∀ {P more b' x}, FileSoFar P ops b1 calls →
        (∀ pos, ReadsLikeFile P ops pos → pos ≤ P.length → P.take pos ++ b1 = rawBytes calls →
          FileSoFar P (ops ++ [x]) b' (calls ++ more)) →
        FileSoFar P (ops ++ [x]) b' (calls ++ more) := by
      rintro P more b' x (⟨pre, op, e, post, pos, h1, ⟨c, h2, h2'⟩, h3, h4, h5⟩ | ⟨pos, h1, h2, h3⟩) H
      · refine .inl ⟨pre, op, e, post ++ [x], pos, by rw [h1]; simp, ⟨c, by simp [h2], h2'⟩, h3, h4, ?_⟩
        have : rawBytes (calls ++ more) = rawBytes calls ++ rawBytes more := by simp [rawBytes]
        rw [this, List.length_append]; omega
      · exact H pos h1 h2 h3
    -- from the state after the buffer was filled
    have filled : ∀ {P b more pos}, PartOf P (calls ++ more) → b = b1 ++ rawBytes more →
        pos ≤ P.length → P.take pos ++ b1 = rawBytes calls →
        b <+: P.drop pos ∧ P.take pos ++ b = rawBytes (calls ++ more) := by
      intro P b more pos hP hb hpos hcalls
      have : P.take pos ++ b = rawBytes (calls ++ more) := by
        rw [hb, ← List.append_assoc, hcalls]
        simp [rawBytes]
      exact ⟨take_append_drop_prefix hpos (by rw [this]; exact hP.bytes), this⟩
    -- some of the buffer is returned
    have part : ∀ {P b more pos k}, b <+: P.drop pos → pos ≤ P.length →
        P.take pos ++ b = rawBytes (calls ++ more) → ReadsLikeFile P ops pos → FileRead P pos op (b.take k) →
        FileSoFar P (ops ++ [(op, .data (b.take k))]) (b.drop k) (calls ++ more) := by
      intro P b more pos k hb hpos hcalls hops hread
      have hpre : b.take k <+: P.drop pos := (List.take_prefix k b).trans hb
      refine .inr ⟨pos + (b.take k).length, .read hops hread, ?_, ?_⟩
      · have := hpre.length_le
        simp only [List.length_drop] at this
        omega
      · rw [take_add_of_prefix hpre, List.append_assoc, List.take_append_drop]
        exact hcalls
    cases hc with
    | full n hf hn =>
      obtain ⟨more, j1, j2⟩ := filled_trace i1 hf
      refine ⟨_, j1, fun P hP => keep (i2 P hP.prefix) fun pos h1 h2 h3 => ?_⟩
      obtain ⟨k1, k2⟩ := filled hP j2 h2 h3
      refine part k1 h2 k2 h1 ?_
      obtain ⟨x, hx⟩ := k1
      show _ = (P.drop pos).take n
      rw [← hx, List.take_append_of_le_length hn]
    | one n hf hn =>
      obtain ⟨more, j1, j2⟩ := filled_trace i1 hf
      refine ⟨_, j1, fun P hP => keep (i2 P hP.prefix) fun pos h1 h2 h3 => ?_⟩
      obtain ⟨k1, k2⟩ := filled hP j2 h2 h3
      refine part k1 h2 k2 h1 ⟨(List.take_prefix _ _).trans k1, by simp; omega, ?_⟩
      intro h0
      rcases List.take_eq_nil_iff.mp h0 with h0 | h0
      · exact .inl h0
      · rcases hn with hn | hn
        · exact absurd h0 hn
        · exact .inl hn
    | @ended t1' b t2' _ m hf hw hm1 hm2 hr =>
      obtain ⟨more, j1, j2⟩ := filled_trace i1 hf
      refine ⟨_, .read j1 hm1 hm2 hr, fun P hP => ?_⟩
      rw [List.append_assoc] at hP ⊢
      refine keep (i2 P hP.prefix) fun pos h1 h2 h3 => ?_
      rw [← List.append_assoc] at hP
      obtain ⟨k1, k2⟩ := filled hP.prefix j2 h2 h3
      have hend := hP.ended (calls ++ more) _ [] rfl rfl
      rw [← k2] at hend
      have hb : b = P.drop pos := by
        have : (P.take pos ++ b).drop pos = b := by
          rw [List.drop_append_of_le_length (by simp; omega)]
          simp [List.drop_take]
        rw [← this, hend]
      refine .inr ⟨pos + b.length, .read h1 ?_, ?_, ?_⟩
      · cases op with
        | read n =>
          show b = _
          have hw : b.length < n := hw
          rw [← hb, List.take_of_length_le (by omega)]
        | readAll => exact hb
        | read1 n =>
          obtain ⟨hw, -⟩ : b = [] ∧ n ≠ 0 := hw
          refine ⟨k1, by simp [hw], fun _ => .inr ?_⟩
          rw [hb, List.drop_eq_nil_iff] at hw
          exact hw
      · rw [hb]; simp; omega
      · rw [take_add_of_prefix k1, List.append_nil, k2]
        simp [rawBytes, ReadResult.bytes]
    | paused op m hf hw hm1 hm2 hr =>
      obtain ⟨more, j1, j2⟩ := filled_trace i1 hf
      exact ⟨_, .read j1 hm1 hm2 hr, fun P hP => absurd rfl (hP.plain (m, .none) (by simp)).1⟩
    | blocked op m buffer' hf hw hm1 hm2 hr =>
      obtain ⟨more, j1, j2⟩ := filled_trace i1 hf
      exact ⟨_, .read j1 hm1 hm2 hr, fun P hP => absurd rfl (hP.plain (m, .blocking) (by simp)).2⟩
    | @raised t1' b t2' e op m buffer' hf hw hm1 hm2 hr _ =>
      obtain ⟨more, j1, j2⟩ := filled_trace i1 hf
      refine ⟨_, .read j1 hm1 hm2 hr, fun P hP => ?_⟩
      rw [List.append_assoc] at hP ⊢
      refine keep (i2 P hP.prefix) fun pos h1 h2 h3 => ?_
      refine .inl ⟨ops, op, e, [], pos, rfl, ⟨(m, .raised e), by simp, rfl⟩, h1, h2, ?_⟩
      have h4 : (P.take pos ++ b1).length = (rawBytes calls).length := by rw [h3]
      have h5 : rawBytes (calls ++ (more ++ [(m, .raised e)])) =
          rawBytes calls ++ rawBytes (more ++ [(m, .raised e)]) := by simp [rawBytes]
      rw [h5, List.length_append]
      rw [List.length_append, List.length_take] at h4
      omega

/-- If nothing was read from a file that is not empty, 0 bytes were asked for. -/
theorem reads_nothing {ops : List (ReadOp × ReadResult)} {pos : Nat} {x : UInt8}
    (h : ReadsLikeFile [x] ops pos) (hpos : pos = 0) :
    ∀ o ∈ ops, o = (.read 0, .data []) ∨ o = (.read1 0, .data []) := by
  induction h with
  | start => intro o ho; cases ho
  | @read ops pos op b _ hr ih =>
    obtain ⟨rfl, hb⟩ : pos = 0 ∧ b = [] := ⟨by omega, List.eq_nil_of_length_eq_zero (by omega)⟩
    subst hb
    intro o ho
    rw [List.mem_append, List.mem_singleton] at ho
    rcases ho with ho | rfl
    · exact ih rfl o ho
    · cases op with
      | read n =>
        cases n with
        | zero => exact .inl rfl
        | succ n => simp [FileRead] at hr
      | readAll => simp [FileRead] at hr
      | read1 n =>
        obtain ⟨-, -, h⟩ := hr
        rcases h rfl with rfl | h
        · exact .inr rfl
        · simp at h

/-! ## Keyset decrypting streams -/

section Wrapper
variable {σ δ ε τ : Type}

/-- The streams of all keys of a wrapper are plain. -/
structure PlainWrapper (w : DecryptingStreamWrapper σ δ ε τ) : Prop where
  matching : ∀ x, w.matching = some x → PlainReads x.1
  attempting : ∀ x, w.attempting = some x → PlainReads x.1
  remaining : ∀ p ∈ w.remaining, PlainReads p.stream

/-- A result of `read(n)`. -/
def PlainResult (n : Nat) (r : ReadResult) : Prop :=
  (∀ d, r = .data d → d.length ≤ n) ∧ r ≠ .none ∧ r ≠ .blocking

theorem plainResult_raised (n : Nat) (e : Exc) : PlainResult n (.raised e) :=
  ⟨fun _ h => by (cases h), fun h => by (cases h), fun h => by (cases h)⟩

theorem attempt_plain {src : Source σ} {fuel n : Nat} {ad : Bytes}
    {remaining : List (RawStreamingAead δ ε τ)} :
    ∀ {cur : RawStream τ × τ} {r : Rewindable σ} {w : DecryptingStreamWrapper σ δ ε τ} {x : ReadResult},
      PlainReads cur.1 → (∀ p ∈ remaining, PlainReads p.stream) →
      DecryptingStreamWrapper.attempt src fuel ad n cur r remaining = some (w, x) →
      PlainWrapper w ∧ PlainResult n x := by
  induction remaining with
  | nil =>
    intro cur r w x hc _ h
    unfold DecryptingStreamWrapper.attempt at h
    cases hr : cur.1.run (DecryptingStreamWrapper.rewindableSource src) fuel cur.2 n r with
    | none => rw [hr] at h; cases h
    | some q =>
      obtain ⟨t, r', res⟩ := q
      rw [hr] at h
      have hp := hc _ _ _ _ _ _ _ _ _ hr
      cases res with
      | none => exact absurd rfl hp.2.1
      | blocking => exact absurd rfl hp.2.2
      | data b =>
        cases h
        exact ⟨⟨fun x hx => by cases hx; exact hc, fun x hx => by (cases hx), fun p hp => by (cases hp)⟩, hp⟩
      | raised e =>
        dsimp only at h
        split at h
        · cases h
          exact ⟨⟨fun x hx => by (cases hx), fun x hx => by cases hx; exact hc,
            fun p hp => by (cases hp)⟩, plainResult_raised n _⟩
        · cases h
          exact ⟨⟨fun x hx => by (cases hx), fun x hx => by cases hx; exact hc,
            fun p hp => by (cases hp)⟩, hp⟩
  | cons q remaining ih =>
    intro cur r w x hc hrem h
    unfold DecryptingStreamWrapper.attempt at h
    cases hr : cur.1.run (DecryptingStreamWrapper.rewindableSource src) fuel cur.2 n r with
    | none => rw [hr] at h; cases h
    | some y =>
      obtain ⟨t, r', res⟩ := y
      rw [hr] at h
      have hp := hc _ _ _ _ _ _ _ _ _ hr
      cases res with
      | none => exact absurd rfl hp.2.1
      | blocking => exact absurd rfl hp.2.2
      | data b =>
        cases h
        exact ⟨⟨fun x hx => by cases hx; exact hc, fun x hx => by (cases hx), hrem⟩, hp⟩
      | raised e =>
        dsimp only at h
        split at h
        · cases hw : r'.rewind with
          | mk r'' z =>
            rw [hw] at h
            cases z with
            | error e =>
              cases h
              exact ⟨⟨fun x hx => by (cases hx), fun x hx => by cases hx; exact hc, hrem⟩,
                plainResult_raised n _⟩
            | ok u =>
              dsimp only at h
              cases ho : q.newRawDecryptingStream ad with
              | error e =>
                rw [ho] at h
                cases h
                exact ⟨⟨fun x hx => by (cases hx), fun x hx => by cases hx; exact hc,
                  fun p hp => hrem p (List.mem_cons_of_mem _ hp)⟩, plainResult_raised n _⟩
              | ok t' =>
                rw [ho] at h
                exact ih (hrem q List.mem_cons_self) (fun p hp => hrem p (List.mem_cons_of_mem _ hp)) h
        · cases h
          exact ⟨⟨fun x hx => by (cases hx), fun x hx => by cases hx; exact hc, hrem⟩, hp⟩

theorem read_plain {src : Source σ} {fuel n : Nat} {w w' : DecryptingStreamWrapper σ δ ε τ}
    {x : ReadResult} (hw : PlainWrapper w) (h : w.read src fuel n = some (w', x)) :
    PlainWrapper w' ∧ PlainResult n x := by
  unfold DecryptingStreamWrapper.read at h
  by_cases hn : (n : Int) = 0
  · rw [if_pos hn] at h
    cases h
    exact ⟨hw, fun d hd => by cases hd; simp, fun h => by (cases h), fun h => by (cases h)⟩
  · rw [if_neg hn] at h
    cases hm : w.matching with
    | some y =>
      obtain ⟨st, t⟩ := y
      rw [hm] at h
      dsimp only at h
      have hst := hw.matching _ hm
      cases hr : st.run (DecryptingStreamWrapper.rewindableSource src) fuel t n w.source with
      | none => rw [hr] at h; cases h
      | some q =>
        obtain ⟨t', r', res⟩ := q
        rw [hr] at h
        cases h
        exact ⟨⟨fun x hx => by cases hx; exact hst, hw.attempting, hw.remaining⟩,
          hst _ _ _ _ _ _ _ _ _ hr⟩
    | none =>
      rw [hm] at h
      dsimp only at h
      cases ha : w.attempting with
      | none =>
        rw [ha] at h
        cases h
        exact ⟨hw, plainResult_raised n _⟩
      | some cur =>
        rw [ha] at h
        exact attempt_plain (hw.attempting _ ha) hw.remaining h

theorem new_plain {ps : List (RawStreamingAead δ ε τ)} {s : σ} {readable : Bool} {ad : Bytes}
    {w : DecryptingStreamWrapper σ δ ε τ} (hps : ∀ p ∈ ps, PlainReads p.stream)
    (h : DecryptingStreamWrapper.new ps s readable ad = .ok w) : PlainWrapper w := by
  unfold DecryptingStreamWrapper.new at h
  obtain ⟨r, -, h⟩ := bind_ok_iff.mp h
  cases ps with
  | nil => cases h
  | cons p ps =>
    obtain ⟨t, -, h⟩ := bind_ok_iff.mp h
    cases h
    exact ⟨fun x hx => by (cases hx), fun x hx => by cases hx; exact hps p List.mem_cons_self,
      fun q hq => hps q (List.mem_cons_of_mem _ hq)⟩

/-- What a buffered reader does with a keyset's stream is a history of `read` calls. -/
theorem trace_history {src : Source σ} {w0 w : DecryptingStreamWrapper σ δ ε τ}
    {calls : List (Nat × ReadResult)} (h0 : PlainWrapper w0)
    (h : Trace (DecryptingStreamWrapper.RawRead src) w0 calls w) :
    PlainWrapper w ∧ StreamHistory src w0 (calls.map fun c => ((c.1 : Int), c.2)) w ∧
      ∀ c ∈ calls, 0 < c.1 ∧ c.2 ≠ .none ∧ c.2 ≠ .blocking := by
  induction h with
  | start => exact ⟨h0, .start, fun c hc => by (cases hc)⟩
  | @read calls t1 t2 n r _ h1 h2 h3 ih =>
    obtain ⟨i1, i2, i3⟩ := ih
    obtain ⟨fuel, h3⟩ := h3
    have hread : t1.read src fuel n = some (t2, r) := by
      rcases h3 with h3 | h3
      · unfold DecryptingStreamWrapper.readinto at h3
        cases hx : t1.read src fuel n with
        | none => rw [hx] at h3; cases h3
        | some q =>
          obtain ⟨w', x⟩ := q
          rw [hx] at h3
          have hp := (read_plain i1 hx).2
          cases x with
          | data d =>
            simp only [Option.map_some, if_pos (hp.1 d rfl)] at h3
            exact h3
          | none => exact h3
          | blocking => exact h3
          | raised e => exact h3
      · exact h3
    obtain ⟨j1, j2⟩ := read_plain i1 hread
    refine ⟨j1, ?_, ?_⟩
    · rw [List.map_append]
      exact .read fuel i2 (by omega) (by omega) hread
    · intro c hc
      rw [List.mem_append, List.mem_singleton] at hc
      rcases hc with hc | rfl
      · exact i3 c hc
      · exact ⟨h1, j2.2⟩

theorem rawBytes_eq (calls : List (Nat × ReadResult)) :
    Calls.bytes (calls.map fun c => ((c.1 : Int), c.2)) = rawBytes calls := by
  simp [Calls.bytes, rawBytes, List.flatMap_map]

/-- A buffered reader around a keyset's stream: the raw stream returned nothing but the first bytes of `pt`
and did not raise. -/
theorem reader_like_file {src : Source σ} {w0 w : DecryptingStreamWrapper σ δ ε τ}
    {ops : List (ReadOp × ReadResult)} {b pt : Bytes} (h0 : PlainWrapper w0)
    (hraw : ∀ calls w', StreamHistory src w0 calls w' → Calls.bytes calls <+: pt ∧
      (∀ c ∈ calls, ∀ e, c.2 ≠ .raised e) ∧ ((∃ c ∈ calls, c.2 = .data []) → Calls.bytes calls = pt))
    (h : ReaderHistory (DecryptingStreamWrapper.RawRead src) w0 ops w b) :
    ∃ pos, ReadsLikeFile pt ops pos := by
  obtain ⟨calls, h1, h2⟩ := reader_trace h
  obtain ⟨-, h3, h4⟩ := trace_history h0 h1
  obtain ⟨h5, h6, h7⟩ := hraw _ _ h3
  have hend : ∀ pre c post, calls = pre ++ c :: post → c.2 = .data [] → rawBytes pre = pt := by
    intro pre c post hc hd
    have hpre : ∃ t', Trace (DecryptingStreamWrapper.RawRead src) w0 (pre ++ [c]) t' := by
      have : calls = (pre ++ [c]) ++ post := by rw [hc]; simp
      exact trace_prefix this h1
    obtain ⟨t', ht'⟩ := hpre
    obtain ⟨-, h3', -⟩ := trace_history h0 ht'
    have := (hraw _ _ h3').2.2 ⟨((c.1 : Int), c.2), by simp, hd⟩
    rw [rawBytes_eq, rawBytes_snoc, hd] at this
    simpa [ReadResult.bytes] using this
  rw [rawBytes_eq] at h5
  rcases h2 pt ⟨h5, hend, fun c hc => (h4 c hc).2⟩ with ⟨_, _, e, _, _, -, ⟨c, hc, hce⟩, -⟩ | ⟨pos, h8, -⟩
  · exact absurd hce (h6 ((c.1 : Int), c.2) (List.mem_map.mpr ⟨c, hc, rfl⟩) e)
  · exact ⟨pos, h8⟩

/-- The same if the raw stream returned the first bytes of some message. -/
theorem reader_one_of {src : Source σ} {w0 w : DecryptingStreamWrapper σ δ ε τ}
    {ops : List (ReadOp × ReadResult)} {b : Bytes} {msgs : Bytes → Prop} (h0 : PlainWrapper w0)
    (hraw : ∀ calls w', StreamHistory src w0 calls w' → FromOneOf msgs calls)
    (h : ReaderHistory (DecryptingStreamWrapper.RawRead src) w0 ops w b) : ReadsOneOf msgs ops := by
  obtain ⟨calls, h1, h2⟩ := reader_trace h
  obtain ⟨-, h3, h4⟩ := trace_history h0 h1
  obtain ⟨h5, h6⟩ := hraw _ _ h3
  have tink : ∀ c ∈ calls, ∀ e, c.2 = .raised e → e.isTink = true := fun c hc e he =>
    h5 ((c.1 : Int), c.2) (List.mem_map.mpr ⟨c, hc, rfl⟩) e he
  rcases h6 with ⟨h7, h8⟩ | ⟨P, hP, h7, h8⟩
  · rw [rawBytes_eq] at h7
    have hpart : PartOf [0] calls := by
      refine ⟨by rw [h7]; exact List.nil_prefix, ?_, fun c hc => (h4 c hc).2⟩
      intro pre c post hc hd
      have hm : c ∈ calls := by rw [hc]; simp
      have := (h4 c hm).1
      exact absurd ⟨((c.1 : Int), c.2), List.mem_map.mpr ⟨c, hm, rfl⟩, by show (c.1 : Int) ≠ 0; omega, hd⟩ h8
    rcases h2 _ hpart with ⟨pre, op, e, post, pos, k1, ⟨c, hc, hce⟩, k3, -, k5⟩ | ⟨pos, k1, k2, k3⟩
    · refine ⟨pre, _, k1, .inr ⟨op, e, post, rfl, tink c hc e hce⟩, .inl (reads_nothing k3 ?_)⟩
      rw [h7] at k5
      simpa using k5
    · refine ⟨ops, [], by simp, .inl rfl, .inl (reads_nothing k1 ?_)⟩
      rw [h7] at k3
      have := congrArg List.length k3
      simp only [List.length_append, List.length_take, List.length_nil, List.length_cons] at this k2
      omega
  · have hpart : PartOf P calls := by
      refine ⟨by rw [← rawBytes_eq]; exact h7, ?_, fun c hc => (h4 c hc).2⟩
      intro pre c post hc hd
      have hm : c ∈ calls := by rw [hc]; simp
      have hpos := (h4 c hm).1
      rw [← rawBytes_eq]
      exact h8 (pre.map fun c => ((c.1 : Int), c.2)) ((c.1 : Int), c.2)
        (post.map fun c => ((c.1 : Int), c.2)) (by rw [hc]; simp) (by show (c.1 : Int) ≠ 0; omega) hd
    rcases h2 _ hpart with ⟨pre, op, e, post, pos, k1, ⟨c, hc, hce⟩, k3, -⟩ | ⟨pos, k1, -⟩
    · exact ⟨pre, _, k1, .inr ⟨op, e, post, rfl, tink c hc e hce⟩, .inr ⟨P, pos, hP, k3⟩⟩
    · exact ⟨ops, [], by simp, .inl rfl, .inr ⟨P, pos, hP, k1⟩⟩

end Wrapper

/-! ## The streams of single keys -/

section Cc
variable {ν σe κ : Type}

theorem loop_plain {ι σ : Type} {st : CInputStream ι} {src : Source σ} {size : Nat} :
    ∀ {fuel : Nat} {r : RawDecryptingStream ι} {s s' : σ} {r' : RawDecryptingStream ι} {d : Bytes},
      (RawDecryptingStream.loop st size fuel r).run src s = some (s', r', .ok d) → d.length ≤ size := by
  intro fuel
  induction fuel with
  | zero => intro r s s' r' d h; cases h
  | succ fuel ih =>
    intro r s s' r' d h
    unfold RawDecryptingStream.loop at h
    rw [Prog.run_bind] at h
    cases hx : (readFromAdapter st r.adapter size).run src s with
    | none => rw [hx] at h; cases h
    | some q =>
      obtain ⟨s1, i1, x⟩ := q
      rw [hx] at h
      simp only [Option.bind_some] at h
      cases x with
      | error e =>
        cases e with
        | finished => cases h; simp
        | tink => cases h
        | type => cases h
      | ok data =>
        dsimp only at h
        split at h
        · exact ih h
        · cases h
          unfold readFromAdapter at hx
          split at hx
          · cases hx
          · unfold InputStreamAdapter.read at hx
            rw [Prog.run_map, Prog.run_map] at hx
            cases hy : (st.next r.adapter).run src s with
            | none => rw [hy] at hx; cases hx
            | some q =>
              obtain ⟨s2, i2, y⟩ := q
              rw [hy] at hx
              cases y with
              | error e => simp [InputStreamAdapter.taken, adapterExc] at hx
              | ok b =>
                simp only [Option.map_some, InputStreamAdapter.taken, adapterExc, Option.some.injEq,
                  Prod.mk.injEq, Except.ok.injEq] at hx
                obtain ⟨-, -, rfl⟩ := hx
                rw [if_neg (by omega), List.length_take]
                omega

/-- The streams of the keys whose C++ is modelled are plain. -/
theorem toRaw_plain (p : NonceBased κ ν) (text : Exc → Bool) (buffer : Bytes) :
    PlainReads (p.toRaw (σ := σe) text buffer).stream := by
  intro σ src fuel t n s t' s' r h
  unfold RawStream.run at h
  simp only [NonceBased.toRaw, NonceBased.rawStream, Prog.run_map, Option.map_map, Option.map_eq_some_iff,
    Function.comp_apply, Prod.mk.injEq] at h
  obtain ⟨q, hq, -, -, rfl⟩ := h
  obtain ⟨s1, r1, x⟩ := q
  refine ⟨?_, ?_, ?_⟩
  · intro d hd
    cases x with
    | error e => cases hd
    | ok b =>
      simp only [NonceBased.result, ReadResult.data.injEq] at hd
      subst hd
      unfold RawDecryptingStream.read at hq
      split at hq
      · cases hq
      · dsimp only at hq
        rw [if_neg (by omega)] at hq
        unfold RawDecryptingStream.readSome at hq
        split at hq
        · cases hq
        · exact loop_plain hq
  · cases x <;> exact fun h => by cases h
  · cases x <;> exact fun h => by cases h

end Cc

/-! ## Writing -/

section Writing
variable {κ σ : Type}

theorem next_error {ο : Type} {se : SegmentEncrypter κ} {st : COutputStream ο} {fuel : Nat}
    {e e' : EncryptingStream κ ο} {x : Status} (h : e.next se st fuel = some (e', .error x)) :
    e'.status ≠ none := by
  unfold EncryptingStream.next at h
  split at h
  · rename_i y hy
    cases h
    rw [hy]; simp
  · split at h
    · split at h
      · cases h
      · split at h
        · rename_i hy
          cases h
          rw [hy]; simp
        · cases h
    · split at h
      · cases h
      · split at h
        · cases h
        · split at h
          · rename_i hy
            cases h
            rw [hy]; simp
          · cases h

theorem castInt_le (n : Nat) : castInt n ≤ n := by
  unfold castInt
  have : n % 2 ^ 32 ≤ n := Nat.mod_le _ _
  split <;> omega

theorem adapter_write {ο : Type} {st : COutputStream ο} {data : Bytes} :
    ∀ {fuel : Nat} {s s' : ο} {written : Nat} {r : StatusOr Nat}, written ≤ data.length →
      OutputStreamAdapter.write st data fuel s written = some (s', .returned r) →
      (∀ n, r = .ok n → n ≤ data.length) ∧
      (∀ x, r = .error x → ∃ s1, st.next s1 = some (s', .error x)) := by
  intro fuel
  induction fuel with
  | zero => intro s s' written r _ h; cases h
  | succ fuel ih =>
    intro s s' written r hle h
    unfold OutputStreamAdapter.write at h
    split at h
    · split at h
      · cases h
      · rename_i hn
        cases h
        exact ⟨fun n hn => by (cases hn), fun x hx => by cases hx; exact ⟨_, hn⟩⟩
      · dsimp only at h
        split at h
        · cases h
        · refine ih ?_ h
          have := castInt_le (data.length - written)
          omega
    · cases h
      exact ⟨fun n hn => by cases hn; omega, fun x hx => by (cases hx)⟩

theorem adapter_sticky {ο : Type} {st : COutputStream ο} {data : Bytes} {fuel : Nat} {s s' : ο} {x : Status}
    {r : Ran (StatusOr Nat)} (hn : st.next s = some (s, .error x))
    (h : OutputStreamAdapter.write st data fuel s 0 = some (s', r)) : s' = s := by
  cases fuel with
  | zero => cases h
  | succ fuel =>
    unfold OutputStreamAdapter.write at h
    split at h
    · rw [hn] at h
      cases h
      rfl
    · cases h
      rfl

theorem status_next {ο : Type} {se : SegmentEncrypter κ} {st : COutputStream ο} {fuel : Nat}
    {e : EncryptingStream κ ο} {x : Status} (h : e.status = some x) :
    e.next se st fuel = some (e, .error x) := by
  unfold EncryptingStream.next
  rw [h]

/-- The C++ stream has failed. -/
def CcFailed (t : CcEncrypting κ σ) : Prop := t.raw.adapter.status ≠ none

theorem rawWrite_cases {snk : CSink σ} {t t' : CcEncrypting κ σ} {c : Bytes} {r : Py Nat}
    (hc : t.raw.closed = false) (h : CcEncrypting.RawWrite snk t c t' r) :
    t'.raw.closed = false ∧ (CcFailed t → CcFailed t') ∧ ((∃ e, r = .error e) → CcFailed t') := by
  obtain ⟨fuel, h⟩ := h
  unfold CcEncrypting.write RawEncryptingStream.write at h
  rw [if_neg (by simp [hc])] at h
  dsimp only at h
  cases hx : OutputStreamAdapter.write (CcEncrypting.stream snk fuel t.encrypter) c fuel t.raw.adapter 0 with
  | none => rw [hx] at h; cases h
  | some q =>
    obtain ⟨s, x⟩ := q
    rw [hx] at h
    have hsticky : CcFailed t → s = t.raw.adapter := by
      intro hf
      cases hst : t.raw.adapter.status with
      | none => exact absurd hst hf
      | some y => exact adapter_sticky (x := y) (status_next hst) hx
    cases x with
    | undefined => cases h
    | returned x =>
      obtain ⟨h1, h2⟩ := adapter_write (Nat.zero_le _) hx
      cases x with
      | error y =>
        cases h
        have hfail : s.status ≠ none := by
          obtain ⟨s1, hs1⟩ := h2 y rfl
          exact next_error hs1
        exact ⟨hc, fun _ => hfail, fun _ => hfail⟩
      | ok n =>
        cases h
        refine ⟨hc, fun hf => ?_, ?_⟩
        · show s.status ≠ none
          rw [hsticky hf]; exact hf
        · rintro ⟨e, he⟩
          have := h1 n rfl
          unfold RawEncryptingStream.checked at he
          rw [if_neg (by omega)] at he
          cases he

theorem rawClose_failed {snk : CSink σ} {t t' : CcEncrypting κ σ} {r : Py Unit}
    (hc : t.raw.closed = false) (hf : CcFailed t) (h : CcEncrypting.RawClose snk t t' r) : r ≠ .ok () := by
  obtain ⟨fuel, h⟩ := h
  unfold CcEncrypting.close RawEncryptingStream.close at h
  rw [if_neg (by simp [hc])] at h
  cases hst : t.raw.adapter.status with
  | none => exact absurd hst hf
  | some y =>
    have : (CcEncrypting.stream snk fuel t.encrypter).close t.raw.adapter = some (t.raw.adapter, .error y) := by
      show EncryptingStream.close _ _ _ _ = _
      unfold EncryptingStream.close
      rw [hst]
    rw [this] at h
    cases h
    intro h; cases h

/-- What is known while bytes are written. -/
def WritingSoFar (snk : CSink σ) (t0 t : CcEncrypting κ σ) (all b : Bytes) : Prop :=
  t.raw.closed = false ∧ (CcFailed t ∨ ∃ P, Written snk t0 P t ∧ P ++ b = all)

theorem flushed_written {snk : CSink σ} {t0 t t1 : CcEncrypting κ σ} {all buffer rest : Bytes}
    (h : WritingSoFar snk t0 t all buffer) (hf : Flushed (CcEncrypting.RawWrite snk) t buffer t1 rest) :
    WritingSoFar snk t0 t1 all rest := by
  induction hf with
  | start => exact h
  | @more t1 b t2 n c _ h1 h2 h3 h4 h5 ih =>
    obtain ⟨i1, i2⟩ := ih
    obtain ⟨j1, j2, -⟩ := rawWrite_cases i1 h4
    refine ⟨j1, ?_⟩
    rcases i2 with i2 | ⟨P, i2, i3⟩
    · exact .inl (j2 i2)
    · obtain ⟨fuel, h4⟩ := h4
      refine .inr ⟨P ++ c.take n, .write fuel i2 h3 h4, ?_⟩
      obtain ⟨x, rfl⟩ := h1
      rw [List.drop_append_of_le_length h5, ← i3, List.append_assoc,
        ← List.append_assoc (c.take n), List.take_append_drop]

theorem flushed_failed {snk : CSink σ} {t t1 : CcEncrypting κ σ} {buffer rest : Bytes}
    (hc : t.raw.closed = false) (hfail : CcFailed t)
    (hf : Flushed (CcEncrypting.RawWrite snk) t buffer t1 rest) : t1.raw.closed = false ∧ CcFailed t1 := by
  induction hf with
  | start => exact ⟨hc, hfail⟩
  | more c _ _ _ _ hw _ ih =>
    obtain ⟨j1, j2, -⟩ := rawWrite_cases ih.1 hw
    exact ⟨j1, j2 ih.2⟩

theorem writer_written {snk : CSink σ} {t0 t : CcEncrypting κ σ} {ops : List (WriteOp × Py Nat)} {b : Bytes}
    (h0 : t0.raw.closed = false) (h : WriterHistory (CcEncrypting.RawWrite snk) t0 ops t b) :
    t.raw.closed = false ∧ (CcFailed t ∨
      (∀ o ∈ ops, ∃ n, o.2 = .ok n) ∧ ∃ P, Written snk t0 P t ∧ P ++ b = writtenBytes ops) := by
  induction h with
  | start => exact ⟨h0, .inr ⟨fun o ho => by (cases ho), [], .start, rfl⟩⟩
  | @call ops t1 b1 op r t2 b2 _ hc ih =>
    obtain ⟨i1, i2⟩ := ih
    have hsnoc : ∀ (o : WriteOp × Py Nat), writtenBytes (ops ++ [o]) =
        writtenBytes ops ++ (match o.1 with | .write b => b | .flush => []) := by
      rintro ⟨o, x⟩; cases o <;> simp [writtenBytes]
    have hall : ∀ {o : WriteOp × Py Nat}, (∀ o ∈ ops, ∃ n, o.2 = .ok n) → (∃ n, o.2 = .ok n) →
        ∀ o' ∈ ops ++ [o], ∃ n, o'.2 = .ok n := by
      intro o h1 h2 o' ho'
      rw [List.mem_append, List.mem_singleton] at ho'
      rcases ho' with ho' | rfl
      · exact h1 o' ho'
      · exact h2
    -- from what is known before to what is known after flushing
    have flushed : ∀ {add t' rest}, Flushed (CcEncrypting.RawWrite snk) t1 (b1 ++ add) t' rest →
        t'.raw.closed = false ∧ (CcFailed t' ∨ (∀ o ∈ ops, ∃ n, o.2 = .ok n) ∧
          ∃ P, Written snk t0 P t' ∧ P ++ rest = writtenBytes ops ++ add) := by
      intro add t' rest hf
      rcases i2 with i2 | ⟨h1, P, h2, h3⟩
      · obtain ⟨k1, k2⟩ := flushed_failed i1 i2 hf
        exact ⟨k1, .inl k2⟩
      · have h4 : WritingSoFar snk t0 t1 (writtenBytes ops ++ add) (b1 ++ add) :=
          ⟨i1, .inr ⟨P, h2, by rw [← List.append_assoc, h3]⟩⟩
        obtain ⟨k1, k2⟩ := flushed_written h4 hf
        exact ⟨k1, k2.imp_right fun k => ⟨h1, k⟩⟩
    cases hc with
    | write b hf =>
      obtain ⟨k1, k2⟩ := flushed hf
      refine ⟨k1, k2.imp_right ?_⟩
      rintro ⟨k3, P, k4, k5⟩
      exact ⟨hall k3 ⟨_, rfl⟩, P, k4, by rw [hsnoc]; exact k5⟩
    | flush hf =>
      obtain ⟨k1, k2⟩ := flushed (add := []) (by rw [List.append_nil]; exact hf)
      refine ⟨k1, k2.imp_right ?_⟩
      rintro ⟨k3, P, k4, k5⟩
      exact ⟨hall k3 ⟨_, rfl⟩, P, k4, by rw [hsnoc]; exact k5⟩
    | writeRaised b c buffer' hf _ _ hw =>
      obtain ⟨j1, -, j3⟩ := rawWrite_cases (flushed hf).1 hw
      exact ⟨j1, .inl (j3 ⟨_, rfl⟩)⟩
    | flushRaised c buffer' hf _ _ hw =>
      obtain ⟨j1, -, j3⟩ := rawWrite_cases (flushed (add := []) (by rw [List.append_nil]; exact hf)).1 hw
      exact ⟨j1, .inl (j3 ⟨_, rfl⟩)⟩

/-- If `close()` of a buffered writer returns, no call has raised, and everything was written. -/
theorem writer_closed {snk : CSink σ} {t0 t t2 : CcEncrypting κ σ} {ops : List (WriteOp × Py Nat)} {b : Bytes}
    (h0 : t0.raw.closed = false) (h : WriterHistory (CcEncrypting.RawWrite snk) t0 ops t b)
    (hc : BufferedClose (CcEncrypting.RawWrite snk) (CcEncrypting.RawClose snk) t b t2 (.ok ())) :
    (∀ o ∈ ops, ∃ n, o.2 = .ok n) ∧
      ∃ t1 fuel, Written snk t0 (writtenBytes ops) t1 ∧ t1.close snk fuel = some (t2, .ok ()) := by
  obtain ⟨h1, h2⟩ := writer_written h0 h
  cases hc with
  | @closed t1 _ _ hf hcl =>
    rcases h2 with h2 | ⟨h2, P, h3, h4⟩
    · have := flushed_failed h1 h2 hf
      exact absurd rfl (rawClose_failed this.1 this.2 hcl)
    · obtain ⟨k1, k2⟩ := flushed_written (all := writtenBytes ops) ⟨h1, .inr ⟨P, h3, h4⟩⟩ hf
      rcases k2 with k2 | ⟨P', k2, k3⟩
      · exact absurd rfl (rawClose_failed k1 k2 hcl)
      · rw [List.append_nil] at k3
        subst k3
        obtain ⟨fuel, hcl⟩ := hcl
        exact ⟨h2, t1, fuel, k2, hcl⟩

end Writing

end Tink.Props
