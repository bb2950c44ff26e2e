import Verif.Spec.Failing
import Verif.Stream.BufferedLemmas
import Verif.Stream.ClosingLemmas
import Verif.Props.StreamingAead

/-!
# Lemmas about decrypting streams that have failed
-/

namespace Tink.Props
open Tink.Spec Tink.Io

/-! ## The streams of single keys -/

section Cc
variable {κ ν ι σ : Type}

/-- The status of the C++ stream is an error. -/
def BadStatus (d : DecryptingStream ν ι) : Prop := ∃ x, d.status = some x ∧ x.code ≠ .outOfRange

theorem nextSegment_error {sd : SegmentDecrypter ν} {st : CInputStream ι} {fuel : Nat} {d d' : DecryptingStream ν ι}
    {x : Status} (h : CanReturn (DecryptingStream.nextSegment sd st fuel d) (d', .error x)) :
    d'.status = some x := by
  obtain ⟨⟨i, out, y⟩, -, h⟩ := canReturn_map h
  have key : ∀ (d0 : DecryptingStream ν ι) (last : Bool),
      (d', Except.error x) = DecryptingStream.decryptBuffer sd d0 last → d'.status = some x := by
    intro d0 last h
    unfold DecryptingStream.decryptBuffer at h
    split at h
    · cases h
    · split at h
      · cases h; rfl
      · cases hz : sd.decryptSegment d0.decrypter d0.ctBuffer d0.segmentNumber true with
        | ok z => rw [hz] at h; cases h
        | error z => rw [hz] at h; cases h; rfl
  cases y with
  | ok u => exact key _ _ h
  | error e =>
    dsimp only at h
    split at h
    · exact key _ _ h
    · cases h; rfl

/-- An error is also the status from then on. -/
theorem decrypting_next_error {sd : SegmentDecrypter ν} {st : CInputStream ι} {fuel : Nat} {d d' : DecryptingStream ν ι}
    {x : Status} (h : CanReturn (DecryptingStream.next sd st fuel d) (d', .error x)) : d'.status = some x := by
  unfold DecryptingStream.next at h
  split at h
  · rename_i y hy
    cases h
    exact hy
  · split at h
    · obtain ⟨d1, -, h⟩ := canReturn_bind _ h
      split at h
      · rename_i y hy
        cases h
        exact hy
      · exact nextSegment_error h
    · split at h
      · cases h
      · split at h
        · cases h; rfl
        · exact nextSegment_error h

theorem readFromAdapter_tink {sd : SegmentDecrypter ν} {st : CInputStream ι} {fuel : Nat}
    {d d' : DecryptingStream ν ι} {n : Int}
    (h : CanReturn (readFromAdapter (DecryptingStream.stream sd st fuel) d n) (d', .error .tink)) :
    BadStatus d' := by
  unfold readFromAdapter at h
  split at h
  · cases h
  · obtain ⟨⟨d1, y⟩, h1, h⟩ := canReturn_map h
    obtain ⟨⟨d2, z⟩, h2, h1⟩ := canReturn_map h1
    cases z with
    | ok b =>
      cases h1
      cases h
    | error x =>
      cases h1
      have := decrypting_next_error h2
      simp only [adapterExc, Prod.mk.injEq, Except.error.injEq] at h
      obtain ⟨rfl, h⟩ := h
      refine ⟨x, this, ?_⟩
      intro hx
      rw [if_pos hx] at h
      cases h

theorem readFromAdapter_bad {sd : SegmentDecrypter ν} {st : CInputStream ι} {fuel : Nat}
    {d : DecryptingStream ν ι} {n : Int} (hn : n < 2 ^ 63) (h : BadStatus d) :
    readFromAdapter (DecryptingStream.stream sd st fuel) d n = .ret (d, .error .tink) := by
  obtain ⟨x, h1, h2⟩ := h
  unfold readFromAdapter
  rw [if_neg (by omega)]
  unfold InputStreamAdapter.read
  have : (DecryptingStream.stream sd st fuel).next d = .ret (d, .error x) := by
    show DecryptingStream.next sd st fuel d = _
    unfold DecryptingStream.next
    rw [h1]
  rw [this]
  show Prog.ret (adapterExc (d, .error x)) = _
  rw [adapterExc, if_neg h2]

/-- A stream that has failed. -/
def BadStream (r : RawDecryptingStream (DecryptingStream ν ι)) : Prop := r.closed = false ∧ BadStatus r.adapter

theorem loop_tink {sd : SegmentDecrypter ν} {st : CInputStream ι} {f : Nat} {n : Int} :
    ∀ {fuel : Nat} {r r' : RawDecryptingStream (DecryptingStream ν ι)} {e : Exc}, r.closed = false →
      CanReturn (RawDecryptingStream.loop (DecryptingStream.stream sd st f) n fuel r) (r', .error e) →
      e.isTink = true → BadStream r' := by
  intro fuel
  induction fuel with
  | zero => intro r r' e _ h; cases h
  | succ fuel ih =>
    intro r r' e hc h he
    unfold RawDecryptingStream.loop at h
    obtain ⟨⟨s, y⟩, h1, h⟩ := canReturn_bind _ h
    cases y with
    | error y =>
      cases y with
      | finished => cases h
      | tink => cases h; exact ⟨hc, readFromAdapter_tink h1⟩
      | type => cases h; cases he
    | ok data =>
      dsimp only at h
      split at h
      · exact ih (r := { r with adapter := s }) hc h he
      · cases h

theorem loop_closed {st : CInputStream ι} {n : Int} :
    ∀ {fuel : Nat} {r r' : RawDecryptingStream ι} {x : Py Bytes},
      CanReturn (RawDecryptingStream.loop st n fuel r) (r', x) → r'.closed = r.closed := by
  intro fuel
  induction fuel with
  | zero => intro r r' x h; cases h
  | succ fuel ih =>
    intro r r' x h
    unfold RawDecryptingStream.loop at h
    obtain ⟨⟨s, y⟩, -, h⟩ := canReturn_bind _ h
    cases y with
    | error e => cases e <;> cases h <;> rfl
    | ok data =>
      dsimp only at h
      split at h
      · have := ih h
        exact this
      · cases h; rfl

theorem readall_tink {sd : SegmentDecrypter ν} {st : CInputStream ι} {f fuel : Nat} :
    ∀ {turns : Nat} {r r' : RawDecryptingStream (DecryptingStream ν ι)} {chunks : Bytes} {e : Exc},
      r.closed = false →
      CanReturn (RawDecryptingStream.readallLoop (DecryptingStream.stream sd st f) fuel turns r chunks)
        (r', .error e) → e.isTink = true → BadStream r' := by
  intro turns
  induction turns with
  | zero => intro r r' chunks e _ h; cases h
  | succ turns ih =>
    intro r r' chunks e hc h he
    unfold RawDecryptingStream.readallLoop at h
    obtain ⟨⟨s, y⟩, h1, h⟩ := canReturn_bind _ h
    unfold RawDecryptingStream.readSome at h1
    rw [if_neg (by simp [hc])] at h1
    cases y with
    | error y => cases h; exact loop_tink hc h1 he
    | ok data =>
      dsimp only at h
      split at h
      · cases h
      · exact ih ((loop_closed h1).trans hc) h he

theorem rawStream_tink {text : Exc → Bool} {fuel : Nat} {t t' : CcDecrypting ν} {n : Int} {e : Exc}
    (h : CanReturn ((NonceBased.rawStream text).read fuel t n) (t', .raised e)) (he : e.isTink = true) :
    BadStream t'.raw := by
  obtain ⟨⟨r, y⟩, h1, h⟩ := canReturn_map h
  cases y with
  | ok b => cases h
  | error x =>
    cases h
    unfold RawDecryptingStream.read at h1
    split at h1
    · cases h1; cases he
    · rename_i hc
      have hc : t.raw.closed = false := by simpa using hc
      dsimp only at h1
      split at h1
      · exact readall_tink hc h1 he
      · unfold RawDecryptingStream.readSome at h1
        rw [if_neg (by simp [hc])] at h1
        exact loop_tink hc h1 he

theorem loop_bad {sd : SegmentDecrypter ν} {st : CInputStream ι} {f fuel : Nat} {n : Int}
    {r r' : RawDecryptingStream (DecryptingStream ν ι)} {x : Py Bytes} (hn : n < 2 ^ 63) (hb : BadStream r)
    (h : CanReturn (RawDecryptingStream.loop (DecryptingStream.stream sd st f) n fuel r) (r', x)) :
    r' = r ∧ x = .error .tinkError := by
  cases fuel with
  | zero => cases h
  | succ fuel =>
    unfold RawDecryptingStream.loop at h
    rw [readFromAdapter_bad hn hb.2] at h
    cases h
    exact ⟨rfl, rfl⟩

theorem rawStream_bad {text : Exc → Bool} {fuel : Nat} {t t' : CcDecrypting ν} {n : Int} {x : ReadResult}
    (hn : n < 2 ^ 63) (hb : BadStream t.raw)
    (h : CanReturn ((NonceBased.rawStream text).read fuel t n) (t', x)) : t' = t ∧ x = .raised .tinkError := by
  obtain ⟨⟨r, y⟩, h1, h⟩ := canReturn_map h
  suffices hs : r = t.raw ∧ y = .error .tinkError by
    obtain ⟨rfl, rfl⟩ := hs
    cases h
    exact ⟨rfl, rfl⟩
  unfold RawDecryptingStream.read at h1
  rw [if_neg (by simp [hb.1])] at h1
  dsimp only at h1
  split at h1
  · cases fuel with
    | zero => cases h1
    | succ turns =>
      unfold RawDecryptingStream.readallLoop at h1
      obtain ⟨⟨s, z⟩, h2, h1⟩ := canReturn_bind _ h1
      unfold RawDecryptingStream.readSome at h2
      rw [if_neg (by simp [hb.1])] at h2
      obtain ⟨rfl, rfl⟩ := loop_bad (by decide) hb h2
      cases h1
      exact ⟨rfl, rfl⟩
  · unfold RawDecryptingStream.readSome at h1
    rw [if_neg (by simp [hb.1])] at h1
    exact loop_bad (by omega) hb h1

theorem stays_snoc {calls : Calls} {c : Int × ReadResult} (h : StaysFailed calls)
    (hc : (∃ x ∈ calls, RaisedTink x.2) → RaisedTink c.2) : StaysFailed (calls ++ [c]) := by
  intro pre x post he hx y hy
  rcases List.eq_nil_or_concat post with rfl | ⟨post, z, rfl⟩
  · cases hy
  · rw [List.concat_eq_append] at he hy
    have he' : calls ++ [c] = (pre ++ x :: post) ++ [z] := by rw [he]; simp
    obtain ⟨h1, h2⟩ := List.append_inj' he' rfl
    cases h2
    rw [List.mem_append, List.mem_singleton] at hy
    rcases hy with hy | rfl
    · exact h pre x post h1 hx y hy
    · exact hc ⟨x, by rw [h1]; simp, hx⟩

/-- The streams of the keys whose C++ is modelled fail for good. -/
theorem toRaw_fails (p : NonceBased κ ν) (text : Exc → Bool) (buffer ad : Bytes) :
    FailsForGood (p.toRaw (σ := σ) text buffer) ad := by
  intro σ' src s t _ calls t' s' h
  suffices hs : StaysFailed calls ∧ ((∃ x ∈ calls, RaisedTink x.2) → BadStream t'.raw) from hs.1
  induction h with
  | start => exact ⟨fun pre c post h => by simp at h, fun ⟨x, hx, _⟩ => by cases hx⟩
  | @read calls t1 s1 t2 s2 size r fuel _ hn hrun ih =>
    have hcan : CanReturn ((NonceBased.rawStream text).read fuel t1 size) (t2, r) := by
      unfold RawStream.run at hrun
      cases hx : ((p.toRaw (σ := σ) text buffer).stream.read fuel t1 size).run src s1 with
      | none => rw [hx] at hrun; cases hrun
      | some q =>
        rw [hx] at hrun
        cases hrun
        exact canReturn_run _ hx
    have hbad : (∃ x ∈ calls, RaisedTink x.2) → t2 = t1 ∧ r = .raised .tinkError := fun h =>
      rawStream_bad hn (ih.2 h) hcan
    refine ⟨stays_snoc ih.1 fun h => ⟨_, (hbad h).2, rfl⟩, ?_⟩
    rintro ⟨x, hx, hr⟩
    rw [List.mem_append, List.mem_singleton] at hx
    rcases hx with hx | rfl
    · rw [(hbad ⟨x, hx, hr⟩).1]
      exact ih.2 ⟨x, hx, hr⟩
    · obtain ⟨e, he, ht⟩ := hr
      have he : r = .raised e := he
      rw [he] at hcan
      exact rawStream_tink hcan ht

end Cc

/-! ## Buffered readers -/

section Reader
variable {ρ : Type} {R : ρ → Nat → ρ → ReadResult → Prop}

/-- What is known after some calls: until the raw stream fails, the buffer has what was read in advance;
then it has some of that. -/
def FailedSoFar (P : Bytes) (ops : List (ReadOp × ReadResult)) (b : Bytes)
    (calls : List (Nat × ReadResult)) : Prop :=
  ∃ pos, ReadsOrFails P ops pos ∧ pos ≤ P.length ∧
    (((¬ ∃ c ∈ calls, RaisedTink c.2) ∧ P.take pos ++ b = rawBytes calls) ∨
      ((∃ c ∈ calls, RaisedTink c.2) ∧ b <+: P.drop pos ∧ pos + b.length ≤ (rawBytes calls).length))

/-- The calls raised nothing but `TinkError`, and after the first all did. -/
structure RawFails (calls : List (Nat × ReadResult)) : Prop where
  tink : ∀ c ∈ calls, ∀ e, c.2 = .raised e → e.isTink = true
  stays : ∀ pre c post, calls = pre ++ c :: post → RaisedTink c.2 → ∀ x ∈ post, RaisedTink x.2

theorem RawFails.prefix {calls more : List (Nat × ReadResult)} (h : RawFails (calls ++ more)) : RawFails calls :=
  ⟨fun c hc => h.tink c (by simp [hc]), fun pre c post he hc x hx =>
    h.stays pre c (post ++ more) (by rw [he]; simp) hc x (by simp [hx])⟩

/-- After a failure all calls fail. -/
theorem RawFails.more {calls more : List (Nat × ReadResult)} (h : RawFails (calls ++ more))
    (hc : ∃ c ∈ calls, RaisedTink c.2) : ∀ x ∈ more, RaisedTink x.2 := by
  obtain ⟨c, hm, hr⟩ := hc
  obtain ⟨pre, post, rfl⟩ := List.append_of_mem hm
  intro x hx
  exact h.stays pre c (post ++ more) (by simp) hr x (by simp [hx])

theorem rawBytes_append (a b : List (Nat × ReadResult)) : rawBytes (a ++ b) = rawBytes a ++ rawBytes b := by
  simp [rawBytes]

/-- The reads that fill the buffer all return data. -/
theorem filled_data {t0 t t1 : ρ} {calls : List (Nat × ReadResult)} {buffer b : Bytes}
    (h : Trace R t0 calls t) (hf : Filled R t buffer t1 b) :
    ∃ more, Trace R t0 (calls ++ more) t1 ∧ b = buffer ++ rawBytes more ∧
      ∀ c ∈ more, ∃ d, c.2 = .data d := by
  induction hf with
  | start => exact ⟨[], by simpa using h, by simp [rawBytes], fun c hc => by (cases hc)⟩
  | @more t1 b t2 d n _ h1 h2 h3 _ ih =>
    obtain ⟨more, i1, i2, i3⟩ := ih
    refine ⟨more ++ [(n, .data d)], ?_, ?_, ?_⟩
    · rw [← List.append_assoc]
      exact .read i1 h1 h2 h3
    · rw [rawBytes_snoc, i2]
      simp [ReadResult.bytes]
    · intro c hc
      rw [List.mem_append, List.mem_singleton] at hc
      rcases hc with hc | rfl
      · exact i3 c hc
      · exact ⟨d, rfl⟩

theorem not_raised_data {d : Bytes} : ¬ RaisedTink (.data d) := by rintro ⟨e, h, -⟩; cases h

/-- The state after the buffer was filled. -/
theorem filled_soFar {P : Bytes} {ops : List (ReadOp × ReadResult)} {b1 b : Bytes}
    {calls more : List (Nat × ReadResult)} (h : FailedSoFar P ops b1 calls)
    (hF : RawFails (calls ++ more)) (hb : b = b1 ++ rawBytes more) (hd : ∀ c ∈ more, ∃ d, c.2 = .data d) :
    FailedSoFar P ops b (calls ++ more) := by
  obtain ⟨pos, h1, h2, h3 | h3⟩ := h
  · refine ⟨pos, h1, h2, .inl ⟨?_, ?_⟩⟩
    · rintro ⟨c, hc, hr⟩
      rw [List.mem_append] at hc
      rcases hc with hc | hc
      · exact h3.1 ⟨c, hc, hr⟩
      · obtain ⟨d, hd⟩ := hd c hc
        rw [hd] at hr
        exact not_raised_data hr
    · rw [hb, ← List.append_assoc, h3.2, rawBytes_append]
  · have hm : more = [] := by
      cases more with
      | nil => rfl
      | cons c more =>
        obtain ⟨d, hd⟩ := hd c (by simp)
        have := hF.more h3.1 c (by simp)
        rw [hd] at this
        exact absurd this not_raised_data
    subst hm
    simp only [rawBytes, List.flatMap_nil, List.append_nil] at hb ⊢
    subst hb
    exact ⟨pos, h1, h2, .inr h3⟩

/-- The buffer has the next bytes. -/
theorem soFar_next {P : Bytes} {pos : Nat} {b : Bytes} {calls : List (Nat × ReadResult)} (hP : PartOf P calls)
    (hpos : pos ≤ P.length)
    (h : ((¬ ∃ c ∈ calls, RaisedTink c.2) ∧ P.take pos ++ b = rawBytes calls) ∨
      ((∃ c ∈ calls, RaisedTink c.2) ∧ b <+: P.drop pos ∧ pos + b.length ≤ (rawBytes calls).length)) :
    b <+: P.drop pos := by
  rcases h with h | h
  · exact take_append_drop_prefix hpos (by rw [h.2]; exact hP.bytes)
  · exact h.2.1

theorem soFar_part {P : Bytes} {ops : List (ReadOp × ReadResult)} {pos k : Nat} {b : Bytes} {op : ReadOp}
    {calls : List (Nat × ReadResult)} (hP : PartOf P calls) (hpos : pos ≤ P.length)
    (hops : ReadsOrFails P ops pos)
    (h : ((¬ ∃ c ∈ calls, RaisedTink c.2) ∧ P.take pos ++ b = rawBytes calls) ∨
      ((∃ c ∈ calls, RaisedTink c.2) ∧ b <+: P.drop pos ∧ pos + b.length ≤ (rawBytes calls).length))
    (hread : FileRead P pos op (b.take k)) : FailedSoFar P (ops ++ [(op, .data (b.take k))]) (b.drop k) calls := by
  have hb := soFar_next hP hpos h
  have hpre : b.take k <+: P.drop pos := (List.take_prefix k b).trans hb
  have hlen := hpre.length_le
  simp only [List.length_drop] at hlen
  refine ⟨pos + (b.take k).length, .read hops hread, by omega, ?_⟩
  rcases h with h | h
  · left
    refine ⟨h.1, ?_⟩
    rw [take_add_of_prefix hpre, List.append_assoc, List.take_append_drop]
    exact h.2
  · right
    refine ⟨h.1, ?_, ?_⟩
    · obtain ⟨x, hx⟩ := hb
      refine ⟨x, ?_⟩
      have : P.drop pos = b.take k ++ (b.drop k ++ x) := by
        rw [← List.append_assoc, List.take_append_drop, hx]
      rw [← List.drop_drop, this, List.drop_left]
    · have := h.2.2
      simp only [List.length_take, List.length_drop]
      omega

/-- A history of a buffered reader comes from a history of the raw stream; if the latter returned the first
bytes of `P`, and failed for good if it failed, the reader is like a file that may fail. -/
theorem reader_fails {t0 t : ρ} {ops : List (ReadOp × ReadResult)} {b : Bytes}
    (h : ReaderHistory R t0 ops t b) :
    ∃ calls, Trace R t0 calls t ∧ ∀ P, PartOf P calls → RawFails calls → FailedSoFar P ops b calls := by
  induction h with
  | start =>
    exact ⟨[], .start, fun P _ _ => ⟨0, .start, by omega, .inl ⟨fun ⟨c, hc, _⟩ => by (cases hc), by simp [rawBytes]⟩⟩⟩
  | @call ops t1 b1 op r t2 b2 _ hc ih =>
    obtain ⟨calls, i1, i2⟩ := ih
    cases hc with
    | full n hf hn =>
      obtain ⟨more, j1, j2, j3⟩ := filled_data i1 hf
      refine ⟨_, j1, fun P hP hF => ?_⟩
      obtain ⟨pos, h1, h2, h3⟩ := filled_soFar (i2 P hP.prefix hF.prefix) hF j2 j3
      refine soFar_part hP h2 h1 h3 ?_
      obtain ⟨x, hx⟩ := soFar_next hP h2 h3
      show _ = (P.drop pos).take n
      rw [← hx, List.take_append_of_le_length hn]
    | one n hf hn =>
      obtain ⟨more, j1, j2, j3⟩ := filled_data i1 hf
      refine ⟨_, j1, fun P hP hF => ?_⟩
      obtain ⟨pos, h1, h2, h3⟩ := filled_soFar (i2 P hP.prefix hF.prefix) hF j2 j3
      refine soFar_part hP h2 h1 h3 ⟨(List.take_prefix _ _).trans (soFar_next hP h2 h3), by simp; omega, ?_⟩
      intro h0
      rcases List.take_eq_nil_iff.mp h0 with h0 | h0
      · exact .inl h0
      · rcases hn with hn | hn
        · exact absurd h0 hn
        · exact .inl hn
    | @ended t1' b t2' _ m hf hw hm1 hm2 hr =>
      obtain ⟨more, j1, j2, j3⟩ := filled_data i1 hf
      refine ⟨_, .read j1 hm1 hm2 hr, fun P hP hF => ?_⟩
      obtain ⟨pos, h1, h2, h3⟩ :=
        filled_soFar (i2 P hP.prefix.prefix hF.prefix.prefix) hF.prefix j2 j3
      have k1 := soFar_next hP.prefix h2 h3
      rcases h3 with h3 | h3
      · have hend := hP.ended (calls ++ more) _ [] rfl rfl
        rw [← h3.2] at hend
        have hb : b = P.drop pos := by
          have : (P.take pos ++ b).drop pos = b := by
            rw [List.drop_append_of_le_length (by simp; omega)]
            simp [List.drop_take]
          rw [← this, hend]
        refine ⟨pos + b.length, .read h1 ?_, ?_, .inl ⟨?_, ?_⟩⟩
        · cases op with
          | read n =>
            show b = _
            have hw : b.length < n := hw
            rw [← hb, List.take_of_length_le (by omega)]
          | readAll => exact hb
          | read1 n =>
            obtain ⟨hw, -⟩ : b = [] ∧ n ≠ 0 := hw
            refine ⟨k1, by simp [hw], fun _ => .inr ?_⟩
            rw [hb, List.drop_eq_nil_iff] at hw
            exact hw
        · rw [hb]; simp; omega
        · rintro ⟨c, hc, hr⟩
          rw [List.mem_append, List.mem_singleton] at hc
          rcases hc with hc | rfl
          · exact h3.1 ⟨c, hc, hr⟩
          · exact not_raised_data hr
        · rw [take_add_of_prefix k1, List.append_nil, h3.2]
          simp [rawBytes, ReadResult.bytes]
      · exact absurd (hF.more h3.1 (m, .data []) (by simp)) not_raised_data
    | paused op m hf hw hm1 hm2 hr =>
      obtain ⟨more, j1, j2, j3⟩ := filled_data i1 hf
      exact ⟨_, .read j1 hm1 hm2 hr, fun P hP _ => absurd rfl (hP.plain (m, .none) (by simp)).1⟩
    | blocked op m buffer' hf hw hm1 hm2 hr =>
      obtain ⟨more, j1, j2, j3⟩ := filled_data i1 hf
      exact ⟨_, .read j1 hm1 hm2 hr, fun P hP _ => absurd rfl (hP.plain (m, .blocking) (by simp)).2⟩
    | @raised t1' b t2' e op m buffer' hf hw hm1 hm2 hr hbuf =>
      obtain ⟨more, j1, j2, j3⟩ := filled_data i1 hf
      refine ⟨_, .read j1 hm1 hm2 hr, fun P hP hF => ?_⟩
      obtain ⟨pos, h1, h2, h3⟩ :=
        filled_soFar (i2 P hP.prefix.prefix hF.prefix.prefix) hF.prefix j2 j3
      have k1 := soFar_next hP.prefix h2 h3
      have ht : RaisedTink (.raised e) := ⟨e, rfl, hF.tink (m, .raised e) (by simp) e rfl⟩
      refine ⟨pos, .failed op h1 ht, h2, .inr ⟨⟨(m, .raised e), by simp, ht⟩, hbuf.trans k1, ?_⟩⟩
      have hl := hbuf.length_le
      rw [rawBytes_append, List.length_append]
      rcases h3 with h3 | h3
      · have := congrArg List.length h3.2
        rw [List.length_append, List.length_take] at this
        omega
      · have := h3.2.2
        omega

/-- If nothing was read from a file that is not empty, the calls failed or 0 bytes were asked for. -/
theorem fails_nothing {ops : List (ReadOp × ReadResult)} {pos : Nat} {x : UInt8}
    (h : ReadsOrFails [x] ops pos) (hpos : pos = 0) :
    ∀ o ∈ ops, RaisedTink o.2 ∨ o = (.read 0, .data []) ∨ o = (.read1 0, .data []) := by
  induction h with
  | start => intro o ho; cases ho
  | failed op _ hr ih =>
    intro o ho
    rw [List.mem_append, List.mem_singleton] at ho
    rcases ho with ho | rfl
    · exact ih hpos o ho
    · exact .inl hr
  | @read ops pos op b _ hr ih =>
    obtain ⟨rfl, hb⟩ : pos = 0 ∧ b = [] := ⟨by omega, List.eq_nil_of_length_eq_zero (by omega)⟩
    subst hb
    intro o ho
    rw [List.mem_append, List.mem_singleton] at ho
    rcases ho with ho | rfl
    · exact ih rfl o ho
    · cases op with
      | read n =>
        cases n with
        | zero => exact .inr (.inl rfl)
        | succ n => simp [FileRead] at hr
      | readAll => simp [FileRead] at hr
      | read1 n =>
        obtain ⟨-, -, h⟩ := hr
        rcases h rfl with rfl | h
        · exact .inr (.inr rfl)
        · simp at h

end Reader

/-! ## Keysets -/

section Keyset
variable {σ δ ε τ : Type}

/-- A keyset's stream fails for good if those of its keys do. -/
theorem history_fails {src : Source σ} {s : σ} {readable : Bool} {ad : Bytes}
    {ps : List (RawStreamingAead δ ε τ)} {w0 w : DecryptingStreamWrapper σ δ ε τ} {calls : Calls}
    (hopen : ∀ p ∈ ps, ∃ t, p.newRawDecryptingStream ad = .ok t) (hf : ∀ p ∈ ps, FailsForGood p ad)
    (hnew : DecryptingStreamWrapper.new ps s readable ad = .ok w0)
    (H : StreamHistory src w0 calls w) : StaysFailed calls := by
  obtain ⟨pre, p, old, now, alone, e1, e2, -, ⟨e4, -⟩, e5, e6, -⟩ := history_inv hopen hnew H
  obtain ⟨t0, d, s', t', s'', h1, -, h3⟩ := e6.alone
  have hstay := hf p (by rw [e1]; simp) _ _ _ _ h1 _ _ _ h3
  have hiff : ∀ a b : ReadResult, uptoTink a = uptoTink b → (RaisedTink a ↔ RaisedTink b) := by
    have one : ∀ a b : ReadResult, uptoTink a = uptoTink b → RaisedTink a → RaisedTink b := by
      rintro a b hab ⟨e, rfl, he⟩
      rw [uptoTink, if_pos he] at hab
      cases b with
      | data x => cases hab
      | none => cases hab
      | blocking => cases hab
      | raised y =>
        refine ⟨y, rfl, ?_⟩
        rw [uptoTink] at hab
        split at hab
        · assumption
        · cases hab; rfl
    exact fun a b hab => ⟨one a b hab, one b a hab.symm⟩
  -- the calls of the current key fail for good
  have hnow : StaysFailed now := by
    intro a c b hab hc x hx
    rw [hab, List.map_append, List.map_cons] at e5
    obtain ⟨a', b'', hab', ha', hb'⟩ := List.map_eq_append_iff.mp e5.symm
    obtain ⟨c', b', rfl, hc', hb'⟩ := List.map_eq_cons_iff.mp hb'
    have hraised := (hiff _ _ (Prod.mk.inj hc').2).mpr hc
    have hm : (x.1, uptoTink x.2) ∈ b'.map (fun c => (c.1, uptoTink c.2)) := by
      rw [hb']; exact List.mem_map.mpr ⟨x, hx, rfl⟩
    obtain ⟨x', hx', he⟩ := List.mem_map.mp hm
    exact (hiff _ _ (Prod.mk.inj he).2).mp (hstay a' c' b' hab' hraised x' hx')
  intro a c b hab hc x hx
  rw [e2] at hab
  rcases List.append_eq_append_iff.mp hab.symm with ⟨z, hz1, hz2⟩ | ⟨z, hz1, hz2⟩
  · cases z with
    | nil =>
      simp only [List.append_nil, List.nil_append] at hz1 hz2
      exact hnow [] c b (by rw [← hz2]; rfl) hc x hx
    | cons y z =>
      have : c ∈ old := by
        have := (List.cons.inj hz2).1
        rw [hz1, this]; simp
      exact absurd ⟨c, this, hc⟩ e4.2
  · exact hnow z c b hz2 hc x hx

/-- A buffered reader around a keyset's stream. -/
theorem reader_only {src : Source σ} {w0 w : DecryptingStreamWrapper σ δ ε τ}
    {ops : List (ReadOp × ReadResult)} {b : Bytes} {msgs : Bytes → Prop} (h0 : PlainWrapper w0)
    (hraw : ∀ calls w', StreamHistory src w0 calls w' → FromOneOf msgs calls ∧ StaysFailed calls)
    (h : ReaderHistory (DecryptingStreamWrapper.RawRead src) w0 ops w b) : OnlyReadsOneOf msgs ops := by
  obtain ⟨calls, h1, h2⟩ := reader_fails h
  obtain ⟨-, h3, h4⟩ := trace_history h0 h1
  obtain ⟨⟨h5, h6⟩, hstay⟩ := hraw _ _ h3
  have hF : RawFails calls := by
    refine ⟨fun c hc e he => h5 ((c.1 : Int), c.2) (List.mem_map.mpr ⟨c, hc, rfl⟩) e he, ?_⟩
    intro pre c post he hc x hx
    exact hstay (pre.map fun c => ((c.1 : Int), c.2)) ((c.1 : Int), c.2)
      (post.map fun c => ((c.1 : Int), c.2)) (by rw [he]; simp) hc ((x.1 : Int), x.2)
      (List.mem_map.mpr ⟨x, hx, rfl⟩)
  rcases h6 with ⟨h7, h8⟩ | ⟨P, hP, h7, h8⟩
  · rw [rawBytes_eq] at h7
    have hpart : PartOf [0] calls := by
      refine ⟨by rw [h7]; exact List.nil_prefix, ?_, fun c hc => (h4 c hc).2⟩
      intro pre c post hc hd
      have hm : c ∈ calls := by rw [hc]; simp
      have := (h4 c hm).1
      exact absurd ⟨((c.1 : Int), c.2), List.mem_map.mpr ⟨c, hm, rfl⟩, by show (c.1 : Int) ≠ 0; omega, hd⟩ h8
    obtain ⟨pos, k1, k2, k3⟩ := h2 _ hpart hF
    refine .inl (fails_nothing k1 ?_)
    rcases k3 with k3 | k3
    · have := congrArg List.length k3.2
      rw [h7] at this
      simp only [List.length_append, List.length_take, List.length_nil, List.length_cons] at this k2
      omega
    · have := k3.2.2
      rw [h7] at this
      simp only [List.length_nil] at this
      omega
  · have hpart : PartOf P calls := by
      refine ⟨by rw [← rawBytes_eq]; exact h7, ?_, fun c hc => (h4 c hc).2⟩
      intro pre c post hc hd
      have hm : c ∈ calls := by rw [hc]; simp
      have hpos := (h4 c hm).1
      rw [← rawBytes_eq]
      exact h8 (pre.map fun c => ((c.1 : Int), c.2)) ((c.1 : Int), c.2)
        (post.map fun c => ((c.1 : Int), c.2)) (by rw [hc]; simp) (by show (c.1 : Int) ≠ 0; omega) hd
    obtain ⟨pos, k1, -⟩ := h2 _ hpart hF
    exact .inr ⟨P, pos, hP, k1⟩

end Keyset
end Tink.Props
