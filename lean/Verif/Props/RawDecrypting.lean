import Verif.Stream.RawDecrypting
import Verif.Props.CppInput

/-!
# C57: raw decrypting streams
-/

namespace Tink.Spec
variable {ι σ : Type}

/-- The contract of `InputStream::Next` about empty buffers: calling it repeatedly gives a non-empty
buffer or a status other than OK at some time. -/
inductive Progress (st : CInputStream ι) (src : Source σ) : ι → σ → Prop
  | some {i s i' s' x} : (st.next i).run src s = some (s', i', x) → x ≠ .ok [] → Progress st src i s
  | later {i s i' s'} : (st.next i).run src s = some (s', i', .ok []) → Progress st src i' s' →
      Progress st src i s

end Tink.Spec

namespace Tink.Props
open Spec RawDecryptingStream

variable {ι σ : Type} {st : CInputStream ι} {src : Source σ} {inv : ι → σ → Bytes → Prop}

theorem readFromAdapter_big {i : ι} {size : Int} (h : size ≥ 2 ^ 63) :
    readFromAdapter st i size = .ret (i, .error .type) := by
  unfold readFromAdapter; rw [if_pos h]

theorem readFromAdapter_small {i : ι} {size : Int} (h : size < 2 ^ 63) :
    readFromAdapter st i size = (InputStreamAdapter.read st i size).map adapterExc := by
  unfold readFromAdapter; rw [if_neg (by omega)]

/-- The C++ stream reported a failure that is not the end, and it and the source are now in this
state. -/
def Failed (st : CInputStream ι) (src : Source σ) (inv : ι → σ → Bytes → Prop) (i' : ι) (s' : σ) :
    Prop :=
  ∃ i s R e, inv i s R ∧ (st.next i).run src s = some (s', i', .error e) ∧ e.code ≠ .outOfRange

theorem loop_spec (h : Lawful st src inv) {size : Nat} (hmax : size < 2 ^ 63) :
    ∀ (fuel : Nat) (r : RawDecryptingStream ι) (s : σ) {R : Bytes}, inv r.adapter s R → ∀ {r' s' x},
    (loop st size fuel r).run src s = some (s', r', x) →
      r'.closed = r.closed ∧
      match x with
      | .ok b => ∃ R', R = b ++ R' ∧ inv r'.adapter s' R' ∧ b.length ≤ size ∧ (b = [] → R = [])
      | .error e => e = .tinkError ∧ inv r'.adapter s' R ∧ Failed st src inv r'.adapter s' := by
  intro fuel
  induction fuel with
  | zero => intro r s R _ r' s' x hx; cases hx
  | succ fuel ih =>
    intro r s R hi r' s' x hx
    unfold loop at hx
    rw [readFromAdapter_small (show (size : Int) < 2 ^ 63 by omega), Prog.run_bind, Prog.run_map] at hx
    cases hr : (InputStreamAdapter.read st r.adapter (size : Int)).run src s with
    | none => rw [hr] at hx; cases hx
    | some q =>
      obtain ⟨s1, i1, res⟩ := q
      have hl := lawful_read h hi hr
      rw [hr] at hx
      cases res with
      | ok d =>
        obtain ⟨R', b1, b2, b3⟩ := hl
        simp only [Option.map_some, Option.bind_some, adapterExc] at hx
        by_cases hd : d.isEmpty = true
        · rw [if_pos hd] at hx
          have hd' : d = [] := List.isEmpty_iff.mp hd
          subst hd'
          rw [List.nil_append] at b1
          subst b1
          exact ih { r with adapter := i1 } s1 (by exact b2) hx
        · rw [if_neg hd] at hx
          cases hx
          refine ⟨rfl, R', b1, b2, ?_, ?_⟩
          · have := b3 (by omega); omega
          · intro h0; exact absurd (by simp [h0]) hd
      | error e =>
        obtain ⟨b1, b2, b3⟩ := hl
        simp only [Option.map_some, Option.bind_some, adapterExc] at hx
        by_cases hc : e.code = .outOfRange
        · rw [if_pos hc] at hx
          cases hx
          exact ⟨rfl, R, rfl, b1, Nat.zero_le _, fun _ => b2 hc⟩
        · rw [if_neg hc] at hx
          cases hx
          exact ⟨rfl, rfl, b1, _, _, _, _, hi, b3, hc⟩

/-- C57.  `read(size)` with a size that is not negative returns the next bytes of the plaintext, at most
`size` of them, and `b''` only if there are none left; else it raises `TinkError`, and then no byte is
lost.  (`inv i s R`: the C++ stream in state `i`, with the source in state `s`, still has to
deliver `R`.) -/
theorem C57_read (h : Lawful st src inv) {r : RawDecryptingStream ι} {s : σ} {R : Bytes}
    (hi : inv r.adapter s R)
    (hc : r.closed = false) {size : Int} (hsz : 0 ≤ size) (hmax : size < 2 ^ 63)
    {fuel : Nat} {r' : RawDecryptingStream ι} {s' : σ} {x : Py Bytes}
    (hx : (r.read st fuel (some size)).run src s = some (s', r', x)) :
    r'.closed = false ∧
      match x with
      | .ok b => ∃ R', R = b ++ R' ∧ inv r'.adapter s' R' ∧ b.length ≤ size ∧ (b = [] → R = [])
      | .error e => e = .tinkError ∧ inv r'.adapter s' R ∧ Failed st src inv r'.adapter s' := by
  unfold RawDecryptingStream.read readSome at hx
  simp only [hc, Bool.false_eq_true, if_false, if_neg (show ¬ size < 0 by omega)] at hx
  obtain ⟨a2, a3⟩ := loop_spec h (size := size.toNat) (by omega) fuel r s hi hx
  refine ⟨by rw [a2, hc], ?_⟩
  cases x with
  | ok b =>
    obtain ⟨R', c1, c2, c3, c4⟩ := a3
    exact ⟨R', c1, c2, by omega, c4⟩
  | error e => exact a3

theorem readallLoop_spec (h : Lawful st src inv) (fuel : Nat) :
    ∀ (turns : Nat) (r : RawDecryptingStream ι) (s : σ) (chunks : Bytes) {R : Bytes},
    inv r.adapter s R →
    r.closed = false → ∀ {r' s' x}, (readallLoop st fuel turns r chunks).run src s = some (s', r', x) →
      r'.closed = false ∧
      match x with
      | .ok b => b = chunks ++ R ∧ inv r'.adapter s' []
      | .error e => e = .tinkError ∧ Failed st src inv r'.adapter s' := by
  intro turns
  induction turns with
  | zero => intro r s chunks R _ _ r' s' x hx; cases hx
  | succ turns ih =>
    intro r s chunks R hi hc r' s' x hx
    unfold readallLoop at hx
    rw [Prog.run_bind] at hx
    cases hr : (readSome st fuel r 8192).run src s with
    | none => rw [hr] at hx; cases hx
    | some q =>
      obtain ⟨s1, r1, y⟩ := q
      have hl := hr
      unfold readSome at hl
      simp only [hc, Bool.false_eq_true, if_false] at hl
      obtain ⟨a2, a3⟩ := loop_spec h (size := 8192) (by decide) fuel r s hi hl
      rw [hr] at hx
      cases y with
      | error e =>
        cases hx
        exact ⟨by rw [a2, hc], a3.1, a3.2.2⟩
      | ok b =>
        obtain ⟨R', c1, c2, -, c4⟩ := a3
        simp only [Option.bind_some] at hx
        by_cases hb : b.isEmpty = true
        · rw [if_pos hb] at hx
          cases hx
          have hb' : b = [] := List.isEmpty_iff.mp hb
          subst hb'
          have h0 := c4 rfl
          rw [h0, List.nil_append] at c1
          refine ⟨by rw [a2, hc], by rw [h0, List.append_nil], by rw [c1]; exact c2⟩
        · rw [if_neg hb] at hx
          obtain ⟨d2, d3⟩ := ih r1 s1 (chunks ++ b) c2 (by rw [a2, hc]) hx
          refine ⟨d2, ?_⟩
          cases x with
          | ok z => exact ⟨by rw [d3.1, c1, List.append_assoc], d3.2⟩
          | error e => exact d3

/-- C57.  `read()`, `read(-1)` and `read(None)` return all that is left of the plaintext, or raise
`TinkError`. -/
theorem C57_readall (h : Lawful st src inv) {r : RawDecryptingStream ι} {s : σ} {R : Bytes}
    (hi : inv r.adapter s R)
    (hc : r.closed = false) {size : Option Int} (hsz : ∀ n, size = some n → n < 0) {fuel : Nat}
    {r' : RawDecryptingStream ι} {s' : σ} {x : Py Bytes}
    (hx : (r.read st fuel size).run src s = some (s', r', x)) :
    r'.closed = false ∧
      match x with
      | .ok b => b = R ∧ inv r'.adapter s' []
      | .error e => e = .tinkError ∧ Failed st src inv r'.adapter s' := by
  have hx' : (readallLoop st fuel fuel r []).run src s = some (s', r', x) := by
    cases size with
    | none =>
      simpa only [RawDecryptingStream.read, hc, Bool.false_eq_true, if_false,
        if_pos (show (-1 : Int) < 0 by decide)] using hx
    | some n =>
      simpa only [RawDecryptingStream.read, hc, Bool.false_eq_true, if_false,
        if_pos (hsz n rfl)] using hx
  have := readallLoop_spec h fuel fuel r s [] hi hc hx'
  cases x with
  | ok b => simpa using this
  | error e => exact this

/-- A turn of the loop that finds no data. -/
theorem loop_empty {size : Nat} (hmax : size < 2 ^ 63) {fuel : Nat} {r : RawDecryptingStream ι}
    {s s' : σ} {i' : ι} (hn : (st.next r.adapter).run src s = some (s', i', .ok [])) :
    (loop st size (fuel + 1) r).run src s = (loop st size fuel { r with adapter := i' }).run src s' := by
  rw [loop.eq_def]
  simp only
  rw [readFromAdapter_small (show (size : Int) < 2 ^ 63 by omega)]
  simp [InputStreamAdapter.read, InputStreamAdapter.taken, adapterExc, hn, Prog.run_bind,
    Prog.run_map]

/-- A turn that finds data or an error is the last one. -/
theorem loop_done {size : Nat} (hsz : 0 < size) {r : RawDecryptingStream ι} {s s' : σ} {i' : ι}
    {x : StatusOr Bytes} (hn : (st.next r.adapter).run src s = some (s', i', x)) (hx : x ≠ .ok [])
    (fuel : Nat) : ∃ q, (loop st size (fuel + 1) r).run src s = some q := by
  rw [loop.eq_def]
  simp only
  by_cases hmax : (size : Int) ≥ 2 ^ 63
  · exact ⟨_, by rw [readFromAdapter_big hmax]; rfl⟩
  rw [readFromAdapter_small (show (size : Int) < 2 ^ 63 by omega), Prog.run_bind, Prog.run_map,
    InputStreamAdapter.read, Prog.run_map, hn]
  cases x with
  | error e =>
    by_cases hc : e.code = .outOfRange <;>
      simp [InputStreamAdapter.taken, adapterExc, hc, Prog.run]
  | ok d =>
    have hd : d ≠ [] := by intro h; exact hx (by rw [h])
    have hne : ¬ ((size : Int) < 0) := by omega
    have htake : (d.take (min d.length size)).isEmpty = false := by
      cases d with
      | nil => exact absurd rfl hd
      | cons a as =>
        cases size with
        | zero => omega
        | succ k =>
          simp only [List.length_cons]
          rw [show min (as.length + 1) (k + 1) = min as.length k + 1 by omega]
          rfl
    simp only [InputStreamAdapter.taken, Option.map_some, Option.bind_some, adapterExc,
      if_neg hne, Int.toNat_natCast, htake, Bool.false_eq_true, if_false]
    exact ⟨_, rfl⟩

/-- More turns allow the same and more. -/
theorem loop_le {size : Int} : ∀ (fuel : Nat) (r : RawDecryptingStream ι),
    (loop st size fuel r).Le (loop st size (fuel + 1) r) := by
  intro fuel
  induction fuel with
  | zero => intro r; exact .out _
  | succ fuel ih =>
    intro r
    rw [loop.eq_def, loop.eq_def st size (fuel + 1 + 1)]
    refine (Prog.Le.refl _).bind ?_
    rintro ⟨s, x⟩
    cases x with
    | error e => cases e <;> exact .refl _
    | ok d =>
      simp only
      by_cases hd : d.isEmpty = true
      · rw [if_pos hd, if_pos hd]; exact ih _
      · rw [if_neg hd, if_neg hd]; exact .refl _

theorem loop_le_le {size : Int} {a b : Nat} (hab : a ≤ b) (r : RawDecryptingStream ι) :
    (loop st size a r).Le (loop st size b r) := by
  induction hab with
  | refl => exact .refl _
  | step _ ih => exact ih.trans (loop_le _ _)

theorem loop_mono_le {size : Nat} {a b : Nat} (hab : a ≤ b) {r : RawDecryptingStream ι} {s : σ} {q}
    (h : (loop st size a r).run src s = some q) : (loop st size b r).run src s = some q :=
  (loop_le_le hab r).run h

theorem loop_terminates {size : Nat} (hsz : 0 < size) {i : ι} {s : σ} (hp : Progress st src i s) :
    ∀ r : RawDecryptingStream ι, r.adapter = i →
      ∃ fuel q, (loop st size fuel r).run src s = some q := by
  induction hp with
  | some hn hx =>
    rintro r rfl
    exact ⟨1, loop_done hsz hn hx 0⟩
  | @later i s i' s' hn hp ih =>
    rintro r rfl
    by_cases hmax : (size : Int) ≥ 2 ^ 63
    · exact ⟨1, _, by rw [loop, readFromAdapter_big hmax]; rfl⟩
    · obtain ⟨fuel, q, hq⟩ := ih { r with adapter := i' } rfl
      exact ⟨fuel + 1, q, by rw [loop_empty (by omega) hn]; exact hq⟩

/-- C57.  `read(size)` with a positive size returns, provided that the C++ stream makes progress. -/
theorem C57_read_terminates {r : RawDecryptingStream ι} {s : σ} {size : Int} (hsz : 0 < size)
    (hp : Progress st src r.adapter s) :
    ∃ fuel q, (r.read st fuel (some size)).run src s = some q := by
  unfold RawDecryptingStream.read readSome
  by_cases hc : r.closed = true
  · exact ⟨0, _, by rw [if_pos hc]; rfl⟩
  · obtain ⟨fuel, q, hq⟩ := loop_terminates (size := size.toNat) (by omega) hp r rfl
    refine ⟨fuel, q, ?_⟩
    simp only [if_neg hc, if_neg (show ¬ size < 0 by omega)]
    exact hq

theorem readallLoop_terminates (h : Lawful st src inv)
    (hp : ∀ i s R, inv i s R → Progress st src i s) :
    ∀ (n : Nat) (r : RawDecryptingStream ι) (s : σ) (R : Bytes), inv r.adapter s R →
      r.closed = false →
      R.length < n → ∃ k, ∀ fuel turns, k ≤ fuel → k ≤ turns → ∀ chunks,
        ∃ q, (readallLoop st fuel turns r chunks).run src s = some q := by
  intro n
  induction n with
  | zero => intro r s R _ _ hn; omega
  | succ n ih =>
    intro r s R hi hc hn
    obtain ⟨f0, ⟨s1, r1, x⟩, hq⟩ :=
      loop_terminates (size := 8192) (by decide) (hp _ _ _ hi) r rfl
    obtain ⟨a2, a3⟩ := loop_spec h (size := 8192) (by decide) f0 r s hi hq
    have hsome : ∀ fuel, f0 ≤ fuel → (readSome st fuel r 8192).run src s = some (s1, r1, x) := by
      intro fuel hf
      unfold readSome
      rw [if_neg (by simp [hc])]
      exact loop_mono_le hf hq
    cases x with
    | error e =>
      refine ⟨f0 + 1, fun fuel turns hf ht chunks => ?_⟩
      obtain ⟨t, rfl⟩ : ∃ t, turns = t + 1 := ⟨turns - 1, by omega⟩
      exact ⟨_, by rw [readallLoop, Prog.run_bind, hsome fuel (by omega)]; rfl⟩
    | ok b =>
      obtain ⟨R', c1, c2, -, -⟩ := a3
      by_cases hb : b.isEmpty = true
      · refine ⟨f0 + 1, fun fuel turns hf ht chunks => ?_⟩
        obtain ⟨t, rfl⟩ : ∃ t, turns = t + 1 := ⟨turns - 1, by omega⟩
        exact ⟨(s1, r1, .ok chunks), by
          rw [readallLoop, Prog.run_bind, hsome fuel (by omega)]
          simp only [Option.bind_some, if_pos hb, Prog.run]⟩
      · have hlen : 0 < b.length := by
          cases b with
          | nil => exact absurd rfl hb
          | cons _ _ => simp
        have hl := congrArg List.length c1
        rw [List.length_append] at hl
        obtain ⟨k, hk⟩ := ih r1 s1 R' c2 (by rw [a2, hc]) (by omega)
        refine ⟨max f0 k + 1, fun fuel turns hf ht chunks => ?_⟩
        obtain ⟨t, rfl⟩ : ∃ t, turns = t + 1 := ⟨turns - 1, by omega⟩
        obtain ⟨q, hq'⟩ := hk fuel t (by omega) (by omega) (chunks ++ b)
        exact ⟨q, by
          rw [readallLoop, Prog.run_bind, hsome fuel (by omega)]
          simp only [Option.bind_some, if_neg hb]; exact hq'⟩

/-- C57.  Reading all the rest returns, provided that the C++ stream makes progress. -/
theorem C57_readall_terminates (h : Lawful st src inv)
    (hp : ∀ i s R, inv i s R → Progress st src i s)
    {r : RawDecryptingStream ι} {s : σ} {R : Bytes} (hi : inv r.adapter s R) {size : Option Int}
    (hsz : ∀ n, size = some n → n < 0) : ∃ fuel q, (r.read st fuel size).run src s = some q := by
  by_cases hc : r.closed = true
  · exact ⟨0, _, by unfold RawDecryptingStream.read; rw [if_pos hc]; rfl⟩
  · obtain ⟨k, hk⟩ :=
      readallLoop_terminates h hp _ r s R hi (by simpa using hc) (Nat.lt_succ_self _)
    obtain ⟨q, hq⟩ := hk k k (Nat.le_refl _) (Nat.le_refl _) []
    refine ⟨k, q, ?_⟩
    cases size with
    | none =>
      simpa only [RawDecryptingStream.read, if_neg hc,
        if_pos (show (-1 : Int) < 0 by decide)] using hq
    | some n =>
      simpa only [RawDecryptingStream.read, if_neg hc, if_pos (hsz n rfl)] using hq

/-- C57.  `readinto(b)` puts the next bytes of the plaintext at the start of `b`, keeps its length
and the rest of its content, and returns how many they are. -/
theorem C57_readinto (h : Lawful st src inv) {r : RawDecryptingStream ι} {s : σ} {R : Bytes}
    (hi : inv r.adapter s R)
    (hc : r.closed = false) {b : Bytes} (hb : b ≠ []) (hmax : b.length < 2 ^ 63) {fuel : Nat}
    {r' : RawDecryptingStream ι} {s' : σ} {x : Py (Nat × Bytes)}
    (hx : (r.readinto st fuel b).run src s = some (s', r', x)) :
    match x with
    | .ok (n, b') => ∃ R', R = b'.take n ++ R' ∧ inv r'.adapter s' R' ∧ b'.drop n = b.drop n ∧
        b'.length = b.length ∧ n ≤ b.length ∧ (n = 0 → R = [])
    | .error e => e = .tinkError ∧ inv r'.adapter s' R := by
  have hpos : 0 < b.length := by
    cases b with
    | nil => exact absurd rfl hb
    | cons _ _ => simp
  unfold RawDecryptingStream.readinto at hx
  rw [Prog.run_map] at hx
  cases hr : (r.read st fuel (some (b.length : Int))).run src s with
  | none => rw [hr] at hx; cases hx
  | some q =>
    obtain ⟨s1, r1, y⟩ := q
    obtain ⟨-, a3⟩ := C57_read h hi hc (by omega) (by omega) hr
    rw [hr] at hx
    cases y with
    | error e => cases hx; exact ⟨a3.1, a3.2.1⟩
    | ok d =>
      cases hx
      obtain ⟨R', c1, c2, c3, c4⟩ := a3
      refine ⟨R', ?_, c2, ?_, ?_, by omega, ?_⟩
      · rw [List.take_left]; exact c1
      · rw [List.drop_left]
      · rw [List.length_append, List.length_drop]; omega
      · intro h0; exact c4 (List.length_eq_zero_iff.mp h0)

/-- C57, violation.  `read(0)`, which should return `b''` at once, does not return as long as there
is plaintext left. -/
theorem C57_read_zero_hangs (h : Lawful st src inv)
    (hok : ∀ i s R, inv i s R → R ≠ [] → ∃ i' s' d, (st.next i).run src s = some (s', i', .ok d))
    (fuel : Nat) :
    ∀ {r : RawDecryptingStream ι} {s : σ} {R : Bytes}, inv r.adapter s R → r.closed = false →
      R ≠ [] → (r.read st fuel (some 0)).run src s = none := by
  have key : ∀ (fuel : Nat) (r : RawDecryptingStream ι) (s : σ) (R : Bytes), inv r.adapter s R →
      R ≠ [] → (loop st 0 fuel r).run src s = none := by
    intro fuel
    induction fuel with
    | zero => intro r _ _ _ _; rfl
    | succ fuel ih =>
      intro r s R hi hne
      obtain ⟨i', s', d, hd⟩ := hok r.adapter s R hi hne
      have hres : ∃ s1 i1, (InputStreamAdapter.read st r.adapter 0).run src s = some (s1, i1, .ok []) :=
        ⟨_, _, by
          simp only [InputStreamAdapter.read, Prog.run_map, InputStreamAdapter.taken, hd,
            Option.map_some, Int.lt_irrefl, if_false, Int.toNat_zero, Nat.min_zero, List.take_zero]
          rfl⟩
      obtain ⟨s1, i1, hres⟩ := hres
      obtain ⟨R', b1, b2, -⟩ := lawful_read h hi hres
      rw [List.nil_append] at b1
      subst b1
      rw [loop.eq_def]
      simp only
      rw [readFromAdapter_small (by decide), Prog.run_bind, Prog.run_map, hres]
      simp only [Option.map_some, Option.bind_some, adapterExc, List.isEmpty_nil, if_true]
      exact ih _ _ _ b2 hne
  intro r s R hi hc hne
  unfold RawDecryptingStream.read readSome
  simp only [hc, Bool.false_eq_true, if_false, Int.lt_irrefl, Int.toNat_zero]
  exact key fuel r s R hi hne

/-- C57.  A closed stream refuses to be read, with `ValueError`; closing it again does nothing. -/
theorem C57_closed {r : RawDecryptingStream ι} (hc : r.closed = true) (fuel : Nat)
    (size : Option Int) (closeFile : Py Unit) :
    r.read st fuel size = .ret (r, .error .valueError) ∧ r.close closeFile = (r, .ok ()) := by
  simp [RawDecryptingStream.read, RawDecryptingStream.close, hc]

/-! ## Examples -/

section Examples

/-- A stream that hands out its bytes three at a time, with empty buffers in between.  The state is
the last buffer, the rest and whether the next buffer is empty. -/
def threes : CInputStream (Bytes × Bytes × Bool) where
  next s := .ret (if s.2.2 then (([], s.2.1, false), .ok [])
    else if s.2.1 = [] then (([], [], false), .error ⟨.outOfRange, false⟩)
    else ((s.2.1.take 3, s.2.1.drop 3, true), .ok (s.2.1.take 3)))
  backUp s n := (s.1.take (s.1.length - n.toNat), s.1.drop (s.1.length - n.toNat) ++ s.2.1, s.2.2)

/-- A source that is not used. -/
def noSource : Source Unit := ⟨fun _ _ => ((), .data [])⟩

/-- It meets the contract of an input stream. -/
theorem threes_lawful : Lawful threes noSource (fun s _ R => s.2.1 = R) := by
  refine ⟨?_, ?_⟩
  · rintro ⟨l, b, f⟩ _ R s' _ d rfl hd
    simp only [threes, Prog.run] at hd
    cases f
    · by_cases hb : b = []
      · simp [hb] at hd
      · simp only [Bool.false_eq_true, if_false, if_neg hb, Option.some.injEq, Prod.mk.injEq,
          Except.ok.injEq] at hd
        obtain ⟨-, rfl, rfl⟩ := hd
        exact ⟨_, (List.take_append_drop 3 b).symm, rfl, fun n hn => by simp [threes]⟩
    · simp only [if_true, Option.some.injEq, Prod.mk.injEq, Except.ok.injEq] at hd
      obtain ⟨-, rfl, rfl⟩ := hd
      exact ⟨_, rfl, rfl, fun n hn => by simp [threes]⟩
  · rintro ⟨l, b, f⟩ _ R s' _ e rfl he
    simp only [threes, Prog.run] at he
    cases f
    · by_cases hb : b = []
      · simp only [hb, Bool.false_eq_true, if_false, if_true, Option.some.injEq, Prod.mk.injEq] at he
        obtain ⟨-, rfl, -⟩ := he
        exact ⟨by simp [hb], fun _ => hb⟩
      · simp [hb] at he
    · simp at he

/-- ... and makes progress. -/
theorem threes_progress (i : Bytes × Bytes × Bool) : Progress threes noSource i () := by
  have h : ∀ l b, Progress threes noSource (l, b, false) () := by
    intro l b
    cases b with
    | nil =>
      exact Progress.some (i' := ([], [], false)) (s' := ()) (x := .error ⟨.outOfRange, false⟩)
        rfl (by simp)
    | cons a b =>
      exact Progress.some (i' := ((a :: b).take 3, (a :: b).drop 3, true)) (s' := ())
        (x := .ok ((a :: b).take 3)) rfl (by simp)
  obtain ⟨l, b, f⟩ := i
  cases f
  · exact h l b
  · exact .later (i' := ([], b, false)) (s' := ()) rfl (h _ _)

/-- Some reads. -/
example : (((RawDecryptingStream.read threes 9 ⟨([], [1, 2, 3, 4, 5], true), true, false⟩
    (some 2)).run noSource ()).map (·.2.2)) = some (.ok [1, 2]) := by decide +kernel
example : (((RawDecryptingStream.read threes 9 ⟨([], [1, 2, 3, 4, 5], true), true, false⟩
    none).run noSource ()).map (·.2.2)) = some (.ok [1, 2, 3, 4, 5]) := by decide +kernel

/-- `read(0)` hangs here. -/
example (fuel : Nat) : ((RawDecryptingStream.read threes fuel
    ⟨([], [1, 2, 3, 4, 5], true), true, false⟩ (some 0)).run noSource ()) = none :=
  C57_read_zero_hangs threes_lawful (by
    rintro ⟨l, b, f⟩ s R rfl hne
    simp only at hne
    cases f <;> simp [threes, Prog.run, hne]) fuel rfl rfl (by simp)

end Examples
end Tink.Props
