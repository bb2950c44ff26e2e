import Verif.Spec.Termination
import Verif.Props.CppInput

/-!
# Lemmas for C79: the loops of the decrypting streams end
-/

namespace Tink.Props
open Tink.Spec
variable {σ ν : Type}

/-! ## `PythonInputStream` -/

/-- What a `PythonInputStream` can still deliver. -/
def pending (left : σ → Nat) (p : PythonInputStream Unit) (s : σ) : Nat := left s + p.countBackedUp

theorem nextProg_ends {src : Source σ} {left : σ → Nat} (h : Exhaustible src left) (text : Exc → Bool)
    {p : PythonInputStream Unit} (hb : p.buffer ≠ []) (s : σ) :
    ∃ s' p' x, (p.nextProg text).run src s = some (s', p', x) ∧ p'.buffer ≠ [] ∧
      pending left p' s' ≤ pending left p s ∧
      ∀ d, x = .ok d → pending left p' s' + d.length ≤ pending left p s ∧
        pending left p' s' < pending left p s := by
  unfold PythonInputStream.nextProg
  cases hs : p.status with
  | some st => exact ⟨_, _, _, rfl, hb, Nat.le_refl _, fun d hd => by cases hd⟩
  | none =>
    by_cases hc : 0 < p.countBackedUp
    · simp only [if_pos hc]
      refine ⟨_, _, _, rfl, hb, ?_, ?_⟩
      · simp only [pending, PythonInputStream.again]; omega
      · intro d hd
        cases hd
        have hl : (p.again).view.length ≤ p.countBackedUp := by
          simp only [PythonInputStream.view, PythonInputStream.again, List.length_take]
          omega
        simp only [pending, PythonInputStream.again] at hl ⊢
        omega
    · simp only [if_neg hc, Prog.run]
      have hpos : 0 < p.buffer.length := List.length_pos_iff.mpr hb
      generalize hr : src.read s p.buffer.length = q
      obtain ⟨s', r⟩ := q
      have hd := h.data s p.buffer.length
      have hw := h.waits s p.buffer.length
      have he := h.raised s p.buffer.length
      rw [hr] at hd hw he
      have fill : ∀ d : Bytes, (p.filled () d).buffer ≠ [] := by
        intro d h0
        have := congrArg List.length h0
        simp only [PythonInputStream.filled, List.length_append, List.length_drop, List.length_nil] at this
        omega
      cases r with
      | data d =>
        by_cases h0 : d = []
        · subst h0
          refine ⟨s', { p with status := some (PythonInputStream.failure ⟨.unknown, true⟩) },
            .error (PythonInputStream.failure ⟨.unknown, true⟩), ?_, hb, ?_, ?_⟩
          · simp [PythonInputStream.received, PythonInputStream.answer, pybindSource,
              FileObjectAdapter.read, hpos]
          · have := hd [] rfl
            simp only [pending, List.length_nil] at this ⊢
            omega
          · intro d hd; cases hd
        · have hne : d.isEmpty = false := by simpa using h0
          refine ⟨s', p.filled () d, .ok (p.filled () d).view, ?_, fill d, ?_, ?_⟩
          · simp [PythonInputStream.received, PythonInputStream.answer, pybindSource,
              FileObjectAdapter.read, hne]
          · have := hd d rfl
            simp only [pending, PythonInputStream.filled] at this ⊢
            omega
          · intro d' hd'
            cases hd'
            rw [filled_view]
            have := hd d rfl
            have : 0 < d.length := List.length_pos_iff.mpr h0
            simp only [pending, PythonInputStream.filled] at *
            omega
      | none =>
        refine ⟨s', p.filled () [], .ok (p.filled () []).view, rfl, fill [], ?_, ?_⟩
        · have := hw (.inl rfl)
          simp only [pending, PythonInputStream.filled] at this ⊢
          omega
        · intro d' hd'
          cases hd'
          rw [filled_view]
          have := hw (.inl rfl)
          simp only [pending, PythonInputStream.filled, List.length_nil] at *
          omega
      | blocking =>
        refine ⟨s', p.filled () [], .ok (p.filled () []).view, rfl, fill [], ?_, ?_⟩
        · have := hw (.inr rfl)
          simp only [pending, PythonInputStream.filled] at this ⊢
          omega
        · intro d' hd'
          cases hd'
          rw [filled_view]
          have := hw (.inr rfl)
          simp only [pending, PythonInputStream.filled, List.length_nil] at *
          omega
      | raised e =>
        refine ⟨s', { p with status := some _ }, _, rfl, hb, ?_, ?_⟩
        · have := he e rfl
          simp only [pending] at this ⊢
          omega
        · intro d hd; cases hd

theorem pending_backUp (left : σ → Nat) (p : PythonInputStream Unit) (s : σ) (c : Nat) :
    pending left (p.backUp c) s ≤ pending left p s + c ∧ (p.backUp c).buffer = p.buffer := by
  unfold PythonInputStream.backUp
  split
  · exact ⟨by omega, rfl⟩
  · refine ⟨?_, rfl⟩
    simp only [pending, Int.toNat_natCast]
    omega

/-! ## Reading from the source -/

theorem readLoop_ends {src : Source σ} {left : σ → Nat} (h : Exhaustible src left) (text : Exc → Bool) :
    ∀ (fuel : Nat) (i : PythonInputStream Unit) (s : σ) (wanted : Nat) (out : Bytes) (surplus : Nat),
      i.buffer ≠ [] → pending left i s + 2 ≤ fuel →
      ∃ s' i' out' x,
        (readLoop (PythonInputStream.stream text) fuel i wanted out surplus).run src s =
          some (s', i', out', x) ∧ i'.buffer ≠ [] ∧
        (wanted = 0 → pending left i' s' ≤ pending left i s + surplus) ∧
        (0 < wanted → pending left i' s' ≤ pending left i s ∧
          (x = .ok () → pending left i' s' < pending left i s)) := by
  intro fuel
  induction fuel with
  | zero => intro i s wanted out surplus _ hf; omega
  | succ fuel ih =>
    intro i s wanted out surplus hb hf
    rw [readLoop]
    by_cases hw : 0 < wanted
    · rw [if_pos hw, Prog.run_bind]
      obtain ⟨s1, i1, x, h1, h2, h3, h4⟩ := nextProg_ends h text hb s
      rw [show ((PythonInputStream.stream text).next i) = i.nextProg text from rfl, h1]
      cases x with
      | error e =>
        refine ⟨s1, i1, out, .error e, rfl, h2, fun h0 => by omega, fun _ => ⟨h3, fun h0 => by cases h0⟩⟩
      | ok d =>
        obtain ⟨h5, h6⟩ := h4 d rfl
        obtain ⟨s', i', out', x, j1, j2, j3, j4⟩ := ih i1 s1 (wanted - min d.length wanted)
          (out ++ d.take (min d.length wanted)) (d.length - min d.length wanted) h2 (by omega)
        refine ⟨s', i', out', x, j1, j2, fun h0 => by omega, fun _ => ?_⟩
        by_cases h0 : wanted - min d.length wanted = 0
        · have := j3 h0
          omega
        · have := j4 (by omega)
          exact ⟨by omega, fun hx => by omega⟩
    · rw [if_neg hw]
      have hs := pending_backUp left i s surplus
      by_cases h0 : 0 < surplus
      · rw [if_pos h0]
        refine ⟨s, _, out, .ok (), rfl, ?_, fun _ => hs.1, fun h => absurd h hw⟩
        show (i.backUp surplus).buffer ≠ []
        rw [hs.2]
        exact hb
      · rw [if_neg h0]
        exact ⟨s, i, out, .ok (), rfl, hb, fun _ => by omega, fun h => absurd h hw⟩

theorem readFromStream_ends {src : Source σ} {left : σ → Nat} (h : Exhaustible src left)
    (text : Exc → Bool) {fuel : Nat} {i : PythonInputStream Unit} {s : σ} (count : Int)
    (hb : i.buffer ≠ []) (hf : pending left i s + 2 ≤ fuel) :
    ∃ s' i' out x,
      (readFromStream (PythonInputStream.stream text) fuel i count).run src s = some (s', i', out, x) ∧
      i'.buffer ≠ [] ∧ pending left i' s' ≤ pending left i s ∧
        (x = .ok () → pending left i' s' < pending left i s) := by
  unfold readFromStream
  by_cases hc : count ≤ 0
  · rw [if_pos hc]
    exact ⟨s, i, [], _, rfl, hb, Nat.le_refl _, fun h => by cases h⟩
  · rw [if_neg hc]
    obtain ⟨s', i', out', x, j1, j2, -, j4⟩ := readLoop_ends h text fuel i s count.toNat [] 0 hb hf
    exact ⟨s', i', out', x, j1, j2, j4 (by omega)⟩

/-! ## The segments -/

abbrev CppDecrypting (ν : Type) := DecryptingStream ν (PythonInputStream Unit)

/-- What can still be read, and whether a last segment is to come. -/
def toRead (left : σ → Nat) (d : CppDecrypting ν) (s : σ) : Nat :=
  pending left d.source s + if d.readLastSegment then 0 else 1


open DecryptingStream

theorem decryptBuffer_last_or (sd : SegmentDecrypter ν) (d : CppDecrypting ν) (last : Bool) :
    (decryptBuffer sd d last).1.source = d.source ∧
    (decryptBuffer sd d last).1.countBackedUp = d.countBackedUp ∧
    ((decryptBuffer sd d last).1.readLastSegment = true ∨
      last = false ∧ ∃ pt, (decryptBuffer sd d last).2 = .ok pt) := by
  have del : ∀ (x : StatusOr Bytes) (b : Bool), (d.delivered b x).1.source = d.source ∧
      (d.delivered b x).1.countBackedUp = d.countBackedUp ∧
      (d.delivered b x).1.readLastSegment = b ∧ (d.delivered b x).2 = x := by
    intro x b
    cases x <;> exact ⟨rfl, rfl, rfl, rfl⟩
  unfold decryptBuffer
  cases sd.decryptSegment d.decrypter d.ctBuffer d.segmentNumber last with
  | ok pt =>
    obtain ⟨h1, h2, h3, h4⟩ := del (.ok pt) last
    refine ⟨h1, h2, ?_⟩
    cases last with
    | true => exact .inl h3
    | false => exact .inr ⟨rfl, pt, h4⟩
  | error x =>
    simp only
    split
    · obtain ⟨h1, h2, h3, h4⟩ := del (.error x) true
      exact ⟨h1, h2, .inl h3⟩
    · obtain ⟨h1, h2, h3, h4⟩ := del (sd.decryptSegment d.decrypter d.ctBuffer d.segmentNumber true) true
      exact ⟨h1, h2, .inl h3⟩

theorem nextSegment_ends {src : Source σ} {left : σ → Nat} (h : Exhaustible src left) (text : Exc → Bool)
    (sd : SegmentDecrypter ν) {fuel : Nat} {d : CppDecrypting ν} {s : σ} (hb : d.source.buffer ≠ [])
    (hf : pending left d.source s + 2 ≤ fuel) :
    ∃ s' d' x, (nextSegment sd (PythonInputStream.stream text) fuel d).run src s = some (s', d', x) ∧
      d'.source.buffer ≠ [] ∧ d'.countBackedUp = d.countBackedUp ∧
      pending left d'.source s' ≤ pending left d.source s ∧
      (d'.readLastSegment = true ∨
        (pending left d'.source s' < pending left d.source s ∧ ∃ pt, x = .ok pt) ∨
        (d'.readLastSegment = d.readLastSegment ∧ ∃ e, x = .error e)) := by
  obtain ⟨s1, i, out, x, h1, h2, h3, h4⟩ := readFromStream_ends h text d.ctBuffer.length hb hf
  unfold nextSegment
  rw [Prog.run_map, h1]
  cases x with
  | ok u =>
    obtain ⟨a1, a2, a3⟩ := decryptBuffer_last_or sd { d with source := i, ctBuffer := out } false
    simp only [Option.map_some]
    generalize decryptBuffer sd { d with source := i, ctBuffer := out } false = q at a1 a2 a3
    obtain ⟨q1, q2⟩ := q
    simp only at a1 a2 a3
    refine ⟨s1, q1, q2, rfl, by rw [a1]; exact h2, a2, by rw [a1]; exact h3, ?_⟩
    · rw [a1]
      rcases a3 with a3 | ⟨-, pt, a3⟩
      · exact .inl a3
      · exact .inr (.inl ⟨h4 rfl, pt, a3⟩)
  | error x =>
    simp only [Option.map_some]
    by_cases hx : x.code = .outOfRange
    · simp only [if_pos hx]
      obtain ⟨a1, a2, a3⟩ := decryptBuffer_last_or sd { d with source := i, ctBuffer := out } true
      generalize decryptBuffer sd { d with source := i, ctBuffer := out } true = q at a1 a2 a3
      obtain ⟨q1, q2⟩ := q
      simp only at a1 a2 a3
      refine ⟨s1, q1, q2, rfl, by rw [a1]; exact h2, a2, by rw [a1]; exact h3, ?_⟩
      · rcases a3 with a3 | ⟨a3, -⟩
        · exact .inl a3
        · cases a3
    · simp only [if_neg hx]
      exact ⟨_, _, _, rfl, h2, rfl, h3, .inr (.inr ⟨rfl, _, rfl⟩)⟩

theorem readHeader_ends {src : Source σ} {left : σ → Nat} (h : Exhaustible src left) (text : Exc → Bool)
    (sd : SegmentDecrypter ν) {fuel : Nat} {d : CppDecrypting ν} {s : σ} (hb : d.source.buffer ≠ [])
    (hf : pending left d.source s + 2 ≤ fuel) :
    ∃ s' d', (readHeader sd (PythonInputStream.stream text) fuel d).run src s = some (s', d') ∧
      d'.source.buffer ≠ [] ∧ d'.countBackedUp = d.countBackedUp ∧
      d'.readLastSegment = d.readLastSegment ∧
      pending left d'.source s' ≤ pending left d.source s ∧
      (d'.status = none → pending left d'.source s' < pending left d.source s) := by
  obtain ⟨s1, i, out, x, h1, h2, h3, h4⟩ := readFromStream_ends h text sd.headerSize hb hf
  unfold readHeader
  rw [Prog.run_map, h1]
  cases x with
  | ok u =>
    simp only [Option.map_some]
    cases hi : sd.init d.decrypter out with
    | mk v r =>
      cases r with
      | error e => exact ⟨_, _, rfl, h2, rfl, rfl, h3, fun h => by cases h⟩
      | ok u => exact ⟨_, _, rfl, h2, rfl, rfl, h3, fun _ => h4 rfl⟩
  | error x =>
    simp only [Option.map_some]
    by_cases hx : x.code = .outOfRange
    · simp only [if_pos hx]
      exact ⟨_, _, rfl, h2, rfl, rfl, h3, fun h => by cases h⟩
    · simp only [if_neg hx]
      exact ⟨_, _, rfl, h2, rfl, rfl, h3, fun h => by cases h⟩

/-- What `Next` does to what can still be read: nothing is added, and if bytes are returned there is less
to be read, or they were backed up. -/
structure Stepped (left : σ → Nat) (d : CppDecrypting ν) (s : σ) (d' : CppDecrypting ν) (s' : σ) : Prop where
  buffer : d'.source.buffer ≠ []
  pending : pending left d'.source s' ≤ pending left d.source s
  toRead : toRead left d' s' ≤ toRead left d s
  backed : d'.countBackedUp ≤ d.countBackedUp

theorem next_ends {src : Source σ} {left : σ → Nat} (h : Exhaustible src left) (text : Exc → Bool)
    (sd : SegmentDecrypter ν) {fuel : Nat} {d : CppDecrypting ν} {s : σ} (hb : d.source.buffer ≠ [])
    (hf : pending left d.source s + 2 ≤ fuel) :
    ∃ s' d' x, ((NonceBased.cppStream text fuel sd).next d).run src s = some (s', d', x) ∧
      Stepped left d s d' s' ∧
      ∀ data, x = .ok data → d'.countBackedUp = 0 ∧
        (toRead left d' s' < toRead left d s ∨
          toRead left d' s' = toRead left d s ∧ 0 < d.countBackedUp ∧ data.length ≤ d.countBackedUp) := by
  show ∃ s' d' x, (DecryptingStream.next sd (PythonInputStream.stream text) fuel d).run src s = _ ∧ _
  unfold DecryptingStream.next
  cases hs : d.status with
  | some x =>
    exact ⟨s, d, _, rfl, ⟨hb, Nat.le_refl _, Nat.le_refl _, Nat.le_refl _⟩, fun _ h => by cases h⟩
  | none =>
    by_cases hi : (!d.isInitialized) = true
    · simp only [if_pos hi, Prog.run_bind]
      obtain ⟨s1, d1, h1, h2, h3, h4, h5, h6⟩ := readHeader_ends h text sd hb hf
      rw [h1]
      simp only [Option.bind_some]
      cases hs1 : d1.status with
      | some x =>
        refine ⟨s1, d1, _, rfl, ⟨h2, h5, ?_, by omega⟩, fun _ h => by cases h⟩
        unfold toRead
        rw [h4]
        omega
      | none =>
        have h7 := h6 hs1
        obtain ⟨s', d', x, j1, j2, j3, j4, j5⟩ := nextSegment_ends h text sd
          (d := { d1 with isInitialized := true, countBackedUp := 0 }) (s := s1) (fuel := fuel) h2
          (by simp only; omega)
        simp only at j1 j2 j3 j4 j5
        refine ⟨s', d', x, j1, ⟨j2, by omega, ?_, by omega⟩, ?_⟩
        · unfold toRead
          rcases j5 with j5 | ⟨j5, -⟩ | ⟨j5, -⟩
          · rw [j5]; simp only [if_true]; omega
          · split <;> split <;> omega
          · rw [j5, h4]; omega
        · rintro data rfl
          refine ⟨j3, .inl ?_⟩
          unfold toRead
          rcases j5 with j5 | ⟨j5, -⟩ | ⟨j5, e, j6⟩
          · rw [j5]; simp only [if_true]; omega
          · split <;> split <;> omega
          · cases j6
    · simp only [if_neg hi]
      by_cases hc : 0 < d.countBackedUp
      · simp only [if_pos hc]
        refine ⟨s, _, _, rfl, ⟨hb, Nat.le_refl _, Nat.le_refl _, by simp⟩, ?_⟩
        rintro data hd
        cases hd
        refine ⟨rfl, .inr ⟨rfl, hc, ?_⟩⟩
        rw [List.length_drop]
        omega
      · simp only [if_neg hc]
        by_cases hl : d.readLastSegment = true
        · simp only [if_pos hl]
          exact ⟨s, _, _, rfl, ⟨hb, Nat.le_refl _, Nat.le_refl _, Nat.le_refl _⟩, fun _ h => by cases h⟩
        · simp only [if_neg hl]
          obtain ⟨s', d', x, j1, j2, j3, j4, j5⟩ := nextSegment_ends h text sd (d := { d with
            segmentNumber := d.segmentNumber + 1
            ctBuffer := resize d.ctBuffer sd.ciphertextSegmentSize.toNat }) (s := s) (fuel := fuel) hb hf
          simp only at j1 j2 j3 j4 j5
          refine ⟨s', d', x, j1, ⟨j2, j4, ?_, by omega⟩, ?_⟩
          · unfold toRead
            rw [if_neg hl]
            rcases j5 with j5 | ⟨j5, -⟩ | ⟨j5, -⟩
            · rw [j5]; simp only [if_true]; omega
            · split <;> omega
            · rw [j5, if_neg hl]; omega
          · rintro data rfl
            refine ⟨by omega, .inl ?_⟩
            unfold toRead
            rw [if_neg hl]
            rcases j5 with j5 | ⟨j5, -⟩ | ⟨j5, e, j6⟩
            · rw [j5]; simp only [if_true]; omega
            · split <;> omega
            · cases j6

/-! ## The adapter -/

theorem backUp_pending (d : CppDecrypting ν) (c : Nat) (left : σ → Nat) (s : σ) :
    (d.backUp c).countBackedUp ≤ d.countBackedUp + c ∧ (d.backUp c).source = d.source ∧
      toRead left (d.backUp c) s = toRead left d s := by
  unfold DecryptingStream.backUp
  split
  · exact ⟨by omega, rfl, rfl⟩
  · refine ⟨?_, rfl, rfl⟩
    simp only [Int.toNat_natCast]
    omega

/-- Less can be read. -/
def Less (left : σ → Nat) (d' : CppDecrypting ν) (s' : σ) (d : CppDecrypting ν) (s : σ) : Prop :=
  toRead left d' s' < toRead left d s ∨
    toRead left d' s' = toRead left d s ∧ d'.countBackedUp < d.countBackedUp

/-- No more can be read. -/
def NoMore (left : σ → Nat) (d' : CppDecrypting ν) (s' : σ) (d : CppDecrypting ν) (s : σ) : Prop :=
  toRead left d' s' < toRead left d s ∨
    toRead left d' s' = toRead left d s ∧ d'.countBackedUp ≤ d.countBackedUp

theorem readFromAdapter_ends {src : Source σ} {left : σ → Nat} (h : Exhaustible src left)
    (text : Exc → Bool) (sd : SegmentDecrypter ν) {fuel : Nat} {d : CppDecrypting ν} {s : σ}
    {size : Nat} (hsz : 0 < size) (hb : d.source.buffer ≠ []) (hf : pending left d.source s + 2 ≤ fuel) :
    ∃ s' d' x, (readFromAdapter (NonceBased.cppStream text fuel sd) d size).run src s =
        some (s', d', x) ∧ d'.source.buffer ≠ [] ∧
      pending left d'.source s' ≤ pending left d.source s ∧ NoMore left d' s' d s ∧
      (∀ data, x = .ok data → Less left d' s' d s ∧ (data = [] → d'.countBackedUp = 0)) := by
  unfold readFromAdapter
  by_cases hmax : (size : Int) ≥ 2 ^ 63
  · rw [if_pos hmax]
    exact ⟨s, d, _, rfl, hb, Nat.le_refl _, .inr ⟨rfl, Nat.le_refl _⟩, fun _ h => by cases h⟩
  · rw [if_neg hmax, Prog.run_map]
    unfold InputStreamAdapter.read
    rw [Prog.run_map]
    obtain ⟨s1, d1, x, h1, h2, h3⟩ := next_ends h text sd hb hf
    rw [h1]
    cases x with
    | error e =>
      refine ⟨s1, d1, _, rfl, h2.buffer, h2.pending, ?_, fun _ h => by cases h⟩
      have := h2.toRead
      have := h2.backed
      unfold NoMore
      omega
    | ok data =>
      obtain ⟨h4, h5⟩ := h3 data rfl
      simp only [Option.map_some, InputStreamAdapter.taken, adapterExc, Int.toNat_natCast,
        if_neg (show ¬ ((size : Int) < 0) by omega)]
      by_cases hl : min data.length size < data.length
      · rw [if_pos hl]
        obtain ⟨k1, k2, k3⟩ := backUp_pending d1 (data.length - min data.length size) left s1
        have hless : Less left (d1.backUp ((data.length - min data.length size : Nat) : Int)) s1 d s := by
          unfold Less
          rw [k3]
          omega
        refine ⟨s1, d1.backUp ((data.length - min data.length size : Nat) : Int), _, rfl, ?_, ?_, ?_, ?_⟩
        · rw [k2]; exact h2.buffer
        · rw [k2]; exact h2.pending
        · unfold Less at hless
          unfold NoMore
          omega
        · intro d' hd'
          cases hd'
          refine ⟨hless, fun h0 => ?_⟩
          have := congrArg List.length h0
          simp only [List.length_take, List.length_nil] at this
          omega
      · rw [if_neg hl]
        have hless : Less left d1 s1 d s := by
          unfold Less
          omega
        refine ⟨s1, d1, _, rfl, h2.buffer, h2.pending, ?_, ?_⟩
        · unfold Less at hless
          unfold NoMore
          omega
        · intro d' hd'
          cases hd'
          exact ⟨hless, fun _ => h4⟩

/-! ## The loops of `read` -/

open RawDecryptingStream

/-- How many turns of the loop of `read` there can be. -/
def turnsLeft (left : σ → Nat) (d : CppDecrypting ν) (s : σ) : Nat :=
  toRead left d s + if 0 < d.countBackedUp then 1 else 0

theorem NoMore.trans {left : σ → Nat} {d1 d2 d3 : CppDecrypting ν} {s1 s2 s3 : σ}
    (h : NoMore left d1 s1 d2 s2) (h' : NoMore left d2 s2 d3 s3) : NoMore left d1 s1 d3 s3 := by
  unfold NoMore at *
  omega

theorem Less.noMore {left : σ → Nat} {d1 d2 : CppDecrypting ν} {s1 s2 : σ}
    (h : Less left d1 s1 d2 s2) : NoMore left d1 s1 d2 s2 := by
  unfold Less at h
  unfold NoMore
  omega

theorem Less.trans {left : σ → Nat} {d1 d2 d3 : CppDecrypting ν} {s1 s2 s3 : σ}
    (h : NoMore left d1 s1 d2 s2) (h' : Less left d2 s2 d3 s3) : Less left d1 s1 d3 s3 := by
  unfold NoMore Less at *
  omega

theorem Less.trans' {left : σ → Nat} {d1 d2 d3 : CppDecrypting ν} {s1 s2 s3 : σ}
    (h : Less left d1 s1 d2 s2) (h' : NoMore left d2 s2 d3 s3) : Less left d1 s1 d3 s3 := by
  unfold NoMore Less at *
  omega

theorem loop_ends {src : Source σ} {left : σ → Nat} (h : Exhaustible src left) (text : Exc → Bool)
    (sd : SegmentDecrypter ν) {size : Nat} (hsz : 0 < size) {fuel : Nat} :
    ∀ (turns : Nat) (r : RawDecryptingStream (CppDecrypting ν)) (s : σ), r.adapter.source.buffer ≠ [] →
      pending left r.adapter.source s + 2 ≤ fuel → turnsLeft left r.adapter s < turns →
      ∃ s' r' x, (loop (NonceBased.cppStream text fuel sd) size turns r).run src s = some (s', r', x) ∧
        r'.adapter.source.buffer ≠ [] ∧ r'.closed = r.closed ∧
        NoMore left r'.adapter s' r.adapter s ∧
        ∀ b, x = .ok b → b ≠ [] → Less left r'.adapter s' r.adapter s := by
  intro turns
  induction turns with
  | zero => intro r s _ _ h; omega
  | succ turns ih =>
    intro r s hb hf ht
    obtain ⟨s1, d1, x, h1, h2, h3, h4, h5⟩ := readFromAdapter_ends h text sd (fuel := fuel) hsz hb hf
    rw [loop, Prog.run_bind, h1]
    simp only [Option.bind_some]
    cases x with
    | error e => cases e <;> exact ⟨_, _, _, rfl, h2, rfl, h4, fun b h h' => by cases h <;> simp at h'⟩
    | ok data =>
      obtain ⟨h6, h7⟩ := h5 data rfl
      by_cases hd : data.isEmpty = true
      · simp only [if_pos hd]
        have h8 := h7 (by simpa using hd)
        obtain ⟨s', r', x, j1, j2, j3, j4, j5⟩ := ih { r with adapter := d1 } s1 h2 (by simp only; omega) (by
          unfold turnsLeft at ht ⊢
          unfold Less at h6
          simp only [h8, Nat.lt_irrefl, if_false] at h6 ⊢
          split at ht <;> omega)
        exact ⟨s', r', x, j1, j2, j3, j4.trans h4, fun b hb hne => Less.trans (j5 b hb hne).noMore h6⟩
      · simp only [if_neg hd]
        exact ⟨_, _, _, rfl, h2, rfl, h4, fun _ _ _ => h6⟩

/-! ## More turns do not change the result -/

section Le
variable {ι : Type}

/-- The second stream does what the first does, as far as the first goes. -/
structure StreamLe (st st' : CInputStream ι) : Prop where
  next : ∀ i, (st.next i).Le (st'.next i)
  backUp : st.backUp = st'.backUp

theorem readLoop_le (st : CInputStream ι) {a b : Nat} (hab : a ≤ b) (i : ι) (wanted : Nat) (out : Bytes)
    (surplus : Nat) : (readLoop st a i wanted out surplus).Le (readLoop st b i wanted out surplus) := by
  induction a generalizing b i wanted out surplus with
  | zero => exact .out _
  | succ a ih =>
    obtain ⟨b, rfl⟩ : ∃ b', b = b' + 1 := ⟨b - 1, by omega⟩
    rw [readLoop, readLoop]
    by_cases hw : 0 < wanted
    · rw [if_pos hw, if_pos hw]
      refine (Prog.Le.refl _).bind ?_
      rintro ⟨i', x⟩
      cases x with
      | error e => exact .refl _
      | ok d => exact ih (by omega) _ _ _ _
    · rw [if_neg hw, if_neg hw]
      exact .refl _

theorem readFromStream_le (st : CInputStream ι) {a b : Nat} (hab : a ≤ b) (i : ι) (count : Int) :
    (readFromStream st a i count).Le (readFromStream st b i count) := by
  unfold readFromStream
  split
  · exact .refl _
  · exact readLoop_le st hab _ _ _ _

theorem next_le (sd : SegmentDecrypter ν) (st : CInputStream ι) {a b : Nat} (hab : a ≤ b) :
    StreamLe (DecryptingStream.stream sd st a) (DecryptingStream.stream sd st b) := by
  refine ⟨fun d => ?_, rfl⟩
  show (DecryptingStream.next sd st a d).Le (DecryptingStream.next sd st b d)
  have seg : ∀ d : DecryptingStream ν ι, (nextSegment sd st a d).Le (nextSegment sd st b d) :=
    fun d => (readFromStream_le st hab _ _).map _
  unfold DecryptingStream.next
  cases d.status with
  | some x => exact .refl _
  | none =>
    simp only
    split
    · refine ((readFromStream_le st hab _ _).map _).bind fun d1 => ?_
      cases d1.status with
      | some x => exact .refl _
      | none => exact seg _
    · split
      · exact .refl _
      · split
        · exact .refl _
        · exact seg _

theorem readFromAdapter_le {st st' : CInputStream ι} (h : StreamLe st st') (i : ι) (size : Int) :
    (readFromAdapter st i size).Le (readFromAdapter st' i size) := by
  unfold readFromAdapter InputStreamAdapter.read
  have : InputStreamAdapter.taken st size = InputStreamAdapter.taken st' size := by
    funext ⟨i, x⟩
    cases x with
    | error e => rfl
    | ok d => simp only [InputStreamAdapter.taken, h.backUp]
  rw [this]
  split
  · exact .refl _
  · exact ((h.next i).map _).map _

theorem loop_le_streams {st st' : CInputStream ι} (h : StreamLe st st') {size : Int} {a b : Nat} (hab : a ≤ b)
    (r : RawDecryptingStream ι) : (loop st size a r).Le (loop st' size b r) := by
  induction a generalizing b r with
  | zero => exact .out _
  | succ a ih =>
    obtain ⟨b, rfl⟩ : ∃ b', b = b' + 1 := ⟨b - 1, by omega⟩
    rw [loop, loop]
    refine (readFromAdapter_le h _ _).bind ?_
    rintro ⟨s, x⟩
    cases x with
    | error e => cases e <;> exact .refl _
    | ok d =>
      simp only
      split
      · exact ih (by omega) _
      · exact .refl _

theorem readSome_le {st st' : CInputStream ι} (h : StreamLe st st') {size : Nat} {a b : Nat} (hab : a ≤ b)
    (r : RawDecryptingStream ι) : (readSome st a r size).Le (readSome st' b r size) := by
  unfold readSome
  split
  · exact .refl _
  · exact loop_le_streams h hab r

theorem readallLoop_le {st st' : CInputStream ι} (h : StreamLe st st') {a b m n : Nat} (hab : a ≤ b)
    (hmn : m ≤ n) (r : RawDecryptingStream ι) (chunks : Bytes) :
    (readallLoop st a m r chunks).Le (readallLoop st' b n r chunks) := by
  induction m generalizing n r chunks with
  | zero => exact .out _
  | succ m ih =>
    obtain ⟨n, rfl⟩ : ∃ n', n = n' + 1 := ⟨n - 1, by omega⟩
    rw [readallLoop, readallLoop]
    refine (readSome_le h hab r).bind ?_
    rintro ⟨r', x⟩
    cases x with
    | error e => exact .refl _
    | ok d =>
      simp only
      split
      · exact .refl _
      · exact ih (by omega) _ _

theorem read_le {st st' : CInputStream ι} (h : StreamLe st st') {a b : Nat} (hab : a ≤ b)
    (r : RawDecryptingStream ι) (size : Option Int) :
    (r.read st a size).Le (r.read st' b size) := by
  unfold RawDecryptingStream.read
  split
  · exact .refl _
  · cases size with
    | none => exact readallLoop_le h hab hab r []
    | some n =>
      simp only
      split
      · exact readallLoop_le h hab hab r []
      · exact readSome_le h hab r

end Le

theorem rawStream_le (text : Exc → Bool) {a b : Nat} (hab : a ≤ b) (t : CcDecrypting ν) (size : Int) :
    ((NonceBased.rawStream text).read a t size).Le ((NonceBased.rawStream text).read b t size) :=
  (read_le (next_le _ _ hab) hab _ _).map _

theorem rawStream_mono {text : Exc → Bool} {src : Source σ} {a b : Nat} (hab : a ≤ b) {t : CcDecrypting ν}
    {size : Int} {s : σ} {q : CcDecrypting ν × σ × ReadResult}
    (h : (NonceBased.rawStream text).run src a t size s = some q) :
    (NonceBased.rawStream text).run src b t size s = some q := by
  unfold RawStream.run at *
  cases hr : ((NonceBased.rawStream text).read a t size).run src s with
  | none => rw [hr] at h; cases h
  | some x => rw [hr] at h; rw [(rawStream_le text hab t size).run hr]; exact h

/-! ## `readall` -/

theorem readSome_ends {src : Source σ} {left : σ → Nat} (h : Exhaustible src left) (text : Exc → Bool)
    (sd : SegmentDecrypter ν) {size : Nat} (hsz : 0 < size) (r : RawDecryptingStream (CppDecrypting ν)) (s : σ)
    (hb : r.adapter.source.buffer ≠ []) :
    ∃ fuel s' r' x,
      (readSome (NonceBased.cppStream text fuel sd) fuel r size).run src s = some (s', r', x) ∧
      r'.adapter.source.buffer ≠ [] ∧ NoMore left r'.adapter s' r.adapter s ∧
      ∀ b, x = .ok b → b ≠ [] → Less left r'.adapter s' r.adapter s := by
  by_cases hc : r.closed = true
  · refine ⟨0, s, r, .error .valueError, ?_, hb, .inr ⟨rfl, Nat.le_refl _⟩, fun b h => by cases h⟩
    unfold readSome
    rw [if_pos hc]
    rfl
  · obtain ⟨s', r', x, h1, h2, -, h3, h4⟩ := loop_ends h text sd hsz
      (fuel := pending left r.adapter.source s + 2 + turnsLeft left r.adapter s + 1)
      (pending left r.adapter.source s + 2 + turnsLeft left r.adapter s + 1) r s hb (by omega) (by omega)
    refine ⟨pending left r.adapter.source s + 2 + turnsLeft left r.adapter s + 1, s', r', x, ?_, h2, h3, h4⟩
    unfold readSome
    rw [if_neg hc]
    exact h1

theorem less_wf (left : σ → Nat) :
    WellFounded fun y x : CppDecrypting ν × σ => Less left y.1 y.2 x.1 x.2 := by
  refine Subrelation.wf (r := InvImage (Prod.Lex (· < ·) (· < ·))
    fun x : CppDecrypting ν × σ => (toRead left x.1 x.2, x.1.countBackedUp)) ?_
    (InvImage.wf _ (Prod.lex ⟨_, Nat.lt_wfRel.wf⟩ ⟨_, Nat.lt_wfRel.wf⟩).wf)
  intro y x h
  rcases h with h | ⟨h, h'⟩
  · exact Prod.Lex.left _ _ h
  · show Prod.Lex _ _ (_, _) (_, _)
    rw [h]
    exact Prod.Lex.right _ h'

theorem readallLoop_ends {src : Source σ} {left : σ → Nat} (h : Exhaustible src left) (text : Exc → Bool)
    (sd : SegmentDecrypter ν) (x : CppDecrypting ν × σ) :
    ∀ r : RawDecryptingStream (CppDecrypting ν), r.adapter = x.1 → r.adapter.source.buffer ≠ [] →
      ∀ chunks, ∃ fuel s' r' y,
        (readallLoop (NonceBased.cppStream text fuel sd) fuel fuel r chunks).run src x.2 =
          some (s', r', y) ∧
        r'.adapter.source.buffer ≠ [] ∧ NoMore left r'.adapter s' x.1 x.2 ∧
        ∀ b, y = .ok b → b ≠ chunks → Less left r'.adapter s' x.1 x.2 := by
  induction x using (less_wf left).induction with
  | _ x ih =>
    rintro r hr hb chunks
    obtain ⟨f0, s1, r1, y, h1, h2, h3, h4⟩ := readSome_ends h text sd (size := 8192) (by decide) r x.2 hb
    rw [hr] at h3 h4
    have mono : ∀ f, f0 ≤ f →
        (readSome (NonceBased.cppStream text f sd) f r 8192).run src x.2 = some (s1, r1, y) :=
      fun f hf => (readSome_le (next_le sd _ hf) hf r).run h1
    cases y with
    | error e =>
      refine ⟨f0 + 1, s1, r1, .error e, ?_, h2, h3, fun b h => by cases h⟩
      rw [readallLoop, Prog.run_bind, mono _ (by omega)]
      rfl
    | ok b =>
      by_cases h0 : b.isEmpty = true
      · refine ⟨f0 + 1, s1, r1, .ok chunks, ?_, h2, h3, fun b h h' => ?_⟩
        · rw [readallLoop, Prog.run_bind, mono _ (by omega)]
          simp only [Option.bind_some, if_pos h0]
          rfl
        · cases h; exact absurd rfl h'
      · have hless := h4 b rfl (by simpa using h0)
        obtain ⟨f1, s', r', y, j1, j2, j3, j4⟩ := ih (r1.adapter, s1) hless r1 rfl h2 (chunks ++ b)
        refine ⟨f0 + f1 + 1, s', r', y, ?_, j2, j3.trans h3, fun b' _ _ => Less.trans j3 hless⟩
        rw [readallLoop, Prog.run_bind, mono _ (by omega)]
        simp only [Option.bind_some, if_neg h0]
        exact (readallLoop_le (next_le sd _ (by omega)) (by omega) (by omega) _ _).run j1

/-! ## The streams of a key -/

theorem rawStream_ends {src : Source σ} {left : σ → Nat} (h : Exhaustible src left) (text : Exc → Bool)
    {t : CcDecrypting ν} {s : σ} (hb : t.raw.adapter.source.buffer ≠ []) {size : Int} (hsz : size ≠ 0) :
    ∃ fuel t' s' r, (NonceBased.rawStream text).run src fuel t size s = some (t', s', r) ∧
      t'.raw.adapter.source.buffer ≠ [] ∧ NoMore left t'.raw.adapter s' t.raw.adapter s ∧
      ∀ d, r = .data d → d ≠ [] → Less left t'.raw.adapter s' t.raw.adapter s := by
  have fin : ∀ {fuel : Nat} {s' : σ} {r' : RawDecryptingStream (CppDecrypting ν)} {x : Py Bytes},
      (t.raw.read (NonceBased.cppStream text fuel t.decrypter) fuel (some size)).run src s =
        some (s', r', x) →
      (NonceBased.rawStream text).run src fuel t size s =
        some ({ t with raw := r' }, s', NonceBased.result x) := by
    intro fuel s' r' x hx
    unfold RawStream.run
    show Option.map _ (Prog.run src (Prog.map _ _) s) = _
    rw [Prog.run_map, hx]
    rfl
  have back : ∀ {x : Py Bytes} {d : Bytes}, NonceBased.result x = .data d → x = .ok d := by
    intro x d hx
    cases x with
    | ok b => cases hx; rfl
    | error e => cases hx
  by_cases hc : t.raw.closed = true
  · have : (t.raw.read (NonceBased.cppStream text 0 t.decrypter) 0 (some size)).run src s =
        some (s, t.raw, .error .valueError) := by
      unfold RawDecryptingStream.read
      rw [if_pos hc]
      rfl
    exact ⟨0, _, _, _, fin this, hb, .inr ⟨rfl, Nat.le_refl _⟩, fun d hd => by cases hd⟩
  · by_cases hneg : size < 0
    · obtain ⟨fuel, s', r', y, h1, h2, h3, h4⟩ :=
        readallLoop_ends h text t.decrypter (t.raw.adapter, s) t.raw rfl hb []
      have : (t.raw.read (NonceBased.cppStream text fuel t.decrypter) fuel (some size)).run src s =
          some (s', r', y) := by
        unfold RawDecryptingStream.read
        simp only [if_neg hc, if_pos hneg]
        exact h1
      refine ⟨fuel, _, _, _, fin this, h2, h3, fun d hd hne => h4 d (back hd) hne⟩
    · obtain ⟨fuel, s', r', y, h1, h2, h3, h4⟩ :=
        readSome_ends h text t.decrypter (size := size.toNat) (by omega) t.raw s hb
      have : (t.raw.read (NonceBased.cppStream text fuel t.decrypter) fuel (some size)).run src s =
          some (s', r', y) := by
        unfold RawDecryptingStream.read
        simp only [if_neg hc, if_neg hneg]
        exact h1
      refine ⟨fuel, _, _, _, fin this, h2, h3, fun d hd hne => h4 d (back hd) hne⟩

/-- Two runs with results have the same. -/
theorem rawStream_det {text : Exc → Bool} {src : Source σ} {a b : Nat} {t : CcDecrypting ν}
    {size : Int} {s : σ} {q q' : CcDecrypting ν × σ × ReadResult}
    (h : (NonceBased.rawStream text).run src a t size s = some q)
    (h' : (NonceBased.rawStream text).run src b t size s = some q') : q = q' := by
  have h1 := rawStream_mono (Nat.le_max_left a b) h
  have h2 := rawStream_mono (Nat.le_max_right a b) h'
  rw [h1] at h2
  exact Option.some.inj h2

/-- Whatever calls are made, there is no more to be read afterwards. -/
theorem reaches_noMore {text : Exc → Bool} {src : Source σ} {left : σ → Nat} (h : Exhaustible src left)
    {x z : CcDecrypting ν × σ} (hz : Reaches (NonceBased.rawStream text) src x z)
    (hb : x.1.raw.adapter.source.buffer ≠ []) :
    z.1.raw.adapter.source.buffer ≠ [] ∧ NoMore left z.1.raw.adapter z.2 x.1.raw.adapter x.2 := by
  induction hz with
  | none => exact ⟨hb, .inr ⟨rfl, Nat.le_refl _⟩⟩
  | @call y fuel size t s r _ h0 _ hrun ih =>
    obtain ⟨f, t2, s2, r2, h1, h2, h3, -⟩ := rawStream_ends h text (s := y.2) ih.1 h0
    have := rawStream_det h1 hrun
    simp only [Prod.mk.injEq] at this
    obtain ⟨rfl, rfl, rfl⟩ := this
    exact ⟨h2, h3.trans ih.2⟩

theorem rawStream_live (text : Exc → Bool) {t : CcDecrypting ν} (hb : t.raw.adapter.source.buffer ≠ []) :
    Live (NonceBased.rawStream text) t := by
  refine ⟨fun t => t.raw.adapter.source.buffer ≠ [], hb, ?_⟩
  intro σ src left h t s ht
  refine ⟨fun size h0 _ => ?_, ?_⟩
  · obtain ⟨fuel, t', s', r, h1, h2, -, -⟩ := rawStream_ends h text (s := s) ht h0
    refine ⟨⟨(t', s', r), fuel, fun f hf => rawStream_mono hf h1⟩, ?_⟩
    intro f t2 s2 r2 h3
    have := rawStream_det h1 h3
    simp only [Prod.mk.injEq] at this
    rw [← this.1]
    exact h2
  · -- by induction on what can be read
    have : ∀ x : CppDecrypting ν × σ, ∀ t : CcDecrypting ν, t.raw.adapter = x.1 →
        t.raw.adapter.source.buffer ≠ [] → Acc (Advances (NonceBased.rawStream text) src) (t, x.2) := by
      intro x
      induction x using (less_wf left).induction with
      | _ x ih =>
        intro t hx hb
        refine .intro _ ?_
        rintro ⟨t', s'⟩ ⟨z, hz, fuel, size, d, h0, -, hd, hrun⟩
        obtain ⟨h4, h5⟩ := reaches_noMore h hz hb
        obtain ⟨f, t2, s2, r, h1, h2, -, h3⟩ := rawStream_ends h text (s := z.2) h4 h0
        have := rawStream_det h1 hrun
        simp only [Prod.mk.injEq] at this
        obtain ⟨rfl, rfl, rfl⟩ := this
        have hl := Less.trans' (h3 d rfl hd) h5
        rw [hx] at hl
        exact ih (t2.raw.adapter, s2) hl t2 rfl h2
    exact this (t.raw.adapter, s) t rfl ht

end Tink.Props
