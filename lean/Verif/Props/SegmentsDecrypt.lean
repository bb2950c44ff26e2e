import Verif.Spec.Segments

/-!
# Decrypting in segments: the invariant
-/

namespace Tink.Props
open Spec

variable {ν ι σ : Type} {st : CInputStream ι} {src : Source σ} {inv : ι → σ → Bytes → Prop}

/-- The loop of `ReadFromStream`: it obtains the next bytes, exactly as many as wanted; it reports
`OUT_OF_RANGE` if there are fewer, and then has obtained them all. -/
theorem readLoop_spec (h : Lawful st src inv) :
    ∀ (fuel : Nat) (i : ι) (s : σ) (wanted : Nat) (out : Bytes) (surplus : Nat) (R : Bytes),
      inv (if 0 < surplus then st.backUp i (surplus : Nat) else i) s R →
      (0 < wanted → surplus = 0) → ∀ {s' i' out' r},
      (readLoop st fuel i wanted out surplus).run src s = some (s', i', out', r) →
      match r with
      | .ok _ => ∃ got R', out' = out ++ got ∧ R = got ++ R' ∧ got.length = wanted ∧ inv i' s' R'
      | .error e => (e.code = .outOfRange → out' = out ++ R ∧ R.length < wanted) ∧
          (∃ R', inv i' s' R') ∧
          ∃ i1 s1 R1, inv i1 s1 R1 ∧ (st.next i1).run src s1 = some (s', i', .error e) := by
  intro fuel
  induction fuel with
  | zero => intro i s wanted out surplus R _ _ s' i' out' r hx; cases hx
  | succ fuel ih =>
    intro i s wanted out surplus R hi hw s' i' out' r hx
    unfold readLoop at hx
    by_cases hp : 0 < wanted
    · rw [if_pos hp] at hx
      have h0 := hw hp
      subst h0
      rw [if_neg (by omega)] at hi
      rw [Prog.run_bind] at hx
      cases hn : (st.next i).run src s with
      | none => rw [hn] at hx; cases hx
      | some q =>
        obtain ⟨s1, i1, x⟩ := q
        rw [hn] at hx
        cases x with
        | error e =>
          cases hx
          obtain ⟨a1, a2⟩ := h.failed _ _ _ _ _ _ hi hn
          refine ⟨?_, ⟨_, a1⟩, _, _, _, hi, hn⟩
          intro hc
          rw [a2 hc]
          exact ⟨by simp, by simpa using hp⟩
        | ok data =>
          simp only [Option.bind_some] at hx
          obtain ⟨R', b1, b2, b3⟩ := h.next _ _ _ _ _ _ hi hn
          have hinv : inv (if 0 < data.length - min data.length wanted then
              st.backUp i1 ((data.length - min data.length wanted : Nat) : Int) else i1) s1
              (data.drop (min data.length wanted) ++ R') := by
            by_cases hlt : 0 < data.length - min data.length wanted
            · rw [if_pos hlt]
              have := b3 (data.length - min data.length wanted) (by omega)
              rwa [show data.length - (data.length - min data.length wanted) =
                min data.length wanted by omega] at this
            · rw [if_neg hlt]
              rw [List.drop_eq_nil_of_le (by omega), List.nil_append]
              exact b2
          have := ih i1 s1 (wanted - min data.length wanted)
            (out ++ data.take (min data.length wanted)) (data.length - min data.length wanted)
            (data.drop (min data.length wanted) ++ R') hinv (by omega) hx
          have hR : R = data.take (min data.length wanted) ++
              (data.drop (min data.length wanted) ++ R') := by
            rw [← List.append_assoc, List.take_append_drop, b1]
          have hl : (data.take (min data.length wanted)).length = min data.length wanted := by
            rw [List.length_take]; omega
          cases r with
          | ok u =>
            obtain ⟨got, R'', c1, c2, c3, c4⟩ := this
            refine ⟨data.take (min data.length wanted) ++ got, R'', ?_, ?_, ?_, c4⟩
            · rw [c1, List.append_assoc]
            · rw [hR, c2, List.append_assoc]
            · rw [List.length_append, c3, hl]; omega
          | error e =>
            obtain ⟨c1, c2, c3⟩ := this
            refine ⟨?_, c2, c3⟩
            intro hc
            obtain ⟨d1, d2⟩ := c1 hc
            refine ⟨?_, ?_⟩
            · rw [d1, List.append_assoc, ← hR]
            · rw [hR, List.length_append, hl]; omega
    · rw [if_neg hp] at hx
      cases hx
      exact ⟨[], R, by simp, rfl, by simp; omega, hi⟩

theorem readFromStream_spec (h : Lawful st src inv) {fuel : Nat} {i : ι} {s : σ} {count : Int}
    {R : Bytes} (hi : inv i s R) (hc : 0 < count) {s' i' out r}
    (hx : (readFromStream st fuel i count).run src s = some (s', i', out, r)) :
    match r with
    | .ok _ => ∃ R', R = out ++ R' ∧ out.length = count.toNat ∧ inv i' s' R'
    | .error e => (e.code = .outOfRange → out = R ∧ R.length < count.toNat) ∧
        (∃ R', inv i' s' R') ∧
        ∃ i1 s1 R1, inv i1 s1 R1 ∧ (st.next i1).run src s1 = some (s', i', .error e) := by
  unfold readFromStream at hx
  rw [if_neg (by omega)] at hx
  have := readLoop_spec h fuel i s count.toNat [] 0 R (by simpa using hi) (fun _ => rfl) hx
  cases r with
  | ok u =>
    obtain ⟨got, R', a1, a2, a3, a4⟩ := this
    rw [List.nil_append] at a1
    subst a1
    exact ⟨R', a2, a3, a4⟩
  | error e => simpa using this

namespace Decrypting
open DecryptingStream

variable {sd : SegmentDecrypter ν}

/-- The sizes of the first and the other ciphertext segments. -/
abbrev fOf (sd : SegmentDecrypter ν) : Nat := (firstSegmentSize sd).toNat
abbrev nOf (sd : SegmentDecrypter ν) : Nat := sd.ciphertextSegmentSize.toNat

/-- What the invariant needs to know.  `Q0`: the source before the header; `Q j`: before segment number
`j`; `V`: the decrypter with the header; `D`: failures other than the end are possible. -/
structure Parts (sd : SegmentDecrypter ν) (st : CInputStream ι) (src : Source σ) (v : ν)
    (bs : List Bytes) (Q0 : ι → σ → Prop) (V : ν → Prop) (Q : Nat → ι → σ → Prop) (D : Prop) :
    Prop where
  pos : 0 < bs.length
  header : ∀ fuel (d : DecryptingStream ν ι) s d' s', d.status = none → d.decrypter = v →
    Q0 d.source s → (readHeader sd st fuel d).run src s = some (s', d') →
    (V d'.decrypter ∧ Q 0 d'.source s' ∧
      d' = { d with source := d'.source, decrypter := d'.decrypter }) ∨
    (D ∧ ∃ x, d'.status = some x ∧ x.code ≠ .outOfRange)
  segment : ∀ fuel (d : DecryptingStream ν ι) s d' s' r, ∀ hj : d.segmentNumber < bs.length,
    V d.decrypter → Q d.segmentNumber d.source s →
    d.ctBuffer.length = (if d.segmentNumber = 0 then fOf sd else nOf sd) →
    (nextSegment sd st fuel d).run src s = some (s', d', r) →
    (r = .ok bs[d.segmentNumber] ∧
      (d.segmentNumber + 1 < bs.length → Q (d.segmentNumber + 1) d'.source s') ∧
      d' = { d with
        source := d'.source
        ctBuffer := d'.ctBuffer
        ptBuffer := bs[d.segmentNumber]
        readLastSegment := decide (d.segmentNumber + 1 = bs.length)
        ptBufferOffset := 0
        status := none }) ∨
    (D ∧ ∃ x, r = .error x ∧ d'.status = some x ∧ x.code ≠ .outOfRange)

variable {v : ν} {bs : List Bytes} {Q0 : ι → σ → Prop} {V : ν → Prop} {Q : Nat → ι → σ → Prop}
  {D : Prop}

/-- Nothing was read. -/
structure Fresh (sd : SegmentDecrypter ν) (v : ν) (Q0 : ι → σ → Prop) (d : DecryptingStream ν ι)
    (s : σ) : Prop where
  status : d.status = none
  isInitialized : d.isInitialized = false
  segmentNumber : d.segmentNumber = 0
  decrypter : d.decrypter = v
  ctBuffer : d.ctBuffer.length = fOf sd
  source : Q0 d.source s

/-- Segment number `d.segmentNumber` is in the buffer. -/
structure Running (bs : List Bytes) (V : ν → Prop) (Q : Nat → ι → σ → Prop)
    (d : DecryptingStream ν ι) (s : σ) : Prop where
  status : d.status = none
  isInitialized : d.isInitialized = true
  decrypter : V d.decrypter
  bound : d.segmentNumber < bs.length
  last : d.readLastSegment = decide (d.segmentNumber + 1 = bs.length)
  backed : d.countBackedUp ≤ d.ptBuffer.length
  source : d.segmentNumber + 1 < bs.length → Q (d.segmentNumber + 1) d.source s

/-- `R` is still to be delivered. -/
def DecInv (sd : SegmentDecrypter ν) (v : ν) (bs : List Bytes) (Q0 : ι → σ → Prop) (V : ν → Prop)
    (Q : Nat → ι → σ → Prop) (D : Prop) (d : DecryptingStream ν ι) (s : σ) (R : Bytes) : Prop :=
  (Fresh sd v Q0 d s ∧ R = bs.flatten) ∨
  (Running bs V Q d s ∧ R = d.ptBuffer.drop (d.ptBuffer.length - d.countBackedUp) ++
    (bs.drop (d.segmentNumber + 1)).flatten) ∨
  (∃ x, d.status = some x ∧ x.code = .outOfRange ∧ R = []) ∨
  (D ∧ ∃ x, d.status = some x ∧ x.code ≠ .outOfRange)

/-- The state after a successful `Next`. -/
def Delivered (bs : List Bytes) (V : ν → Prop) (Q : Nat → ι → σ → Prop) (d : DecryptingStream ν ι)
    (s : σ) (data R : Bytes) : Prop :=
  Running bs V Q d s ∧ d.countBackedUp = 0 ∧ d.ptBufferOffset ≤ d.ptBuffer.length ∧
    data = d.ptBuffer.drop d.ptBufferOffset ∧ R = data ++ (bs.drop (d.segmentNumber + 1)).flatten

theorem backUp_spec {d : DecryptingStream ν ι} {s : σ} {data R : Bytes}
    (h : Delivered bs V Q d s data R) {n : Nat} (hn : n ≤ data.length) :
    DecInv sd v bs Q0 V Q D (d.backUp (n : Nat)) s
      (data.drop (data.length - n) ++ (bs.drop (d.segmentNumber + 1)).flatten) := by
  obtain ⟨hr, hc, ho, hd, -⟩ := h
  have hl : data.length = d.ptBuffer.length - d.ptBufferOffset := by rw [hd, List.length_drop]
  have hdrop : data.drop (data.length - n) = d.ptBuffer.drop (d.ptBuffer.length - n) := by
    rw [hl, hd, List.drop_drop]
    congr 1
    omega
  right; left
  unfold DecryptingStream.backUp
  by_cases hn0 : (n : Int) < 1
  · rw [if_pos (by simp [hn0])]
    refine ⟨hr, ?_⟩
    rw [hdrop, hc, show n = 0 by omega]
  · rw [if_neg (by simp [hr.isInitialized, hr.status]; omega)]
    have hcb : d.countBackedUp +
        min (n : Int).toNat (d.ptBuffer.length - d.ptBufferOffset - d.countBackedUp) = n := by omega
    refine ⟨⟨hr.status, hr.isInitialized, hr.decrypter, hr.bound, hr.last, ?_, hr.source⟩, ?_⟩
    · show d.countBackedUp + _ ≤ d.ptBuffer.length
      rw [hcb]; omega
    · rw [hdrop]
      show _ = d.ptBuffer.drop (d.ptBuffer.length - (d.countBackedUp + _)) ++ _
      rw [hcb]

/-- A segment is obtained. -/
theorem segment_step (h : Parts sd st src v bs Q0 V Q D) {fuel : Nat} {d d' : DecryptingStream ν ι}
    {s s' : σ} {r : StatusOr Bytes} (hb : d.segmentNumber < bs.length) (hin : d.isInitialized = true)
    (hv : V d.decrypter) (hq : Q d.segmentNumber d.source s) (hcb : d.countBackedUp = 0)
    (hct : d.ctBuffer.length = (if d.segmentNumber = 0 then fOf sd else nOf sd))
    (hx : (nextSegment sd st fuel d).run src s = some (s', d', r)) :
    (∃ data, r = .ok data ∧ Delivered bs V Q d' s' data (bs.drop d.segmentNumber).flatten) ∨
    (D ∧ ∃ x, r = .error x ∧ d'.status = some x ∧ x.code ≠ .outOfRange) := by
  rcases h.segment fuel d s d' s' r hb hv hq hct hx with ⟨a1, a2, a3⟩ | a
  · left
    refine ⟨_, a1, ⟨?_, ?_, ?_, ?_, ?_, ?_, ?_⟩, ?_, ?_, ?_, ?_⟩
    · rw [a3]
    · rw [a3]; exact hin
    · rw [a3]; exact hv
    · rw [a3]; exact hb
    · rw [a3]
    · rw [a3]; simp only [hcb]; exact Nat.zero_le _
    · intro hlt
      rw [a3] at hlt
      have := a2 hlt
      have hseg : d'.segmentNumber = d.segmentNumber := by rw [a3]
      rw [hseg]; exact this
    · rw [a3]; exact hcb
    · rw [a3]; exact Nat.zero_le _
    · rw [a3]; simp
    · have hseg : d'.segmentNumber = d.segmentNumber := by rw [a3]
      rw [hseg, List.drop_eq_getElem_cons hb, List.flatten_cons]
  · exact .inr a

/-- `Next`. -/
theorem next_spec (h : Parts sd st src v bs Q0 V Q D) {fuel : Nat} {d d' : DecryptingStream ν ι}
    {s s' : σ} {R : Bytes} {r : StatusOr Bytes} (hi : DecInv sd v bs Q0 V Q D d s R)
    (hx : (next sd st fuel d).run src s = some (s', d', r)) :
    (∃ data, r = .ok data ∧ Delivered bs V Q d' s' data R) ∨
    (∃ x, r = .error x ∧ d'.status = some x ∧ x.code = .outOfRange ∧ R = []) ∨
    (D ∧ ∃ x, r = .error x ∧ d'.status = some x ∧ x.code ≠ .outOfRange) := by
  unfold DecryptingStream.next at hx
  rcases hi with ⟨hf, hR⟩ | ⟨hr, hR⟩ | ⟨x, hs, hc, hR⟩ | ⟨hD, x, hs, hc⟩
  · -- the first call
    simp only [hf.status, hf.isInitialized, Bool.not_false, if_true] at hx
    rw [Prog.run_bind] at hx
    cases hh : (readHeader sd st fuel d).run src s with
    | none => rw [hh] at hx; cases hx
    | some q =>
      obtain ⟨s1, d1⟩ := q
      rw [hh] at hx
      simp only [Option.bind_some] at hx
      rcases h.header fuel d s d1 s1 hf.status hf.decrypter hf.source hh with
        ⟨a1, a2, a3⟩ | ⟨hD, x, a1, a2⟩
      · have hs1 : d1.status = none := by rw [a3]; exact hf.status
        have hseg : d1.segmentNumber = 0 := by rw [a3]; exact hf.segmentNumber
        have hct : d1.ctBuffer.length = fOf sd := by rw [a3]; exact hf.ctBuffer
        simp only [hs1] at hx
        have := segment_step h (d := { d1 with isInitialized := true, countBackedUp := 0, status := none })
          (by simp only [hseg]; exact h.pos) rfl a1
          (by simp only [hseg]; exact a2) rfl (by simp only [hseg, if_true]; exact hct) hx
        simp only [hseg, List.drop_zero] at this
        rcases this with a | a
        · left; rw [hR]; exact a
        · exact .inr (.inr a)
      · rw [a1] at hx
        cases hx
        exact .inr (.inr ⟨hD, x, rfl, a1, a2⟩)
  · simp only [hr.status, hr.isInitialized, Bool.not_true, Bool.false_eq_true, if_false] at hx
    by_cases hcb : 0 < d.countBackedUp
    · -- what was backed up
      rw [if_pos hcb] at hx
      cases hx
      refine .inl ⟨_, rfl, ⟨rfl, rfl, hr.decrypter, hr.bound, hr.last, Nat.zero_le _, hr.source⟩, rfl,
        ?_, rfl, hR⟩
      show d.ptBuffer.length - d.countBackedUp ≤ d.ptBuffer.length
      omega
    · rw [if_neg hcb] at hx
      have hcb0 : d.countBackedUp = 0 := by omega
      have hR' : R = (bs.drop (d.segmentNumber + 1)).flatten := by
        rw [hR, hcb0]; simp
      by_cases hl : d.segmentNumber + 1 = bs.length
      · -- the end
        rw [hr.last, decide_eq_true hl, if_pos rfl] at hx
        cases hx
        refine .inr (.inl ⟨_, rfl, rfl, rfl, ?_⟩)
        rw [hR', hl, List.drop_length]; rfl
      · -- the next segment
        have hb := hr.bound
        have hlt : d.segmentNumber + 1 < bs.length := by omega
        rw [hr.last, decide_eq_false hl, if_neg (by simp)] at hx
        have := segment_step h (d := { d with
            segmentNumber := d.segmentNumber + 1
            ctBuffer := resize d.ctBuffer sd.ciphertextSegmentSize.toNat
            isInitialized := true, status := none, readLastSegment := false })
          hlt rfl hr.decrypter (hr.source hlt) hcb0
          (by
            rw [if_neg (Nat.succ_ne_zero _)]
            show (resize _ sd.ciphertextSegmentSize.toNat).length = sd.ciphertextSegmentSize.toNat
            unfold resize
            simp only [List.length_append, List.length_take, List.length_replicate]
            omega) hx
        rcases this with a | a
        · left; rw [hR']; exact a
        · exact .inr (.inr a)
  · rw [hs] at hx
    cases hx
    exact .inr (.inl ⟨x, rfl, hs, hc, hR⟩)
  · rw [hs] at hx
    cases hx
    exact .inr (.inr ⟨hD, x, rfl, hs, hc⟩)

/-- The stream meets the contract of an input stream. -/
theorem lawful (h : Parts sd st src v bs Q0 V Q D) (fuel : Nat) :
    Lawful (DecryptingStream.stream sd st fuel) src (DecInv sd v bs Q0 V Q D) := by
  refine ⟨?_, ?_⟩
  · intro d s R d' s' data hi hx
    rcases next_spec h hi hx with ⟨data', a1, a2⟩ | ⟨x, a1, -⟩ | ⟨-, x, a1, -⟩
    · cases a1
      obtain ⟨b1, b2, b3, b4, b5⟩ := a2
      refine ⟨(bs.drop (d'.segmentNumber + 1)).flatten, b5, .inr (.inl ⟨b1, ?_⟩), ?_⟩
      · rw [b2]; simp
      · intro n hn
        exact backUp_spec (R := R) ⟨b1, b2, b3, b4, b5⟩ hn
    · cases a1
    · cases a1
  · intro d s R d' s' e hi hx
    rcases next_spec h hi hx with ⟨data', a1, a2⟩ | ⟨x, a1, a2, a3, a4⟩ | ⟨hD, x, a1, a2, a3⟩
    · cases a1
    · cases a1
      exact ⟨.inr (.inr (.inl ⟨_, a2, a3, a4⟩)), fun _ => a4⟩
    · cases a1
      exact ⟨.inr (.inr (.inr ⟨hD, _, a2, a3⟩)), fun hc => absurd hc a3⟩

/-- ... and fails only at the end, if other failures are not possible. -/
theorem clean (h : Parts sd st src v bs Q0 V Q D) (hD : ¬ D) (fuel : Nat) :
    Clean (DecryptingStream.stream sd st fuel) src (DecInv sd v bs Q0 V Q D) := by
  intro d s R d' s' e hi hx
  rcases next_spec h hi hx with ⟨data', a1, a2⟩ | ⟨x, a1, a2, a3, a4⟩ | ⟨h0, -⟩
  · cases a1
  · cases a1; exact a3
  · exact absurd h0 hD

/-- A new stream. -/
theorem new_fresh {i : ι} {s : σ} (hq : Q0 i s) {d : DecryptingStream ν ι}
    (hx : DecryptingStream.new sd v i = .ok d) :
    0 < firstSegmentSize sd ∧ DecInv sd v bs Q0 V Q D d s bs.flatten := by
  unfold DecryptingStream.new at hx
  by_cases hf : firstSegmentSize sd ≤ 0
  · rw [if_pos hf] at hx; cases hx
  · rw [if_neg hf] at hx
    cases hx
    exact ⟨by omega, .inl ⟨⟨rfl, rfl, rfl, rfl, by simp, hq⟩, rfl⟩⟩

end Decrypting
end Tink.Props
