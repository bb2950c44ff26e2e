import Verif.Props.SegmentsDecrypt
import Verif.Props.SegmentsEncrypt

/-!
# C67, C68: decrypting in segments
-/

namespace Tink.Props
open Spec

variable {κ ν ι σ : Type} {st : CInputStream ι} {src : Source σ} {inv : ι → σ → Bytes → Prop}
  {se : SegmentEncrypter κ} {k : κ} {sd : SegmentDecrypter ν} {v : ν}

namespace Decrypting
open DecryptingStream

/-! ## Ciphertexts that were made by the encrypter -/

/-- `cs` decrypts to `bs`, and `X`, which comes after it, is not reached. -/
structure Readable (sd : SegmentDecrypter ν) (v : ν) (bs cs : List Bytes) (X : Bytes) : Prop where
  pos : 0 < bs.length
  len : bs.length = cs.length
  opens : ∀ j, ∀ h : j < cs.length, ∀ h' : j < bs.length,
    sd.decryptSegment v cs[j] j (decide (j + 1 = bs.length)) = .ok bs[j]
  sizes : ∀ j, ∀ h : j < cs.length, j + 1 < bs.length →
    cs[j].length = if j = 0 then fOf sd else nOf sd
  lastSize : ∀ j, ∀ h : j < cs.length, j + 1 = bs.length →
    cs[j].length ≤ if j = 0 then fOf sd else nOf sd
  notLast : ∀ j, ∀ h : j < cs.length, j + 1 = bs.length →
    ∀ b, sd.decryptSegment v cs[j] j false ≠ .ok b
  trailing : X ≠ [] → ∀ j, ∀ h : j < cs.length, j + 1 = bs.length →
    cs[j].length = if j = 0 then fOf sd else nOf sd

theorem decryptBuffer_last {d : DecryptingStream ν ι} {b : Bytes} {last : Bool}
    (h : sd.decryptSegment d.decrypter d.ctBuffer d.segmentNumber true = .ok b)
    (hn : last = true ∨ ∀ b', sd.decryptSegment d.decrypter d.ctBuffer d.segmentNumber false ≠ .ok b') :
    decryptBuffer sd d last = d.delivered true (.ok b) := by
  unfold decryptBuffer
  cases last with
  | true => rw [h]
  | false =>
    cases hq : sd.decryptSegment d.decrypter d.ctBuffer d.segmentNumber false with
    | ok b' => exact absurd hq (hn.resolve_left (by simp) b')
    | error x => simp [h]

theorem parts_readable (hl : Lawful st src inv) (hc : Clean st src inv) {v' : ν} {hd X : Bytes}
    {bs cs : List Bytes} (hf : 0 < fOf sd) (hn : 0 < nOf sd)
    (hhd : sd.headerSize = hd.length) (hne : hd ≠ []) (hinit : sd.init v hd = (v', .ok ()))
    (hr : Readable sd v' bs cs X) :
    Parts sd st src v bs (fun i s => inv i s (hd ++ cs.flatten ++ X)) (· = v')
      (fun j i s => inv i s ((cs.drop j).flatten ++ X)) False := by
  have hpos : 0 < hd.length := by
    cases hd with
    | nil => exact absurd rfl hne
    | cons _ _ => simp
  refine ⟨hr.pos, ?_, ?_⟩
  · intro fuel d s d' s' hs hdec hq hx
    unfold readHeader at hx
    rw [Prog.run_map] at hx
    cases hh : (readFromStream st fuel d.source sd.headerSize).run src s with
    | none => rw [hh] at hx; cases hx
    | some q =>
      obtain ⟨s1, i1, out, r⟩ := q
      have hsp := readFromStream_spec hl hq (by rw [hhd]; omega) hh
      rw [hh] at hx
      cases r with
      | ok u =>
        obtain ⟨R', a1, a2, a3⟩ := hsp
        rw [hhd, Int.toNat_natCast] at a2
        rw [List.append_assoc] at a1
        obtain ⟨rfl, rfl⟩ := List.append_inj a1 a2.symm
        simp only [Option.map_some, hdec, hinit] at hx
        cases hx
        exact .inl ⟨rfl, by simpa using a3, rfl⟩
      | error e =>
        obtain ⟨a1, -, i2, s2, R2, a2, a3⟩ := hsp
        have := (a1 (hc _ _ _ _ _ _ a2 a3)).2
        rw [hhd, Int.toNat_natCast] at this
        simp only [List.length_append] at this
        omega
  · intro fuel d s d' s' r hj hv hq hct hx
    have hjc : d.segmentNumber < cs.length := by rw [← hr.len]; exact hj
    have hcount : (0 : Int) < (d.ctBuffer.length : Int) := by
      rw [hct]; split <;> omega
    rw [List.drop_eq_getElem_cons hjc, List.flatten_cons, List.append_assoc] at hq
    have hop := hr.opens d.segmentNumber hjc hj
    unfold nextSegment at hx
    rw [Prog.run_map] at hx
    cases hh : (readFromStream st fuel d.source (d.ctBuffer.length : Int)).run src s with
    | none => rw [hh] at hx; cases hx
    | some q =>
      obtain ⟨s1, i1, out, y⟩ := q
      have hsp := readFromStream_spec hl hq hcount hh
      rw [hh] at hx
      by_cases hlast : d.segmentNumber + 1 = bs.length
      · rw [decide_eq_true hlast] at hop
        have hlz := hr.lastSize _ hjc hlast
        have hrest : (cs.drop (d.segmentNumber + 1)).flatten = [] := by
          rw [hlast, hr.len, List.drop_length]; rfl
        rw [hrest, List.nil_append] at hsp
        have hout : out = cs[d.segmentNumber] ∧
            ∃ last, some (s', d', r) =
              some (s1, decryptBuffer sd { d with source := i1, ctBuffer := out } last) ∧
              (last = true ∨ last = false) := by
          cases y with
          | ok u =>
            obtain ⟨R', a1, a2, a3⟩ := hsp
            rw [Int.toNat_natCast, hct] at a2
            have hl1 := congrArg List.length a1
            simp only [List.length_append] at hl1
            refine ⟨?_, false, by rw [← hx]; rfl, .inr rfl⟩
            by_cases hX : X = []
            · subst hX
              rw [List.append_nil] at a1
              simp only [List.length_nil, Nat.add_zero] at hl1
              have hR' : R' = [] := List.length_eq_zero_iff.mp (by omega)
              rw [hR', List.append_nil] at a1
              exact a1.symm
            · have := hr.trailing hX _ hjc hlast
              exact (List.append_inj a1 (by rw [this, a2])).1.symm
          | error e =>
            obtain ⟨a1, -, i2, s2, R2, a2, a3⟩ := hsp
            have hoor := hc _ _ _ _ _ _ a2 a3
            obtain ⟨b1, b2⟩ := a1 hoor
            rw [Int.toNat_natCast, hct, List.length_append] at b2
            refine ⟨?_, true, by rw [← hx]; simp [hoor], .inl rfl⟩
            by_cases hX : X = []
            · rw [b1, hX, List.append_nil]
            · have := hr.trailing hX _ hjc hlast
              omega
        obtain ⟨rfl, last, he, -⟩ := hout
        rw [decryptBuffer_last (b := bs[d.segmentNumber]) (by rw [show _ = v' from hv]; exact hop)
          (.inr (by
            intro b'
            show sd.decryptSegment d.decrypter _ _ _ ≠ _
            rw [show d.decrypter = v' from hv]
            exact hr.notLast _ hjc hlast b'))] at he
        simp only [delivered, Option.some.injEq, Prod.mk.injEq] at he
        obtain ⟨rfl, rfl, rfl⟩ := he
        refine .inl ⟨rfl, fun hlt => by omega, ?_⟩
        simp [hlast]
      · have hlt : d.segmentNumber + 1 < bs.length := by omega
        rw [decide_eq_false hlast] at hop
        have hsz := hr.sizes _ hjc hlt
        cases y with
        | ok u =>
          obtain ⟨R', a1, a2, a3⟩ := hsp
          rw [Int.toNat_natCast, hct] at a2
          obtain ⟨rfl, rfl⟩ := List.append_inj a1 (by rw [hsz, a2])
          simp only [Option.map_some, decryptBuffer, show d.decrypter = v' from hv, hop,
            delivered, Option.some.injEq, Prod.mk.injEq] at hx
          obtain ⟨rfl, rfl, rfl⟩ := hx
          refine .inl ⟨rfl, fun _ => a3, ?_⟩
          simp [hlast, show d.decrypter = v' from hv]
        | error e =>
          obtain ⟨a1, -, i2, s2, R2, a2, a3⟩ := hsp
          have := (a1 (hc _ _ _ _ _ _ a2 a3)).2
          rw [Int.toNat_natCast, hct, List.length_append] at this
          omega

theorem emitted_length {bs cs : List Bytes} {k1 : κ} (h : Emitted se k bs cs k1) :
    bs.length = cs.length := by
  induction h with
  | start => rfl
  | more _ _ ih => simp [ih]

theorem emitted_at {bs cs : List Bytes} {k1 : κ} (h : Emitted se k bs cs k1) :
    ∀ j, ∀ hj : j < bs.length, ∀ hj' : j < cs.length, ∃ bs' cs' kj kj',
      Emitted se k bs' cs' kj ∧ bs'.length = j ∧ se.encryptSegment kj bs[j] false = (kj', .ok cs[j]) := by
  induction h with
  | start => intro j hj; exact absurd hj (Nat.not_lt_zero _)
  | @more bs cs k1 b k2 c h he ih =>
    intro j hj hj'
    have hlen := emitted_length h
    by_cases hlt : j < bs.length
    · obtain ⟨bs', cs', kj, kj', a1, a2, a3⟩ := ih j hlt (by omega)
      refine ⟨bs', cs', kj, kj', a1, a2, ?_⟩
      rw [List.getElem_append_left hlt, List.getElem_append_left (by omega)]
      exact a3
    · have hjb : j = bs.length := by simp at hj; omega
      subst hjb
      refine ⟨bs, cs, k1, k2, h, rfl, ?_⟩
      rw [List.getElem_append_right (Nat.le_refl _), List.getElem_append_right (by omega)]
      simpa [hlen] using he

/-- The sizes of the segments, and that they decrypt. -/
theorem matching_sizes (hm : Matching se k sd v) : ∃ t : Nat,
    sd.ciphertextSegmentSize = se.plaintextSegmentSize + t ∧
    firstSegmentSize sd = EncryptingStream.firstSegmentSize se + t ∧
    ∀ k1 b last k2 c, se.encryptSegment k1 b last = (k2, .ok c) → c.length = b.length + t := by
  obtain ⟨t, h1, h2⟩ := hm.overhead
  refine ⟨t, h1, ?_, h2⟩
  unfold firstSegmentSize EncryptingStream.firstSegmentSize
  rw [h1, hm.offset, hm.headerSize]
  omega

theorem readable_of_matching (hm : Matching se k sd v) {P : Bytes} {full : List Bytes} {last : Bytes}
    (hf : 0 < EncryptingStream.firstSegmentSize se) (hn : 0 < se.plaintextSegmentSize)
    (hdiv : Divided (EncryptingStream.firstSegmentSize se).toNat se.plaintextSegmentSize.toNat P full
      last) {cs : List Bytes} {k1 k2 : κ} {c X : Bytes} (hem : Emitted se k full cs k1)
    (hlast : se.encryptSegment k1 last true = (k2, .ok c))
    (hX : X ≠ [] → last.length = if full = [] then (EncryptingStream.firstSegmentSize se).toNat
      else se.plaintextSegmentSize.toNat) :
    ∃ v', sd.init v se.header = (v', .ok ()) ∧ Readable sd v' (full ++ [last]) (cs ++ [c]) X := by
  obtain ⟨t, t1, t2, t3⟩ := matching_sizes hm
  obtain ⟨v', i1, i2⟩ := hm.init
  have hlen := emitted_length hem
  have hsz : ∀ j, (if j = 0 then fOf sd else nOf sd) = (if j = 0 then
      (EncryptingStream.firstSegmentSize se).toNat else se.plaintextSegmentSize.toNat) + t := by
    intro j
    unfold fOf nOf
    rw [t1, t2]
    split <;> omega
  have hlj : ∀ j, j < (cs ++ [c]).length → j + 1 = (full ++ [last]).length →
      ∃ h : j = cs.length, ∀ h', (cs ++ [c])[j]'h' = c := by
    intro j _ hj
    have : j = cs.length := by simp at hj; omega
    subst this
    exact ⟨rfl, fun h' => by rw [List.getElem_append_right (Nat.le_refl _)]; simp⟩
  have hif : (if cs.length = 0 then (EncryptingStream.firstSegmentSize se).toNat
      else se.plaintextSegmentSize.toNat) = (if full = [] then
      (EncryptingStream.firstSegmentSize se).toNat else se.plaintextSegmentSize.toNat) := by
    rw [← hlen]; cases full <;> simp
  refine ⟨v', i1, by simp, by simp [hlen], ?_, ?_, ?_, ?_, ?_⟩
  · intro j hjc hjb
    by_cases hlt : j < full.length
    · obtain ⟨bs', cs', kj, kj', a1, a2, a3⟩ := emitted_at hem j hlt (by omega)
      rw [List.getElem_append_left hlt, List.getElem_append_left (by omega),
        decide_eq_false (by simp; omega)]
      have := (i2 _ _ _ a1 _ _ _ _ a3).1
      rwa [a2] at this
    · have hjb : j = full.length := by simp at hjb; omega
      subst hjb
      rw [List.getElem_append_right (Nat.le_refl _), List.getElem_append_right (by omega),
        decide_eq_true (by simp)]
      simpa [hlen] using (i2 _ _ _ hem _ _ _ _ hlast).1
  · intro j hjc hlt
    have hlt' : j < full.length := by simp at hlt; omega
    obtain ⟨bs', cs', kj, kj', a1, a2, a3⟩ := emitted_at hem j hlt' (by omega)
    rw [List.getElem_append_left (by omega), t3 _ _ _ _ _ a3, hsz, hdiv.sizes j hlt']
  · intro j hjc hl
    obtain ⟨rfl, hg⟩ := hlj j hjc hl
    rw [hg, t3 _ _ _ _ _ hlast, hsz, hif]
    have := hdiv.lastSize
    omega
  · intro j hjc hl b
    obtain ⟨rfl, hg⟩ := hlj j hjc hl
    rw [hg, ← hlen]
    exact (i2 _ _ _ hem _ _ _ _ hlast).2 rfl b
  · intro hX0 j hjc hl
    obtain ⟨rfl, hg⟩ := hlj j hjc hl
    rw [hg, t3 _ _ _ _ _ hlast, hsz, hif, hX hX0]

/-! ## Arbitrary ciphertexts -/

theorem decryptBuffer_cases (hs : Sober sd) (d : DecryptingStream ν ι) (last : Bool) :
    (∃ b l, sd.decryptSegment d.decrypter d.ctBuffer d.segmentNumber l = .ok b ∧
      decryptBuffer sd d last = d.delivered l (.ok b)) ∨
    (∃ x, x.code ≠ .outOfRange ∧ decryptBuffer sd d last = d.delivered true (.error x)) := by
  unfold decryptBuffer
  cases hq : sd.decryptSegment d.decrypter d.ctBuffer d.segmentNumber last with
  | ok b => exact .inl ⟨b, last, hq, rfl⟩
  | error x =>
    cases last with
    | true => exact .inr ⟨x, hs.decrypt _ _ _ _ _ hq, rfl⟩
    | false =>
      simp only [Bool.false_eq_true, if_false]
      cases hq' : sd.decryptSegment d.decrypter d.ctBuffer d.segmentNumber true with
      | ok b => exact .inl ⟨b, true, hq', rfl⟩
      | error y => exact .inr ⟨y, hs.decrypt _ _ _ _ _ hq', rfl⟩

theorem readHeader_cases (hs : Sober sd) {fuel : Nat} {d d' : DecryptingStream ν ι} {s s' : σ}
    (hx : (readHeader sd st fuel d).run src s = some (s', d')) :
    (∃ hd, sd.init d.decrypter hd = (d'.decrypter, .ok ()) ∧
      d' = { d with source := d'.source, decrypter := d'.decrypter }) ∨
    ∃ x, d'.status = some x ∧ x.code ≠ .outOfRange := by
  unfold readHeader at hx
  rw [Prog.run_map] at hx
  cases hh : (readFromStream st fuel d.source sd.headerSize).run src s with
  | none => rw [hh] at hx; cases hx
  | some q =>
    obtain ⟨s1, i1, out, r⟩ := q
    rw [hh] at hx
    cases r with
    | error e =>
      simp only [Option.map_some] at hx
      by_cases hc : e.code = .outOfRange
      · rw [if_pos hc] at hx; cases hx; exact .inr ⟨_, rfl, by simp [Code.invalidArgument]⟩
      · rw [if_neg hc] at hx; cases hx; exact .inr ⟨_, rfl, hc⟩
    | ok u =>
      simp only [Option.map_some] at hx
      cases hi : sd.init d.decrypter out with
      | mk v1 y =>
        rw [hi] at hx
        cases y with
        | error e => cases hx; exact .inr ⟨_, rfl, hs.init _ _ _ _ hi⟩
        | ok u => cases hx; exact .inl ⟨out, hi, rfl⟩

theorem nextSegment_cases (hs : Sober sd) {fuel : Nat} {d d' : DecryptingStream ν ι} {s s' : σ} {r}
    (hx : (nextSegment sd st fuel d).run src s = some (s', d', r)) :
    (∃ i c b l, sd.decryptSegment d.decrypter c d.segmentNumber l = .ok b ∧ r = .ok b ∧
      d' = { d with
        source := i, ctBuffer := c, ptBuffer := b, readLastSegment := l, ptBufferOffset := 0
        status := none }) ∨
    ∃ x, r = .error x ∧ d'.status = some x ∧ x.code ≠ .outOfRange := by
  unfold nextSegment at hx
  rw [Prog.run_map] at hx
  cases hh : (readFromStream st fuel d.source (d.ctBuffer.length : Int)).run src s with
  | none => rw [hh] at hx; cases hx
  | some q =>
    obtain ⟨s1, i1, out, y⟩ := q
    rw [hh] at hx
    have key : ∀ last, some (s', d', r) =
        some (s1, decryptBuffer sd { d with source := i1, ctBuffer := out } last) →
        (∃ i c b l, sd.decryptSegment d.decrypter c d.segmentNumber l = .ok b ∧ r = .ok b ∧
          d' = { d with
            source := i, ctBuffer := c, ptBuffer := b, readLastSegment := l, ptBufferOffset := 0
            status := none }) ∨
        ∃ x, r = .error x ∧ d'.status = some x ∧ x.code ≠ .outOfRange := by
      intro last he
      rcases decryptBuffer_cases hs { d with source := i1, ctBuffer := out } last with
        ⟨b, l, a1, a2⟩ | ⟨x, a1, a2⟩
      · rw [a2] at he
        simp only [delivered, Option.some.injEq, Prod.mk.injEq] at he
        obtain ⟨rfl, rfl, rfl⟩ := he
        exact Or.inl ⟨i1, out, b, l, a1, rfl, rfl⟩
      · rw [a2] at he
        simp only [delivered, Option.some.injEq, Prod.mk.injEq] at he
        obtain ⟨rfl, rfl, rfl⟩ := he
        exact Or.inr ⟨x, rfl, rfl, a1⟩
    cases y with
    | ok u => exact key false hx.symm
    | error e =>
      simp only [Option.map_some] at hx
      by_cases hc : e.code = .outOfRange
      · rw [if_pos hc] at hx; exact key true hx.symm
      · rw [if_neg hc] at hx; cases hx; exact .inr ⟨_, rfl, rfl, hc⟩

theorem parts_authentic (hs : Sober sd) {bs : List Bytes} (hpos : 0 < bs.length)
    (ha : Authentic sd v bs) :
    Parts sd st src v bs (fun _ _ => True) (fun v' => ∃ hd, sd.init v hd = (v', .ok ()))
      (fun _ _ _ => True) True := by
  refine ⟨hpos, ?_, ?_⟩
  · intro fuel d s d' s' _ hdec _ hx
    rcases readHeader_cases hs hx with ⟨hd, a1, a2⟩ | a
    · exact .inl ⟨⟨hd, by rw [← hdec]; exact a1⟩, trivial, a2⟩
    · exact .inr ⟨trivial, a⟩
  · rintro fuel d s d' s' r hj ⟨hd, hv⟩ _ _ hx
    rcases nextSegment_cases hs hx with ⟨i, c, b, l, a1, a2, a3⟩ | a
    · obtain ⟨hj', b1, b2⟩ := ha hd _ hv _ _ _ _ a1
      subst b1
      refine .inl ⟨a2, fun _ => trivial, ?_⟩
      rw [a3]
      have : l = decide (d.segmentNumber + 1 = bs.length) := by
        by_cases hl : d.segmentNumber + 1 = bs.length
        · rw [decide_eq_true hl]; exact b2.mpr hl
        · rw [decide_eq_false hl]
          cases l with
          | false => rfl
          | true => exact absurd (b2.mp rfl) hl
      rw [this]
    · exact .inr ⟨trivial, a⟩

/-! ## Ciphertexts that are refused at once -/

/-- Nothing was read of a ciphertext that is refused, or it was refused. -/
def RefInv (sd : SegmentDecrypter ν) (v : ν) (inv : ι → σ → Bytes → Prop) (C : Bytes)
    (d : DecryptingStream ν ι) (s : σ) (_ : Bytes) : Prop :=
  Fresh sd v (fun i s => inv i s C) d s ∨ ∃ x, d.status = some x ∧ x.code ≠ .outOfRange

theorem next_refused (hs : Sober sd) (hl : Lawful st src inv) (hc : Clean st src inv) {C : Bytes}
    (hh0 : 0 < sd.headerSize) (hf0 : 0 < firstSegmentSize sd)
    (href : RefusesStart sd v C) {fuel : Nat} {d d' : DecryptingStream ν ι} {s s' : σ} {R : Bytes}
    {r : StatusOr Bytes} (hi : RefInv sd v inv C d s R)
    (hx : (next sd st fuel d).run src s = some (s', d', r)) :
    ∃ x, r = .error x ∧ d'.status = some x ∧ x.code ≠ .outOfRange := by
  unfold DecryptingStream.next at hx
  rcases hi with hf | ⟨x, a1, a2⟩
  · simp only [hf.status, hf.isInitialized, Bool.not_false, if_true] at hx
    rw [Prog.run_bind] at hx
    cases hh : (readHeader sd st fuel d).run src s with
    | none => rw [hh] at hx; cases hx
    | some q =>
      obtain ⟨s1, d1⟩ := q
      rw [hh] at hx
      simp only [Option.bind_some] at hx
      rcases readHeader_cases hs hh with ⟨-, -, a2⟩ | ⟨x, a1, a2⟩
      · have hs1 : d1.status = none := by rw [a2]; exact hf.status
        simp only [hs1] at hx
        -- what was read
        have hgood : ∃ v' R', sd.init v (C.take sd.headerSize.toNat) = (v', .ok ()) ∧
            d1.decrypter = v' ∧ sd.headerSize.toNat ≤ C.length ∧ R' = C.drop sd.headerSize.toNat ∧
            inv d1.source s1 R' := by
          unfold readHeader at hh
          rw [Prog.run_map] at hh
          cases hq : (readFromStream st fuel d.source sd.headerSize).run src s with
          | none => rw [hq] at hh; cases hh
          | some q =>
            obtain ⟨s2, i2, out, y⟩ := q
            have hsp := readFromStream_spec hl hf.source hh0 hq
            rw [hq] at hh
            cases y with
            | error e =>
              exfalso
              simp only [Option.map_some] at hh
              by_cases hcc : e.code = .outOfRange
              · rw [if_pos hcc] at hh; cases hh; cases hs1
              · rw [if_neg hcc] at hh; cases hh; cases hs1
            | ok u =>
              obtain ⟨R', b1, b2, b3⟩ := hsp
              simp only [Option.map_some, hf.decrypter] at hh
              have hout : out = C.take sd.headerSize.toNat := by
                rw [b1, ← b2, List.take_left]
              cases hq2 : sd.init v out with
              | mk v1 z =>
                rw [hq2] at hh
                cases z with
                | error e => cases hh; cases hs1
                | ok u =>
                  cases hh
                  refine ⟨v1, R', by rw [← hout]; exact hq2, rfl, ?_, ?_, b3⟩
                  · rw [b1, List.length_append]; omega
                  · rw [b1, ← b2, List.drop_left]
        obtain ⟨v', R', g1, g2, g3, g4, g5⟩ := hgood
        rcases href with h1 | ⟨v2, e, h1⟩ | ⟨v2, h1, h2⟩
        · omega
        · rw [g1] at h1; cases h1
        · rw [g1] at h1
          cases h1
          have hct : d1.ctBuffer.length = fOf sd := by rw [a2]; exact hf.ctBuffer
          have hseg : d1.segmentNumber = 0 := by rw [a2]; exact hf.segmentNumber
          -- the first segment
          unfold nextSegment at hx
          rw [Prog.run_map] at hx
          simp only at hx
          cases hq : (readFromStream st fuel d1.source (d1.ctBuffer.length : Int)).run src s1 with
          | none => rw [hq] at hx; cases hx
          | some q =>
            obtain ⟨s2, i2, out, y⟩ := q
            have hsp := readFromStream_spec hl g5 (by rw [hct]; unfold fOf; omega) hq
            rw [hq] at hx
            have hout : ∀ last, some (s', d', r) = some (s2, decryptBuffer sd { d1 with
                isInitialized := true, countBackedUp := 0, status := none, source := i2,
                ctBuffer := out } last) → out = R'.take (fOf sd) →
                ∃ x, r = .error x ∧ d'.status = some x ∧ x.code ≠ .outOfRange := by
              intro last he ho
              rcases decryptBuffer_cases hs { d1 with
                isInitialized := true, countBackedUp := 0, status := none, source := i2,
                ctBuffer := out } last with ⟨b, l, c1, -⟩ | ⟨x, c1, c2⟩
              · exfalso
                simp only [hseg, g2, ho, g4] at c1
                exact h2 _ _ c1
              · rw [c2] at he
                simp only [delivered, Option.some.injEq, Prod.mk.injEq] at he
                obtain ⟨rfl, rfl, rfl⟩ := he
                exact ⟨x, rfl, rfl, c1⟩
            cases y with
            | ok u =>
              obtain ⟨R'', b1, b2, b3⟩ := hsp
              refine hout false hx.symm ?_
              rw [Int.toNat_natCast, hct] at b2
              rw [b1, ← b2, List.take_left]
            | error e =>
              obtain ⟨b1, -, i3, s3, R3, b2, b3⟩ := hsp
              have hoor := hc _ _ _ _ _ _ b2 b3
              obtain ⟨c1, c2⟩ := b1 hoor
              simp only [Option.map_some, if_pos hoor] at hx
              refine hout true hx.symm ?_
              rw [Int.toNat_natCast, hct] at c2
              rw [c1, List.take_of_length_le (by omega)]
      · rw [a1] at hx
        cases hx
        exact ⟨x, rfl, a1, a2⟩
  · rw [a1] at hx
    cases hx
    exact ⟨x, rfl, a1, a2⟩

theorem refused_lawful (hs : Sober sd) (hl : Lawful st src inv) (hc : Clean st src inv) {C : Bytes}
    (hh0 : 0 < sd.headerSize) (hf0 : 0 < firstSegmentSize sd)
    (href : RefusesStart sd v C) (fuel : Nat) :
    Lawful (DecryptingStream.stream sd st fuel) src (RefInv sd v inv C) := by
  refine ⟨?_, ?_⟩
  · intro d s R d' s' data hi hx
    obtain ⟨x, a1, -⟩ := next_refused hs hl hc hh0 hf0 href hi hx
    cases a1
  · intro d s R d' s' e hi hx
    obtain ⟨x, a1, a2, a3⟩ := next_refused hs hl hc hh0 hf0 href hi hx
    cases a1
    exact ⟨.inr ⟨_, a2, a3⟩, fun h => absurd h a3⟩

end Decrypting

/-- The plaintext fills its segments. -/
theorem divided_full {f n : Nat} {P : Bytes} {full : List Bytes} {last : Bytes}
    (hd : Divided f n P full last) (hn : 0 < n) {m : Nat} (hm : P.length = f + m * n) :
    last.length = if full = [] then f else n := by
  have hl := hd.lastSize
  have hlen : ∀ (l : List Bytes), (∀ b ∈ l, b.length = n) → l.flatten.length = l.length * n := by
    intro l
    induction l with
    | nil => simp
    | cons a l ih =>
      intro h
      rw [List.flatten_cons, List.length_append, ih (fun b hb => h b (by simp [hb])),
        h a (by simp), List.length_cons, Nat.add_mul]
      omega
  cases full with
  | nil =>
    have := hd.content
    simp only [List.flatten_nil, List.nil_append] at this
    subst this
    simp only [if_true] at hl ⊢
    have : m * n = 0 := by omega
    omega
  | cons a l =>
    have ha : a.length = f := hd.sizes 0 (by simp)
    have hrest := hlen l (by
      intro b hb
      obtain ⟨j, hj, rfl⟩ := List.getElem_of_mem hb
      exact hd.sizes (j + 1) (by simp; omega))
    have hne := hd.nonempty (by simp)
    have hpos : 0 < last.length := by
      cases last with
      | nil => exact absurd rfl hne
      | cons _ _ => simp
    rw [if_neg (by simp)] at hl ⊢
    have hP := congrArg List.length hd.content
    rw [List.flatten_cons, List.length_append, List.length_append, ha, hrest, hm] at hP
    -- m * n = l.length * n + last.length with 0 < last.length ≤ n
    have h1 : l.length < m := by
      rcases Nat.lt_or_ge l.length m with h | h
      · exact h
      · have := Nat.mul_le_mul_right n h; omega
    have h2 : m ≤ l.length + 1 := by
      rcases Nat.lt_or_ge (l.length + 1) m with h | h
      · have := Nat.mul_le_mul_right n (show l.length + 1 + 1 ≤ m from h)
        simp only [Nat.add_mul, Nat.one_mul] at this
        omega
      · exact h
    have h3 : m = l.length + 1 := by omega
    rw [h3, Nat.add_mul, Nat.one_mul] at hP
    omega

open Decrypting in
theorem decrypting_trailing (hm : Matching se k sd v) (ho : 0 ≤ se.ciphertextOffset)
    (hf : 0 < EncryptingStream.firstSegmentSize se) {P C X : Bytes}
    (hC : EncryptionOf se k P C)
    (hX : X ≠ [] → ∃ m, P.length = (EncryptingStream.firstSegmentSize se).toNat +
      m * se.plaintextSegmentSize.toNat)
    (hl : Lawful st src inv) (hc : Clean st src inv) :
    ∃ dinv : DecryptingStream ν ι → σ → Bytes → Prop,
      (∀ fuel, Lawful (DecryptingStream.stream sd st fuel) src dinv ∧
        Clean (DecryptingStream.stream sd st fuel) src dinv) ∧
      ∀ i s d, inv i s (C ++ X) → DecryptingStream.new sd v i = .ok d → dinv d s P := by
  obtain ⟨full, last, cs, k1, k2, c, hdiv, hem, hlast, rfl⟩ := hC
  have hn : 0 < se.plaintextSegmentSize := by
    unfold EncryptingStream.firstSegmentSize at hf; omega
  obtain ⟨t, t1, t2, -⟩ := matching_sizes hm
  obtain ⟨v', a1, a2⟩ := readable_of_matching (X := X) hm hf hn hdiv hem hlast (by
    intro h0
    obtain ⟨m, hm'⟩ := hX h0
    exact divided_full hdiv (by omega) hm')
  have hp := parts_readable hl hc (by unfold fOf; omega) (by unfold nOf; omega) hm.headerSize
    hm.header a1 a2
  refine ⟨_, fun fuel => ⟨lawful hp fuel, clean hp id fuel⟩, ?_⟩
  intro i s d hi hnew
  have h0 := (new_fresh (bs := full ++ [last]) (V := (· = v'))
    (Q := fun j i s => inv i s (((cs ++ [c]).drop j).flatten ++ X)) (D := False)
    (Q0 := fun i s => inv i s (se.header ++ (cs ++ [c]).flatten ++ X)) hi hnew).2
  have hP : (full ++ [last]).flatten = P := by rw [hdiv.content]; simp
  rwa [hP] at h0

/-- C67.  The decrypting stream that belongs to an encrypter delivers, from a source with an encryption
of `P`, exactly `P`: it meets the contract of an input stream with `P` to be delivered, and its only
failure is the end. -/
theorem C67_decrypting_stream (hm : Matching se k sd v) (ho : 0 ≤ se.ciphertextOffset)
    (hf : 0 < EncryptingStream.firstSegmentSize se) {P C : Bytes} (hC : EncryptionOf se k P C)
    (hl : Lawful st src inv) (hc : Clean st src inv) :
    ∃ dinv : DecryptingStream ν ι → σ → Bytes → Prop,
      (∀ fuel, Lawful (DecryptingStream.stream sd st fuel) src dinv ∧
        Clean (DecryptingStream.stream sd st fuel) src dinv) ∧
      ∀ i s d, inv i s C → DecryptingStream.new sd v i = .ok d → dinv d s P := by
  have := decrypting_trailing (X := []) hm ho hf hC (fun h => absurd rfl h) hl hc
  simpa using this

/-- C68, violation.  If the plaintext fills its segments exactly, bytes that were appended to the
ciphertext go unnoticed. -/
theorem C68_appended_bytes_ignored (hm : Matching se k sd v) (ho : 0 ≤ se.ciphertextOffset)
    (hf : 0 < EncryptingStream.firstSegmentSize se) {P C : Bytes} (hC : EncryptionOf se k P C)
    {m : Nat} (hfull : P.length = (EncryptingStream.firstSegmentSize se).toNat +
      m * se.plaintextSegmentSize.toNat) (X : Bytes)
    (hl : Lawful st src inv) (hc : Clean st src inv) :
    ∃ dinv : DecryptingStream ν ι → σ → Bytes → Prop,
      (∀ fuel, Lawful (DecryptingStream.stream sd st fuel) src dinv ∧
        Clean (DecryptingStream.stream sd st fuel) src dinv) ∧
      ∀ i s d, inv i s (C ++ X) → DecryptingStream.new sd v i = .ok d → dinv d s P :=
  decrypting_trailing hm ho hf hC (fun _ => ⟨m, hfull⟩) hl hc

/-- C68.  Whatever the source delivers, a decrypting stream whose decrypter accepts only the segments of
one ciphertext, with plaintext `P`, each in its place, delivers the bytes of `P` in order, and reports
the end only after all of `P`. -/
theorem C68_authentic (hs : Sober sd) {bs : List Bytes} {P : Bytes} (hP : bs.flatten = P)
    (hpos : bs ≠ []) (ha : Authentic sd v bs) (st : CInputStream ι) (src : Source σ) :
    ∃ dinv : DecryptingStream ν ι → σ → Bytes → Prop,
      (∀ fuel, Lawful (DecryptingStream.stream sd st fuel) src dinv) ∧
      ∀ i s d, DecryptingStream.new sd v i = .ok d → dinv d s P := by
  have hp := Decrypting.parts_authentic (st := st) (src := src) hs
    (List.length_pos_iff.mpr hpos) ha
  refine ⟨_, fun fuel => Decrypting.lawful hp fuel, ?_⟩
  intro i s d hnew
  rw [← hP]
  exact (Decrypting.new_fresh (Q0 := fun _ _ => True) trivial hnew).2

end Tink.Props
