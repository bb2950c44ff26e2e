import Verif.Stream.WritingLemmas
import Verif.Stream.BufferedLemmas
import Verif.Props.CcStreaming

/-!
# Lemmas for C80: writing succeeds

If neither the destination nor the encryption of a segment fails, no call fails.
-/

namespace Tink.Props
open Spec EncryptingStream Io
variable {σ κ ο : Type}

/-- Nothing that is done with the stream fails. -/
structure Calm (st : COutputStream ο) (inv : ο → Bytes → Prop) : Prop where
  next : ∀ s D s' r, inv s D → st.next s = some (s', r) → ∃ n, r = .ok n
  close : ∀ s D s' r, inv s D → st.close s = some (s', r) → r = .ok ()

theorem writeToStream_calm {st : COutputStream ο} {inv bad done : ο → Bytes → Prop}
    (h : LawfulOut st inv bad done) (hc : Calm st inv) :
    ∀ (fuel : Nat) (s : ο) (rem : Bytes) (space bytes : Nat) (D : Bytes),
      inv (if space > bytes then st.backUp s (space - bytes : Nat) else s) D →
      (0 < rem.length → space = bytes) → ∀ {s' r},
      writeToStream st fuel s rem space bytes = some (s', r) → r = .ok () := by
  intro fuel
  induction fuel with
  | zero => intro s rem space bytes D _ _ s' r hx; cases hx
  | succ fuel ih =>
    intro s rem space bytes D hi hsp s' r hx
    unfold writeToStream at hx
    by_cases hr : 0 < rem.length
    · rw [if_pos hr] at hx
      have he := hsp hr
      subst he
      rw [if_neg (by omega)] at hi
      cases hn : st.next s with
      | none => rw [hn] at hx; cases hx
      | some q =>
        obtain ⟨s1, x⟩ := q
        obtain ⟨k, rfl⟩ := hc.next _ _ _ _ hi hn
        rw [hn] at hx
        simp only at hx
        have hlen : (rem.take (min k rem.length)).length = min k rem.length := by
          rw [List.length_take]; omega
        have hput := h.put s D s1 k (rem.take (min k rem.length)) hi hn (by omega)
        unfold OutputStreamAdapter.put at hput
        rw [hlen] at hput
        exact ih _ (rem.drop (min k rem.length)) k (min k rem.length)
          (D ++ rem.take (min k rem.length)) (by
            by_cases hlt : min k rem.length < k
            · rw [if_pos hlt] at hput; rw [if_pos hlt]; exact hput
            · rw [if_neg hlt] at hput; rw [if_neg hlt]; exact hput)
          (by rw [List.length_drop]; omega) hx
    · rw [if_neg hr] at hx
      cases hx
      rfl

/-! ## The destination -/

/-- The stream for the destination works. -/
def Working (p : PythonOutputStream σ) (_ : Bytes) : Prop := p.status = none

theorem output_next_calm {snk : CSink σ} (hr : Reliable snk) {p p' : PythonOutputStream σ} {r : StatusOr Nat}
    (h : p.status = none) (hx : p.next snk = (p', r)) : (∃ n, r = .ok n) ∧ p'.status = none := by
  unfold PythonOutputStream.next at hx
  rw [h] at hx
  dsimp only at hx
  split at hx
  · cases hx; exact ⟨⟨_, rfl⟩, h⟩
  · split at hx
    · cases hx; exact ⟨⟨_, rfl⟩, h⟩
    · cases hw : snk.write p.adapter p.buffer with
      | mk s x =>
        rw [hw] at hx
        cases x with
        | error y => exact absurd (by rw [hw]) (hr.write p.adapter p.buffer y)
        | ok n => cases hx; exact ⟨⟨_, rfl⟩, h⟩

theorem output_flush_calm {snk : CSink σ} (hr : Reliable snk) {p : PythonOutputStream σ} :
    ∀ {fuel : Nat} {s s' : σ} {w : Nat} {r : StatusOr Unit},
      p.flush snk fuel s w = some (s', r) → r = .ok () := by
  intro fuel
  induction fuel with
  | zero => intro s s' w r hx; cases hx
  | succ fuel ih =>
    intro s s' w r hx
    unfold PythonOutputStream.flush at hx
    by_cases hlt : w < p.countInBuffer
    · rw [if_pos hlt] at hx
      cases hw : snk.write s ((p.buffer.drop w).take (p.countInBuffer - w)) with
      | mk s1 x =>
        rw [hw] at hx
        cases x with
        | error y => exact absurd (by rw [hw]) (hr.write s _ y)
        | ok n => exact ih hx
    · rw [if_neg hlt] at hx
      cases hx
      rfl

theorem output_calm {snk : CSink σ} (hr : Reliable snk) (fuel : Nat) :
    Calm (PythonOutputStream.stream snk fuel) Working := by
  refine ⟨fun p D p' r hi hx => (output_next_calm hr hi (Option.some.inj hx)).1, fun p D p' r hi hx => ?_⟩
  have hx : p.close snk fuel = some (p', r) := hx
  have hi : p.status = none := hi
  unfold PythonOutputStream.close at hx
  rw [hi] at hx
  dsimp only at hx
  cases hf : p.flush snk fuel p.adapter 0 with
  | none => rw [hf] at hx; cases hx
  | some q =>
    obtain ⟨s, x⟩ := q
    have := output_flush_calm hr hf
    subst this
    rw [hf] at hx
    dsimp only at hx
    cases hc : snk.close s with
    | mk s' y =>
      rw [hc] at hx
      cases y with
      | error z => exact absurd (by rw [hc]) (hr.close s z)
      | ok u => cases hx; rfl

theorem output_working {snk : CSink σ} (hr : Reliable snk) (fuel : Nat) :
    LawfulOut (PythonOutputStream.stream snk fuel) Working (fun _ _ => True) (fun _ _ => True) := by
  refine ⟨fun p D p' k d hi hx _ => ?_, fun _ _ _ _ _ _ => trivial, fun _ _ _ _ _ => trivial⟩
  have hs := (output_next_calm hr hi (Option.some.inj hx)).2
  unfold OutputStreamAdapter.put
  split
  · show ((p'.store d).backUp _).status = none
    unfold PythonOutputStream.backUp
    split
    · exact hs
    · exact hs
  · exact hs

/-! ## The segments -/

theorem emitted_unique {se : SegmentEncrypter κ} {k k1 k2 : κ} {bs cs cs' : List Bytes}
    (h : Emitted se k bs cs k1) (h' : Emitted se k bs cs' k2) : k1 = k2 := by
  induction h generalizing cs' k2 with
  | start =>
    generalize hl : ([] : List Bytes) = l at h'
    cases h' with
    | start => rfl
    | more => simp at hl
  | @more bs cs k1 b k2' c _ he ih =>
    generalize hl : bs ++ [b] = l at h'
    cases h' with
    | start => simp at hl
    | @more bs' cs' k3 b' k4 c' h1 h2 =>
      obtain ⟨rfl, h3⟩ := List.append_inj' hl rfl
      cases h3
      have := ih h1
      subst this
      rw [he] at h2
      cases h2
      rfl

theorem encrypts_last {se : SegmentEncrypter κ} {k k1 : κ} {limit : Nat} (h : Encrypts se k limit)
    {bs cs : List Bytes} {last P : Bytes} (he : Emitted se k bs cs k1)
    (hd : Divided (firstSegmentSize se).toNat se.plaintextSegmentSize.toNat P bs last) (hl : P.length ≤ limit) :
    ∃ k2 c, se.encryptSegment k1 last true = (k2, .ok c) := by
  obtain ⟨cs', k1', k2, c, h1, h2⟩ := h P bs last hd hl
  rw [emitted_unique he h1]
  exact ⟨k2, c, h2⟩

theorem encrypts_more {se : SegmentEncrypter κ} {k k1 : κ} {limit : Nat} (h : Encrypts se k limit)
    {bs cs : List Bytes} {b last P : Bytes} (he : Emitted se k bs cs k1)
    (hd : Divided (firstSegmentSize se).toNat se.plaintextSegmentSize.toNat P (bs ++ [b]) last)
    (hl : P.length ≤ limit) : ∃ k2 c, se.encryptSegment k1 b false = (k2, .ok c) := by
  obtain ⟨cs', k1', -, -, h1, -⟩ := h P _ last hd hl
  generalize hx : bs ++ [b] = l at h1
  cases h1 with
  | start => simp at hx
  | @more bs' cs' k3 b' k4 c' h1 h2 =>
    obtain ⟨rfl, h3⟩ := List.append_inj' hx rfl
    cases h3
    rw [emitted_unique he h1]
    exact ⟨_, _, h2⟩

namespace Encrypting
variable {se : SegmentEncrypter κ} {st : COutputStream ο} {inv bad done : ο → Bytes → Prop}

theorem emit_calm (h : LawfulOut st inv bad done) (hc : Calm st inv) {fuel : Nat} {e e' : EncryptingStream κ ο}
    {pt D : Bytes} {last : Bool} (hi : inv e.dest D)
    (hs : ∃ k c, se.encryptSegment e.encrypter pt last = (k, .ok c))
    (hx : emit se st fuel e pt last = some e') : e'.status = none := by
  obtain ⟨k, c, hs⟩ := hs
  unfold emit at hx
  rw [hs] at hx
  dsimp only at hx
  cases hw : writeToStream st fuel e.dest c 0 0 with
  | none => rw [hw] at hx; cases hx
  | some q =>
    obtain ⟨s, y⟩ := q
    have := writeToStream_calm h hc fuel e.dest c 0 0 D (by simpa using hi) (fun _ => rfl) hw
    subst this
    rw [hw] at hx
    cases hx
    rfl

theorem emitHeader_calm (h : LawfulOut st inv bad done) (hc : Calm st inv) {fuel : Nat}
    {e e' : EncryptingStream κ ο} {D : Bytes} (hi : inv e.dest D) (hx : emitHeader se st fuel e = some e') :
    e'.status = none := by
  unfold emitHeader at hx
  cases hw : writeToStream st fuel e.dest se.header 0 0 with
  | none => rw [hw] at hx; cases hx
  | some q =>
    obtain ⟨s, y⟩ := q
    have := writeToStream_calm h hc fuel e.dest se.header 0 0 D (by simpa using hi) (fun _ => rfl) hw
    subst this
    rw [hw] at hx
    cases hx
    rfl

theorem next_calm (h : LawfulOut st inv bad done) (hc : Calm st inv) (hn : 0 < nOf se) {k : κ} {limit : Nat}
    (hL : Encrypts se k limit) {bs cs : List Bytes} {fuel : Nat} {e e' : EncryptingStream κ ο} {P : Bytes}
    {r : StatusOr Nat} (hi : EncInv se k inv bs cs e P) (hP' : P.length ≤ limit)
    (hx : next se st fuel e = some (e', r)) : ∃ n, r = .ok n := by
  obtain ⟨hs, hemit, hsizes, hP, hback, hst⟩ := hi
  unfold EncryptingStream.next at hx
  rw [hs] at hx
  dsimp only at hx
  rcases hst with ⟨f1, -, -, -, -, -, -, f8⟩ | ⟨f1, f2, f3⟩
  · rw [if_pos f1] at hx
    split at hx
    · cases hx
    · rename_i e1 hh
      have hs1 := emitHeader_calm h hc (e := { e with isFirst := false, countBackedUp := 0 }) f8
        (by rw [← hh, hs])
      rw [hs1] at hx
      cases hx
      exact ⟨_, rfl⟩
  · rw [if_neg (by simp [f1])] at hx
    by_cases hb : 0 < e.countBackedUp
    · rw [if_pos hb] at hx
      cases hx
      exact ⟨_, rfl⟩
    · rw [if_neg hb] at hx
      have hb0 : e.countBackedUp = 0 := by omega
      by_cases hpt : e.ptToEncrypt.isEmpty = true
      · rw [if_pos hpt] at hx
        dsimp only at hx
        rw [hs] at hx
        cases hx
        exact ⟨_, rfl⟩
      · rw [if_neg hpt] at hx
        have hpt' : e.ptToEncrypt ≠ [] := fun h0 => hpt (by rw [h0]; rfl)
        have f3' : e.ptToEncrypt.length = (if bs = [] then fOf se else nOf se) ∧
            e.ptBuffer.length = nOf se := by
          rcases f3 with ⟨-, g2, -⟩ | g
          · exact absurd g2 hpt'
          · exact g
        have hdiv : Divided (fOf se) (nOf se) P (bs ++ [e.ptToEncrypt]) e.ptBuffer := by
          refine ⟨?_, sizes_snoc hsizes f3'.1, ?_, ?_⟩
          · rw [hP, hb0]; simp
          · rw [if_neg (by simp)]; omega
          · intro _ h0
            rw [h0, List.length_nil] at f3'
            omega
        cases hem : emit se st fuel e e.ptToEncrypt false with
        | none => rw [hem] at hx; cases hx
        | some e1 =>
          rw [hem] at hx
          dsimp only at hx
          rw [emit_calm h hc f2 (encrypts_more hL hemit hdiv hP') hem] at hx
          cases hx
          exact ⟨_, rfl⟩

theorem finish_calm (h : LawfulOut st inv bad done) (hc : Calm st inv) {k : κ} {limit : Nat}
    (hL : Encrypts se k limit) {fuel : Nat} {e e' : EncryptingStream κ ο} {bs cs : List Bytes} {last P : Bytes}
    {r : StatusOr Unit} (hemit : Emitted se k bs cs e.encrypter) (hdiv : Divided (fOf se) (nOf se) P bs last)
    (hP' : P.length ≤ limit) (hdest : inv e.dest (se.header ++ cs.flatten))
    (hx : finish se st fuel e last = some (e', r)) : r = .ok () := by
  unfold finish at hx
  cases hem : emit se st fuel e last true with
  | none => rw [hem] at hx; cases hx
  | some e1 =>
    have hs1 := emit_calm h hc hdest (encrypts_last hL hemit hdiv hP') hem
    obtain ⟨k1, c, g1, g2, g3⟩ := emit_spec h hdest hem hs1
    rw [hem] at hx
    dsimp only at hx
    rw [hs1] at hx
    dsimp only at hx
    cases hcl : st.close e1.dest with
    | none => rw [hcl] at hx; cases hx
    | some q =>
      obtain ⟨s, y⟩ := q
      rw [hcl] at hx
      cases hx
      exact hc.close _ _ _ _ g2 hcl

theorem closeSegments_calm (h : LawfulOut st inv bad done) (hc : Calm st inv) (hn : 0 < nOf se)
    (hf : 0 < fOf se) {k : κ} {limit : Nat} (hL : Encrypts se k limit)
    {bs cs : List Bytes} {fuel : Nat} {e e' : EncryptingStream κ ο} {P : Bytes} {r : StatusOr Unit}
    (hP' : P.length ≤ limit)
    (hemit : Emitted se k bs cs e.encrypter)
    (hsizes : ∀ j, ∀ h : j < bs.length, bs[j].length = if j = 0 then fOf se else nOf se)
    (hP : P = bs.flatten ++ e.ptToEncrypt ++
      e.ptBuffer.take (e.ptBuffer.length - e.countBackedUp))
    (hback : e.countBackedUp ≤ e.ptBuffer.length)
    (hdest : inv e.dest (se.header ++ cs.flatten))
    (hst : (bs = [] ∧ e.ptToEncrypt = [] ∧ e.ptBuffer.length = fOf se) ∨
       (e.ptToEncrypt.length = (if bs = [] then fOf se else nOf se) ∧ e.ptBuffer.length = nOf se))
    (hx : closeSegments se st fuel e = some (e', r)) : r = .ok () := by
  unfold closeSegments at hx
  by_cases hlt : e.countBackedUp < e.ptBuffer.length
  · have hne : e.ptBuffer.isEmpty = false := by
      cases hb : e.ptBuffer with
      | nil => rw [hb] at hlt; simp at hlt
      | cons _ _ => rfl
    have hres : resize e.ptBuffer (e.ptBuffer.length - e.countBackedUp) =
        e.ptBuffer.take (e.ptBuffer.length - e.countBackedUp) := by
      unfold resize
      rw [show e.ptBuffer.length - e.countBackedUp - e.ptBuffer.length = 0 by omega]
      simp
    have hne' : e.ptBuffer.take (e.ptBuffer.length - e.countBackedUp) ≠ [] := by
      intro h0
      have := congrArg List.length h0
      rw [List.length_take, List.length_nil] at this
      omega
    have hle : (e.ptBuffer.take (e.ptBuffer.length - e.countBackedUp)).length ≤
        e.ptBuffer.length := by rw [List.length_take]; omega
    rw [if_pos (by simp [hne, hlt])] at hx
    simp only [hres] at hx
    by_cases hpt : e.ptToEncrypt.isEmpty = true
    · rw [if_neg (by simp [hpt])] at hx
      have hpt' := List.isEmpty_iff.mp hpt
      have hbs : bs = [] ∧ e.ptBuffer.length = fOf se := by
        rcases hst with ⟨g1, -, g3⟩ | ⟨g1, -⟩
        · exact ⟨g1, g3⟩
        · rw [hpt', List.length_nil] at g1
          by_cases hbs : bs = []
          · rw [if_pos hbs] at g1; omega
          · rw [if_neg hbs] at g1; omega
      refine finish_calm (e := { e with
        ptBuffer := e.ptBuffer.take (e.ptBuffer.length - e.countBackedUp) }) h hc hL hemit
        ⟨?_, hsizes, ?_, fun h0 => absurd hbs.1 h0⟩ hP' hdest hx
      · rw [hP, hpt']; simp
      · rw [if_pos hbs.1, ← hbs.2]; exact hle
    · rw [if_pos (by simp [hpt])] at hx
      have hpt' : e.ptToEncrypt ≠ [] := fun h0 => hpt (by rw [h0]; rfl)
      have hst' : e.ptToEncrypt.length = (if bs = [] then fOf se else nOf se) ∧
          e.ptBuffer.length = nOf se := by
        rcases hst with ⟨-, g2, -⟩ | g
        · exact absurd g2 hpt'
        · exact g
      have hdiv : Divided (fOf se) (nOf se) P (bs ++ [e.ptToEncrypt])
          (e.ptBuffer.take (e.ptBuffer.length - e.countBackedUp)) := by
        refine ⟨?_, sizes_snoc hsizes hst'.1, ?_, fun _ => hne'⟩
        · rw [hP]; simp
        · rw [if_neg (by simp), ← hst'.2]; exact hle
      cases hem : emit se st fuel { e with
        ptBuffer := e.ptBuffer.take (e.ptBuffer.length - e.countBackedUp) } e.ptToEncrypt false with
      | none => rw [hem] at hx; cases hx
      | some e1 =>
        have hs1 := emit_calm (e := { e with
          ptBuffer := e.ptBuffer.take (e.ptBuffer.length - e.countBackedUp) }) h hc hdest
          (encrypts_more hL hemit hdiv hP') hem
        obtain ⟨k1, c, g1, g2, g3⟩ := emit_spec (e := { e with
          ptBuffer := e.ptBuffer.take (e.ptBuffer.length - e.countBackedUp) }) h hdest hem hs1
        have hb1 : e1.ptBuffer = e.ptBuffer.take (e.ptBuffer.length - e.countBackedUp) := by
          rw [g3]
        rw [hem] at hx
        dsimp only at hx
        rw [hs1] at hx
        dsimp only at hx
        rw [hb1] at hx
        exact finish_calm (bs := bs ++ [e.ptToEncrypt]) (cs := cs ++ [c]) h hc hL
          (by rw [g3]; exact .more hemit g1) hdiv hP' (by simpa using g2) hx
  · rw [if_neg (by simp; omega)] at hx
    have hz : e.ptBuffer.length - e.countBackedUp = 0 := by omega
    rw [hz, List.take_zero, List.append_nil] at hP
    refine finish_calm h hc hL hemit ⟨hP, hsizes, ?_, ?_⟩ hP' hdest hx
    · rcases hst with ⟨g1, g2, -⟩ | ⟨g1, -⟩
      · rw [g2]; exact Nat.zero_le _
      · omega
    · intro hne
      rcases hst with ⟨g1, -, -⟩ | ⟨g1, -⟩
      · exact absurd g1 hne
      · rw [if_neg hne] at g1
        intro h0
        rw [h0] at g1
        simp at g1
        omega

theorem close_calm (h : LawfulOut st inv bad done) (hc : Calm st inv) (hn : 0 < nOf se) (hf : 0 < fOf se)
    {k : κ} {limit : Nat} (hL : Encrypts se k limit) {bs cs : List Bytes} {fuel : Nat}
    {e e' : EncryptingStream κ ο} {P : Bytes} {r : StatusOr Unit} (hi : EncInv se k inv bs cs e P)
    (hP' : P.length ≤ limit) (hx : close se st fuel e = some (e', r)) : r = .ok () := by
  obtain ⟨hs, hemit, hsizes, hP, hback, hst⟩ := hi
  unfold EncryptingStream.close at hx
  rw [hs] at hx
  dsimp only at hx
  rcases hst with ⟨f1, f2, f3, f4, f5, f6, f7, f8⟩ | ⟨f1, f2, f3⟩
  · rw [if_pos f1] at hx
    cases hh : emitHeader se st fuel e with
    | none => rw [hh] at hx; cases hx
    | some e1 =>
      have hs1 := emitHeader_calm h hc f8 hh
      obtain ⟨g1, g2⟩ := emitHeader_spec h f8 hh hs1
      rw [hh] at hx
      dsimp only at hx
      rw [hs1] at hx
      refine closeSegments_calm h hc hn hf hL (bs := bs) (cs := cs) (e := e1) hP' (by rw [g2]; exact hemit)
        hsizes (by rw [g2]; exact hP) (by rw [g2]; exact hback) ?_ ?_ hx
      · rw [f3]; simpa using g1
      · rw [g2]; exact .inl ⟨f2, f4, f5⟩
  · rw [if_neg (by simp [f1])] at hx
    exact closeSegments_calm h hc hn hf hL hP' hemit hsizes hP hback f2 f3 hx

end Encrypting

/-! ## The Python streams -/

/-- The stream has been given `P`, and works. -/
def WorkingWriter (se : SegmentEncrypter κ) (k : κ) (t : CcEncrypting κ σ) (P : Bytes) : Prop :=
  t.encrypter = se ∧ t.raw.closed = false ∧ ∃ bs cs, Encrypting.EncInv se k Working bs cs t.raw.adapter P

section
variable {snk : CSink σ} {se : SegmentEncrypter κ} {k : κ} {limit : Nat}

theorem writer_lawful (hr : Reliable snk) (hf : 0 < firstSegmentSize se) (ho : 0 ≤ se.ciphertextOffset)
    (hL : Encrypts se k limit) (fuel : Nat) :
    LawfulOut (CcEncrypting.stream snk fuel se) (fun e P => ∃ bs cs, Encrypting.EncInv se k Working bs cs e P)
      (fun _ P => limit < P.length) (fun _ _ => True) := by
  have hlaw := C67_encrypting_stream (output_working hr fuel) k hf ho fuel
  refine ⟨hlaw.put, ?_, fun _ _ _ _ _ => trivial⟩
  rintro e P e' x ⟨bs, cs, hi⟩ hx
  refine Decidable.byContradiction fun hP => ?_
  have hn : 0 < Encrypting.nOf se := by unfold firstSegmentSize at hf; unfold Encrypting.nOf; omega
  obtain ⟨n, hn⟩ := Encrypting.next_calm (output_working hr fuel) (output_calm hr fuel) hn hL hi (by omega) hx
  cases hn

theorem rawWrite_working (hr : Reliable snk) (hf : 0 < firstSegmentSize se) (ho : 0 ≤ se.ciphertextOffset)
    (hL : Encrypts se k limit) {t t' : CcEncrypting κ σ} {P b : Bytes} {r : Py Nat}
    (h : WorkingWriter se k t P) (hmax : b.length < 2 ^ 31) (hP : (P ++ b).length ≤ limit)
    (hx : CcEncrypting.RawWrite snk t b t' r) : r = .ok b.length ∧ WorkingWriter se k t' (P ++ b) := by
  obtain ⟨h1, h2, h3⟩ := h
  obtain ⟨fuel, hx⟩ := hx
  unfold CcEncrypting.write at hx
  rw [h1] at hx
  cases hw : t.raw.write (CcEncrypting.stream snk fuel se) fuel (.bytesLike b) with
  | none => rw [hw] at hx; cases hx
  | some q =>
    obtain ⟨s, x⟩ := q
    obtain ⟨a1, a2⟩ := C56_raw_write (writer_lawful hr hf ho hL fuel) h3 h2 hmax hw
    rw [hw] at hx
    simp only [Option.map_some, Option.some.injEq, Prod.mk.injEq] at hx
    obtain ⟨rfl, rfl⟩ := hx
    cases r with
    | error e =>
      obtain ⟨-, d, hd, hbad⟩ := a2
      have := hd.length_le
      rw [List.length_append] at hP hbad
      omega
    | ok n =>
      obtain ⟨rfl, a3⟩ := a2
      exact ⟨rfl, rfl, a1, a3⟩

theorem rawClose_working (hr : Reliable snk) (hf : 0 < firstSegmentSize se) (ho : 0 ≤ se.ciphertextOffset)
    (hL : Encrypts se k limit) {t t' : CcEncrypting κ σ} {P : Bytes} {r : Py Unit}
    (h : WorkingWriter se k t P) (hP : P.length ≤ limit) (hx : CcEncrypting.RawClose snk t t' r) :
    r = .ok () := by
  obtain ⟨h1, h2, bs, cs, h3⟩ := h
  obtain ⟨fuel, hx⟩ := hx
  unfold CcEncrypting.close RawEncryptingStream.close at hx
  rw [if_neg (by simp [h2]), h1] at hx
  cases hw : (CcEncrypting.stream snk fuel se).close t.raw.adapter with
  | none => rw [hw] at hx; cases hx
  | some q =>
    obtain ⟨s, x⟩ := q
    have hn : 0 < Encrypting.nOf se := by unfold firstSegmentSize at hf; unfold Encrypting.nOf; omega
    have := Encrypting.close_calm (output_working hr fuel) (output_calm hr fuel) hn
      (by unfold Encrypting.fOf; omega) hL h3 hP hw
    subst this
    rw [hw] at hx
    cases hx
    rfl

theorem flushed_working (hr : Reliable snk) (hf : 0 < firstSegmentSize se) (ho : 0 ≤ se.ciphertextOffset)
    (hL : Encrypts se k limit) {t t1 : CcEncrypting κ σ} {P buffer rest : Bytes}
    (h : WorkingWriter se k t P) (hP : (P ++ buffer).length ≤ limit)
    (hx : Flushed (CcEncrypting.RawWrite snk) t buffer t1 rest) :
    ∃ P', WorkingWriter se k t1 P' ∧ P' ++ rest = P ++ buffer := by
  induction hx with
  | start => exact ⟨P, h, rfl⟩
  | @more t1 b t2 n c _ h1 h2 h3 h4 h5 ih =>
    obtain ⟨P', i1, i2⟩ := ih
    obtain ⟨x, rfl⟩ := h1
    have hP' : (P' ++ c).length ≤ limit := by
      rw [← i2] at hP
      simp only [List.length_append] at hP ⊢
      omega
    obtain ⟨j1, j2⟩ := rawWrite_working hr hf ho hL i1 h3 hP' h4
    cases j1
    exact ⟨P' ++ c, j2, by rw [List.drop_left, List.append_assoc, i2]⟩

theorem flushed_raises (hr : Reliable snk) (hf : 0 < firstSegmentSize se) (ho : 0 ≤ se.ciphertextOffset)
    (hL : Encrypts se k limit) {t t1 t2 : CcEncrypting κ σ} {P buffer rest c : Bytes} {e : Exc}
    (h : WorkingWriter se k t P) (hP : (P ++ buffer).length ≤ limit)
    (hx : Flushed (CcEncrypting.RawWrite snk) t buffer t1 rest) (hc : c <+: rest) (hmax : c.length < 2 ^ 31)
    (hw : CcEncrypting.RawWrite snk t1 c t2 (.error e)) : False := by
  obtain ⟨P', i1, i2⟩ := flushed_working hr hf ho hL h hP hx
  have := hc.length_le
  have := (rawWrite_working hr hf ho hL i1 hmax (by
    rw [← i2] at hP
    simp only [List.length_append] at hP ⊢
    omega) hw).1
  cases this

theorem history_working (hr : Reliable snk) (hf : 0 < firstSegmentSize se) (ho : 0 ≤ se.ciphertextOffset)
    (hL : Encrypts se k limit) {t0 t : CcEncrypting κ σ} {ops : List (WriteOp × Py Nat)} {b : Bytes}
    (h0 : WorkingWriter se k t0 []) (h : WriterHistory (CcEncrypting.RawWrite snk) t0 ops t b)
    (hP : (writtenBytes ops).length ≤ limit) :
    (∀ o ∈ ops, ∃ n, o.2 = .ok n) ∧ ∃ P, WorkingWriter se k t P ∧ P ++ b = writtenBytes ops := by
  induction h with
  | start => exact ⟨fun o ho => by (cases ho), [], h0, rfl⟩
  | @call ops t1 b1 op r t2 b2 _ hc ih =>
    have hsnoc : ∀ (o : WriteOp × Py Nat), writtenBytes (ops ++ [o]) =
        writtenBytes ops ++ (match o.1 with | .write b => b | .flush => []) := by
      rintro ⟨o, x⟩; cases o <;> simp [writtenBytes]
    rw [hsnoc] at hP ⊢
    obtain ⟨i1, P, i2, i3⟩ := ih (by rw [List.length_append] at hP; omega)
    have hall : ∀ {o : WriteOp × Py Nat}, (∃ n, o.2 = .ok n) → ∀ o' ∈ ops ++ [o], ∃ n, o'.2 = .ok n := by
      intro o h2 o' ho'
      rw [List.mem_append, List.mem_singleton] at ho'
      rcases ho' with ho' | rfl
      · exact i1 o' ho'
      · exact h2
    cases hc with
    | write b hfl =>
      obtain ⟨P', j1, j2⟩ := flushed_working hr hf ho hL i2
        (by rw [← List.append_assoc, i3]; exact hP) hfl
      exact ⟨hall ⟨_, rfl⟩, P', j1, by rw [j2, ← List.append_assoc, i3]⟩
    | flush hfl =>
      obtain ⟨P', j1, j2⟩ := flushed_working hr hf ho hL i2 (by rw [i3]; simpa using hP) hfl
      exact ⟨hall ⟨_, rfl⟩, P', j1, by rw [j2, i3]; simp⟩
    | writeRaised b c buffer' hfl hpre hmax hw =>
      exact (flushed_raises hr hf ho hL i2 (by rw [← List.append_assoc, i3]; exact hP) hfl hpre hmax hw).elim
    | flushRaised c buffer' hfl hpre hmax hw =>
      exact (flushed_raises hr hf ho hL i2 (by rw [i3]; simpa using hP) hfl hpre hmax hw).elim

end

end Tink.Props
