import Verif.Spec.Segments

/-!
# C67: encrypting in segments
-/

namespace Tink.Props
open Spec

variable {κ ο : Type} {st : COutputStream ο} {inv bad done : ο → Bytes → Prop}

theorem writeToStream_spec (h : LawfulOut st inv bad done) :
    ∀ (fuel : Nat) (s : ο) (rem : Bytes) (space bytes : Nat) (D : Bytes),
      inv (if space > bytes then st.backUp s (space - bytes : Nat) else s) D →
      (0 < rem.length → space = bytes) → ∀ {s'},
      writeToStream st fuel s rem space bytes = some (s', .ok ()) → inv s' (D ++ rem) := by
  intro fuel
  induction fuel with
  | zero => intro s rem space bytes D _ _ s' hx; cases hx
  | succ fuel ih =>
    intro s rem space bytes D hi hsp s' hx
    unfold writeToStream at hx
    by_cases hr : 0 < rem.length
    · rw [if_pos hr] at hx
      have he := hsp hr
      subst he
      rw [if_neg (by omega)] at hi
      cases hn : st.next s with
      | none => rw [hn] at hx; cases hx
      | some q =>
        obtain ⟨s1, x⟩ := q
        rw [hn] at hx
        cases x with
        | error e => cases hx
        | ok k =>
          simp only at hx
          have hlen : (rem.take (min k rem.length)).length = min k rem.length := by
            rw [List.length_take]; omega
          have hput := h.put s D s1 k (rem.take (min k rem.length)) hi hn (by omega)
          unfold OutputStreamAdapter.put at hput
          rw [hlen] at hput
          have := ih _ (rem.drop (min k rem.length)) k (min k rem.length)
            (D ++ rem.take (min k rem.length)) (by
              by_cases hlt : min k rem.length < k
              · rw [if_pos hlt] at hput; rw [if_pos hlt]; exact hput
              · rw [if_neg hlt] at hput; rw [if_neg hlt]; exact hput)
            (by rw [List.length_drop]; omega) hx
          rwa [List.append_assoc, List.take_append_drop] at this
    · rw [if_neg hr] at hx
      have h0 : rem = [] := List.length_eq_zero_iff.mp (by omega)
      cases hx
      rw [h0, List.append_nil]
      exact hi

theorem writeToStream_ok (h : LawfulOut st inv bad done) {fuel : Nat} {s s' : ο} {D b : Bytes}
    (hi : inv s D) (hx : writeToStream st fuel s b 0 0 = some (s', .ok ())) : inv s' (D ++ b) :=
  writeToStream_spec h fuel s b 0 0 D (by simpa using hi) (fun _ => rfl) hx

namespace Encrypting
open EncryptingStream

variable {se : SegmentEncrypter κ}

theorem emit_spec (h : LawfulOut st inv bad done) {fuel : Nat} {e e' : EncryptingStream κ ο}
    {pt D : Bytes} {last : Bool} (hi : inv e.dest D) (hx : emit se st fuel e pt last = some e')
    (hs : e'.status = none) :
    ∃ k c, se.encryptSegment e.encrypter pt last = (k, .ok c) ∧ inv e'.dest (D ++ c) ∧
      e' = { e with encrypter := k, dest := e'.dest, status := none } := by
  unfold emit at hx
  cases hq : se.encryptSegment e.encrypter pt last with
  | mk k x =>
    rw [hq] at hx
    cases x with
    | error y => cases hx; cases hs
    | ok c =>
      simp only at hx
      cases hw : writeToStream st fuel e.dest c 0 0 with
      | none => rw [hw] at hx; cases hx
      | some q =>
        obtain ⟨s, y⟩ := q
        rw [hw] at hx
        cases y with
        | error z => cases hx; cases hs
        | ok u => cases hx; exact ⟨k, c, rfl, writeToStream_ok h hi hw, rfl⟩

theorem emitHeader_spec (h : LawfulOut st inv bad done) {fuel : Nat} {e e' : EncryptingStream κ ο}
    {D : Bytes} (hi : inv e.dest D) (hx : emitHeader se st fuel e = some e')
    (hs : e'.status = none) :
    inv e'.dest (D ++ se.header) ∧ e' = { e with dest := e'.dest, status := none } := by
  unfold emitHeader at hx
  cases hw : writeToStream st fuel e.dest se.header 0 0 with
  | none => rw [hw] at hx; cases hx
  | some q =>
    obtain ⟨s, y⟩ := q
    rw [hw] at hx
    cases y with
    | error z => cases hx; cases hs
    | ok u => cases hx; exact ⟨writeToStream_ok h hi hw, rfl⟩

/-- The first size and the size of the other segments. -/
abbrev fOf (se : SegmentEncrypter κ) : Nat := (firstSegmentSize se).toNat
abbrev nOf (se : SegmentEncrypter κ) : Nat := se.plaintextSegmentSize.toNat

/-- The stream has been given `P`; `k` is the state of the new encrypter. -/
structure EncInv (se : SegmentEncrypter κ) (k : κ) (dinv : ο → Bytes → Prop)
    (bs cs : List Bytes) (e : EncryptingStream κ ο) (P : Bytes) : Prop where
  status : e.status = none
  emitted : Emitted se k bs cs e.encrypter
  sizes : ∀ j, ∀ h : j < bs.length, bs[j].length = if j = 0 then fOf se else nOf se
  content : P = bs.flatten ++ e.ptToEncrypt ++
    e.ptBuffer.take (e.ptBuffer.length - e.countBackedUp)
  backed : e.countBackedUp ≤ e.ptBuffer.length
  state : (e.isFirst = true ∧ bs = [] ∧ cs = [] ∧ e.ptToEncrypt = [] ∧ e.ptBuffer.length = fOf se ∧
      e.countBackedUp = fOf se ∧ e.ptBufferOffset = 0 ∧ dinv e.dest []) ∨
    (e.isFirst = false ∧ dinv e.dest (se.header ++ cs.flatten) ∧
      ((bs = [] ∧ e.ptToEncrypt = [] ∧ e.ptBuffer.length = fOf se) ∨
       (e.ptToEncrypt.length = (if bs = [] then fOf se else nOf se) ∧ e.ptBuffer.length = nOf se)))

/-- Storing `d` in the buffer and backing up the rest. -/
theorem put_eq {fuel : Nat} {e : EncryptingStream κ ο} {d : Bytes} (hs : e.status = none)
    (hf : e.isFirst = false) (hc : e.countBackedUp = 0) (ho : e.ptBufferOffset ≤ e.ptBuffer.length)
    (hd : d.length ≤ e.ptBuffer.length - e.ptBufferOffset) :
    OutputStreamAdapter.put (stream se st fuel) e (e.ptBuffer.length - e.ptBufferOffset) d =
      { e with
        ptBuffer := e.ptBuffer.take e.ptBufferOffset ++ d ++
          e.ptBuffer.drop (e.ptBufferOffset + d.length)
        countBackedUp := e.ptBuffer.length - e.ptBufferOffset - d.length } := by
  have hl : (e.ptBuffer.take e.ptBufferOffset ++ d ++
      e.ptBuffer.drop (e.ptBufferOffset + d.length)).length = e.ptBuffer.length := by
    simp only [List.length_append, List.length_take, List.length_drop]; omega
  unfold OutputStreamAdapter.put
  by_cases hlt : d.length < e.ptBuffer.length - e.ptBufferOffset
  · rw [if_pos hlt]
    simp only [stream, EncryptingStream.backUp, EncryptingStream.store, hs, hf, hc, hl]
    rw [if_neg (by simp; omega)]
    have : 0 + min (((e.ptBuffer.length - e.ptBufferOffset - d.length : Nat) : Int).toNat)
        (e.ptBuffer.length - e.ptBufferOffset - 0) =
        e.ptBuffer.length - e.ptBufferOffset - d.length := by omega
    simp only [this]
  · rw [if_neg hlt]
    have h0 : e.ptBuffer.length - e.ptBufferOffset - d.length = 0 := by omega
    rw [h0, ← hc]
    rfl

/-- What is in the buffer after that. -/
theorem put_content {B d : Bytes} {o : Nat} (ho : o ≤ B.length) (hd : d.length ≤ B.length - o) :
    (B.take o ++ d ++ B.drop (o + d.length)).length = B.length ∧
    (B.take o ++ d ++ B.drop (o + d.length)).take
      ((B.take o ++ d ++ B.drop (o + d.length)).length - (B.length - o - d.length)) =
      B.take o ++ d := by
  have hl : (B.take o ++ d ++ B.drop (o + d.length)).length = B.length := by
    simp only [List.length_append, List.length_take, List.length_drop]; omega
  refine ⟨hl, ?_⟩
  rw [hl, show B.length - (B.length - o - d.length) = (B.take o ++ d).length by
    simp only [List.length_append, List.length_take]; omega]
  exact List.take_left

theorem put_inv {k : κ} {bs cs : List Bytes} {fuel : Nat} {e : EncryptingStream κ ο} {P d : Bytes}
    {a : Nat} (hs : e.status = none) (hf : e.isFirst = false) (hc : e.countBackedUp = 0)
    (ho : e.ptBufferOffset ≤ e.ptBuffer.length) (ha : a = e.ptBuffer.length - e.ptBufferOffset)
    (hd : d.length ≤ a)
    (hemit : Emitted se k bs cs e.encrypter)
    (hsizes : ∀ j, ∀ h : j < bs.length, bs[j].length = if j = 0 then fOf se else nOf se)
    (hP : P = bs.flatten ++ e.ptToEncrypt ++ e.ptBuffer.take e.ptBufferOffset)
    (hdest : inv e.dest (se.header ++ cs.flatten))
    (hst : (bs = [] ∧ e.ptToEncrypt = [] ∧ e.ptBuffer.length = fOf se) ∨
       (e.ptToEncrypt.length = (if bs = [] then fOf se else nOf se) ∧
         e.ptBuffer.length = nOf se)) :
    EncInv se k inv bs cs (OutputStreamAdapter.put (stream se st fuel) e a d) (P ++ d) := by
  subst ha
  rw [put_eq hs hf hc ho hd]
  obtain ⟨h1, h2⟩ := put_content ho hd
  refine ⟨hs, hemit, hsizes, ?_, ?_, .inr ⟨hf, hdest, ?_⟩⟩
  · simp only
    rw [h2, hP]
    simp only [List.append_assoc]
  · simp only
    rw [h1]; omega
  · simp only
    rw [h1]; exact hst

theorem resize_length (b : Bytes) (n : Nat) : (resize b n).length = n := by
  unfold resize
  simp only [List.length_append, List.length_take, List.length_replicate]
  omega

theorem sizes_snoc {f n : Nat} {bs : List Bytes} {b : Bytes}
    (h : ∀ j, ∀ h : j < bs.length, bs[j].length = if j = 0 then f else n)
    (hb : b.length = if bs = [] then f else n) :
    ∀ j, ∀ h : j < (bs ++ [b]).length, (bs ++ [b])[j].length = if j = 0 then f else n := by
  intro j hj
  rw [List.length_append, List.length_singleton] at hj
  by_cases hlt : j < bs.length
  · rw [List.getElem_append_left hlt]; exact h j hlt
  · have he : j = bs.length := by omega
    subst he
    rw [List.getElem_append_right (Nat.le_refl _)]
    simp only [Nat.sub_self, List.getElem_cons_zero]
    rw [hb]
    cases bs <;> simp

/-- `Next` and the caller's part. -/
theorem next_put (h : LawfulOut st inv bad done) (hn : 0 < nOf se) (hf : 0 < fOf se) {k : κ}
    {bs cs : List Bytes} {fuel : Nat} {e e' : EncryptingStream κ ο} {P d : Bytes} {a : Nat}
    (hi : EncInv se k inv bs cs e P) (hx : next se st fuel e = some (e', .ok a)) (hd : d.length ≤ a) :
    ∃ bs' cs',
      EncInv se k inv bs' cs' (OutputStreamAdapter.put (stream se st fuel) e' a d) (P ++ d) := by
  obtain ⟨hs, hemit, hsizes, hP, hback, hst⟩ := hi
  unfold EncryptingStream.next at hx
  rw [hs] at hx
  simp only at hx
  rcases hst with ⟨f1, f2, f3, f4, f5, f6, f7, f8⟩ | ⟨f1, f2, f3⟩
  · -- the first call
    rw [if_pos f1] at hx
    cases hh : emitHeader se st fuel
        { e with isFirst := false, countBackedUp := 0, status := none } with
    | none => rw [hh] at hx; cases hx
    | some e1 =>
      rw [hh] at hx
      simp only at hx
      cases hs1 : e1.status with
      | some y => rw [hs1] at hx; cases hx
      | none =>
        rw [hs1] at hx
        obtain ⟨g1, g2⟩ := emitHeader_spec h (by exact f8) hh hs1
        cases hx
        refine ⟨bs, cs, put_inv hs1 (by rw [g2]) (by rw [g2]) (by rw [g2]; simp [f7])
          (by rw [g2]; simp [f7]) hd (by rw [g2]; exact hemit) hsizes ?_ ?_ (.inl ?_)⟩
        · rw [g2, hP]
          simp only [f2, f4, f5, f6, f7, Nat.sub_self, List.take_zero]
        · rw [f3]; simpa using g1
        · rw [g2]; exact ⟨f2, f4, f5⟩
  · rw [if_neg (by simp [f1])] at hx
    by_cases hb : 0 < e.countBackedUp
    · -- the space that was backed up
      rw [if_pos hb] at hx
      cases hx
      refine ⟨bs, cs, put_inv rfl f1 rfl ?_ ?_ hd hemit hsizes hP f2 f3⟩
      · simp
      · simp only; omega
    · rw [if_neg hb] at hx
      have hb0 : e.countBackedUp = 0 := by omega
      have hfull : e.ptBuffer.take (e.ptBuffer.length - e.countBackedUp) = e.ptBuffer := by
        rw [hb0]; simp
      rw [hfull] at hP
      by_cases hpt : e.ptToEncrypt.isEmpty = true
      · -- the first buffer is full
        rw [if_pos hpt] at hx
        simp only [hs] at hx
        cases hx
        have hpt' := List.isEmpty_iff.mp hpt
        have hbs : bs = [] ∧ e.ptBuffer.length = fOf se := by
          rcases f3 with ⟨g1, -, g3⟩ | ⟨g1, -⟩
          · exact ⟨g1, g3⟩
          · rw [hpt', List.length_nil] at g1
            by_cases hbs : bs = []
            · rw [if_pos hbs] at g1; omega
            · rw [if_neg hbs] at g1; omega
        refine ⟨bs, cs, put_inv hs f1 hb0 (Nat.zero_le _) rfl hd hemit hsizes ?_ f2 (.inr ?_)⟩
        · rw [hP, hpt']; simp [fresh]
        · refine ⟨?_, ?_⟩
          · rw [if_pos hbs.1]; exact hbs.2
          · exact resize_length _ _
      · -- a segment is written
        rw [if_neg hpt] at hx
        have hpt' : e.ptToEncrypt ≠ [] := fun h0 => hpt (by rw [h0]; rfl)
        have f3' : e.ptToEncrypt.length = (if bs = [] then fOf se else nOf se) ∧
            e.ptBuffer.length = nOf se := by
          rcases f3 with ⟨-, g2, -⟩ | g
          · exact absurd g2 hpt'
          · exact g
        cases hem : emit se st fuel e e.ptToEncrypt false with
        | none => rw [hem] at hx; cases hx
        | some e1 =>
          rw [hem] at hx
          simp only at hx
          cases hs1 : e1.status with
          | some y => rw [hs1] at hx; cases hx
          | none =>
            rw [hs1] at hx
            obtain ⟨k1, c, g1, g2, g3⟩ := emit_spec h f2 hem hs1
            cases hx
            refine ⟨bs ++ [e.ptToEncrypt], cs ++ [c], put_inv ?_ ?_ ?_ (Nat.zero_le _) rfl hd ?_
              (sizes_snoc hsizes f3'.1) ?_ ?_ (.inr ?_)⟩
            · exact hs1
            · rw [g3]; exact f1
            · rw [g3]; exact hb0
            · rw [g3]; exact .more hemit g1
            · rw [hP, g3]; simp [fresh]
            · have : (fresh se e1).dest = e1.dest := rfl
              rw [this]
              simpa using g2
            · refine ⟨?_, resize_length _ _⟩
              rw [if_neg (by simp), g3]
              exact f3'.2

theorem abandon_not_ok {e e' : EncryptingStream κ ο} {x : Status} :
    abandon st e x ≠ some (e', .ok ()) := by
  unfold abandon
  cases st.close e.dest <;> simp

/-- The end of `Close`. -/
theorem finish_spec (h : LawfulOut st inv bad done) {k : κ} {fuel : Nat}
    {e e' : EncryptingStream κ ο} {bs cs : List Bytes} {last P : Bytes}
    (hemit : Emitted se k bs cs e.encrypter)
    (hdiv : Divided (fOf se) (nOf se) P bs last)
    (hdest : inv e.dest (se.header ++ cs.flatten))
    (hx : finish se st fuel e last = some (e', .ok ())) :
    ∃ C, EncryptionOf se k P C ∧ done e'.dest C := by
  unfold finish at hx
  cases hem : emit se st fuel e last true with
  | none => rw [hem] at hx; cases hx
  | some e1 =>
    rw [hem] at hx
    simp only at hx
    cases hs1 : e1.status with
    | some y => rw [hs1] at hx; exact absurd hx abandon_not_ok
    | none =>
      rw [hs1] at hx
      obtain ⟨k1, c, g1, g2, g3⟩ := emit_spec h hdest hem hs1
      simp only at hx
      cases hcl : st.close e1.dest with
      | none => rw [hcl] at hx; cases hx
      | some q =>
        obtain ⟨s, r⟩ := q
        rw [hcl] at hx
        cases hx
        exact ⟨se.header ++ (cs ++ [c]).flatten, ⟨bs, last, cs, _, k1, c, hdiv, hemit, g1, rfl⟩,
          by
            have := h.close _ _ _ g2 hcl
            simpa using this⟩

theorem closeSegments_spec (h : LawfulOut st inv bad done) (hn : 0 < nOf se) (hf : 0 < fOf se) {k : κ}
    {bs cs : List Bytes} {fuel : Nat} {e e' : EncryptingStream κ ο} {P : Bytes}
    (hemit : Emitted se k bs cs e.encrypter)
    (hsizes : ∀ j, ∀ h : j < bs.length, bs[j].length = if j = 0 then fOf se else nOf se)
    (hP : P = bs.flatten ++ e.ptToEncrypt ++
      e.ptBuffer.take (e.ptBuffer.length - e.countBackedUp))
    (hback : e.countBackedUp ≤ e.ptBuffer.length)
    (hdest : inv e.dest (se.header ++ cs.flatten))
    (hst : (bs = [] ∧ e.ptToEncrypt = [] ∧ e.ptBuffer.length = fOf se) ∨
       (e.ptToEncrypt.length = (if bs = [] then fOf se else nOf se) ∧ e.ptBuffer.length = nOf se))
    (hx : closeSegments se st fuel e = some (e', .ok ())) :
    ∃ C, EncryptionOf se k P C ∧ done e'.dest C := by
  unfold closeSegments at hx
  by_cases hlt : e.countBackedUp < e.ptBuffer.length
  · have hne : e.ptBuffer.isEmpty = false := by
      cases hb : e.ptBuffer with
      | nil => rw [hb] at hlt; simp at hlt
      | cons _ _ => rfl
    have hres : resize e.ptBuffer (e.ptBuffer.length - e.countBackedUp) =
        e.ptBuffer.take (e.ptBuffer.length - e.countBackedUp) := by
      unfold resize
      rw [show e.ptBuffer.length - e.countBackedUp - e.ptBuffer.length = 0 by omega]
      simp
    have hne' : e.ptBuffer.take (e.ptBuffer.length - e.countBackedUp) ≠ [] := by
      intro h0
      have := congrArg List.length h0
      rw [List.length_take, List.length_nil] at this
      omega
    have hle : (e.ptBuffer.take (e.ptBuffer.length - e.countBackedUp)).length ≤
        e.ptBuffer.length := by rw [List.length_take]; omega
    rw [if_pos (by simp [hne, hlt])] at hx
    simp only [hres] at hx
    by_cases hpt : e.ptToEncrypt.isEmpty = true
    · rw [if_neg (by simp [hpt])] at hx
      have hpt' := List.isEmpty_iff.mp hpt
      have hbs : bs = [] ∧ e.ptBuffer.length = fOf se := by
        rcases hst with ⟨g1, -, g3⟩ | ⟨g1, -⟩
        · exact ⟨g1, g3⟩
        · rw [hpt', List.length_nil] at g1
          by_cases hbs : bs = []
          · rw [if_pos hbs] at g1; omega
          · rw [if_neg hbs] at g1; omega
      refine finish_spec (e := { e with
        ptBuffer := e.ptBuffer.take (e.ptBuffer.length - e.countBackedUp) }) h hemit
        ⟨?_, hsizes, ?_, fun h0 => absurd hbs.1 h0⟩ hdest hx
      · rw [hP, hpt']; simp
      · rw [if_pos hbs.1, ← hbs.2]; exact hle
    · rw [if_pos (by simp [hpt])] at hx
      have hpt' : e.ptToEncrypt ≠ [] := fun h0 => hpt (by rw [h0]; rfl)
      have hst' : e.ptToEncrypt.length = (if bs = [] then fOf se else nOf se) ∧
          e.ptBuffer.length = nOf se := by
        rcases hst with ⟨-, g2, -⟩ | g
        · exact absurd g2 hpt'
        · exact g
      cases hem : emit se st fuel { e with
        ptBuffer := e.ptBuffer.take (e.ptBuffer.length - e.countBackedUp) } e.ptToEncrypt false with
      | none => rw [hem] at hx; cases hx
      | some e1 =>
        rw [hem] at hx
        simp only at hx
        cases hs1 : e1.status with
        | some y => rw [hs1] at hx; exact absurd hx abandon_not_ok
        | none =>
          rw [hs1] at hx
          obtain ⟨k1, c, g1, g2, g3⟩ := emit_spec (e := { e with
            ptBuffer := e.ptBuffer.take (e.ptBuffer.length - e.countBackedUp) }) h hdest hem hs1
          have hb1 : e1.ptBuffer = e.ptBuffer.take (e.ptBuffer.length - e.countBackedUp) := by
            rw [g3]
          refine finish_spec (bs := bs ++ [e.ptToEncrypt]) (cs := cs ++ [c]) h
            (by rw [g3]; exact .more hemit g1)
            ⟨?_, sizes_snoc hsizes hst'.1, ?_, ?_⟩ (by simpa using g2) hx
          · rw [hP, hb1]; simp
          · rw [if_neg (by simp), hb1, ← hst'.2]; exact hle
          · intro _; rw [hb1]; exact hne'
  · rw [if_neg (by simp; omega)] at hx
    have hz : e.ptBuffer.length - e.countBackedUp = 0 := by omega
    rw [hz, List.take_zero, List.append_nil] at hP
    refine finish_spec h hemit ⟨hP, hsizes, ?_, ?_⟩ hdest hx
    · rcases hst with ⟨g1, g2, -⟩ | ⟨g1, -⟩
      · rw [g2]; exact Nat.zero_le _
      · omega
    · intro hne
      rcases hst with ⟨g1, -, -⟩ | ⟨g1, -⟩
      · exact absurd g1 hne
      · rw [if_neg hne] at g1
        intro h0
        rw [h0] at g1
        simp at g1
        omega

/-- C67.  An encrypting stream that works in segments meets the contract of an output stream if its
destination does; and what the destination has been given once the stream was closed successfully is an
encryption of what the stream was given. -/
theorem _root_.Tink.Props.C67_encrypting_stream (h : LawfulOut st inv bad done) (k : κ)
    (hf : 0 < firstSegmentSize se) (ho : 0 ≤ se.ciphertextOffset) (fuel : Nat) :
    LawfulOut (EncryptingStream.stream se st fuel) (fun e P => ∃ bs cs, EncInv se k inv bs cs e P)
      (fun e _ => e.status.isSome = true)
      (fun e P => ∃ C, EncryptionOf se k P C ∧ done e.dest C) := by
  have hf' : 0 < fOf se := by unfold fOf; omega
  have hn' : 0 < nOf se := by
    unfold firstSegmentSize at hf; unfold nOf; omega
  refine ⟨?_, ?_, ?_⟩
  · rintro e P e' a d ⟨bs, cs, hi⟩ hx hd
    exact next_put h hn' hf' hi hx hd
  · rintro e P e' x ⟨bs, cs, hi⟩ hx
    simp only [EncryptingStream.stream, EncryptingStream.next, hi.status] at hx
    split at hx
    · split at hx
      · cases hx
      · split at hx
        · rename_i hs; cases hx; simp [hs]
        · cases hx
    · split at hx
      · cases hx
      · split at hx
        · cases hx
        · split at hx
          · rename_i hs; cases hx; simp [hs]
          · cases hx
  · rintro e P e' ⟨bs, cs, hs, hemit, hsizes, hP, hback, hst⟩ hx
    simp only [EncryptingStream.stream, EncryptingStream.close, hs] at hx
    rcases hst with ⟨f1, f2, f3, f4, f5, f6, f7, f8⟩ | ⟨f1, f2, f3⟩
    · rw [if_pos f1] at hx
      cases hh : emitHeader se st fuel e with
      | none => rw [hh] at hx; cases hx
      | some e1 =>
        rw [hh] at hx
        simp only at hx
        cases hs1 : e1.status with
        | some y => rw [hs1] at hx; cases hx
        | none =>
          rw [hs1] at hx
          obtain ⟨g1, g2⟩ := emitHeader_spec h f8 hh hs1
          refine closeSegments_spec h hn' hf' (bs := bs) (cs := cs) (e := e1) (by rw [g2]; exact hemit)
            hsizes (by rw [g2]; exact hP) (by rw [g2]; exact hback) ?_ ?_ hx
          · rw [f3]; simpa using g1
          · rw [g2]; exact .inl ⟨f2, f4, f5⟩
    · rw [if_neg (by simp [f1])] at hx
      exact closeSegments_spec h hn' hf' hemit hsizes hP hback f2 f3 hx

/-- A new encrypting stream meets the invariant. -/
theorem new_inv {k : κ} {dest : ο} {e : EncryptingStream κ ο} (hd : inv dest [])
    (hx : EncryptingStream.new se k dest = .ok e) :
    0 < firstSegmentSize se ∧ EncInv se k inv [] [] e [] := by
  unfold EncryptingStream.new at hx
  by_cases hf : firstSegmentSize se ≤ 0
  · rw [if_pos hf] at hx; cases hx
  · rw [if_neg hf] at hx
    cases hx
    refine ⟨by omega, rfl, .start, fun j h => absurd h (Nat.not_lt_zero _), ?_, ?_, .inl ?_⟩
    · simp
    · simp
    · simp [hd]

end Encrypting
end Tink.Props
