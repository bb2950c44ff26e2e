import Verif.Spec.Interrupted
import Verif.Stream.BufferedLemmas
import Verif.Props.SegmentCrypters

/-!
# Lemmas on encrypting streams that are not closed
-/

namespace Tink.Props
open Spec Io

section Segments
variable {κ ο : Type} {st : COutputStream ο} {inv done : ο → Bytes → Prop}

/-- What of the bytes handed over has left the output stream for good. -/
structure Logged (st : COutputStream ο) (inv : ο → Bytes → Prop) (log : ο → Bytes) : Prop where
  seen : ∀ s D, inv s D → log s <+: D
  close : ∀ s D s' r, inv s D → st.close s = some (s', r) → log s' <+: D

theorem writeToStream_failed (h : LawfulOut st inv inv done) :
    ∀ (fuel : Nat) (s : ο) (rem : Bytes) (space bytes : Nat) (D : Bytes),
      inv (if space > bytes then st.backUp s (space - bytes : Nat) else s) D →
      (0 < rem.length → space = bytes) → ∀ {s' x},
      writeToStream st fuel s rem space bytes = some (s', .error x) →
      ∃ d, d <+: rem ∧ inv s' (D ++ d) := by
  intro fuel
  induction fuel with
  | zero => intro s rem space bytes D _ _ s' x hx; cases hx
  | succ fuel ih =>
    intro s rem space bytes D hi hsp s' x hx
    unfold writeToStream at hx
    by_cases hr : 0 < rem.length
    · rw [if_pos hr] at hx
      have he := hsp hr
      subst he
      rw [if_neg (by omega)] at hi
      cases hn : st.next s with
      | none => rw [hn] at hx; cases hx
      | some q =>
        obtain ⟨s1, y⟩ := q
        rw [hn] at hx
        cases y with
        | error e =>
          cases hx
          exact ⟨[], List.nil_prefix, by rw [List.append_nil]; exact h.failed _ _ _ _ hi hn⟩
        | ok k =>
          simp only at hx
          have hlen : (rem.take (min k rem.length)).length = min k rem.length := by
            rw [List.length_take]; omega
          have hput := h.put s D s1 k (rem.take (min k rem.length)) hi hn (by omega)
          unfold OutputStreamAdapter.put at hput
          rw [hlen] at hput
          obtain ⟨d, h1, h2⟩ := ih _ (rem.drop (min k rem.length)) k (min k rem.length)
            (D ++ rem.take (min k rem.length)) (by
              by_cases hlt : min k rem.length < k
              · rw [if_pos hlt] at hput; rw [if_pos hlt]; exact hput
              · rw [if_neg hlt] at hput; rw [if_neg hlt]; exact hput)
            (by rw [List.length_drop]; omega) hx
          refine ⟨rem.take (min k rem.length) ++ d, ?_, by rw [← List.append_assoc]; exact h2⟩
          obtain ⟨z, hz⟩ := h1
          exact ⟨z, by rw [List.append_assoc, hz, List.take_append_drop]⟩
    · rw [if_neg hr] at hx
      cases hx

namespace Encrypting
open EncryptingStream

variable {se : SegmentEncrypter κ}

/-- Some segments have been encrypted, none as the last one, and the destination has been given some of the
first bytes of the ciphertext. -/
def Partly (se : SegmentEncrypter κ) (k k' : κ) (P : Bytes) (given : Bytes → Prop) : Prop :=
  ∃ bs cs, EncryptedSoFar se k bs cs k' ∧ bs.flatten <+: P ∧
    ∃ D, given D ∧ D <+: se.header ++ cs.flatten

/-- A failure has occurred before the last segment was encrypted. -/
def Stopped (se : SegmentEncrypter κ) (k : κ) (inv : ο → Bytes → Prop) (e : EncryptingStream κ ο)
    (P : Bytes) : Prop :=
  e.status ≠ none ∧ Partly se k e.encrypter P (inv e.dest)

theorem emit_failed (h : LawfulOut st inv inv done) {k : κ} {bs cs : List Bytes} {fuel : Nat}
    {e e' : EncryptingStream κ ο} {pt P : Bytes} (hem : Emitted se k bs cs e.encrypter)
    (hi : inv e.dest (se.header ++ cs.flatten)) (hP : (bs ++ [pt]).flatten <+: P)
    (hx : emit se st fuel e pt false = some e') (hs : e'.status ≠ none) : Stopped se k inv e' P := by
  refine ⟨hs, ?_⟩
  unfold emit at hx
  cases hq : se.encryptSegment e.encrypter pt false with
  | mk k' x =>
    rw [hq] at hx
    cases x with
    | error y =>
      cases hx
      refine ⟨bs, cs, ⟨_, hem, .inr ⟨pt, false, y, hq⟩⟩, ?_, _, hi, List.prefix_refl _⟩
      refine List.IsPrefix.trans ?_ hP
      rw [List.flatten_append]
      exact List.prefix_append _ _
    | ok c =>
      simp only at hx
      cases hw : writeToStream st fuel e.dest c 0 0 with
      | none => rw [hw] at hx; cases hx
      | some q =>
        obtain ⟨s, y⟩ := q
        rw [hw] at hx
        cases y with
        | ok u => cases hx; exact absurd rfl hs
        | error z =>
          cases hx
          obtain ⟨d, h1, h2⟩ := writeToStream_failed h fuel _ _ 0 0 _ (by simpa using hi)
            (fun _ => rfl) hw
          refine ⟨bs ++ [pt], cs ++ [c], ⟨_, .more hem hq, .inl rfl⟩, hP, _, h2, ?_⟩
          simp only [List.flatten_append, List.flatten_singleton, ← List.append_assoc]
          exact (List.prefix_append_right_inj _).mpr h1

theorem emitHeader_failed (h : LawfulOut st inv inv done) {k : κ} {fuel : Nat}
    {e e' : EncryptingStream κ ο} {P : Bytes} (hk : e.encrypter = k) (hi : inv e.dest [])
    (hx : emitHeader se st fuel e = some e') (hs : e'.status ≠ none) : Stopped se k inv e' P := by
  refine ⟨hs, ?_⟩
  unfold emitHeader at hx
  cases hw : writeToStream st fuel e.dest se.header 0 0 with
  | none => rw [hw] at hx; cases hx
  | some q =>
    obtain ⟨s, y⟩ := q
    rw [hw] at hx
    cases y with
    | ok u => cases hx; exact absurd rfl hs
    | error z =>
      cases hx
      obtain ⟨d, h1, h2⟩ := writeToStream_failed h fuel _ _ 0 0 _ (by simpa using hi) (fun _ => rfl) hw
      exact ⟨[], [], ⟨k, .start, .inl hk⟩, List.nil_prefix, _, h2, by simpa using h1⟩

/-- What a new encrypter has emitted nothing with. -/
theorem emitted_nil {k k' : κ} {bs cs : List Bytes} (h : Emitted se k bs cs k') (hb : bs = []) : k' = k := by
  cases h with
  | start => rfl
  | more _ _ => simp at hb

/-- As `C67_encrypting_stream`, and what is known after a failure. -/
theorem stopping (h : LawfulOut st inv inv done) (k : κ) (hf : 0 < firstSegmentSize se)
    (ho : 0 ≤ se.ciphertextOffset) (fuel : Nat) :
    LawfulOut (EncryptingStream.stream se st fuel) (fun e P => ∃ bs cs, EncInv se k inv bs cs e P)
      (Stopped se k inv) (fun e P => ∃ C, EncryptionOf se k P C ∧ done e.dest C) := by
  have h0 := C67_encrypting_stream h k hf ho fuel (se := se)
  refine ⟨h0.put, ?_, h0.close⟩
  rintro e P e' x ⟨bs, cs, hi⟩ hx
  obtain ⟨hs, hemit, hsizes, hP, hback, hst⟩ := hi
  simp only [EncryptingStream.stream, EncryptingStream.next, hs] at hx
  rcases hst with ⟨f1, f2, f3, f4, f5, f6, f7, f8⟩ | ⟨f1, f2, f3⟩
  · rw [if_pos f1] at hx
    cases hh : emitHeader se st fuel
        { e with isFirst := false, countBackedUp := 0, status := none } with
    | none => rw [hh] at hx; cases hx
    | some e1 =>
      rw [hh] at hx
      simp only at hx
      cases hs1 : e1.status with
      | none => rw [hs1] at hx; cases hx
      | some y =>
        rw [hs1] at hx
        cases hx
        refine emitHeader_failed (P := P) h ?_ (by exact f8) hh (by simp [hs1])
        exact emitted_nil hemit f2
  · rw [if_neg (by simp [f1])] at hx
    by_cases hb : 0 < e.countBackedUp
    · rw [if_pos hb] at hx; cases hx
    · rw [if_neg hb] at hx
      by_cases hpt : e.ptToEncrypt.isEmpty = true
      · rw [if_pos hpt] at hx
        simp only [hs] at hx
        cases hx
      · rw [if_neg hpt] at hx
        cases hem : emit se st fuel e e.ptToEncrypt false with
        | none => rw [hem] at hx; cases hx
        | some e1 =>
          rw [hem] at hx
          simp only at hx
          cases hs1 : e1.status with
          | none => rw [hs1] at hx; cases hx
          | some y =>
            rw [hs1] at hx
            cases hx
            refine emit_failed h hemit f2 ?_ hem (by simp [hs1])
            rw [hP]
            simp only [List.flatten_append, List.flatten_singleton]
            exact List.prefix_append _ _

variable {log : ο → Bytes}

/-- What the destination has once `Close` was called. -/
def Closing (se : SegmentEncrypter κ) (k k' : κ) (P L : Bytes) : Prop :=
  Partly se k k' P (· = L) ∨ ∃ C, EncryptionOf se k P C ∧ L <+: C

theorem stopped_closing (hlog : Logged st inv log) {k : κ} {e : EncryptingStream κ ο} {P : Bytes}
    (h : Stopped se k inv e P) : Partly se k e.encrypter P (· = log e.dest) := by
  obtain ⟨-, bs, cs, h1, h2, D, h3, h4⟩ := h
  exact ⟨bs, cs, h1, h2, _, rfl, (hlog.seen _ _ h3).trans h4⟩

theorem abandon_closing (hlog : Logged st inv log) {k : κ} {e e' : EncryptingStream κ ο} {P : Bytes}
    {x : Status} {r : StatusOr Unit} (h : Stopped se k inv e P) (hx : abandon st e x = some (e', r)) :
    Partly se k e'.encrypter P (· = log e'.dest) := by
  unfold abandon at hx
  cases hc : st.close e.dest with
  | none => rw [hc] at hx; cases hx
  | some q =>
    obtain ⟨s, y⟩ := q
    rw [hc] at hx
    cases hx
    obtain ⟨-, bs, cs, h1, h2, D, h3, h4⟩ := h
    exact ⟨bs, cs, h1, h2, _, rfl, (hlog.close _ _ _ _ h3 hc).trans h4⟩

theorem finish_closing (h : LawfulOut st inv inv done) (hlog : Logged st inv log) {k : κ} {fuel : Nat}
    {e e' : EncryptingStream κ ο} {bs cs : List Bytes} {last P : Bytes} {r : StatusOr Unit}
    (hemit : Emitted se k bs cs e.encrypter)
    (hdiv : Divided (fOf se) (nOf se) P bs last)
    (hdest : inv e.dest (se.header ++ cs.flatten))
    (hx : finish se st fuel e last = some (e', r)) : Closing se k e'.encrypter P (log e'.dest) := by
  unfold finish emit at hx
  have hpre : bs.flatten <+: P := by rw [hdiv.content]; exact List.prefix_append _ _
  cases hq : se.encryptSegment e.encrypter last true with
  | mk k' y =>
    rw [hq] at hx
    cases y with
    | error y =>
      exact .inl (abandon_closing hlog
        (e := { e with encrypter := k', status := some y })
        ⟨by simp, bs, cs, ⟨_, hemit, .inr ⟨last, true, y, hq⟩⟩, hpre, _, hdest, List.prefix_refl _⟩ hx)
    | ok c =>
      have hC : EncryptionOf se k P (se.header ++ (cs ++ [c]).flatten) :=
        ⟨bs, last, cs, _, k', c, hdiv, hemit, hq, rfl⟩
      simp only at hx
      cases hw : writeToStream st fuel e.dest c 0 0 with
      | none => rw [hw] at hx; cases hx
      | some q =>
        obtain ⟨s, z⟩ := q
        rw [hw] at hx
        have hfin : ∀ {d s'} {r' : StatusOr Unit}, d <+: c → inv s (se.header ++ cs.flatten ++ d) →
            st.close s = some (s', r') → log s' <+: se.header ++ (cs ++ [c]).flatten := by
          intro d s' r' h1 h2 hcl
          refine (hlog.close _ _ _ _ h2 hcl).trans ?_
          simp only [List.flatten_append, List.flatten_singleton, ← List.append_assoc]
          exact (List.prefix_append_right_inj _).mpr h1
        cases z with
        | error z =>
          simp only [abandon] at hx
          obtain ⟨d, h1, h2⟩ := writeToStream_failed h fuel _ _ 0 0 _ (by simpa using hdest)
            (fun _ => rfl) hw
          cases hcl : st.close s with
          | none => rw [hcl] at hx; cases hx
          | some q =>
            obtain ⟨s', r'⟩ := q
            rw [hcl] at hx
            cases hx
            exact .inr ⟨_, hC, hfin h1 h2 hcl⟩
        | ok u =>
          simp only at hx
          have h2 := writeToStream_ok h hdest hw
          cases hcl : st.close s with
          | none => rw [hcl] at hx; cases hx
          | some q =>
            obtain ⟨s', r'⟩ := q
            rw [hcl] at hx
            cases hx
            exact .inr ⟨_, hC, hfin (List.prefix_refl _) h2 hcl⟩

theorem closeSegments_closing (h : LawfulOut st inv inv done) (hlog : Logged st inv log) (hn : 0 < nOf se)
    (hf : 0 < fOf se) {k : κ} {bs cs : List Bytes} {fuel : Nat} {e e' : EncryptingStream κ ο} {P : Bytes}
    {r : StatusOr Unit} (hemit : Emitted se k bs cs e.encrypter)
    (hsizes : ∀ j, ∀ h : j < bs.length, bs[j].length = if j = 0 then fOf se else nOf se)
    (hP : P = bs.flatten ++ e.ptToEncrypt ++
      e.ptBuffer.take (e.ptBuffer.length - e.countBackedUp))
    (hdest : inv e.dest (se.header ++ cs.flatten))
    (hst : (bs = [] ∧ e.ptToEncrypt = [] ∧ e.ptBuffer.length = fOf se) ∨
       (e.ptToEncrypt.length = (if bs = [] then fOf se else nOf se) ∧ e.ptBuffer.length = nOf se))
    (hx : closeSegments se st fuel e = some (e', r)) : Closing se k e'.encrypter P (log e'.dest) := by
  unfold closeSegments at hx
  by_cases hlt : e.countBackedUp < e.ptBuffer.length
  · have hne : e.ptBuffer.isEmpty = false := by
      cases hb : e.ptBuffer with
      | nil => rw [hb] at hlt; simp at hlt
      | cons _ _ => rfl
    have hres : resize e.ptBuffer (e.ptBuffer.length - e.countBackedUp) =
        e.ptBuffer.take (e.ptBuffer.length - e.countBackedUp) := by
      unfold resize
      rw [show e.ptBuffer.length - e.countBackedUp - e.ptBuffer.length = 0 by omega]
      simp
    have hne' : e.ptBuffer.take (e.ptBuffer.length - e.countBackedUp) ≠ [] := by
      intro h0
      have := congrArg List.length h0
      rw [List.length_take, List.length_nil] at this
      omega
    have hle : (e.ptBuffer.take (e.ptBuffer.length - e.countBackedUp)).length ≤
        e.ptBuffer.length := by rw [List.length_take]; omega
    rw [if_pos (by simp [hne, hlt])] at hx
    simp only [hres] at hx
    by_cases hpt : e.ptToEncrypt.isEmpty = true
    · rw [if_neg (by simp [hpt])] at hx
      have hpt' := List.isEmpty_iff.mp hpt
      have hbs : bs = [] ∧ e.ptBuffer.length = fOf se := by
        rcases hst with ⟨g1, -, g3⟩ | ⟨g1, -⟩
        · exact ⟨g1, g3⟩
        · rw [hpt', List.length_nil] at g1
          by_cases hbs : bs = []
          · rw [if_pos hbs] at g1; omega
          · rw [if_neg hbs] at g1; omega
      refine finish_closing (e := { e with
        ptBuffer := e.ptBuffer.take (e.ptBuffer.length - e.countBackedUp) }) h hlog hemit
        ⟨?_, hsizes, ?_, fun h0 => absurd hbs.1 h0⟩ hdest hx
      · rw [hP, hpt']; simp
      · rw [if_pos hbs.1, ← hbs.2]; exact hle
    · rw [if_pos (by simp [hpt])] at hx
      have hpt' : e.ptToEncrypt ≠ [] := fun h0 => hpt (by rw [h0]; rfl)
      have hst' : e.ptToEncrypt.length = (if bs = [] then fOf se else nOf se) ∧
          e.ptBuffer.length = nOf se := by
        rcases hst with ⟨-, g2, -⟩ | g
        · exact absurd g2 hpt'
        · exact g
      cases hem : emit se st fuel { e with
        ptBuffer := e.ptBuffer.take (e.ptBuffer.length - e.countBackedUp) } e.ptToEncrypt false with
      | none => rw [hem] at hx; cases hx
      | some e1 =>
        rw [hem] at hx
        simp only at hx
        cases hs1 : e1.status with
        | some y =>
          rw [hs1] at hx
          refine .inl (abandon_closing hlog (emit_failed (e := { e with
            ptBuffer := e.ptBuffer.take (e.ptBuffer.length - e.countBackedUp) }) (pt := e.ptToEncrypt)
            h hemit hdest ?_ hem (by simp [hs1])) hx)
          rw [hP]
          simp only [List.flatten_append, List.flatten_singleton]
          exact List.prefix_append _ _
        | none =>
          rw [hs1] at hx
          obtain ⟨k1, c, g1, g2, g3⟩ := emit_spec (e := { e with
            ptBuffer := e.ptBuffer.take (e.ptBuffer.length - e.countBackedUp) }) h hdest hem hs1
          have hb1 : e1.ptBuffer = e.ptBuffer.take (e.ptBuffer.length - e.countBackedUp) := by
            rw [g3]
          refine finish_closing (bs := bs ++ [e.ptToEncrypt]) (cs := cs ++ [c]) h hlog
            (by rw [g3]; exact .more hemit g1)
            ⟨?_, sizes_snoc hsizes hst'.1, ?_, ?_⟩ (by simpa using g2) hx
          · rw [hP, hb1]; simp
          · rw [if_neg (by simp), hb1, ← hst'.2]; exact hle
          · intro _; rw [hb1]; exact hne'
  · rw [if_neg (by simp; omega)] at hx
    have hz : e.ptBuffer.length - e.countBackedUp = 0 := by omega
    rw [hz, List.take_zero, List.append_nil] at hP
    refine finish_closing h hlog hemit ⟨hP, hsizes, ?_, ?_⟩ hdest hx
    · rcases hst with ⟨g1, g2, -⟩ | ⟨g1, -⟩
      · rw [g2]; exact Nat.zero_le _
      · omega
    · intro hne
      rcases hst with ⟨g1, -, -⟩ | ⟨g1, -⟩
      · exact absurd g1 hne
      · rw [if_neg hne] at g1
        intro h0
        rw [h0] at g1
        simp at g1
        omega

/-- `Close`, with any result. -/
theorem close_closing (h : LawfulOut st inv inv done) (hlog : Logged st inv log) {k : κ}
    (hf : 0 < firstSegmentSize se) (ho : 0 ≤ se.ciphertextOffset) {fuel : Nat}
    {e e' : EncryptingStream κ ο} {P : Bytes} {r : StatusOr Unit}
    (hi : (∃ bs cs, EncInv se k inv bs cs e P) ∨ Stopped se k inv e P)
    (hx : close se st fuel e = some (e', r)) : Closing se k e'.encrypter P (log e'.dest) := by
  have hf' : 0 < fOf se := by unfold fOf; omega
  have hn' : 0 < nOf se := by
    unfold firstSegmentSize at hf; unfold nOf; omega
  unfold EncryptingStream.close at hx
  rcases hi with ⟨bs, cs, hs, hemit, hsizes, hP, hback, hst⟩ | hi
  · rw [hs] at hx
    simp only at hx
    rcases hst with ⟨f1, f2, f3, f4, f5, f6, f7, f8⟩ | ⟨f1, f2, f3⟩
    · rw [if_pos f1] at hx
      cases hh : emitHeader se st fuel e with
      | none => rw [hh] at hx; cases hx
      | some e1 =>
        rw [hh] at hx
        simp only at hx
        cases hs1 : e1.status with
        | some y =>
          rw [hs1] at hx
          cases hx
          exact .inl (stopped_closing hlog
            (emitHeader_failed h (emitted_nil hemit f2) f8 hh (by simp [hs1])))
        | none =>
          rw [hs1] at hx
          obtain ⟨g1, g2⟩ := emitHeader_spec h f8 hh hs1
          refine closeSegments_closing h hlog hn' hf' (bs := bs) (cs := cs) (e := e1)
            (by rw [g2]; exact hemit) hsizes (by rw [g2]; exact hP) ?_ ?_ hx
          · rw [f3]; simpa using g1
          · rw [g2]; exact .inl ⟨f2, f4, f5⟩
    · rw [if_neg (by simp [f1])] at hx
      exact closeSegments_closing h hlog hn' hf' hemit hsizes hP f2 f3 hx
  · cases hs : e.status with
    | none => exact absurd hs hi.1
    | some y =>
      rw [hs] at hx
      cases hx
      exact .inl (stopped_closing hlog hi)

/-- As long as there was no failure. -/
theorem encInv_partly (hlog : Logged st inv log) {k : κ} {bs cs : List Bytes} {e : EncryptingStream κ ο}
    {P : Bytes} (h : EncInv se k inv bs cs e P) : Partly se k e.encrypter P (· = log e.dest) := by
  obtain ⟨hs, hemit, hsizes, hP, hback, hst⟩ := h
  refine ⟨bs, cs, ⟨_, hemit, .inl rfl⟩, ?_, _, rfl, ?_⟩
  · rw [hP, List.append_assoc]; exact List.prefix_append _ _
  · rcases hst with ⟨-, -, -, -, -, -, -, f8⟩ | ⟨-, f2, -⟩
    · exact (hlog.seen _ _ f8).trans List.nil_prefix
    · exact hlog.seen _ _ f2

theorem partly_mono {k k' : κ} {P P' : Bytes} {given : Bytes → Prop} (h : Partly se k k' P given)
    (hP : P <+: P') : Partly se k k' P' given := by
  obtain ⟨bs, cs, h1, h2, h3⟩ := h
  exact ⟨bs, cs, h1, h2.trans hP, h3⟩

end Encrypting
end Segments

/-! ## The Python streams -/

section Writing
variable {κ ν σ : Type} {snk : CSink σ}

theorem python_logged (hk : Honest snk) (fuel : Nat) :
    Logged (PythonOutputStream.stream (recordedSink snk) fuel)
      (fun p P => OutputOk p ∧ committedOf p = P) (fun p => p.adapter.2) := by
  constructor
  · rintro p D ⟨-, rfl⟩
    exact List.prefix_append _ _
  · rintro p D p' r ⟨hok, rfl⟩ hc
    have hc' : p.close (recordedSink snk) fuel = some (p', r) := hc
    cases hs : p.status with
    | none =>
      obtain ⟨last, ho⟩ := hok hs
      exact (close_spec hk ho hs hc').1
    | some e =>
      simp only [PythonOutputStream.close, hs] at hc'
      cases hc'
      exact List.prefix_append _ _

/-- What a Python output stream has been given. -/
abbrev Given (p : PythonOutputStream (σ × Bytes)) (P : Bytes) : Prop := OutputOk p ∧ committedOf p = P

open Encrypting in
/-- What is known until `close()` is called: `all` was offered, and `b` of that is still waiting. -/
def SoFar (se : SegmentEncrypter κ) (k : κ) (t : CcEncrypting κ (σ × Bytes)) (all b : Bytes) : Prop :=
  t.encrypter = se ∧ t.raw.closed = false ∧
    ((∃ P, (∃ bs cs, EncInv se k Given bs cs t.raw.adapter P) ∧ P ++ b = all) ∨
      ∃ P, Stopped se k Given t.raw.adapter P ∧ P <+: all)

variable {se : SegmentEncrypter κ} {k : κ}

open Encrypting in
theorem write_soFar (hk : Honest snk) (hf : 0 < EncryptingStream.firstSegmentSize se)
    (ho : 0 ≤ se.ciphertextOffset) {t t' : CcEncrypting κ (σ × Bytes)} {all b c : Bytes} {r : Py Nat}
    (h : SoFar se k t all b) (hc : c <+: b) (hmax : c.length < 2 ^ 31)
    (hw : CcEncrypting.RawWrite (recordedSink snk) t c t' r) :
    (∀ n, r = .ok n → n ≤ c.length → SoFar se k t' all (b.drop n)) ∧
    (∀ e b', r = .error e → SoFar se k t' all b') := by
  obtain ⟨h1, h2, h3⟩ := h
  obtain ⟨fuel, hw⟩ := hw
  unfold CcEncrypting.write CcEncrypting.stream at hw
  rw [h1] at hw
  have hlaw := stopping (C56_lawful hk fuel) (se := se) k hf ho fuel
  cases hx : t.raw.write (EncryptingStream.stream se
      (PythonOutputStream.stream (recordedSink snk) fuel) fuel) fuel (.bytesLike c) with
  | none => rw [hx] at hw; cases hw
  | some q =>
    obtain ⟨raw, x⟩ := q
    rw [hx] at hw
    simp only [Option.map_some, Option.some.injEq, Prod.mk.injEq] at hw
    obtain ⟨rfl, rfl⟩ := hw
    rcases h3 with ⟨P, h3, rfl⟩ | ⟨P, h3, h4⟩
    · obtain ⟨a1, a2⟩ := C56_raw_write hlaw h3 h2 hmax hx
      obtain ⟨z, rfl⟩ := hc
      constructor
      · rintro n rfl hn
        obtain ⟨rfl, a3⟩ := a2
        refine ⟨rfl, a1, .inl ⟨P ++ c, a3, ?_⟩⟩
        simp
      · rintro e b' rfl
        obtain ⟨-, d, a3, a4⟩ := a2
        refine ⟨rfl, a1, .inr ⟨_, a4, ?_⟩⟩
        rw [List.prefix_append_right_inj]
        exact a3.trans (List.prefix_append _ _)
    · have hsame : raw.adapter = t.raw.adapter ∧ raw.closed = false := by
        unfold RawEncryptingStream.write at hx
        rw [if_neg (by simp [h2])] at hx
        simp only at hx
        cases hy : OutputStreamAdapter.write (EncryptingStream.stream se
            (PythonOutputStream.stream (recordedSink snk) fuel) fuel) c fuel t.raw.adapter 0 with
        | none => rw [hy] at hx; cases hx
        | some q =>
          obtain ⟨s, y⟩ := q
          have hs : s = t.raw.adapter := by
            cases hst : t.raw.adapter.status with
            | none => exact absurd hst h3.1
            | some z => exact adapter_sticky (x := z) (status_next hst) hy
          rw [hy] at hx
          cases y with
          | undefined => cases hx
          | returned y => cases y <;> (cases hx; exact ⟨hs, h2⟩)
      have : ∀ b', SoFar se k ⟨se, raw⟩ all b' := fun b' =>
        ⟨rfl, hsame.2, .inr ⟨P, by rw [hsame.1]; exact h3, h4⟩⟩
      exact ⟨fun n _ _ => this _, fun e b' _ => this b'⟩

theorem flushed_soFar (hk : Honest snk) (hf : 0 < EncryptingStream.firstSegmentSize se)
    (ho : 0 ≤ se.ciphertextOffset) {t t1 : CcEncrypting κ (σ × Bytes)} {all buffer rest : Bytes}
    (h : SoFar se k t all buffer)
    (hx : Flushed (CcEncrypting.RawWrite (recordedSink snk)) t buffer t1 rest) : SoFar se k t1 all rest := by
  induction hx with
  | start => exact h
  | more c _ h1 h2 h3 h4 h5 ih => exact (write_soFar hk hf ho ih h1 h3 h4).1 _ rfl h5

theorem soFar_more {t : CcEncrypting κ (σ × Bytes)} {all b : Bytes} (h : SoFar se k t all b) (add : Bytes) :
    SoFar se k t (all ++ add) (b ++ add) := by
  obtain ⟨h1, h2, h3⟩ := h
  refine ⟨h1, h2, ?_⟩
  rcases h3 with ⟨P, h3, rfl⟩ | ⟨P, h3, h4⟩
  · exact .inl ⟨P, h3, by rw [List.append_assoc]⟩
  · exact .inr ⟨P, h3, h4.trans (List.prefix_append _ _)⟩

theorem history_soFar (hk : Honest snk) (hf : 0 < EncryptingStream.firstSegmentSize se)
    (ho : 0 ≤ se.ciphertextOffset) {t0 t : CcEncrypting κ (σ × Bytes)} {ops : List (WriteOp × Py Nat)}
    {b : Bytes} (h0 : SoFar se k t0 [] [])
    (h : WriterHistory (CcEncrypting.RawWrite (recordedSink snk)) t0 ops t b) :
    SoFar se k t (writtenBytes ops) b := by
  induction h with
  | start => exact h0
  | @call ops t1 b1 op r t2 b2 _ hc ih =>
    have hsnoc : ∀ (o : WriteOp × Py Nat), writtenBytes (ops ++ [o]) =
        writtenBytes ops ++ (match o.1 with | .write b => b | .flush => []) := by
      rintro ⟨o, x⟩; cases o <;> simp [writtenBytes]
    rw [hsnoc]
    cases hc with
    | write b hx => exact flushed_soFar hk hf ho (soFar_more ih b) hx
    | flush hx => simpa using flushed_soFar hk hf ho ih hx
    | writeRaised b c buffer' hx h1 h2 h3 =>
      exact (write_soFar hk hf ho (flushed_soFar hk hf ho (soFar_more ih b) hx) h1 h2 h3).2 _ _ rfl
    | flushRaised c buffer' hx h1 h2 h3 =>
      simpa using (write_soFar hk hf ho (flushed_soFar hk hf ho ih hx) h1 h2 h3).2 _ b2 rfl

open Encrypting in
theorem soFar_partly (hk : Honest snk) {t : CcEncrypting κ (σ × Bytes)} {all b : Bytes}
    (h : SoFar se k t all b) : Partly se k t.raw.adapter.encrypter all (· = t.object.2) := by
  obtain ⟨-, -, h⟩ := h
  have hlog := python_logged hk 0
  rcases h with ⟨P, ⟨bs, cs, h⟩, rfl⟩ | ⟨P, h1, h2⟩
  · exact partly_mono (encInv_partly hlog h) (List.prefix_append _ _)
  · exact partly_mono (stopped_closing hlog h1) h2

open Encrypting in
theorem rawClose_closing (hk : Honest snk) (hf : 0 < EncryptingStream.firstSegmentSize se)
    (ho : 0 ≤ se.ciphertextOffset) {t t' : CcEncrypting κ (σ × Bytes)} {all b : Bytes} {r : Py Unit}
    (h : SoFar se k t all b) (hb : b = [] ∨ t.raw.adapter.status ≠ none)
    (hx : CcEncrypting.RawClose (recordedSink snk) t t' r) :
    Closing se k t'.raw.adapter.encrypter all t'.object.2 := by
  obtain ⟨h1, h2, h3⟩ := h
  obtain ⟨fuel, hx⟩ := hx
  unfold CcEncrypting.close CcEncrypting.stream RawEncryptingStream.close at hx
  rw [h1, if_neg (by simp [h2])] at hx
  have hall : ∃ P, ((∃ bs cs, EncInv se k Given bs cs t.raw.adapter P) ∧ P = all) ∨
      (Stopped se k Given t.raw.adapter P ∧ P <+: all) := by
    rcases h3 with ⟨P, ⟨bs, cs, h3⟩, h4⟩ | ⟨P, h3, h4⟩
    · rcases hb with rfl | hb
      · exact ⟨P, .inl ⟨⟨bs, cs, h3⟩, by simpa using h4⟩⟩
      · exact absurd h3.status hb
    · exact ⟨P, .inr ⟨h3, h4⟩⟩
  obtain ⟨P, hall⟩ := hall
  have key : ∀ e' r', EncryptingStream.close se (PythonOutputStream.stream (recordedSink snk) fuel) fuel
      t.raw.adapter = some (e', r') → Closing se k e'.encrypter all e'.dest.adapter.2 := by
    intro e' r' hc
    rcases hall with ⟨g1, rfl⟩ | ⟨g1, g2⟩
    · exact close_closing (C56_lawful hk fuel) (python_logged hk fuel) hf ho (.inl g1) hc
    · rcases close_closing (C56_lawful hk fuel) (python_logged hk fuel) hf ho (.inr g1) hc with g | g
      · exact .inl (partly_mono g g2)
      · cases hst : t.raw.adapter.status with
        | none => exact absurd hst g1.1
        | some y =>
          simp only [EncryptingStream.close, hst] at hc
          cases hc
          exact .inl (partly_mono (stopped_closing (python_logged hk fuel) g1) g2)
  cases hc : EncryptingStream.close se (PythonOutputStream.stream (recordedSink snk) fuel) fuel
      t.raw.adapter with
  | none =>
    simp only [EncryptingStream.stream, hc, Option.map_none] at hx
    cases hx
  | some q =>
    obtain ⟨e', r'⟩ := q
    have := key e' r' hc
    simp only [EncryptingStream.stream, hc] at hx
    cases r' with
    | error y => cases hx; exact this
    | ok u => cases hx; exact this

/-- `close()` of the buffered writer, with any result. -/
theorem bufferedClose_closing (hk : Honest snk) (hf : 0 < EncryptingStream.firstSegmentSize se)
    (ho : 0 ≤ se.ciphertextOffset) {t t' : CcEncrypting κ (σ × Bytes)} {all b : Bytes} {r : Py Unit}
    (h : SoFar se k t all b)
    (hx : BufferedClose (CcEncrypting.RawWrite (recordedSink snk)) (CcEncrypting.RawClose (recordedSink snk))
      t b t' r) : Encrypting.Closing se k t'.raw.adapter.encrypter all t'.object.2 := by
  cases hx with
  | closed h1 h2 => exact rawClose_closing hk hf ho (flushed_soFar hk hf ho h h1) (.inl rfl) h2
  | failed c e' h1 h2 h3 h4 h5 =>
    have g := flushed_soFar hk hf ho h h1
    have g1 := (write_soFar hk hf ho g h2 h3 h4).2 _ [] rfl
    exact rawClose_closing hk hf ho g1 (.inl rfl) h5

/-- A new stream. -/
theorem new_soFar {p : NonceBased κ ν}
    (hp : ∀ seed ad se k, p.newSegmentEncrypter seed ad = .ok (se, k) → 0 ≤ se.ciphertextOffset) {seed : Seed} {s0 : σ} {buffer ad : Bytes}
    {t : CcEncrypting κ (σ × Bytes)}
    (ht : p.newRawEncryptingStream seed ⟨true, (s0, []), buffer⟩ ad = .ok t) :
    ∃ se k, p.newSegmentEncrypter seed ad = .ok (se, k) ∧ 0 < EncryptingStream.firstSegmentSize se ∧
      0 ≤ se.ciphertextOffset ∧ SoFar se k t [] [] := by
  unfold NonceBased.newRawEncryptingStream NonceBased.newEncryptingStream at ht
  simp only [if_true] at ht
  cases hq : p.newSegmentEncrypter seed ad with
  | error e => rw [hq] at ht; cases ht
  | ok q =>
    obtain ⟨se, k⟩ := q
    rw [hq] at ht
    cases hn : EncryptingStream.new se k (PythonOutputStream.new (s0, ([] : Bytes)) buffer) with
    | error e => simp only [bind, Except.bind, hn] at ht; cases ht
    | ok e =>
      simp only [bind, Except.bind, hn] at ht
      cases ht
      have hoff := hp _ _ _ _ hq
      obtain ⟨hf, hinv⟩ := Encrypting.new_inv
        (inv := fun (p : PythonOutputStream (σ × Bytes)) P => OutputOk p ∧ committedOf p = P)
        (by
          refine ⟨?_, rfl⟩
          intro _
          exact ⟨0, open_new s0 buffer⟩) hn
      exact ⟨se, k, rfl, hf, hoff, rfl, rfl, .inl ⟨[], ⟨_, _, hinv⟩, rfl⟩⟩

end Writing

/-! ## Reading what there is -/

section Reading
variable {κ ν σd : Type} {sd : SegmentDecrypter ν} {v : ν} {text : Exc → Bool} {p : NonceBased κ ν}

/-- A source that delivers the start of a message, or something with its header. -/
theorem reads_own {ad buffer D header X : Bytes} (hb : buffer ≠ [])
    (hd : p.newSegmentDecrypter ad = .ok (sd, v)) (hs : Sober sd) {segs : List Bytes} (hne : segs ≠ [])
    (hh : sd.headerSize = header.length) (hpos : header ≠ [])
    (ha : ∀ v', sd.init v header = (v', .ok ()) → AcceptsOnly sd v' segs) (hD : D <+: header ++ X) :
    NotCutShort (p.toRaw (σ := σd) text buffer) ad D segs.flatten := by
  intro σ src rest hsrc hst s hsD t ht calls t' s' hses
  obtain ⟨v', a1, a2, a3⟩ := open_ok ht
  rw [hd] at a1
  simp only [Except.ok.injEq, Prod.mk.injEq] at a1
  obtain ⟨rfl, rfl⟩ := a1
  obtain ⟨hl, -⟩ := C55_steady (text := text) hsrc hst rfl
  have hfated : Fated t.decrypter v (PythonInputStream.stream text) src segs
      (PythonInputStream.new () buffer) s := by
    intro fuel s1 i1 out hx v1 hv
    have h0 := readFromStream_spec (R := D) hl ⟨(by
        have := new_ok rest s hb
        rw [hsD] at this
        exact this), (by intro st h; cases h)⟩ (by
        rw [hh]
        have := List.length_pos_iff.mpr hpos
        omega) hx
    obtain ⟨R', h1, h2, -⟩ := h0
    rw [hh, Int.toNat_natCast] at h2
    have hpre : out <+: header ++ X := List.IsPrefix.trans ⟨R', h1.symm⟩ hD
    have : out = header := by
      obtain ⟨z, hz⟩ := hpre
      exact (List.append_inj hz h2).1
    subst this
    exact ha _ hv
  obtain ⟨-, -, R, -, b1, b2, b3⟩ := session_authentic (parts_fated hs hne) rfl a2
    ((Decrypting.new_fresh hfated a3).2) hses
  exact ⟨⟨R, b1.symm⟩, b2, fun he => by rw [b1, b3 he, List.append_nil]⟩

theorem prefix_of_two {P x : Bytes} (h0 : x <+: P ++ [0]) (h1 : x <+: P ++ [1]) : x <+: P := by
  have hl := h0.length_le
  rw [List.length_append, List.length_singleton] at hl
  rcases Nat.lt_or_ge P.length x.length with h | h
  · have e0 := List.IsPrefix.eq_of_length h0 (by simp; omega)
    have e1 := List.IsPrefix.eq_of_length h1 (by simp; omega)
    have := List.append_cancel_left (e0.symm.trans e1)
    exact absurd this (by decide)
  · exact List.prefix_of_prefix_length_le h0 (List.prefix_append _ _) h

/-- If what is delivered could be the start of two different messages, it is not taken for one. -/
theorem neverComplete_of {δ ε τ : Type} {q : RawStreamingAead δ ε τ} {ad D P : Bytes}
    (h0 : NotCutShort q ad D (P ++ [0])) (h1 : NotCutShort q ad D (P ++ [1])) : NeverComplete q ad D P := by
  intro σ src rest hsrc hst s hs t ht calls t' s' hses
  obtain ⟨a1, a2, a3⟩ := h0 σ src rest hsrc hst s hs t ht calls t' s' hses
  obtain ⟨b1, -, b3⟩ := h1 σ src rest hsrc hst s hs t ht calls t' s' hses
  refine ⟨prefix_of_two a1 b1, fun he => ?_, a2⟩
  have := List.append_cancel_left ((a3 he).symm.trans (b3 he))
  exact absurd this (by decide)

/-- The decrypter accepts, with the header of a message, only its segments. -/
def AcceptsOwn (p : NonceBased κ ν) (ad : Bytes) (ideal : (StreamMessage → Prop) → Prop) : Prop :=
  ∀ msgs m se k sd v, ideal msgs → msgs m → m.ad = ad → p.newSegmentEncrypter m.seed ad = .ok (se, k) →
    p.newSegmentDecrypter ad = .ok (sd, v) →
    Sober sd ∧ sd.headerSize = se.header.length ∧ se.header ≠ [] ∧
    ∀ v', sd.init v se.header = (v', .ok ()) → AcceptsOnly sd v' m.segments

theorem own_notCutShort {ad buffer D X : Bytes} {ideal : (StreamMessage → Prop) → Prop} (hb : buffer ≠ [])
    (h : AcceptsOwn p ad ideal) {seed : Seed} {se : SegmentEncrypter κ} {k : κ}
    (he : p.newSegmentEncrypter seed ad = .ok (se, k)) {msgs : StreamMessage → Prop} {segs : List Bytes}
    (hne : segs ≠ []) (hi : ideal (andOneMore msgs seed ad segs [])) (hD : D <+: se.header ++ X) :
    NotCutShort (p.toRaw (σ := σd) text buffer) ad D segs.flatten := by
  intro σ src rest hsrc hst s hs t ht calls t' s' hses
  obtain ⟨v', a1, -, -⟩ := open_ok ht
  obtain ⟨g1, g2, g3, g4⟩ := h _ ⟨seed, ad, segs⟩ se k _ _ hi
    (.inr (by rw [List.append_nil])) rfl he a1
  exact reads_own (σd := σd) hb a1 g1 hne g2 g3 g4 hD σ src rest hsrc hst s hs t ht calls t' s' hses

theorem own_neverComplete {ad buffer D X : Bytes} {ideal : (StreamMessage → Prop) → Prop} (hb : buffer ≠ [])
    (h : AcceptsOwn p ad ideal) {seed : Seed} {se : SegmentEncrypter κ} {k : κ}
    (he : p.newSegmentEncrypter seed ad = .ok (se, k)) {msgs : StreamMessage → Prop} {bs : List Bytes}
    (hi : ∀ last, ideal (andOneMore msgs seed ad bs [last])) (hD : D <+: se.header ++ X) :
    NeverComplete (p.toRaw (σ := σd) text buffer) ad D bs.flatten := by
  have key : ∀ z, NotCutShort (p.toRaw (σ := σd) text buffer) ad D (bs.flatten ++ [z]) := by
    intro z
    have := own_notCutShort (σd := σd) (text := text) (msgs := msgs) hb h he (segs := bs ++ [[z]]) (by simp)
      (by have := hi [z]; unfold andOneMore at this ⊢; rw [List.append_nil]; exact this) hD
    simpa using this
  exact neverComplete_of (key 0) (key 1)

/-- From any source. -/
theorem fromOneOf_unfinished {msgs : Bytes → Prop} {P : Bytes} {calls : Calls}
    (h : ∀ z, FromOneOf (fun x => msgs x ∨ x = P ++ [z]) calls) :
    FromOneOf msgs calls ∨ Unfinished P calls := by
  obtain ⟨a1, a2⟩ := h 0
  rcases a2 with a2 | ⟨x, hx, a3, a4⟩
  · exact .inl ⟨a1, .inl a2⟩
  rcases hx with hx | rfl
  · exact .inl ⟨a1, .inr ⟨x, hx, a3, a4⟩⟩
  obtain ⟨-, b2⟩ := h 1
  rcases b2 with b2 | ⟨y, hy, b3, b4⟩
  · exact .inl ⟨a1, .inl b2⟩
  rcases hy with hy | rfl
  · exact .inl ⟨a1, .inr ⟨y, hy, b3, b4⟩⟩
  refine .inr ⟨prefix_of_two a3 b3, ?_, a1⟩
  rintro ⟨c, hc, hz, hd⟩
  obtain ⟨pre, post, rfl⟩ := List.append_of_mem hc
  have := (a4 pre c post rfl hz hd).symm.trans (b4 pre c post rfl hz hd)
  exact absurd (List.append_cancel_left this) (by decide)

end Reading

/-! ## The two kinds of keys -/

theorem Gcm.accepts_own {lib : SegmentLibrary} (hl : SoundLibrary lib) {p : AesGcmHkdf.Params}
    {np : NonceBased Nat Segment.State} (h : AesGcmHkdf.new lib p = .ok np) (ad : Bytes) :
    AcceptsOwn np ad (GcmIdeal lib p ad) := by
  obtain ⟨rfl, -, -, -, h4, -⟩ := Gcm.new_ok h
  intro msgs m se k sd v hi hm had he hd
  obtain ⟨key, hk, rfl, rfl, -, -, -⟩ := Gcm.newSegmentEncrypter_ok hl he
  obtain ⟨rfl, rfl⟩ := Gcm.newSegmentDecrypter_ok hd
  have hs := hl.random m.seed p.derivedKeySize.toNat
  have hx := hl.random' m.seed 7
  refine ⟨Gcm.sober ad, ?_, by simp [AesGcmHkdf.encrypter, Segment.makeHeader], ?_⟩
  · show 1 + p.derivedKeySize + Segment.noncePrefixSize = ((Segment.makeHeader _ _).length : Int)
    rw [makeHeader_length, hs, hx]
    simp only [Segment.noncePrefixSize]; omega
  · intro v' hv c j last b hb
    rw [Gcm.init_eq] at hv
    have h5 := Gcm.init_header (lib := lib) (p := p) (ad := ad) (by omega) hx (by omega) hk
    obtain rfl : some (lib.random' m.seed 7, key, []) = v' := (Prod.mk.inj (h5.symm.trans hv)).1
    rw [Gcm.dec_eq] at hb
    obtain ⟨x', key', k', hv', htm, hdec⟩ := Gcm.decryptSegment_ok hb
    obtain ⟨rfl, rfl, -⟩ : lib.random' m.seed 7 = x' ∧ key = key' ∧ [] = k' := by simpa using hv'
    obtain ⟨m', hm', hmk', j', hat⟩ := hi.unforgeable _ _ _ _ _ hk hdec
    have hn := at_nonce hat
    obtain ⟨hj, hj2, hb', -⟩ := hat
    obtain ⟨g1, g2, g3⟩ := nonce_inj (by rw [hl.random', hl.random']) (not_tooMany htm) hj2 hn
    have := hi.fresh _ _ _ hm hm' (by rw [had]; exact hk) hmk' g1
    subst this
    subst g2
    exact ⟨hj, hb', by simp [g3]⟩

theorem Ctr.accepts_own {lib : SegmentLibrary} (hl : SoundLibrary lib) {p : AesCtrHmac.Params}
    {np : NonceBased Nat Segment.State} (h : AesCtrHmac.new lib p = .ok np) (ad : Bytes) :
    AcceptsOwn np ad (CtrHmacIdeal lib p ad) := by
  obtain ⟨rfl, hval⟩ := Ctr.new_ok h
  obtain ⟨-, -, h4, -⟩ := Ctr.validate_ok hval
  intro msgs m se k sd v hi hm had he hd
  obtain ⟨key, hk, hkd, hmac, rfl, rfl⟩ := Ctr.newSegmentEncrypter_ok he
  have hd : AesCtrHmac.newSegmentDecrypter lib p ad = .ok (sd, v) := hd
  rw [Ctr.newSegmentDecrypter_eq hval] at hd
  simp only [Except.ok.injEq, Prod.mk.injEq] at hd
  obtain ⟨rfl, rfl⟩ := hd
  have hs := hl.random m.seed p.keySize.toNat
  have hx := hl.random' m.seed 7
  refine ⟨Ctr.sober ad, ?_, by simp [AesCtrHmac.encrypter, Segment.makeHeader], ?_⟩
  · show 1 + p.keySize + Segment.noncePrefixSize = ((Segment.makeHeader _ _).length : Int)
    rw [makeHeader_length, hs, hx]
    simp only [Segment.noncePrefixSize]; omega
  · intro v' hv c j last b hb
    rw [Ctr.init_eq] at hv
    have h5 := Ctr.init_header (lib := lib) (p := p) (ad := ad) (by omega) hx (by omega) hkd hmac
    obtain rfl : some (lib.random' m.seed 7, key, hk) = v' := (Prod.mk.inj (h5.symm.trans hv)).1
    rw [Ctr.dec_eq] at hb
    have hkeys := (Ctr.deriveKeys_ok hl hkd).1
    obtain ⟨x', key', hk', hv', htm, ht, hdec⟩ := Ctr.decryptSegment_ok hb
    obtain ⟨rfl, rfl, rfl⟩ : lib.random' m.seed 7 = x' ∧ key = key' ∧ hk = hk' := by simpa using hv'
    obtain ⟨m', key', hm', hmk, j', n, b', c', hat, henc, hdata⟩ := hi.unforgeable _ _ _ _ _ hkeys ht
    have hn := at_nonce hat
    obtain ⟨hj, hj2, hb', -⟩ := hat
    have hsplit := List.append_inj hdata (by
      rw [Ctr.nonceForSegment_length, hx, hn, List.length_append, nonce_length, hl.random']; rfl)
    have hn2 : AesCtrHmac.nonceForSegment (lib.random' m.seed 7) j last =
        AesCtrHmac.nonceForSegment (lib.random' m'.seed 7) j' (decide (j' + 1 = m'.segments.length)) := by
      rw [hsplit.1, hn]; rfl
    obtain ⟨g1, g2, g3⟩ := Ctr.nonceForSegment_inj (by rw [hx, hl.random']) (not_tooMany htm) hj2 hn2
    subst g2
    have := hi.fresh _ _ _ _ _ hm hm' (by rw [had]; exact hkeys) hmk g1
    subst this
    refine ⟨hj, ?_, by simp [g3]⟩
    have hkk := (hi.separate _ _ _ _ _ hm hmk hkeys).2
    subst hkk
    rw [hsplit.1, hsplit.2, hl.ctrSame _ _ _ _ henc] at hdec
    rw [← hb']
    simpa using hdec.symm

theorem Gcm.offset {lib : SegmentLibrary} (hl : SoundLibrary lib) {p : AesGcmHkdf.Params}
    {np : NonceBased Nat Segment.State} (h : AesGcmHkdf.new lib p = .ok np) (seed : Seed) (ad : Bytes)
    (se : SegmentEncrypter Nat) (k : Nat) (he : np.newSegmentEncrypter seed ad = .ok (se, k)) :
    0 ≤ se.ciphertextOffset := by
  obtain ⟨rfl, hx⟩ := Gcm.new_ok h
  obtain ⟨key, hk, rfl, rfl, hx2⟩ := Gcm.newSegmentEncrypter_ok hl he
  show 0 ≤ p.ciphertextOffset
  omega

theorem Gcm.start_zero {lib : SegmentLibrary} (hl : SoundLibrary lib) {p : AesGcmHkdf.Params}
    {np : NonceBased Nat Segment.State} (h : AesGcmHkdf.new lib p = .ok np) {seed : Seed} {ad : Bytes}
    {se : SegmentEncrypter Nat} {k : Nat} (he : np.newSegmentEncrypter seed ad = .ok (se, k)) : k = 0 := by
  obtain ⟨rfl, -⟩ := Gcm.new_ok h
  obtain ⟨key, hk, rfl, -⟩ := Gcm.newSegmentEncrypter_ok hl he
  rfl

theorem Ctr.offset {lib : SegmentLibrary} {p : AesCtrHmac.Params}
    {np : NonceBased Nat Segment.State} (h : AesCtrHmac.new lib p = .ok np) (seed : Seed) (ad : Bytes)
    (se : SegmentEncrypter Nat) (k : Nat) (he : np.newSegmentEncrypter seed ad = .ok (se, k)) :
    0 ≤ se.ciphertextOffset := by
  obtain ⟨rfl, hv⟩ := Ctr.new_ok h
  obtain ⟨key, hk, -, -, rfl, rfl⟩ := Ctr.newSegmentEncrypter_ok he
  exact (Ctr.validate_ok hv).2.2.2.2.1

theorem Ctr.start_zero {lib : SegmentLibrary} {p : AesCtrHmac.Params}
    {np : NonceBased Nat Segment.State} (h : AesCtrHmac.new lib p = .ok np) {seed : Seed} {ad : Bytes}
    {se : SegmentEncrypter Nat} {k : Nat} (he : np.newSegmentEncrypter seed ad = .ok (se, k)) : k = 0 := by
  obtain ⟨rfl, -⟩ := Ctr.new_ok h
  obtain ⟨key, hk, -, -, rfl, -⟩ := Ctr.newSegmentEncrypter_ok he
  rfl

/-! ## Readers -/

theorem readsLikeFile_data {P : Bytes} {ops : List (ReadOp × ReadResult)} {pos : Nat}
    (h : ReadsLikeFile P ops pos) : ∀ o ∈ ops, ∃ b, o.2 = .data b := by
  induction h with
  | start => simp
  | read h hf ih =>
    intro o ho
    rw [List.mem_append, List.mem_singleton] at ho
    rcases ho with ho | rfl
    · exact ih o ho
    · exact ⟨_, rfl⟩

/-- The calls before the first that raised are determined. -/
theorem split_raised {pre pre' post post' : List (ReadOp × ReadResult)} (h : pre ++ post = pre' ++ post')
    (hp : ∀ o ∈ pre, ∃ b, o.2 = .data b) (hp' : ∀ o ∈ pre', ∃ b, o.2 = .data b)
    (hq : post = [] ∨ ∃ op e rest, post = (op, .raised e) :: rest ∧ e.isTink = true)
    (hq' : post' = [] ∨ ∃ op e rest, post' = (op, .raised e) :: rest ∧ e.isTink = true) :
    pre = pre' ∧ post = post' := by
  induction pre generalizing pre' with
  | nil =>
    cases pre' with
    | nil => exact ⟨rfl, by simpa using h⟩
    | cons o pre' =>
      exfalso
      simp only [List.nil_append, List.cons_append] at h
      obtain ⟨b, hb⟩ := hp' o (by simp)
      rcases hq with rfl | ⟨op, e, rest, rfl, -⟩
      · cases h
      · simp only [List.cons.injEq] at h
        rw [← h.1] at hb
        cases hb
  | cons o pre ih =>
    cases pre' with
    | nil =>
      exfalso
      simp only [List.nil_append, List.cons_append] at h
      obtain ⟨b, hb⟩ := hp o (by simp)
      rcases hq' with rfl | ⟨op, e, rest, rfl, -⟩
      · cases h
      · simp only [List.cons.injEq] at h
        rw [h.1] at hb
        cases hb
    | cons o' pre' =>
      simp only [List.cons_append, List.cons.injEq] at h
      obtain ⟨rfl, h⟩ := h
      obtain ⟨rfl, h2⟩ := ih h (fun x hx => hp x (by simp [hx])) (fun x hx => hp' x (by simp [hx]))
      exact ⟨rfl, h2⟩

theorem fileRead_more {P b : Bytes} {pos : Nat} {op : ReadOp} (hpos : pos ≤ P.length)
    (h0 : FileRead (P ++ [0]) pos op b) (h1 : FileRead (P ++ [1]) pos op b) :
    pos + b.length ≤ P.length ∧ ∀ more, more ≠ [] → FileRead (P ++ more) pos op b := by
  have hd : ∀ more : Bytes, (P ++ more).drop pos = P.drop pos ++ more := fun more => by
    rw [List.drop_append_of_le_length hpos]
  cases op with
  | read n =>
    simp only [FileRead] at h0 h1 ⊢
    rw [hd] at h0 h1
    have hn : n ≤ (P.drop pos).length := by
      rcases Nat.lt_or_ge (P.drop pos).length n with h | h
      · rw [List.take_of_length_le (by simp at h ⊢; omega)] at h0 h1
        exact absurd (List.append_cancel_left (h0.symm.trans h1)) (by decide)
      · exact h
    rw [List.take_append_of_le_length hn] at h0
    constructor
    · have := congrArg List.length h0
      simp at this hn
      omega
    · intro more _
      rw [hd, List.take_append_of_le_length hn]
      exact h0
  | readAll =>
    simp only [FileRead] at h0 h1
    rw [hd] at h0 h1
    exact absurd (List.append_cancel_left (h0.symm.trans h1)) (by decide)
  | read1 n =>
    simp only [FileRead] at h0 h1 ⊢
    rw [hd] at h0 h1
    have hp := prefix_of_two h0.1 h1.1
    refine ⟨?_, fun more hm => ⟨?_, h0.2.1, fun hb => ?_⟩⟩
    · have := hp.length_le
      simp at this
      omega
    · rw [hd]
      exact List.IsPrefix.trans hp (List.prefix_append _ _)
    · rcases h0.2.2 hb with h | h
      · exact .inl h
      · simp at h; omega

theorem readsLikeFile_more {P : Bytes} {ops : List (ReadOp × ReadResult)} {pos : Nat}
    (h0 : ReadsLikeFile (P ++ [0]) ops pos) : ∀ {pos'}, ReadsLikeFile (P ++ [1]) ops pos' →
      pos = pos' ∧ pos ≤ P.length ∧ ∀ more, more ≠ [] → ReadsLikeFile (P ++ more) ops pos := by
  induction h0 with
  | start =>
    intro pos' h1
    generalize ho : ([] : List (ReadOp × ReadResult)) = o at h1
    cases h1 with
    | start => exact ⟨rfl, Nat.zero_le _, fun _ _ => .start⟩
    | read h hf => simp at ho
  | @read ops pos op b h hf ih =>
    intro pos' h1
    generalize ho : (ops ++ [(op, ReadResult.data b)] : List (ReadOp × ReadResult)) = o at h1
    cases h1 with
    | start => simp at ho
    | read h' hf' =>
      obtain ⟨rfl, ho2⟩ := List.append_inj' ho rfl
      cases ho2
      obtain ⟨rfl, hle, hm⟩ := ih h'
      obtain ⟨a, b⟩ := fileRead_more hle hf hf'
      exact ⟨rfl, a, fun more hne => .read (hm more hne) (b more hne)⟩

theorem readsOneOf_unfinished {msgs : Bytes → Prop} {P : Bytes} {ops : List (ReadOp × ReadResult)}
    (h : ∀ z, ReadsOneOf (fun x => msgs x ∨ x = P ++ [z]) ops) :
    ReadsOneOf msgs ops ∨ ReadsUnfinished P ops := by
  obtain ⟨pre, post, rfl, a1, a2⟩ := h 0
  rcases a2 with a2 | ⟨x, pos, hx, a3⟩
  · exact .inl ⟨pre, post, rfl, a1, .inl a2⟩
  rcases hx with hx | rfl
  · exact .inl ⟨pre, post, rfl, a1, .inr ⟨x, pos, hx, a3⟩⟩
  obtain ⟨pre', post', e, b1, b2⟩ := h 1
  rcases b2 with b2 | ⟨y, pos', hy, b3⟩
  · exact .inl ⟨pre', post', e, b1, .inl b2⟩
  rcases hy with hy | rfl
  · exact .inl ⟨pre', post', e, b1, .inr ⟨y, pos', hy, b3⟩⟩
  obtain ⟨rfl, rfl⟩ := split_raised e (readsLikeFile_data a3) (readsLikeFile_data b3) a1 b1
  obtain ⟨-, h2, h3⟩ := readsLikeFile_more a3 b3
  exact .inr ⟨pre, post, rfl, a1, pos, h2, h3⟩

theorem deliversOneOf_of_unfinished {δ ε τ : Type} {q : RawStreamingAead δ ε τ} {ad P : Bytes}
    {msgs : Bytes → Prop} (h : DeliversUnfinished q ad msgs P) (z : UInt8) :
    DeliversOneOf q ad fun x => msgs x ∨ x = P ++ [z] := by
  intro σ src s t ht calls t' s' hses
  rcases h σ src s t ht calls t' s' hses with ⟨a1, a2⟩ | ⟨a1, a2, a3⟩
  · exact ⟨a1, a2.imp id fun ⟨x, hx, h⟩ => ⟨x, .inl hx, h⟩⟩
  · refine ⟨a3, .inr ⟨_, .inr rfl, a1.trans (List.prefix_append _ _), ?_⟩⟩
    rintro pre c post rfl hz hd
    exact absurd ⟨c, by simp, hz, hd⟩ a2

end Tink.Props
