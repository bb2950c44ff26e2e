import Verif.Stream.Buffered
import Verif.Spec.Writing
import Verif.Props.SegmentsEncrypt

/-!
# Lemmas for C80: writing comes to an end

First that more fuel does not change a result, then that there is enough.
-/

namespace Tink.Props
open Spec EncryptingStream
variable {σ κ ο : Type}

/-! ## More fuel -/

/-- `b` does what `a` does, where `a` returns. -/
structure OutLe (a b : COutputStream ο) : Prop where
  next : ∀ s q, a.next s = some q → b.next s = some q
  store : a.store = b.store
  backUp : a.backUp = b.backUp
  close : ∀ s q, a.close s = some q → b.close s = some q

theorem flush_mono {snk : CSink σ} {p : PythonOutputStream σ} : ∀ {f f' : Nat}, f ≤ f' → ∀ {s : σ} {w : Nat} {q},
    p.flush snk f s w = some q → p.flush snk f' s w = some q := by
  intro f
  induction f with
  | zero => intro f' _ s w q h; cases h
  | succ f ih =>
    intro f' hf s w q h
    obtain ⟨f', rfl⟩ : ∃ g, f' = g + 1 := ⟨f' - 1, by omega⟩
    unfold PythonOutputStream.flush at h ⊢
    by_cases hw : w < p.countInBuffer
    · rw [if_pos hw] at h ⊢
      split
      · rename_i s' x hx; rw [hx] at h; exact h
      · rename_i s' n hx; rw [hx] at h; exact ih (by omega) h
    · rw [if_neg hw] at h ⊢; exact h

theorem output_le {snk : CSink σ} {f f' : Nat} (hf : f ≤ f') :
    OutLe (PythonOutputStream.stream snk f) (PythonOutputStream.stream snk f') := by
  refine ⟨fun s q h => h, rfl, rfl, fun p q h => ?_⟩
  simp only [PythonOutputStream.stream] at h ⊢
  unfold PythonOutputStream.close at h ⊢
  cases hs : p.status with
  | some x => rw [hs] at h; exact h
  | none =>
    rw [hs] at h
    dsimp only at h ⊢
    cases hx : p.flush snk f p.adapter 0 with
    | none => rw [hx] at h; cases h
    | some y =>
      rw [flush_mono hf hx]
      rw [hx] at h
      exact h

theorem writeToStream_mono {a b : COutputStream ο} (h : OutLe a b) : ∀ {f f' : Nat}, f ≤ f' →
    ∀ {s : ο} {rem : Bytes} {space bytes : Nat} {q}, writeToStream a f s rem space bytes = some q →
      writeToStream b f' s rem space bytes = some q := by
  intro f
  induction f with
  | zero => intro f' _ s rem space bytes q hx; cases hx
  | succ f ih =>
    intro f' hf s rem space bytes q hx
    obtain ⟨f', rfl⟩ : ∃ g, f' = g + 1 := ⟨f' - 1, by omega⟩
    unfold writeToStream at hx ⊢
    by_cases hr : 0 < rem.length
    · rw [if_pos hr] at hx ⊢
      cases hn : a.next s with
      | none => rw [hn] at hx; cases hx
      | some y =>
        rw [h.next _ _ hn]
        rw [hn] at hx
        obtain ⟨s', r⟩ := y
        cases r with
        | error e => exact hx
        | ok n =>
          dsimp only at hx ⊢
          rw [← h.store]
          exact ih (by omega) hx
    · rw [if_neg hr] at hx ⊢
      rw [← h.backUp]
      exact hx

section
variable {se : SegmentEncrypter κ} {a b : COutputStream ο} {f f' : Nat}

theorem emit_mono (h : OutLe a b) (hf : f ≤ f') {e : EncryptingStream κ ο} {pt : Bytes} {last : Bool} {q}
    (hx : emit se a f e pt last = some q) : emit se b f' e pt last = some q := by
  unfold emit at hx ⊢
  cases hs : se.encryptSegment e.encrypter pt last with
  | mk k x =>
    rw [hs] at hx
    cases x with
    | error y => exact hx
    | ok ct =>
      dsimp only at hx ⊢
      cases hw : writeToStream a f e.dest ct 0 0 with
      | none => rw [hw] at hx; cases hx
      | some y =>
        rw [writeToStream_mono h hf hw]
        rw [hw] at hx
        exact hx

theorem emitHeader_mono (h : OutLe a b) (hf : f ≤ f') {e : EncryptingStream κ ο} {q}
    (hx : emitHeader se a f e = some q) : emitHeader se b f' e = some q := by
  unfold emitHeader at hx ⊢
  cases hw : writeToStream a f e.dest se.header 0 0 with
  | none => rw [hw] at hx; cases hx
  | some y =>
    rw [writeToStream_mono h hf hw]
    rw [hw] at hx
    exact hx

theorem enc_next_mono (h : OutLe a b) (hf : f ≤ f') {e : EncryptingStream κ ο} {q}
    (hx : e.next se a f = some q) : e.next se b f' = some q := by
  unfold EncryptingStream.next at hx ⊢
  cases hs : e.status with
  | some y => rw [hs] at hx; exact hx
  | none =>
    rw [hs] at hx
    dsimp only at hx ⊢
    by_cases h1 : e.isFirst = true
    · rw [if_pos h1] at hx ⊢
      split at hx
      · cases hx
      · rename_i e' he
        rw [emitHeader_mono h hf he]
        exact hx
    · rw [if_neg h1] at hx ⊢
      by_cases h2 : 0 < e.countBackedUp
      · rw [if_pos h2] at hx ⊢; exact hx
      · rw [if_neg h2] at hx ⊢
        by_cases h3 : e.ptToEncrypt.isEmpty = true
        · rw [if_pos h3] at hx ⊢; exact hx
        · rw [if_neg h3] at hx ⊢
          cases he : emit se a f e e.ptToEncrypt false with
          | none => rw [he] at hx; cases hx
          | some e' =>
            rw [emit_mono h hf he]
            rw [he] at hx
            exact hx

theorem abandon_mono (h : OutLe a b) {e : EncryptingStream κ ο} {x : Status} {q}
    (hx : abandon a e x = some q) : abandon b e x = some q := by
  unfold abandon at hx ⊢
  cases hc : a.close e.dest with
  | none => rw [hc] at hx; cases hx
  | some y =>
    rw [h.close _ _ hc]
    rw [hc] at hx
    exact hx

theorem finish_mono (h : OutLe a b) (hf : f ≤ f') {e : EncryptingStream κ ο} {last : Bytes} {q}
    (hx : finish se a f e last = some q) : finish se b f' e last = some q := by
  unfold finish at hx ⊢
  cases he : emit se a f e last true with
  | none => rw [he] at hx; cases hx
  | some e' =>
    rw [emit_mono h hf he]
    rw [he] at hx
    dsimp only at hx ⊢
    cases hs : e'.status with
    | some y => rw [hs] at hx; exact abandon_mono h hx
    | none =>
      rw [hs] at hx
      dsimp only at hx ⊢
      cases hc : a.close e'.dest with
      | none => rw [hc] at hx; cases hx
      | some y =>
        rw [h.close _ _ hc]
        rw [hc] at hx
        exact hx

theorem closeSegments_mono (h : OutLe a b) (hf : f ≤ f') {e : EncryptingStream κ ο} {q}
    (hx : closeSegments se a f e = some q) : closeSegments se b f' e = some q := by
  unfold closeSegments at hx ⊢
  by_cases h1 : (!e.ptBuffer.isEmpty && decide (e.countBackedUp < e.ptBuffer.length)) = true
  · rw [if_pos h1] at hx ⊢
    dsimp only at hx ⊢
    by_cases h2 : (!e.ptToEncrypt.isEmpty) = true
    · rw [if_pos h2] at hx ⊢
      split at hx
      · cases hx
      · rename_i e' he
        rw [emit_mono h hf he]
        dsimp only
        cases hs : e'.status with
        | some y => rw [hs] at hx; exact abandon_mono h hx
        | none => rw [hs] at hx; exact finish_mono h hf hx
    · rw [if_neg h2] at hx ⊢; exact finish_mono h hf hx
  · rw [if_neg h1] at hx ⊢; exact finish_mono h hf hx

theorem enc_close_mono (h : OutLe a b) (hf : f ≤ f') {e : EncryptingStream κ ο} {q}
    (hx : e.close se a f = some q) : e.close se b f' = some q := by
  unfold EncryptingStream.close at hx ⊢
  cases hs : e.status with
  | some y => rw [hs] at hx; exact hx
  | none =>
    rw [hs] at hx
    dsimp only at hx ⊢
    by_cases h1 : e.isFirst = true
    · rw [if_pos h1] at hx ⊢
      cases he : emitHeader se a f e with
      | none => rw [he] at hx; cases hx
      | some e' =>
        rw [emitHeader_mono h hf he]
        rw [he] at hx
        dsimp only at hx ⊢
        cases hs' : e'.status with
        | some y => rw [hs'] at hx; exact hx
        | none => rw [hs'] at hx; exact closeSegments_mono h hf hx
    · rw [if_neg h1] at hx ⊢; exact closeSegments_mono h hf hx

theorem enc_le (h : OutLe a b) (hf : f ≤ f') :
    OutLe (EncryptingStream.stream se a f) (EncryptingStream.stream se b f') :=
  ⟨fun _ _ hx => enc_next_mono h hf hx, rfl, rfl, fun _ _ hx => enc_close_mono h hf hx⟩

end

theorem adapter_write_mono {a b : COutputStream ο} (h : OutLe a b) {data : Bytes} : ∀ {f f' : Nat}, f ≤ f' →
    ∀ {s : ο} {w : Nat} {q}, OutputStreamAdapter.write a data f s w = some q →
      OutputStreamAdapter.write b data f' s w = some q := by
  intro f
  induction f with
  | zero => intro f' _ s w q hx; cases hx
  | succ f ih =>
    intro f' hf s w q hx
    obtain ⟨f', rfl⟩ : ∃ g, f' = g + 1 := ⟨f' - 1, by omega⟩
    unfold OutputStreamAdapter.write at hx ⊢
    by_cases hr : w < data.length
    · rw [if_pos hr] at hx ⊢
      cases hn : a.next s with
      | none => rw [hn] at hx; cases hx
      | some y =>
        rw [h.next _ _ hn]
        rw [hn] at hx
        obtain ⟨s', r⟩ := y
        cases r with
        | error e => exact hx
        | ok n =>
          dsimp only at hx ⊢
          split
          · rename_i hc; rw [if_pos hc] at hx; exact hx
          · rename_i hc
            rw [if_neg hc] at hx
            have : OutputStreamAdapter.put b = OutputStreamAdapter.put a := by
              unfold OutputStreamAdapter.put
              rw [h.store, h.backUp]
            rw [this]
            exact ih (by omega) hx
    · rw [if_neg hr] at hx ⊢; exact hx

theorem cc_le {snk : CSink σ} {se : SegmentEncrypter κ} {f f' : Nat} (hf : f ≤ f') :
    OutLe (CcEncrypting.stream snk f se) (CcEncrypting.stream snk f' se) := enc_le (output_le hf) hf

theorem cc_write_mono {snk : CSink σ} {f f' : Nat} (hf : f ≤ f') {t : CcEncrypting κ σ} {b : Bytes} {q}
    (h : t.write snk f b = some q) : t.write snk f' b = some q := by
  unfold CcEncrypting.write RawEncryptingStream.write at h ⊢
  by_cases hc : t.raw.closed = true
  · rw [if_pos hc] at h ⊢; exact h
  · rw [if_neg hc] at h ⊢
    dsimp only at h ⊢
    cases hx : OutputStreamAdapter.write (CcEncrypting.stream snk f t.encrypter) b f t.raw.adapter 0 with
    | none => rw [hx] at h; cases h
    | some y =>
      rw [adapter_write_mono (cc_le hf) hf hx]
      rw [hx] at h
      exact h

theorem cc_close_mono {snk : CSink σ} {f f' : Nat} (hf : f ≤ f') {t : CcEncrypting κ σ} {q}
    (h : t.close snk f = some q) : t.close snk f' = some q := by
  unfold CcEncrypting.close RawEncryptingStream.close at h ⊢
  by_cases hc : t.raw.closed = true
  · rw [if_pos hc] at h ⊢; exact h
  · rw [if_neg hc] at h ⊢
    cases hx : (CcEncrypting.stream snk f t.encrypter).close t.raw.adapter with
    | none => rw [hx] at h; cases h
    | some y =>
      rw [(cc_le hf).close _ _ hx]
      rw [hx] at h
      exact h

/-! ## Enough fuel -/

/-- The output stream for the destination can be used: it has a buffer, with so many bytes in it. -/
def Usable (p : PythonOutputStream σ) : Prop := p.buffer ≠ [] ∧ p.countInBuffer ≤ p.buffer.length

theorem usable_store {p : PythonOutputStream σ} (h : Usable p) (d : Bytes) : Usable (p.store d) := by
  have hl : p.buffer.length ≤ (p.store d).buffer.length := by
    unfold PythonOutputStream.store
    simp only [List.length_append, List.length_take, List.length_drop]
    omega
  refine ⟨fun h0 => h.1 ?_, Nat.le_trans h.2 hl⟩
  rw [h0] at hl
  exact List.length_eq_zero_iff.mp (Nat.le_zero.mp hl)

theorem usable_backUp {p : PythonOutputStream σ} (h : Usable p) (n : Int) : Usable (p.backUp n) := by
  unfold PythonOutputStream.backUp
  split
  · exact h
  · exact ⟨h.1, Nat.le_trans (Nat.sub_le _ _) h.2⟩

theorem shifted_length {p : PythonOutputStream σ} (s : σ) (n : Nat) :
    (p.shifted s n).buffer.length = p.buffer.length := by
  unfold PythonOutputStream.shifted
  dsimp only
  split
  · rw [List.length_append, List.length_drop, List.length_drop]; omega
  · rfl

/-- `Next`: it returns some space, or the destination has accepted nothing, or fails. -/
theorem next_moves {snk : CSink σ} {patience : σ → Nat} (hp : Progresses snk patience)
    {p p' : PythonOutputStream σ} {r : StatusOr Nat} (h : Usable p) (hx : p.next snk = (p', r)) :
    Usable p' ∧ ∀ n, r = .ok n → n = 0 → patience p'.adapter < patience p.adapter := by
  have hlen : 0 < p.buffer.length := List.length_pos_iff.mpr h.1
  unfold PythonOutputStream.next at hx
  cases hs : p.status with
  | some st =>
    rw [hs] at hx
    cases hx
    exact ⟨h, fun n hn => by cases hn⟩
  | none =>
    rw [hs] at hx
    dsimp only at hx
    split at hx
    · cases hx
      exact ⟨⟨h.1, Nat.le_refl _⟩, fun n hn h0 => by cases hn; omega⟩
    · split at hx
      · cases hx
        exact ⟨⟨h.1, Nat.le_refl _⟩, fun n hn h0 => by cases hn; omega⟩
      · cases hw : snk.write p.adapter p.buffer with
        | mk s x =>
          rw [hw] at hx
          cases x with
          | error y =>
            cases hx
            exact ⟨h, fun n hn => by cases hn⟩
          | ok n =>
            cases hx
            refine ⟨⟨?_, ?_⟩, ?_⟩
            · intro h0
              have := shifted_length (p := p) s n.toNat
              rw [h0, List.length_nil] at this
              omega
            · rw [shifted_length]; exact Nat.le_refl _
            · intro m hm h0
              cases hm
              have := hp p.adapter p.buffer n h.1 (by rw [hw]) (by omega)
              rw [hw] at this
              exact this

theorem flush_ends {snk : CSink σ} {patience : σ → Nat} (hp : Progresses snk patience)
    {p : PythonOutputStream σ} (h : Usable p) : ∀ (m k : Nat) (s : σ) (w : Nat), p.countInBuffer - w ≤ m →
      patience s ≤ k → ∃ f q, p.flush snk f s w = some q := by
  intro m
  induction m with
  | zero =>
    intro k s w hm _
    refine ⟨1, (s, .ok ()), ?_⟩
    unfold PythonOutputStream.flush
    rw [if_neg (by omega)]
  | succ m ihm =>
    intro k
    induction k with
    | zero =>
      intro s w hm hk
      by_cases hw : w < p.countInBuffer
      · cases hx : snk.write s ((p.buffer.drop w).take (p.countInBuffer - w)) with
        | mk s' x =>
          cases x with
          | error y => exact ⟨1, (s', .error y), by unfold PythonOutputStream.flush; rw [if_pos hw, hx]⟩
          | ok n =>
            by_cases hn : n ≤ 0
            · have hne : (p.buffer.drop w).take (p.countInBuffer - w) ≠ [] := by
                intro h0
                have := congrArg List.length h0
                rw [List.length_take, List.length_drop, List.length_nil] at this
                have := h.2
                omega
              have := hp s _ n hne (by rw [hx]) hn
              omega
            · obtain ⟨f, q, hf⟩ := ihm (patience s') s' (w + n.toNat) (by omega) (Nat.le_refl _)
              exact ⟨f + 1, q, by unfold PythonOutputStream.flush; rw [if_pos hw, hx]; exact hf⟩
      · exact ⟨1, (s, .ok ()), by unfold PythonOutputStream.flush; rw [if_neg hw]⟩
    | succ k ihk =>
      intro s w hm hk
      by_cases hw : w < p.countInBuffer
      · cases hx : snk.write s ((p.buffer.drop w).take (p.countInBuffer - w)) with
        | mk s' x =>
          cases x with
          | error y => exact ⟨1, (s', .error y), by unfold PythonOutputStream.flush; rw [if_pos hw, hx]⟩
          | ok n =>
            by_cases hn : n ≤ 0
            · have hne : (p.buffer.drop w).take (p.countInBuffer - w) ≠ [] := by
                intro h0
                have := congrArg List.length h0
                rw [List.length_take, List.length_drop, List.length_nil] at this
                have := h.2
                omega
              have hlt := hp s _ n hne (by rw [hx]) hn
              rw [hx] at hlt
              obtain ⟨f, q, hf⟩ := ihk s' (w + n.toNat) (by omega) (by dsimp only at hlt; omega)
              exact ⟨f + 1, q, by unfold PythonOutputStream.flush; rw [if_pos hw, hx]; exact hf⟩
            · obtain ⟨f, q, hf⟩ := ihm (patience s') s' (w + n.toNat) (by omega) (Nat.le_refl _)
              exact ⟨f + 1, q, by unfold PythonOutputStream.flush; rw [if_pos hw, hx]; exact hf⟩
      · exact ⟨1, (s, .ok ()), by unfold PythonOutputStream.flush; rw [if_neg hw]⟩

theorem output_close_ends {snk : CSink σ} {patience : σ → Nat} (hp : Progresses snk patience)
    {p : PythonOutputStream σ} (h : Usable p) : ∃ f q, p.close snk f = some q := by
  obtain ⟨f, ⟨s, x⟩, hf⟩ := flush_ends hp h _ _ p.adapter 0 (Nat.le_refl _) (Nat.le_refl _)
  refine ⟨f, ?_⟩
  unfold PythonOutputStream.close
  cases p.status with
  | some y => exact ⟨_, rfl⟩
  | none =>
    dsimp only
    rw [hf]
    cases x with
    | error y => exact ⟨_, rfl⟩
    | ok u =>
      dsimp only
      cases hc : snk.close s with
      | mk s' z => cases z <;> exact ⟨_, rfl⟩

theorem writeToStream_ends {snk : CSink σ} {patience : σ → Nat} (hp : Progresses snk patience) (f0 : Nat) :
    ∀ (m k : Nat) (p : PythonOutputStream σ) (rem : Bytes) (space bytes : Nat), Usable p → rem.length ≤ m →
      patience p.adapter ≤ k → ∃ f p' r,
        writeToStream (PythonOutputStream.stream snk f0) f p rem space bytes = some (p', r) ∧ Usable p' := by
  have done : ∀ (p : PythonOutputStream σ) (rem : Bytes) (space bytes : Nat), Usable p → ¬ 0 < rem.length →
      ∃ f p' r, writeToStream (PythonOutputStream.stream snk f0) f p rem space bytes = some (p', r) ∧
        Usable p' := by
    intro p rem space bytes hu hr
    refine ⟨1, if space > bytes then p.backUp (space - bytes : Nat) else p, .ok (), ?_, ?_⟩
    · unfold writeToStream
      rw [if_neg hr]
      rfl
    · split
      · exact usable_backUp hu _
      · exact hu
  have step : ∀ (p : PythonOutputStream σ) (rem : Bytes) (space bytes : Nat), Usable p → 0 < rem.length →
      (∀ (q : PythonOutputStream σ) (rem' : Bytes) (a n : Nat), Usable q →
        (rem'.length < rem.length ∨ rem' = rem ∧ patience q.adapter < patience p.adapter) → ∃ f p' r,
        writeToStream (PythonOutputStream.stream snk f0) f q rem' a n = some (p', r) ∧ Usable p') →
      ∃ f p' r, writeToStream (PythonOutputStream.stream snk f0) f p rem space bytes = some (p', r) ∧
        Usable p' := by
    intro p rem space bytes hu hr ih
    cases hn : p.next snk with
    | mk p1 x =>
      obtain ⟨h1, h2⟩ := next_moves hp hu hn
      have hn' : (PythonOutputStream.stream snk f0).next p = some (p1, x) := congrArg some hn
      cases x with
      | error y =>
        refine ⟨1, p1, .error y, ?_, h1⟩
        unfold writeToStream
        rw [if_pos hr, hn']
      | ok a =>
        obtain ⟨f, p', r, hf, hu'⟩ := ih (p1.store (rem.take (min a rem.length)))
          (rem.drop (min a rem.length)) a (min a rem.length) (usable_store h1 _) (by
            by_cases ha : a = 0
            · right
              subst ha
              exact ⟨by simp, h2 0 rfl rfl⟩
            · left
              rw [List.length_drop]
              omega)
        refine ⟨f + 1, p', r, ?_, hu'⟩
        unfold writeToStream
        rw [if_pos hr, hn']
        exact hf
  intro m
  induction m with
  | zero => intro k p rem space bytes hu hm _; exact done p rem space bytes hu (by omega)
  | succ m ihm =>
    intro k
    induction k with
    | zero =>
      intro p rem space bytes hu hm hk
      by_cases hr : 0 < rem.length
      · refine step p rem space bytes hu hr ?_
        intro q rem' a n hq h
        rcases h with h | ⟨rfl, h⟩
        · exact ihm _ q rem' a n hq (by omega) (Nat.le_refl _)
        · omega
      · exact done p rem space bytes hu hr
    | succ k ihk =>
      intro p rem space bytes hu hm hk
      by_cases hr : 0 < rem.length
      · refine step p rem space bytes hu hr ?_
        intro q rem' a n hq h
        rcases h with h | ⟨rfl, h⟩
        · exact ihm _ q rem' a n hq (by omega) (Nat.le_refl _)
        · exact ihk q rem' a n hq hm (by omega)
      · exact done p rem space bytes hu hr

section
variable {se : SegmentEncrypter κ} {snk : CSink σ} {patience : σ → Nat}

/-- The encrypting stream has failed (or is closed), or can be used. -/
def Going (se : SegmentEncrypter κ) (e : EncryptingStream κ (PythonOutputStream σ)) : Prop :=
  e.status = none → Usable e.dest ∧ e.ptBuffer ≠ [] ∧ 0 < se.plaintextSegmentSize

theorem emit_ends (hp : Progresses snk patience) {e : EncryptingStream κ (PythonOutputStream σ)}
    (hu : Usable e.dest) (pt : Bytes) (last : Bool) : ∃ f e',
      emit se (PythonOutputStream.stream snk f) f e pt last = some e' ∧ Usable e'.dest ∧
      e'.ptBuffer = e.ptBuffer := by
  unfold emit
  cases hs : se.encryptSegment e.encrypter pt last with
  | mk k x =>
    cases x with
    | error y => exact ⟨0, _, rfl, hu, rfl⟩
    | ok ct =>
      obtain ⟨f, p', r, hf, hu'⟩ := writeToStream_ends hp 0 _ _ e.dest ct 0 0 hu (Nat.le_refl _) (Nat.le_refl _)
      refine ⟨f, ?_⟩
      dsimp only
      rw [writeToStream_mono (output_le (Nat.zero_le f)) (Nat.le_refl f) hf]
      cases r <;> exact ⟨_, rfl, hu', rfl⟩

theorem emitHeader_ends (hp : Progresses snk patience) {e : EncryptingStream κ (PythonOutputStream σ)}
    (hu : Usable e.dest) : ∃ f e', emitHeader se (PythonOutputStream.stream snk f) f e = some e' ∧
      Usable e'.dest ∧ e'.ptBuffer = e.ptBuffer := by
  unfold emitHeader
  obtain ⟨f, p', r, hf, hu'⟩ := writeToStream_ends hp 0 _ _ e.dest se.header 0 0 hu (Nat.le_refl _) (Nat.le_refl _)
  refine ⟨f, ?_⟩
  rw [writeToStream_mono (output_le (Nat.zero_le f)) (Nat.le_refl f) hf]
  cases r <;> exact ⟨_, rfl, hu', rfl⟩

theorem enc_next_ends (hp : Progresses snk patience) {e : EncryptingStream κ (PythonOutputStream σ)}
    (hg : Going se e) : ∃ f e' r, e.next se (PythonOutputStream.stream snk f) f = some (e', r) ∧ Going se e' ∧
      ∀ n, r = .ok n → 0 < n := by
  unfold EncryptingStream.next
  cases hs : e.status with
  | some y => exact ⟨0, e, .error y, rfl, hg, fun n hn => by cases hn⟩
  | none =>
    obtain ⟨h1, h2, h3⟩ := hg hs
    have hlen : 0 < e.ptBuffer.length := List.length_pos_iff.mpr h2
    dsimp only
    by_cases hf : e.isFirst = true
    · obtain ⟨f, e', he, hu, hb⟩ := emitHeader_ends (se := se) hp
        (e := { e with isFirst := false, countBackedUp := 0, status := none }) h1
      refine ⟨f, ?_⟩
      rw [if_pos hf, he]
      dsimp only
      have hb' : e'.ptBuffer = e.ptBuffer := hb
      cases hs' : e'.status with
      | some y => exact ⟨e', .error y, rfl, (fun h => by rw [hs'] at h; cases h), (fun n hn => by cases hn)⟩
      | none =>
        refine ⟨e', .ok e'.ptBuffer.length, rfl, fun _ => ⟨hu, by rw [hb']; exact h2, h3⟩, fun n hn => ?_⟩
        cases hn
        rw [hb']; exact hlen
    · by_cases hc : 0 < e.countBackedUp
      · refine ⟨0, { e with ptBufferOffset := e.ptBuffer.length - e.countBackedUp, countBackedUp := 0 },
          .ok e.countBackedUp, by rw [if_neg hf, if_pos hc, hs], fun _ => ⟨h1, h2, h3⟩, fun n hn => ?_⟩
        cases hn
        exact hc
      · have key : ∀ e' : EncryptingStream κ (PythonOutputStream σ), e'.status = none → Usable e'.dest →
            Going se (fresh se e') ∧ 0 < (fresh se e').ptBuffer.length := by
          intro e' _ hu
          have hl : (fresh se e').ptBuffer.length = se.plaintextSegmentSize.toNat := Encrypting.resize_length _ _
          have hpos : 0 < (fresh se e').ptBuffer.length := by rw [hl]; omega
          exact ⟨fun _ => ⟨hu, List.length_pos_iff.mp hpos, h3⟩, hpos⟩
        by_cases hpt : e.ptToEncrypt.isEmpty = true
        · obtain ⟨k1, k2⟩ := key e hs h1
          refine ⟨0, fresh se e, .ok (fresh se e).ptBuffer.length, ?_, k1, fun n hn => by cases hn; exact k2⟩
          rw [if_neg hf, if_neg hc, if_pos hpt]
          dsimp only
          rw [hs]
        · obtain ⟨f, e', he, hu, hb⟩ := emit_ends (se := se) hp h1 e.ptToEncrypt false
          refine ⟨f, ?_⟩
          rw [if_neg hf, if_neg hc, if_neg hpt, he]
          dsimp only
          cases hs' : e'.status with
          | some y => exact ⟨e', .error y, rfl, (fun h => by rw [hs'] at h; cases h), (fun n hn => by cases hn)⟩
          | none =>
            obtain ⟨k1, k2⟩ := key e' hs' hu
            exact ⟨fresh se e', .ok (fresh se e').ptBuffer.length, rfl, k1, fun n hn => by cases hn; exact k2⟩

theorem going_put {f : Nat} {e : EncryptingStream κ (PythonOutputStream σ)} (hg : Going se e) (a : Nat)
    (d : Bytes) : Going se (OutputStreamAdapter.put (CcEncrypting.stream snk f se) e a d) := by
  have hstore : Going se (e.store d) := by
    intro hs
    obtain ⟨h1, h2, h3⟩ := hg hs
    refine ⟨h1, ?_, h3⟩
    intro h0
    have hl : e.ptBuffer.length ≤ (e.store d).ptBuffer.length := by
      unfold EncryptingStream.store
      simp only [List.length_append, List.length_take, List.length_drop]
      omega
    rw [h0] at hl
    exact h2 (List.length_eq_zero_iff.mp (Nat.le_zero.mp hl))
  unfold OutputStreamAdapter.put
  split
  · show Going se ((e.store d).backUp _)
    unfold EncryptingStream.backUp
    split
    · exact hstore
    · exact hstore
  · exact hstore

theorem castInt_small {n : Nat} (h : n < 2 ^ 31) : castInt n = n := by
  unfold castInt
  have : n % 2 ^ 32 = n := Nat.mod_eq_of_lt (by omega)
  rw [this, if_pos h]

theorem adapter_ends (hp : Progresses snk patience) {data : Bytes} (hmax : data.length < 2 ^ 31) :
    ∀ (m : Nat) (e : EncryptingStream κ (PythonOutputStream σ)) (w : Nat), Going se e → w ≤ data.length →
      data.length - w ≤ m → ∃ f e' r,
        OutputStreamAdapter.write (CcEncrypting.stream snk f se) data f e w = some (e', .returned r) ∧
        Going se e' ∧ ∀ n, r = .ok n → n = data.length := by
  intro m
  induction m with
  | zero =>
    intro e w hg hw hm
    refine ⟨1, e, .ok w, ?_, hg, fun n hn => by cases hn; omega⟩
    unfold OutputStreamAdapter.write
    rw [if_neg (by omega)]
  | succ m ih =>
    intro e w hg hw hm
    by_cases hlt : w < data.length
    · obtain ⟨f, e1, r, hn, hg1, hpos⟩ := enc_next_ends (se := se) hp hg
      have hn1 : (CcEncrypting.stream snk f se).next e = some (e1, r) := hn
      cases r with
      | error y =>
        refine ⟨f + 1, e1, .error y, ?_, hg1, fun n hn => by cases hn⟩
        unfold OutputStreamAdapter.write
        rw [if_pos hlt, (cc_le (Nat.le_succ f)).next _ _ hn1]
      | ok a =>
        have ha := hpos a rfl
        have hc : castInt (data.length - w) = (data.length - w : Nat) := castInt_small (by omega)
        have hcount : min (a : Int) (castInt (data.length - w)) = ((min a (data.length - w) : Nat) : Int) := by
          rw [hc]; omega
        obtain ⟨f', e', r, hf', hg', hr⟩ := ih (OutputStreamAdapter.put (CcEncrypting.stream snk f se) e1 a
          ((data.drop w).take (min a (data.length - w)))) (w + min a (data.length - w))
          (going_put hg1 _ _) (by omega) (by omega)
        refine ⟨max f f' + 1, e', r, ?_, hg', hr⟩
        unfold OutputStreamAdapter.write
        rw [if_pos hlt, (cc_le (Nat.le_trans (Nat.le_max_left f f') (Nat.le_succ _))).next _ _ hn1]
        dsimp only
        rw [hcount, if_neg (by omega), Int.toNat_natCast]
        exact adapter_write_mono (cc_le (Nat.le_trans (Nat.le_max_right f f') (Nat.le_succ _)))
          (Nat.le_max_right f f') hf'
    · refine ⟨1, e, .ok w, ?_, hg, fun n hn => by cases hn; omega⟩
      unfold OutputStreamAdapter.write
      rw [if_neg hlt]

/-! ## Closing -/

theorem abandon_ends (hp : Progresses snk patience) {e : EncryptingStream κ (PythonOutputStream σ)}
    (hu : Usable e.dest) (x : Status) : ∃ f q, abandon (PythonOutputStream.stream snk f) e x = some q ∧
      q.1.status = e.status := by
  obtain ⟨f, ⟨s, r⟩, hf⟩ := output_close_ends hp hu
  refine ⟨f, ({ e with dest := s }, .error x), ?_, rfl⟩
  unfold abandon
  have : (PythonOutputStream.stream snk f).close e.dest = some (s, r) := hf
  rw [this]

theorem finish_ends (hp : Progresses snk patience) {e : EncryptingStream κ (PythonOutputStream σ)}
    (hu : Usable e.dest) (last : Bytes) : ∃ f q, finish se (PythonOutputStream.stream snk f) f e last = some q ∧
      q.1.status ≠ none := by
  obtain ⟨f, e', he, hu', -⟩ := emit_ends (se := se) hp hu last true
  cases hs : e'.status with
  | some y =>
    obtain ⟨f', q, hq, hst⟩ := abandon_ends hp hu' y
    refine ⟨max f f', q, ?_, by rw [hst, hs]; simp⟩
    unfold finish
    rw [emit_mono (output_le (Nat.le_max_left f f')) (Nat.le_max_left f f') he]
    dsimp only
    rw [hs]
    exact abandon_mono (output_le (Nat.le_max_right f f')) hq
  | none =>
    obtain ⟨f', ⟨s, r⟩, hq⟩ := output_close_ends hp hu'
    refine ⟨max f f', ({ e' with dest := s, status := some ⟨.failedPrecondition, false⟩ }, r), ?_, by simp⟩
    unfold finish
    rw [emit_mono (output_le (Nat.le_max_left f f')) (Nat.le_max_left f f') he]
    dsimp only
    rw [hs]
    dsimp only
    rw [(output_le (Nat.le_max_right f f')).close _ _ hq]

theorem closeSegments_ends (hp : Progresses snk patience) {e : EncryptingStream κ (PythonOutputStream σ)}
    (hu : Usable e.dest) : ∃ f q, closeSegments se (PythonOutputStream.stream snk f) f e = some q ∧
      q.1.status ≠ none := by
  unfold closeSegments
  by_cases h1 : (!e.ptBuffer.isEmpty && decide (e.countBackedUp < e.ptBuffer.length)) = true
  · by_cases h2 : (!e.ptToEncrypt.isEmpty) = true
    · obtain ⟨f, e', he, hu', -⟩ := emit_ends (se := se) hp
        (e := { e with ptBuffer := resize e.ptBuffer (e.ptBuffer.length - e.countBackedUp) }) hu e.ptToEncrypt false
      cases hs : e'.status with
      | some y =>
        obtain ⟨f', q, hq, hst⟩ := abandon_ends hp hu' y
        refine ⟨max f f', q, ?_, by rw [hst, hs]; simp⟩
        rw [if_pos h1]
        dsimp only
        rw [if_pos h2, emit_mono (output_le (Nat.le_max_left f f')) (Nat.le_max_left f f') he]
        dsimp only
        rw [hs]
        exact abandon_mono (output_le (Nat.le_max_right f f')) hq
      | none =>
        obtain ⟨f', q, hq, hst⟩ := finish_ends (se := se) hp hu' e'.ptBuffer
        refine ⟨max f f', q, ?_, hst⟩
        rw [if_pos h1]
        dsimp only
        rw [if_pos h2, emit_mono (output_le (Nat.le_max_left f f')) (Nat.le_max_left f f') he]
        dsimp only
        rw [hs]
        exact finish_mono (output_le (Nat.le_max_right f f')) (Nat.le_max_right f f') hq
    · obtain ⟨f, q, hq, hst⟩ := finish_ends (se := se) hp
        (e := { e with ptBuffer := resize e.ptBuffer (e.ptBuffer.length - e.countBackedUp) }) hu
        (resize e.ptBuffer (e.ptBuffer.length - e.countBackedUp))
      exact ⟨f, q, by rw [if_pos h1]; dsimp only; rw [if_neg h2]; exact hq, hst⟩
  · obtain ⟨f, q, hq, hst⟩ := finish_ends (se := se) hp hu e.ptToEncrypt
    exact ⟨f, q, by rw [if_neg h1]; exact hq, hst⟩

theorem enc_close_ends (hp : Progresses snk patience) {e : EncryptingStream κ (PythonOutputStream σ)}
    (hg : Going se e) : ∃ f q, e.close se (PythonOutputStream.stream snk f) f = some q ∧
      q.1.status ≠ none := by
  unfold EncryptingStream.close
  cases hs : e.status with
  | some y => exact ⟨0, (e, .error y), rfl, by rw [hs]; simp⟩
  | none =>
    obtain ⟨h1, h2, h3⟩ := hg hs
    dsimp only
    by_cases hf : e.isFirst = true
    · obtain ⟨f, e', he, hu, hb⟩ := emitHeader_ends (se := se) hp (e := e) h1
      cases hs' : e'.status with
      | some y =>
        refine ⟨f, (e', .error y), ?_, by rw [hs']; simp⟩
        rw [if_pos hf, he]
        dsimp only
        rw [hs']
      | none =>
        obtain ⟨f', q, hq, hst⟩ := closeSegments_ends (se := se) hp hu
        refine ⟨max f f', q, ?_, hst⟩
        rw [if_pos hf, emitHeader_mono (output_le (Nat.le_max_left f f')) (Nat.le_max_left f f') he]
        dsimp only
        rw [hs']
        exact closeSegments_mono (output_le (Nat.le_max_right f f')) (Nat.le_max_right f f') hq
    · obtain ⟨f, q, hq, hst⟩ := closeSegments_ends (se := se) hp h1
      exact ⟨f, q, by rw [if_neg hf]; exact hq, hst⟩

end

/-! ## The Python streams -/

/-- The stream can be used, or has failed or is closed. -/
def Serving (t : CcEncrypting κ σ) : Prop := Going t.encrypter t.raw.adapter

theorem rawWrite_ends {snk : CSink σ} {patience : σ → Nat} (hp : Progresses snk patience) {t : CcEncrypting κ σ}
    (hg : Serving t) {b : Bytes} (hmax : b.length < 2 ^ 31) : ∃ t' r, CcEncrypting.RawWrite snk t b t' r ∧
      Serving t' ∧ ∀ n, r = .ok n → n = b.length := by
  by_cases hc : t.raw.closed = true
  · refine ⟨t, .error .valueError, ⟨0, ?_⟩, hg, fun n hn => by cases hn⟩
    unfold CcEncrypting.write RawEncryptingStream.write
    rw [if_pos hc]
    rfl
  · obtain ⟨f, e', r, hf, hg', hr⟩ := adapter_ends hp hmax _ t.raw.adapter 0 hg (Nat.zero_le _) (Nat.le_refl _)
    cases r with
    | error y =>
      refine ⟨{ t with raw := { t.raw with adapter := e' } }, .error .tinkError, ⟨f, ?_⟩, hg',
        fun n hn => by cases hn⟩
      unfold CcEncrypting.write RawEncryptingStream.write
      rw [if_neg hc]
      dsimp only
      rw [hf]
      rfl
    | ok n =>
      have hn := hr n rfl
      subst hn
      refine ⟨{ t with raw := { t.raw with adapter := e' } }, .ok b.length, ⟨f, ?_⟩, hg',
        fun n hn => by cases hn; rfl⟩
      unfold CcEncrypting.write RawEncryptingStream.write
      rw [if_neg hc]
      dsimp only
      rw [hf]
      unfold RawEncryptingStream.checked
      dsimp only
      rw [if_neg (by omega)]
      rfl

theorem rawClose_ends {snk : CSink σ} {patience : σ → Nat} (hp : Progresses snk patience) {t : CcEncrypting κ σ}
    (hg : Serving t) : ∃ t' r, CcEncrypting.RawClose snk t t' r ∧ Serving t' := by
  by_cases hc : t.raw.closed = true
  · refine ⟨t, .ok (), ⟨0, ?_⟩, hg⟩
    unfold CcEncrypting.close RawEncryptingStream.close
    rw [if_pos hc]
    rfl
  · obtain ⟨f, ⟨e', r⟩, hf, hst⟩ := enc_close_ends hp hg
    have hf' : (CcEncrypting.stream snk f t.encrypter).close t.raw.adapter = some (e', r) := hf
    cases r with
    | error y =>
      refine ⟨{ t with raw := { t.raw with adapter := e' } }, .error .tinkError, ⟨f, ?_⟩,
        fun h => absurd h hst⟩
      unfold CcEncrypting.close RawEncryptingStream.close
      rw [if_neg hc, hf']
      rfl
    | ok n =>
      refine ⟨{ t with raw := { adapter := e', closed := true } }, .ok (), ⟨f, ?_⟩, fun h => absurd h hst⟩
      unfold CcEncrypting.close RawEncryptingStream.close
      rw [if_neg hc, hf']
      rfl

theorem rawWrite_unique {snk : CSink σ} {t t1 t2 : CcEncrypting κ σ} {b : Bytes} {r1 r2 : Py Nat}
    (h1 : CcEncrypting.RawWrite snk t b t1 r1) (h2 : CcEncrypting.RawWrite snk t b t2 r2) :
    t1 = t2 ∧ r1 = r2 := by
  obtain ⟨f, h1⟩ := h1
  obtain ⟨f', h2⟩ := h2
  have a := cc_write_mono (Nat.le_max_left f f') h1
  have b := cc_write_mono (Nat.le_max_right f f') h2
  rw [a] at b
  cases b
  exact ⟨rfl, rfl⟩

theorem rawClose_unique {snk : CSink σ} {t t1 t2 : CcEncrypting κ σ} {r1 r2 : Py Unit}
    (h1 : CcEncrypting.RawClose snk t t1 r1) (h2 : CcEncrypting.RawClose snk t t2 r2) :
    t1 = t2 ∧ r1 = r2 := by
  obtain ⟨f, h1⟩ := h1
  obtain ⟨f', h2⟩ := h2
  have a := cc_close_mono (Nat.le_max_left f f') h1
  have b := cc_close_mono (Nat.le_max_right f f') h2
  rw [a] at b
  cases b
  exact ⟨rfl, rfl⟩

end Tink.Props
