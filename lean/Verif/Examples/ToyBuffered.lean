import Verif.Spec.Buffered

/-!
# A buffered reader and a buffered writer

Programs that do what the relations in `Stream/Buffered` allow.
-/

namespace Tink.ToyBuffered
open Io Spec
variable {ρ : Type}

/-! ## Reading -/

/-- The raw stream is read, for `size` bytes at a time, while `wants`; then the buffer and the last result,
if it was not data. -/
def fill (f : ρ → Nat → Option (ρ × ReadResult)) (size : Nat) (wants : Bytes → Bool) :
    Nat → ρ → Bytes → Option (ρ × Bytes × Option ReadResult)
  | 0, _, _ => none
  | k + 1, t, b =>
    if wants b then
      match f t size with
      | none => none
      | some (t', .data []) => some (t', b, some (.data []))
      | some (t', .data (x :: d)) => fill f size wants k t' (b ++ x :: d)
      | some (t', r) => some (t', b, some r)
    else some (t, b, none)

def wants : ReadOp → Bytes → Bool
  | .read n, b => b.length < n
  | .readAll, _ => true
  | .read1 n, b => b.isEmpty && n != 0

/-- A call, with its result, the new state and buffer. -/
def call (f : ρ → Nat → Option (ρ × ReadResult)) (size : Nat) (t : ρ) (b : Bytes) (op : ReadOp) :
    Option (ReadResult × ρ × Bytes) :=
  match fill f size (wants op) 100 t b with
  | some (t', b', none) =>
    match op with
    | .read n => some (.data (b'.take n), t', b'.drop n)
    | .read1 n => some (.data (b'.take n), t', b'.drop n)
    | .readAll => none
  | some (t', b', some (.data [])) => some (.data b', t', [])
  | some (t', b', some (.raised e)) => some (.raised e, t', b')
  | _ => none

/-- Some calls. -/
def calls (f : ρ → Nat → Option (ρ × ReadResult)) (size : Nat) :
    ρ → Bytes → List ReadOp → Option (List (ReadOp × ReadResult))
  | _, _, [] => some []
  | t, b, op :: ops =>
    match call f size t b op with
    | some (r, t', b') => (calls f size t' b' ops).map fun l => (op, r) :: l
    | none => none

variable {R : ρ → Nat → ρ → ReadResult → Prop} {f : ρ → Nat → Option (ρ × ReadResult)} {size : Nat}

theorem fill_ok (hf : ∀ t n t' r, f t n = some (t', r) → R t n t' r) (h0 : 0 < size) (h1 : size < 2 ^ 63)
    {want : Bytes → Bool} {t0 : ρ} {b0 : Bytes} : ∀ {k : Nat} {t t' : ρ} {b b' : Bytes} {x : Option ReadResult},
      Filled R t0 b0 t b → fill f size want k t b = some (t', b', x) →
      match x with
      | none => Filled R t0 b0 t' b' ∧ want b' = false
      | some r => ∃ t1, Filled R t0 b0 t1 b' ∧ want b' = true ∧ R t1 size t' r := by
  intro k
  induction k with
  | zero => intro t t' b b' x _ h; cases h
  | succ k ih =>
    intro t t' b b' x hb h
    unfold fill at h
    split at h
    · rename_i hw
      split at h
      · cases h
      · rename_i hx
        cases h
        exact ⟨t, hb, hw, hf _ _ _ _ hx⟩
      · rename_i hx
        exact ih (.more size hb h0 h1 (hf _ _ _ _ hx) (by simp)) h
      · rename_i hx
        cases h
        exact ⟨t, hb, hw, hf _ _ _ _ hx⟩
    · rename_i hw
      cases h
      exact ⟨hb, by simpa using hw⟩

theorem wants_iff {op : ReadOp} {b : Bytes} (h : wants op b = true) : op.Wants b := by
  cases op with
  | read n => simpa [wants, ReadOp.Wants] using h
  | readAll => trivial
  | read1 n => simpa [wants, ReadOp.Wants] using h

theorem call_ok (hf : ∀ t n t' r, f t n = some (t', r) → R t n t' r) (h0 : 0 < size) (h1 : size < 2 ^ 63)
    {t t' : ρ} {b b' : Bytes} {op : ReadOp} {r : ReadResult} (h : call f size t b op = some (r, t', b')) :
    BufferedRead R t b op r t' b' := by
  unfold call at h
  split at h
  · rename_i t1 b1 hx
    obtain ⟨h2, h3⟩ := fill_ok hf h0 h1 .start hx
    split at h
    · rename_i n
      cases h
      exact .full n h2 (by simpa [wants] using h3)
    · rename_i n
      cases h
      refine .one n h2 ?_
      simp only [wants, Bool.and_eq_false_iff, List.isEmpty_eq_false_iff, bne_eq_false_iff_eq] at h3
      exact h3
    · cases h
  · rename_i t1 b1 hx
    obtain ⟨t2, h2, h3, h4⟩ := fill_ok hf h0 h1 .start hx
    cases h
    exact .ended op size h2 (wants_iff h3) h0 h1 h4
  · rename_i t1 b1 e hx
    obtain ⟨t2, h2, h3, h4⟩ := fill_ok hf h0 h1 .start hx
    cases h
    exact .raised op size _ h2 (wants_iff h3) h0 h1 h4 (List.prefix_refl _)
  · cases h

theorem calls_ok (hf : ∀ t n t' r, f t n = some (t', r) → R t n t' r) (h0 : 0 < size) (h1 : size < 2 ^ 63)
    {t0 : ρ} {ops : List ReadOp} : ∀ {before l : List (ReadOp × ReadResult)} {t : ρ} {b : Bytes},
      ReaderHistory R t0 before t b → calls f size t b ops = some l →
      ∃ t' b', ReaderHistory R t0 (before ++ l) t' b' := by
  induction ops with
  | nil =>
    intro before l t b hb h
    cases h
    exact ⟨t, b, by simpa using hb⟩
  | cons op ops ih =>
    intro before l t b hb h
    unfold calls at h
    split at h
    · rename_i r t' b' hx
      rw [Option.map_eq_some_iff] at h
      obtain ⟨l', h2, rfl⟩ := h
      have := ih (.call hb (call_ok hf h0 h1 hx)) h2
      simpa using this
    · cases h

/-- A raw decrypting stream. -/
def rawRead {σ δ ε τ : Type} (src : Source σ) (w : DecryptingStreamWrapper σ δ ε τ) (n : Nat) :
    Option (DecryptingStreamWrapper σ δ ε τ × ReadResult) := w.readinto src 200 n

theorem rawRead_ok {σ δ ε τ : Type} (src : Source σ) (t : DecryptingStreamWrapper σ δ ε τ) n t' r
    (h : rawRead src t n = some (t', r)) : DecryptingStreamWrapper.RawRead src t n t' r :=
  ⟨200, .inl h⟩

/-- What users of a decrypting stream get. -/
theorem reads {σ δ ε τ : Type} {src : Source σ} {w : DecryptingStreamWrapper σ δ ε τ}
    {ops : List ReadOp} {l : List (ReadOp × ReadResult)} (h0 : 0 < size) (h1 : size < 2 ^ 63)
    (h : calls (rawRead src) size w [] ops = some l) :
    ∃ w' b, ReaderHistory (DecryptingStreamWrapper.RawRead src) w l w' b :=
  calls_ok (rawRead_ok src) h0 h1 .start h

/-! ## Writing -/

def waiting (b : Bytes) : WriteOp → Bytes
  | .write d => b ++ d
  | .flush => b

def result : WriteOp → Nat
  | .write d => d.length
  | .flush => 0

/-- A writer that writes what is waiting whenever this is more than `size` bytes, with one call. -/
def writes {κ σ : Type} (snk : CSink σ) (size : Nat) :
    CcEncrypting κ σ → Bytes → List WriteOp → Option (CcEncrypting κ σ × Bytes × List (WriteOp × Py Nat))
  | t, b, [] => some (t, b, [])
  | t, b, op :: ops =>
    if waiting b op = [] ∨ (op ≠ .flush ∧ (waiting b op).length ≤ size) then
      (writes snk size t (waiting b op) ops).map fun q => (q.1, q.2.1, (op, .ok (result op)) :: q.2.2)
    else if 2 ^ 31 ≤ (waiting b op).length then none
    else
      match t.write snk 100 (waiting b op) with
      | some (t', .returned (.ok n)) =>
        if n = (waiting b op).length then
          (writes snk size t' [] ops).map fun q => (q.1, q.2.1, (op, .ok (result op)) :: q.2.2)
        else none
      | some (t', .returned (.error e)) =>
        (writes snk size t' [] ops).map fun q => (q.1, q.2.1, (op, .error e) :: q.2.2)
      | _ => none

/-- `close()`. -/
def closed {κ σ : Type} (snk : CSink σ) (t : CcEncrypting κ σ) (b : Bytes) : Option (CcEncrypting κ σ) :=
  if b = [] then
    match t.close snk 100 with
    | some (t', .ok ()) => some t'
    | _ => none
  else if 2 ^ 31 ≤ b.length then none
  else
    match t.write snk 100 b with
    | some (t', .returned (.ok n)) =>
      if n = b.length then
        match t'.close snk 100 with
        | some (t', .ok ()) => some t'
        | _ => none
      else none
    | _ => none

variable {κ σ : Type} {snk : CSink σ}

theorem writes_ok {t0 : CcEncrypting κ σ} {ops : List WriteOp} :
    ∀ {before l : List (WriteOp × Py Nat)} {t t' : CcEncrypting κ σ} {b b' : Bytes},
      WriterHistory (CcEncrypting.RawWrite snk) t0 before t b → writes snk size t b ops = some (t', b', l) →
      WriterHistory (CcEncrypting.RawWrite snk) t0 (before ++ l) t' b' := by
  induction ops with
  | nil =>
    intro before l t t' b b' hb h
    cases h
    simpa using hb
  | cons op ops ih =>
    intro before l t t' b b' hb h
    unfold writes at h
    split at h
    · rename_i hall
      rw [Option.map_eq_some_iff] at h
      obtain ⟨⟨t1, b1, l1⟩, h2, h3⟩ := h
      cases h3
      cases op with
      | write d => simpa [result] using ih (.call hb (.write d .start)) h2
      | flush =>
        have hn : b = [] := by simpa [waiting] using hall
        subst hn
        simpa [result] using ih (.call hb (.flush .start)) h2
    · rename_i hall
      split at h
      · cases h
      · rename_i hlen
        split at h
        · rename_i t1 n hw
          split at h
          · rename_i hn
            subst hn
            rw [Option.map_eq_some_iff] at h
            obtain ⟨⟨t2, b2, l2⟩, h2, h3⟩ := h
            cases h3
            cases op with
            | write d =>
              have hne : b ++ d ≠ [] := fun h => hall (.inl h)
              have := ih (.call hb (.write d (.more (b ++ d) .start List.prefix_rfl hne
                (Nat.not_le.mp hlen) ⟨100, hw⟩ (Nat.le_refl _)))) (by
                  show writes snk size t1 ((b ++ d).drop (b ++ d).length) ops = _
                  rw [List.drop_length]; exact h2)
              simpa [result] using this
            | flush =>
              have hne : b ≠ [] := fun h => hall (.inl h)
              have hf : Flushed (CcEncrypting.RawWrite snk) t b t1 [] := by
                have := Flushed.more (W := CcEncrypting.RawWrite snk) b .start List.prefix_rfl hne
                  (Nat.not_le.mp hlen) ⟨100, hw⟩ (Nat.le_refl b.length)
                rwa [show (waiting b .flush).length = b.length from rfl, List.drop_length] at this
              simpa [result] using ih (.call hb (.flush hf)) h2
          · cases h
        · rename_i t1 e hw
          rw [Option.map_eq_some_iff] at h
          obtain ⟨⟨t2, b2, l2⟩, h2, h3⟩ := h
          cases h3
          cases op with
          | write d =>
            have := ih (.call hb (.writeRaised d (b ++ d) [] .start List.prefix_rfl (Nat.not_le.mp hlen)
              ⟨100, hw⟩)) h2
            simpa using this
          | flush =>
            have := ih (.call hb (.flushRaised b [] .start List.prefix_rfl (Nat.not_le.mp hlen) ⟨100, hw⟩)) h2
            simpa using this
        · cases h

theorem closed_ok {t t' : CcEncrypting κ σ} {b : Bytes} (h : closed snk t b = some t') :
    BufferedClose (CcEncrypting.RawWrite snk) (CcEncrypting.RawClose snk) t b t' (.ok ()) := by
  unfold closed at h
  split at h
  · rename_i hb
    subst hb
    split at h
    · rename_i hc
      cases h
      exact .closed .start ⟨100, hc⟩
    · cases h
  · rename_i hb
    split at h
    · cases h
    · rename_i hlen
      split at h
      · rename_i t1 n hw
        split at h
        · rename_i hn
          subst hn
          split at h
          · rename_i hc
            cases h
            refine .closed ?_ ⟨100, hc⟩
            have := Flushed.more (W := CcEncrypting.RawWrite snk) b .start List.prefix_rfl hb
              (Nat.not_le.mp hlen) ⟨100, hw⟩ (Nat.le_refl _)
            rwa [List.drop_length] at this
          · cases h
        · cases h
      · cases h

end Tink.ToyBuffered
