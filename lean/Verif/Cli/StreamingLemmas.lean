import Verif.Spec.CliStreaming
import Verif.Cli.Steps
import Verif.Props.StreamingEndToEnd
import Verif.Props.Termination
import Verif.Props.Writing
import Verif.Props.Interrupted

/-!
# Lemmas about the example program that encrypts large files
-/

namespace Tink.Cli
open Spec Config Io Props

/-! ## The two files -/

theorem inputFile_fails {disk : Disk} {s : Bytes × Nat} (n : Nat) (h : disk.inputFails s.2 = true) :
    (inputFile disk).read s n = ((s.1, s.2 + 1), .raised .osError) := by
  simp [inputFile, h]

theorem inputFile_reads {disk : Disk} {s : Bytes × Nat} (n : Nat) (h : disk.inputFails s.2 = false) :
    (inputFile disk).read s n = ((s.1.drop n, s.2 + 1), .data (s.1.take n)) := by
  simp [inputFile, h]

theorem inputFile_faithful (disk : Disk) : Faithful (inputFile disk) Prod.fst where
  data s n b h := by
    cases hf : disk.inputFails s.2 with
    | true => rw [inputFile_fails n hf] at h; cases h
    | false =>
      rw [inputFile_reads n hf] at h ⊢
      cases h
      refine ⟨(List.take_append_drop n s.1).symm, by simp; omega, fun h => ?_⟩
      rwa [List.take_eq_nil_iff] at h
  noData s n h := by
    cases hf : disk.inputFails s.2 with
    | true => rw [inputFile_fails n hf]
    | false =>
      rw [inputFile_reads n hf] at h
      exact absurd rfl (h _)

theorem inputFile_steady {disk : Disk} (h : Disk.Reads disk) : Steady (inputFile disk) := by
  intro s n e hr
  rw [inputFile_reads n (h _)] at hr
  cases hr

theorem inputFile_exhaustible (disk : Disk) : Exhaustible (inputFile disk) (fun s => s.1.length) where
  data s n b h := by
    cases hf : disk.inputFails s.2 with
    | true => rw [inputFile_fails n hf] at h; cases h
    | false =>
      rw [inputFile_reads n hf] at h ⊢
      cases h
      simp only [List.length_drop, List.length_take]
      omega
  waits s n h := by
    cases hf : disk.inputFails s.2 with
    | true => rw [inputFile_fails n hf] at h; simp at h
    | false => rw [inputFile_reads n hf] at h; simp at h
  raised s n e h := by
    cases hf : disk.inputFails s.2 with
    | true => rw [inputFile_fails n hf]; simp
    | false => rw [inputFile_reads n hf] at h; cases h

/-- The output file without what was written. -/
def countSink (disk : Disk) : CSink Nat where
  write n d := (n + 1, if disk.outputFails n then .error ⟨.unknown, false⟩ else .ok d.length)
  close n := (n + 1, if disk.outputFails n then .error ⟨.unknown, false⟩ else .ok ())

theorem outputFile_eq (disk : Disk) : outputFile disk = recordedSink (countSink disk) := by
  have hw : (outputFile disk).write = (recordedSink (countSink disk)).write := by
    funext s d
    simp only [outputFile, recordedSink, countSink]
    cases disk.outputFails s.1 <;> simp
  have hc : (outputFile disk).close = (recordedSink (countSink disk)).close := rfl
  cases h : outputFile disk
  cases h' : recordedSink (countSink disk)
  rw [h, h'] at hw hc
  simp only at hw hc
  rw [hw, hc]

theorem countSink_honest (disk : Disk) : Honest (countSink disk) := by
  intro s d n h
  simp only [countSink] at h
  split at h
  · cases h
  · cases h
    omega

theorem outputFile_progresses (disk : Disk) : Progresses (outputFile disk) (fun _ => 0) := by
  intro s d n hd h hn
  simp only [outputFile] at h
  split at h
  · cases h
  · cases h
    have := List.length_pos_iff.2 hd
    omega

theorem outputFile_reliable {disk : Disk} (h : Disk.Writes disk) : Reliable (outputFile disk) where
  write s d x hx := by
    simp [outputFile, h s.1] at hx
  close s x hx := by
    simp [outputFile, h s.1] at hx

/-! ## Encryption -/

theorem encryptLoop_history {σ ρ : Type} {src : Source σ} {W : ρ → Bytes → ρ → Py Nat → Prop} {s : σ} {t t2 : ρ}
    {b b2 : Bytes} {ops : List (WriteOp × Py Nat)} {r : Py Unit} (h : EncryptLoop src W s t b ops r t2 b2) {t0 : ρ}
    {pre : List (WriteOp × Py Nat)} (hpre : WriterHistory W t0 pre t b) : WriterHistory W t0 (pre ++ ops) t2 b2 := by
  induction h generalizing pre with
  | ended => simpa using hpre
  | readRaised => simpa using hpre
  | blocking => simpa using hpre
  | noData => simpa using hpre
  | wrote _ _ hw _ ih =>
    have := ih (.call hpre hw)
    simpa using this
  | writeRaised _ _ hw => exact .call hpre hw

theorem blockSize_pos : 0 < blockSize := by decide

/-- What was written is the start of the file, and all of it if the loop ended normally. -/
theorem encryptLoop_written {ρ : Type} {disk : Disk} {W : ρ → Bytes → ρ → Py Nat → Prop} {s : Bytes × Nat} {t t2 : ρ}
    {b b2 : Bytes} {ops : List (WriteOp × Py Nat)} {r : Py Unit}
    (h : EncryptLoop (inputFile disk) W s t b ops r t2 b2) :
    writtenBytes ops <+: s.1 ∧ (r = .ok () → writtenBytes ops = s.1) := by
  induction h with
  | @ended s t b hr =>
    refine ⟨List.nil_prefix, fun _ => ?_⟩
    have := ((inputFile_faithful disk).data _ _ _ hr).2.2 rfl
    rcases this with h | h
    · exact absurd h (by decide)
    · exact h.symm
  | readRaised => exact ⟨List.nil_prefix, fun h => by cases h⟩
  | blocking => exact ⟨List.nil_prefix, fun h => by cases h⟩
  | noData => exact ⟨List.nil_prefix, fun h => by cases h⟩
  | @wrote s t b d n t1 b1 ops r t2 b2 hr hd hw _ ih =>
    have h1 := ((inputFile_faithful disk).data _ _ _ hr).1
    have h2 : writtenBytes ((.write d, .ok n) :: ops) = d ++ writtenBytes ops := rfl
    rw [h1, h2]
    exact ⟨(List.prefix_append_right_inj d).2 ih.1, fun h => by rw [ih.2 h]⟩
  | @writeRaised s t b d e t1 b1 hr hd hw =>
    have h1 := ((inputFile_faithful disk).data _ _ _ hr).1
    have h2 : writtenBytes [(.write d, .error e)] = d := by simp [writtenBytes]
    rw [h1, h2]
    exact ⟨List.prefix_append _ _, fun h => by cases h⟩

/-- If no read fails and no write raises the loop ends normally. -/
theorem encryptLoop_ok {ρ : Type} {disk : Disk} (hd : Disk.Reads disk) {W : ρ → Bytes → ρ → Py Nat → Prop}
    {s : Bytes × Nat} {t t2 : ρ} {b b2 : Bytes} {ops : List (WriteOp × Py Nat)} {r : Py Unit}
    (h : EncryptLoop (inputFile disk) W s t b ops r t2 b2) (hok : ∀ o ∈ ops, ∃ n, o.2 = .ok n) : r = .ok () := by
  induction h with
  | ended => rfl
  | readRaised hr => exact absurd hr (inputFile_steady hd _ _ _)
  | blocking hr => rw [inputFile_reads _ (hd _)] at hr; cases hr
  | noData hr => rw [inputFile_reads _ (hd _)] at hr; cases hr
  | wrote _ _ _ _ ih => exact ih fun o ho => hok o (by simp [ho])
  | writeRaised => obtain ⟨n, hn⟩ := hok _ List.mem_cons_self; cases hn

/-- If the read with number `i` is the first that fails, and is made, and no write raises: then the blocks
before it were written. -/
theorem encryptLoop_cut {ρ : Type} {disk : Disk} {i : Nat} (hi : disk.inputFails i = true)
    (hb : ∀ j, j < i → disk.inputFails j = false) {W : ρ → Bytes → ρ → Py Nat → Prop}
    {s : Bytes × Nat} {t t2 : ρ} {b b2 : Bytes} {ops : List (WriteOp × Py Nat)} {r : Py Unit}
    (h : EncryptLoop (inputFile disk) W s t b ops r t2 b2) (hok : ∀ o ∈ ops, ∃ n, o.2 = .ok n)
    (hs : s.2 ≤ i) (hlen : (i - s.2) * blockSize < s.1.length + blockSize) :
    r = .error .osError ∧ writtenBytes ops = s.1.take ((i - s.2) * blockSize) := by
  have hB := blockSize_pos
  have stop : ∀ s : Bytes × Nat, s.2 ≤ i → (∃ x, ((inputFile disk).read s blockSize).2 = x ∧ ∀ d, x = .data d → d = []) →
      (i - s.2) * blockSize < s.1.length + blockSize →
      s.2 = i ∧ ((inputFile disk).read s blockSize).2 = .raised .osError := by
    intro s hs hr hlen
    rcases Nat.lt_or_eq_of_le hs with hlt | heq
    · rw [inputFile_reads _ (hb _ hlt)] at hr
      obtain ⟨x, hx, hd⟩ := hr
      have := hd _ hx.symm
      rw [List.take_eq_nil_iff] at this
      rcases this with h | h
      · omega
      · rw [h] at hlen
        have : blockSize ≤ (i - s.2) * blockSize := Nat.le_mul_of_pos_left _ (by omega)
        simp only [List.length_nil] at hlen
        omega
    · exact ⟨heq, by rw [inputFile_fails _ (by rw [heq]; exact hi)]⟩
  induction h with
  | ended hr =>
    have := stop _ hs ⟨_, hr, fun d h => by cases h; rfl⟩ hlen
    rw [this.2] at hr; cases hr
  | readRaised hr =>
    have := stop _ hs ⟨_, hr, fun d h => by cases h⟩ hlen
    rw [this.2] at hr; cases hr
    exact ⟨rfl, by rw [this.1]; simp [writtenBytes]⟩
  | blocking hr =>
    have := stop _ hs ⟨_, hr, fun d h => by cases h⟩ hlen
    rw [this.2] at hr; cases hr
  | noData hr =>
    have := stop _ hs ⟨_, hr, fun d h => by cases h⟩ hlen
    rw [this.2] at hr; cases hr
  | @wrote s t b d n t1 b1 ops r t2 b2 hr hd hw _ ih =>
    have hlt : s.2 < i := by
      rcases Nat.lt_or_eq_of_le hs with hlt | heq
      · exact hlt
      · rw [inputFile_fails _ (by rw [heq]; exact hi)] at hr
        cases hr
    have hread := inputFile_reads blockSize (hb _ hlt)
    rw [hread] at hr ih
    cases hr
    have hmul : (i - s.2) * blockSize = blockSize + (i - (s.2 + 1)) * blockSize := by
      have : i - s.2 = (i - (s.2 + 1)) + 1 := by omega
      rw [this, Nat.add_mul]; omega
    obtain ⟨h1, h2⟩ := ih (fun o ho => hok o (by simp [ho])) hlt (by
      simp only [List.length_drop]
      rw [hmul] at hlen
      by_cases hx : blockSize ≤ s.1.length
      · omega
      · have h0 : (i - (s.2 + 1)) * blockSize = 0 := by
          rcases Nat.eq_zero_or_pos (i - (s.2 + 1)) with h0 | h0
          · rw [h0, Nat.zero_mul]
          · have : blockSize ≤ (i - (s.2 + 1)) * blockSize := Nat.le_mul_of_pos_left _ h0
            omega
        omega)
    refine ⟨h1, ?_⟩
    have h3 : ∀ d : Bytes, writtenBytes ((.write d, .ok n) :: ops) = d ++ writtenBytes ops := fun _ => rfl
    rw [h3, h2, hmul, List.take_add]
  | writeRaised => obtain ⟨n, hn⟩ := hok _ List.mem_cons_self; cases hn

/-- The loop can be run: a buffered writer may keep all that is written. -/
theorem encryptLoop_exists {ρ : Type} (disk : Disk) (W : ρ → Bytes → ρ → Py Nat → Prop) (t : ρ) :
    ∀ (m : Nat) (s : Bytes × Nat) (b : Bytes), s.1.length ≤ m →
      ∃ ops r b2, EncryptLoop (inputFile disk) W s t b ops r t b2 := by
  intro m
  induction m with
  | zero =>
    intro s b hm
    cases hf : disk.inputFails s.2 with
    | true => exact ⟨_, _, _, .readRaised (by rw [inputFile_fails _ hf])⟩
    | false =>
      refine ⟨_, _, _, .ended ?_⟩
      rw [inputFile_reads _ hf, List.length_eq_zero_iff.1 (Nat.le_zero.1 hm)]
      simp
  | succ m ih =>
    intro s b hm
    cases hf : disk.inputFails s.2 with
    | true => exact ⟨_, _, _, .readRaised (by rw [inputFile_fails _ hf])⟩
    | false =>
      have hread := inputFile_reads blockSize hf
      by_cases hd : s.1.take blockSize = []
      · exact ⟨_, _, _, .ended (by rw [hread, hd])⟩
      · obtain ⟨ops, r, b2, h⟩ := ih (s.1.drop blockSize, s.2 + 1) (b ++ s.1.take blockSize) (by
          have : s.1 ≠ [] := fun h => hd (by rw [h]; simp)
          have := List.length_pos_iff.2 this
          have := blockSize_pos
          simp only [List.length_drop]
          omega)
        exact ⟨_, _, _, .wrote (by rw [hread]) hd (.write _ .start) (by rw [hread]; exact h)⟩

/-! ## Decryption -/

/-- A read of one block. -/
def blockRead (d : Bytes) : ReadOp × ReadResult := (.read blockSize, .data d)

/-- The reads after those whose blocks were written. -/
inductive LastRead : LoopEnd → List (ReadOp × ReadResult) → Prop
  | ended : LastRead .ended [blockRead []]
  | raised {e} : LastRead (.raised e) [(.read blockSize, .raised e)]
  | blocking {e} : LastRead (.raised e) [(.read blockSize, .blocking)]
  | noData {e} : LastRead (.raised e) [(.read blockSize, .none)]
  | notWritten : LastRead .notWritten []

theorem decryptLoop_history {ρ : Type} {R : ρ → Nat → ρ → ReadResult → Prop} {fails : Nat → Bool} {t : ρ} {b : Bytes}
    {n n2 : Nat} {ds : List Bytes} {r : LoopEnd} (h : DecryptLoop R fails t b n ds r n2) {t0 : ρ}
    {pre : List (ReadOp × ReadResult)} (hpre : ReaderHistory R t0 pre t b) :
    ∃ more t1 b1, ReaderHistory R t0 (pre ++ ds.map blockRead ++ more) t1 b1 ∧ LastRead r more ∧
      (r = .notWritten → ∃ m, fails m = true) := by
  induction h generalizing pre with
  | ended hr => exact ⟨_, _, _, by simpa [blockRead] using ReaderHistory.call hpre hr, .ended, fun h => by cases h⟩
  | readRaised hr => exact ⟨_, _, _, by simpa using ReaderHistory.call hpre hr, .raised, fun h => by cases h⟩
  | blocking hr => exact ⟨_, _, _, by simpa using ReaderHistory.call hpre hr, .blocking, fun h => by cases h⟩
  | noData hr => exact ⟨_, _, _, by simpa using ReaderHistory.call hpre hr, .noData, fun h => by cases h⟩
  | wrote hr hd hf _ ih =>
    obtain ⟨more, t1, b1, h1, h2, h3⟩ := ih (.call hpre hr)
    exact ⟨more, t1, b1, by simpa [blockRead] using h1, h2, h3⟩
  | notWritten hr hd hf =>
    exact ⟨[], _, _, by simpa [blockRead] using ReaderHistory.call hpre hr, .notWritten, fun _ => ⟨_, hf⟩⟩

theorem take_blocks (P : Bytes) (k B : Nat) :
    P.take (k * B) ++ (P.drop (P.take (k * B)).length).take B = P.take ((k + 1) * B) := by
  have hm : (k + 1) * B = k * B + B := by rw [Nat.add_mul, Nat.one_mul]
  rw [hm]
  by_cases h : k * B ≤ P.length
  · rw [List.length_take, Nat.min_eq_left h, List.take_add]
  · rw [List.length_take, Nat.min_eq_right (by omega), List.drop_length, List.take_nil, List.append_nil,
      List.take_of_length_le (by omega), List.take_of_length_le (by omega)]

/-- Blocks that were read like from a file. -/
theorem likeFile_blocks {P : Bytes} {ops : List (ReadOp × ReadResult)} {pos : Nat} (h : ReadsLikeFile P ops pos) :
    ∀ ds : List Bytes, ops = ds.map blockRead → ds.flatten = P.take (ds.length * blockSize) ∧ pos = ds.flatten.length := by
  induction h with
  | start =>
    intro ds hds
    have : ds = [] := by simpa using hds.symm
    subst this
    simp
  | @read ops pos op b _ hr ih =>
    intro ds hds
    obtain ⟨l1, l2, rfl, h1, h2⟩ := List.map_eq_append_iff.1 hds.symm
    match l2, h2 with
    | [d], h2 =>
      simp only [List.map_cons, List.map_nil, blockRead, List.cons.injEq, and_true, Prod.mk.injEq,
        ReadResult.data.injEq] at h2
      obtain ⟨rfl, rfl⟩ := h2
      obtain ⟨h3, h4⟩ := ih l1 h1.symm
      have hr : d = (P.drop pos).take blockSize := hr
      rw [List.flatten_append, List.length_append, List.flatten_cons, List.flatten_nil, List.append_nil]
      refine ⟨?_, by rw [List.length_append]; omega⟩
      have h5 := take_blocks P l1.length blockSize
      rw [← h3, ← h4, ← hr] at h5
      exact h5

theorem likeFile_append {P : Bytes} {ops : List (ReadOp × ReadResult)} {pos : Nat} (h : ReadsLikeFile P ops pos) :
    ∀ a b, ops = a ++ b → ∃ i, ReadsLikeFile P a i := by
  induction h with
  | start => intro a b hab; have : a = [] := by have := hab.symm; simp at this; exact this.1
             subst this; exact ⟨0, .start⟩
  | @read ops pos op d h1 h2 ih =>
    intro a b hab
    rcases List.eq_nil_or_concat b with rfl | ⟨b', x, rfl⟩
    · rw [List.append_nil] at hab
      subst hab
      exact ⟨_, .read h1 h2⟩
    · rw [List.concat_eq_append, ← List.append_assoc] at hab
      exact ih a b' (List.append_inj' hab rfl).1

/-- A file that was read in blocks to the end. -/
theorem likeFile_ended {P : Bytes} {ds : List Bytes} {pos : Nat}
    (h : ReadsLikeFile P (ds.map blockRead ++ [blockRead []]) pos) : ds.flatten = P := by
  obtain ⟨i, hi⟩ := likeFile_append h _ _ rfl
  obtain ⟨h1, h2⟩ := likeFile_blocks hi ds rfl
  obtain ⟨d, hd, hr⟩ := readsLikeFile_last hi h
  cases hd
  have hr : [] = (P.drop i).take blockSize := hr
  have := List.take_eq_nil_iff.1 hr.symm
  rcases this with h | h
  · exact absurd h (by decide)
  · rw [List.drop_eq_nil_iff] at h
    rw [h1] at h2 ⊢
    refine List.take_of_length_le ?_
    rw [List.length_take] at h2
    omega

/-- What the loop wrote, if the stream delivers nothing but certain messages. -/
theorem decryptLoop_oneOf {msgs : Bytes → Prop} {ds : List Bytes} {more : List (ReadOp × ReadResult)} {r : LoopEnd}
    (h : ReadsOneOf msgs (ds.map blockRead ++ more)) (hl : LastRead r more) :
    (ds = [] ∨ ∃ P, msgs P ∧ ds.flatten = P.take (ds.length * blockSize)) ∧ (r = .ended → msgs ds.flatten) := by
  obtain ⟨pre, post, hops, hpost, hpre⟩ := h
  have hmem : ∀ o ∈ ds.map blockRead ++ more, o.1 = .read blockSize := by
    intro o ho
    rcases List.mem_append.1 ho with ho | ho
    · obtain ⟨d, -, rfl⟩ := List.mem_map.1 ho; rfl
    · cases hl <;> simp at ho <;> rw [ho] <;> rfl
  have hzero : (∀ o ∈ pre, o = (.read 0, .data []) ∨ o = (.read1 0, .data [])) → pre = [] := by
    intro hz
    cases pre with
    | nil => rfl
    | cons o pre =>
      have h1 := hmem o (by rw [hops]; simp)
      rcases hz o (by simp) with rfl | rfl
      · simp [blockSize] at h1
      · cases h1
  -- `pre` has all the blocks
  have hcover : ∃ more', pre = ds.map blockRead ++ more' ∧ (post = [] → more' = more) ∧
      (r = .ended → post = []) := by
    rcases hpost with rfl | ⟨op, e, rest, rfl, -⟩
    · exact ⟨more, by simpa using hops.symm, fun _ => rfl, fun _ => rfl⟩
    · rcases List.append_eq_append_iff.1 hops with ⟨a, h1, h2⟩ | ⟨a, h1, h2⟩
      · refine ⟨a, h1, fun h => (by cases h), fun hr => ?_⟩
        subst hr
        cases hl
        exfalso
        have : (op, ReadResult.raised e) ∈ [blockRead []] := by rw [h2]; simp
        simp [blockRead] at this
      · cases a with
        | nil =>
          refine ⟨[], by simpa using h1.symm, fun h => (by cases h), fun hr => ?_⟩
          subst hr
          cases hl
          exfalso
          simp at h2
          simp [blockRead] at h2
        | cons o a =>
          exfalso
          have ho : o ∈ ds.map blockRead := by rw [h1]; simp
          obtain ⟨d, -, hd⟩ := List.mem_map.1 ho
          have : o = (op, ReadResult.raised e) := by
            have := h2
            simp only [List.cons_append, List.cons.injEq] at this
            exact this.1.symm
          rw [← hd] at this
          simp [blockRead] at this
  obtain ⟨more', h1, h2, h3⟩ := hcover
  rcases hpre with hz | ⟨P, pos, hP, hlike⟩
  · have h0 := hzero hz
    rw [h0] at h1
    have h4 := List.append_eq_nil_iff.1 h1.symm
    have hds : ds = [] := List.map_eq_nil_iff.1 h4.1
    refine ⟨.inl hds, fun hr => ?_⟩
    have h5 := h2 (h3 hr)
    rw [h4.2] at h5
    subst hr
    cases hl
    cases h5
  · rw [h1] at hlike
    obtain ⟨i, hi⟩ := likeFile_append hlike _ _ rfl
    refine ⟨.inr ⟨P, hP, (likeFile_blocks hi ds rfl).1⟩, fun hr => ?_⟩
    rw [h2 (h3 hr)] at hlike
    subst hr
    cases hl
    rw [likeFile_ended hlike]
    exact hP

/-! ## The program -/

section Program
variable {P C F κ : Type} [DecidableEq C] {L : FileLibrary P C} {isInst : P → C → Bool} {E : JsonFormatEnv F} {os : Os}
  {disk : Disk} {seed : Seed} {outBuffer : Bytes} {fl : Flags} {w : World κ} {x : Py Exit × World κ}

omit [DecidableEq C] in
theorem readText_cases (E : JsonFormatEnv F) (os : Os) (path : Path) (w : World κ) :
    (∃ text, readText os path w = (.ok text, w) ∧
      ∀ h, KeysetFile E os w.files path h ↔ JsonProtoKeysetFormat.parse E text .secretKeyAccess = .ok h) ∨
    ∃ e, readText os path w = (.error e, w) ∧ ∀ h, ¬ KeysetFile E os w.files path h := by
  have key : readText os path w = (readBytes os path >>= fun b => Run.lift (decodeText b)) w := rfl
  rw [key]
  rcases read_cases os path (fun b => Run.lift (decodeText b)) w with ⟨b, h1, _, h2⟩ | ⟨h1, h2⟩
  · rw [h2]
    cases hd : decodeText b with
    | error e =>
      refine .inr ⟨e, rfl, ?_⟩
      rintro h ⟨b', t', g1, g2, g3⟩
      cases fileHolds_unique h1 g1
      rw [textOf_iff, hd] at g2; cases g2
    | ok t =>
      refine .inl ⟨t, rfl, fun h => ⟨?_, fun hp => ⟨b, t, h1, (textOf_iff b t).2 hd, hp⟩⟩⟩
      rintro ⟨b', t', g1, g2, g3⟩
      cases fileHolds_unique h1 g1
      rw [textOf_iff, hd] at g2; cases g2
      exact g3
  · rw [h2]
    refine .inr ⟨_, rfl, ?_⟩
    rintro h ⟨b', t', g1, _⟩
    exact h1 b' g1

theorem registered_run (hl : LawfulConfig L isInst) (w : World κ) :
    registered isInst (registerStreamingAead L) w = (.ok (registryOf isInst (registerStreamingAead L)), w) := by
  have := registered_ok hl .streamingAead (fun r => (Run.lift (.ok r) : Run κ _)) w
  rw [Run.lift] at this
  refine Eq.trans ?_ this
  rw [run_bind]
  rw [show registerPackage L .streamingAead = registerStreamingAead L from rfl]
  cases registered isInst (registerStreamingAead L) w with
  | mk o w' => cases o <;> rfl

/-- What happens to the files. -/
def Crypted (disk : Disk)
    (prim : StreamingAead (Bytes × Nat) (Dest (Nat × Bytes)) (CcEncrypting Nat (Nat × Bytes)) (CcDecrypting Segment.State))
    (seed : Seed) (outBuffer ad input : Bytes) (mode : Mode) (r : Py Unit) (left : Bytes) : Prop :=
  match mode with
  | .encrypt => EncryptFile disk prim seed outBuffer ad input r left
  | .decrypt => DecryptFile disk prim ad input r left

omit [DecidableEq C] in
theorem put_files (w : World κ) (f : Nat) (b : Bytes) (g : Nat) :
    (w.put f b).files g = if g = f then some b else w.files g := rfl

theorem run_iff (hl : LawfulConfig L isInst) :
    streamingCli L isInst E os disk seed outBuffer fl w x ↔
      ((∀ h ad input, ¬ Ready L isInst E os w.files fl h ad input) ∧ exitStatus x = 1 ∧ x.2 = w ∧
        streamingCli L isInst E os disk seed outBuffer fl w x) ∨
      ∃ h ad input p r left, Ready L isInst E os w.files fl h ad input ∧
        h.primitive isInst (registryOf isInst (registerStreamingAead L)) (L.cls .streamingAead) = .ok p ∧
        Crypted disk (L.streamingAead.view p) seed outBuffer ad input fl.mode r left ∧
        x = (exitOf fl.mode r, (w.put (os.file fl.outputPath) []).put (os.file fl.outputPath) left) := by
  have tink : ∀ (e : Exc) (w : World κ) (x : Py Exit × World κ),
      (if e.isTink then x = (.ok (some 1), w) else x = (.error e, w)) → exitStatus x = 1 ∧ x.2 = w := by
    intro e w x h
    split at h <;> subst h <;> exact ⟨rfl, rfl⟩
  have stop : ∀ (Q : Prop), (∀ h ad input, ¬ Ready L isInst E os w.files fl h ad input) →
      (Q → exitStatus x = 1 ∧ x.2 = w) → (Q ↔
      ((∀ h ad input, ¬ Ready L isInst E os w.files fl h ad input) ∧ exitStatus x = 1 ∧ x.2 = w ∧ Q) ∨
      ∃ h ad input p r left, Ready L isInst E os w.files fl h ad input ∧
        h.primitive isInst (registryOf isInst (registerStreamingAead L)) (L.cls .streamingAead) = .ok p ∧
        Crypted disk (L.streamingAead.view p) seed outBuffer ad input fl.mode r left ∧
        x = (exitOf fl.mode r, (w.put (os.file fl.outputPath) []).put (os.file fl.outputPath) left)) := by
    intro Q h1 h2
    refine ⟨fun q => .inl ⟨h1, (h2 q).1, (h2 q).2, q⟩, ?_⟩
    rintro (h | ⟨h, ad, input, _, _, _, hr, _⟩)
    · exact h.2.2.2
    · exact absurd hr (h1 _ _ _)
  unfold streamingCli
  unfold Courses.after
  simp only [Run.lift]
  cases hf : flagBytes fl.text with
  | error e =>
    refine stop _ (fun h ad input hr => ?_) (fun h => ?_)
    · have := (flagBytes_iff _ _).1 hr.flag
      rw [hf] at this; cases this
    · rw [show x = _ from h]; exact ⟨rfl, rfl⟩
  | ok ad =>
    simp only [registered_run hl]
    rcases readText_cases E os fl.keysetPath w with ⟨text, ht, hk⟩ | ⟨e, ht, hk⟩
    · simp only [ht]
      unfold Courses.tryTink
      cases hp : JsonProtoKeysetFormat.parse E text .secretKeyAccess with
      | error e =>
        refine stop _ (fun h ad input hr => ?_) (tink e w x)
        have := (hk h).1 hr.keyset
        rw [hp] at this; cases this
      | ok h =>
        have hkey := (hk h).2 hp
        simp only
        cases hprim : h.primitive isInst (registryOf isInst (registerStreamingAead L)) (L.cls .streamingAead) with
        | error e =>
          refine stop _ (fun h' ad' input hr => ?_) (tink e w x)
          cases keysetFile_unique hr.keyset hkey
          obtain ⟨p, hp'⟩ := hr.primitive
          rw [hprim] at hp'; cases hp'
        | ok p =>
          simp only
          cases hin : w.files (os.file fl.inputPath) with
          | none =>
            refine stop _ (fun h' ad' input hr => ?_) (fun h => ?_)
            · obtain ⟨c, hc, -⟩ := hr.input
              have := hc.2
              rw [hin] at this; cases this
            · simp only [openRead, hin] at h
              rw [show x = _ from h]; exact ⟨rfl, rfl⟩
          | some content =>
            cases hrd : os.readable fl.inputPath with
            | false =>
              refine stop _ (fun h' ad' input hr => ?_) (fun h => ?_)
              · obtain ⟨c, hc, -⟩ := hr.input
                have := hc.1
                rw [hrd] at this; cases this
              · simp [openRead, hin, hrd] at h
                rw [show x = _ from h]; exact ⟨rfl, rfl⟩
            | true =>
              cases hwr : os.writable fl.outputPath with
              | false =>
                refine stop _ (fun h' ad' input hr => ?_) (fun h => ?_)
                · have := hr.writable
                  rw [hwr] at this; cases this
                · simp [openRead, hin, hrd, openWrite, hwr] at h
                  rw [show x = _ from h]; exact ⟨rfl, rfl⟩
              | true =>
                have hready : Ready L isInst E os w.files fl h ad
                    (if os.file fl.inputPath = os.file fl.outputPath then [] else content) :=
                  ⟨(flagBytes_iff _ _).2 hf, hkey, ⟨p, hprim⟩, hwr, content, ⟨hrd, hin⟩, rfl⟩
                have hfile : (w.put (os.file fl.outputPath) []).files (os.file fl.inputPath) =
                    some (if os.file fl.inputPath = os.file fl.outputPath then [] else content) := by
                  rw [put_files]
                  by_cases heq : os.file fl.inputPath = os.file fl.outputPath
                  · rw [if_pos heq, if_pos heq]
                  · rw [if_neg heq, if_neg heq, hin]
                simp only [openRead, hin, hrd, if_true, openWrite, hwr]
                unfold useFiles
                constructor
                · rintro ⟨input, h1, r, left, h2, h3⟩
                  rw [hfile] at h1
                  cases h1
                  exact .inr ⟨h, ad, _, p, r, left, hready, hprim, by unfold Crypted; cases hm : fl.mode <;> rw [hm] at h2 <;> exact h2, h3⟩
                · rintro (⟨h1, -⟩ | ⟨h', ad', input, p', r, left, hr, hp', h2, h3⟩)
                  · exact absurd hready (h1 _ _ _)
                  · cases keysetFile_unique hr.keyset hkey
                    cases flagBytes_unique hr.flag hready.flag
                    rw [hprim] at hp'; cases hp'
                    obtain ⟨c, hc, hci⟩ := hr.input
                    have := hc.2
                    rw [hin] at this; cases this
                    subst hci
                    refine ⟨_, hfile, r, left, ?_, h3⟩
                    unfold Crypted at h2
                    cases hm : fl.mode <;> rw [hm] at h2 <;> exact h2
    · simp only [ht]
      refine stop _ (fun h ad input hr => hk h hr.keyset) (fun h => ?_)
      rw [show x = _ from h]; exact ⟨rfl, rfl⟩

end Program

/-! ## Keys -/

section Keys
variable {P C : Type} [DecidableEq C] {L : FileLibrary P C} {isInst : P → C → Bool} {lib : SegmentLibrary}
  {text : Exc → Bool} {inBuffer : Bytes}

/-- A package registers no other key types than its own. -/
theorem registryOf_types (hl : LawfulConfig L isInst) (pkg : Package) {url : PStr} {m : KeyManager P C} {b : Bool}
    (hg : PyDict.get? (registryOf isInst (registerPackage L pkg)).keyManagers url = some (m, b)) :
    ∃ k, (url, k) ∈ keyTypes pkg := by
  have hexec : ∀ (ss : List (Stmt P C)) (r : Registry P C), (∀ s ∈ ss, s ∈ registerPackage L pkg) →
      (∀ url m b, PyDict.get? r.keyManagers url = some (m, b) → ∃ k, (url, k) ∈ keyTypes pkg) →
      ∀ url m b, PyDict.get? (execAll isInst ss r).1.keyManagers url = some (m, b) →
        ∃ k, (url, k) ∈ keyTypes pkg := by
    intro ss
    induction ss with
    | nil => intro r _ h; exact h
    | cons s ss ih =>
      intro r hs h
      refine andThen_inv (I := fun r => ∀ url m b, PyDict.get? r.keyManagers url = some (m, b) →
        ∃ k, (url, k) ∈ keyTypes pkg) ?_ fun r hr => ih r (fun s hm => hs s (by simp [hm])) hr
      rcases registerPackage_cases hl pkg (hs s (by simp)) with rfl | ⟨x, hx, rfl⟩ | ⟨k, w, hw, rfl⟩
      · exact h
      · obtain ⟨m, hm, hgood⟩ := packageManagers_good hl pkg x hx
        intro url m' b hg
        rw [hm] at hg
        rcases register_get hg with ⟨b', hg⟩ | ⟨rfl, hu⟩
        · exact h url m' b' hg
        · refine ⟨x.2.1, ?_⟩
          rw [hu, hgood.keyType, ← packageTypes_iff, ← packageManagers_types L]
          exact List.mem_map.2 ⟨_, hx, rfl⟩
      · intro url m' b hg
        simp only [Stmt.exec] at hg
        rw [register_wrapper_managers] at hg
        exact h url m' b hg
  exact hexec _ {} (fun _ h => h) (fun _ _ _ h => by cases h) url m b hg

/-- What the streaming AEAD of a key is. -/
theorem key_gives (hs : StreamingSetup L isInst lib text inBuffer) {k : Key} (hfit : Fits k.data) {q}
    (hq : KeyGives L isInst k q) :
    ∃ np, q = np.toRaw text inBuffer ∧ (Spec.LawfulLibrary lib → SoundStreaming np) := by
  obtain ⟨o, ho, rfl⟩ := hq
  unfold Registry.primitive at ho
  obtain ⟨m, hm, ho⟩ := bind_ok_iff.1 ho
  split at ho
  · cases ho
  · rename_i hcls
    have hcls : m.primitiveClass = L.cls .rawStreamingAead := Decidable.not_not.1 hcls
    unfold Registry.keyManager Registry.keyManagerInternal at hm
    cases hg : PyDict.get? (registryOf isInst (registerStreamingAead L)).keyManagers k.data.typeUrl with
    | none => rw [hg] at hm; cases hm
    | some mb =>
      rw [hg] at hm
      obtain ⟨m', b⟩ := mb
      cases hm
      obtain ⟨c, hc⟩ := registryOf_types hs.config .streamingAead hg
      obtain ⟨m', hg', hcls', -, htm⟩ := (registryOf_registered hs.config .streamingAead).managers _ _ hc
      rw [show registerPackage L .streamingAead = registerStreamingAead L from rfl, hg] at hg'
      cases hg'
      rw [hcls] at hcls'
      cases hs.config.classes _ _ hcls'
      cases htm with
      | rawStreamingAead found serves =>
        rename_i cc
        rw [serves.primitive _ hfit] at ho
        cases hp : cc.getPrimitive k.data with
        | error e => rw [hp] at ho; cases ho
        | ok np =>
          rw [hp] at ho
          cases ho
          refine ⟨np, by rw [L.rawStreamingAead.view_inj, hs.streams], fun hlib => ?_⟩
          rw [hs.keys] at found
          unfold ccStreamingAead at found
          split at found
          · cases found
            obtain ⟨-, k', -, -, hnew⟩ := getPrimitive_iff.1 hp
            exact C67_aes_gcm_hkdf hlib hnew
          · split at found
            · cases found
              obtain ⟨-, k', -, -, hnew⟩ := getPrimitive_iff.1 hp
              exact C67_aes_ctr_hmac hlib hnew
            · cases found

/-- The wrapper that is registered. -/
abbrev wrapper (L : FileLibrary P C) : PrimitiveWrapper P C :=
  streamingAeadWrapper L.rawStreamingAead L.streamingAead (L.wrapperType .streamingAead)
    (L.cls .rawStreamingAead) (L.cls .streamingAead)

theorem obtained_streaming (hl : LawfulConfig L isInst) {h : KeysetHandle} {p : P}
    (hp : h.primitive isInst (registryOf isInst (registerStreamingAead L)) (L.cls .streamingAead) = .ok p) :
    ∃ kps, Obtained isInst (wrapper L) (registryOf isInst (registerStreamingAead L)) h (L.cls .streamingAead) kps p := by
  obtain ⟨_, w, kps, h1, h2, _⟩ := primitive_ok_iff.1 hp
  obtain ⟨w', h3, h4⟩ := (registryOf_registered hl .streamingAead).wrappers .streamingAead (by decide)
  rw [show registerPackage L .streamingAead = registerStreamingAead L from rfl, h1] at h3
  cases h3
  cases h4
  exact ⟨kps, h1, hp, h2⟩

variable {h : KeysetHandle} {kps : List (Key × P)} {prim : P}

theorem kps_mem (H : Obtained isInst (wrapper L) (registryOf isInst (registerStreamingAead L)) h
    (L.cls .streamingAead) kps prim) {q : Key × P} (hq : q ∈ kps) :
    q.1 ∈ h.keyset.key ∧ Enabled q.1 ∧ KeyGives L isInst q.1 (L.rawStreamingAead.view q.2) := by
  have hk : q.1 ∈ h.keyset.key.filter (fun k => Enabled k) := by
    rw [← H.keys.1]; exact List.mem_map.2 ⟨q, hq, rfl⟩
  rw [List.mem_filter, decide_eq_true_eq] at hk
  exact ⟨hk.1, hk.2, q.2, H.keys.2 q hq, rfl⟩

theorem mem_kps (H : Obtained isInst (wrapper L) (registryOf isInst (registerStreamingAead L)) h
    (L.cls .streamingAead) kps prim) {k : Key} (hk : k ∈ h.keyset.key) (he : Enabled k) {x}
    (hx : KeyGives L isInst k x) : ∃ q ∈ kps, q.1 = k ∧ L.rawStreamingAead.view q.2 = x := by
  have hm : k ∈ h.keyset.key.filter (fun k => Enabled k) := by
    rw [List.mem_filter, decide_eq_true_eq]; exact ⟨hk, he⟩
  rw [← H.keys.1] at hm
  obtain ⟨q, hq, rfl⟩ := List.mem_map.1 hm
  obtain ⟨o, ho, rfl⟩ := hx
  refine ⟨q, hq, rfl, ?_⟩
  have := H.keys.2 q hq
  rw [show (wrapper L).inputPrimitiveClass = L.cls .rawStreamingAead from rfl, ho] at this
  cases this
  rfl

theorem isPrimary_key (H : Obtained isInst (wrapper L) (registryOf isInst (registerStreamingAead L)) h
    (L.cls .streamingAead) kps prim) {q : Key × P} (hq : IsPrimary h.keyset kps q) : IsPrimaryKey h.keyset q.1 :=
  ⟨(kps_mem H hq.mem).2.1, by simpa using (List.mem_filter.1 (List.mem_of_getLast? hq)).2⟩

/-- Two different keys of a list, in one order or the other. -/
theorem two_mem {A : Type} {l : List A} {a b : A} (ha : a ∈ l) (hb : b ∈ l) (hne : a ≠ b) :
    (∃ pre mid post, l = pre ++ a :: (mid ++ b :: post)) ∨ ∃ pre mid post, l = pre ++ b :: (mid ++ a :: post) := by
  obtain ⟨s, t, rfl⟩ := List.append_of_mem ha
  rcases List.mem_append.1 hb with hb | hb
  · obtain ⟨s1, s2, rfl⟩ := List.append_of_mem hb
    exact .inr ⟨s1, s2, t, by simp⟩
  · rcases List.mem_cons.1 hb with rfl | hb
    · exact absurd rfl hne
    · obtain ⟨t1, t2, rfl⟩ := List.append_of_mem hb
      exact .inl ⟨s, t1, t2, rfl⟩

theorem isPrimary_of (H : Obtained isInst (wrapper L) (registryOf isInst (registerStreamingAead L)) h
    (L.cls .streamingAead) kps prim) {k : Key} (hk : k ∈ h.keyset.key) (hp : IsPrimaryKey h.keyset k) {x}
    (hx : KeyGives L isInst k x) : ∃ o, IsPrimary h.keyset kps (k, o) ∧ L.rawStreamingAead.view o = x := by
  obtain ⟨q, hq, h1, h2⟩ := mem_kps H hk hp.1 hx
  have hm : q ∈ kps.filter (fun q => q.1.keyId = h.keyset.primaryKeyId) := by
    rw [List.mem_filter, decide_eq_true_eq, h1]; exact ⟨hq, hp.2⟩
  cases hl : (kps.filter (fun q => q.1.keyId = h.keyset.primaryKeyId)).getLast? with
  | none => rw [List.getLast?_eq_none_iff] at hl; rw [hl] at hm; cases hm
  | some q' =>
    have hq' : IsPrimary h.keyset kps q' := hl
    have hk' := kps_mem H hq'.mem
    have hval := (C20_validate_iff _).1 (primitive_ok_iff.1 H.primitive).1
    have : q'.1 = k := by
      apply Decidable.byContradiction
      intro hne
      rcases two_mem hk'.1 hk hne with ⟨a, b, c, habc⟩ | ⟨a, b, c, habc⟩
      · exact hval.one_primary _ _ _ _ _ habc ⟨isPrimary_key H hq', hp⟩
      · exact hval.one_primary _ _ _ _ _ habc ⟨hp, isPrimary_key H hq'⟩
    obtain ⟨k', o'⟩ := q'
    cases this
    refine ⟨o', hq', ?_⟩
    obtain ⟨o, ho, rfl⟩ := hx
    have := hk'.2.2
    obtain ⟨o2, ho2, h3⟩ := this
    rw [← h3]
    rw [show (k', o').1 = k' from rfl] at ho2
    rw [ho] at ho2; cases ho2
    rfl

/-- An encrypting stream is made with the primary key. -/
theorem new_primary (H : Obtained isInst (wrapper L) (registryOf isInst (registerStreamingAead L)) h
    (L.cls .streamingAead) kps prim) {seed : Seed} {dest : Dest (Nat × Bytes)} {ad : Bytes} {t}
    (ht : (L.streamingAead.view prim).newEncryptingStream seed dest ad = .ok t) :
    ∃ q, IsPrimary h.keyset kps q := by
  apply Classical.byContradiction
  intro hn
  obtain ⟨hw, hk⟩ := H.prop
  simp only [wrapper, streamingAeadWrapper, Except.ok.injEq] at hw
  subst hw
  rw [L.streamingAead.view_inj] at ht
  have ht : WrappedStreamingAead.newEncryptingStream _ seed dest ad = .ok t := ht
  unfold WrappedStreamingAead.newEncryptingStream at ht
  rw [primary_map, primary_psetOf_none fun q hq' => hn ⟨q, hq'⟩] at ht
  cases ht

/-- A decrypting stream can be made if there are enabled keys, and all of them can make one. -/
theorem new_decrypting (H : Obtained isInst (wrapper L) (registryOf isInst (registerStreamingAead L)) h
    (L.cls .streamingAead) kps prim) {ad : Bytes} (hne : kps ≠ [])
    (hopen : ∀ q ∈ kps, ∃ t, (L.rawStreamingAead.view q.2).newRawDecryptingStream ad = .ok t) (s : Bytes × Nat) :
    ∃ w, (L.streamingAead.view prim).newDecryptingStream s true ad = .ok w := by
  rw [(C54_keyset H).2]
  cases hg : groupOrder kps with
  | nil =>
    cases kps with
    | nil => exact absurd rfl hne
    | cons q kps =>
      have := (mem_groupOrder H.prop.2).2 (List.mem_cons_self (a := q) (l := kps))
      rw [hg] at this; cases this
  | cons q qs =>
    obtain ⟨t, ht⟩ := hopen q ((mem_groupOrder H.prop.2).1 (by rw [hg]; simp))
    unfold DecryptingStreamWrapper.new
    rw [List.map_cons]
    simp only [bind, Except.bind, ht]
    exact ⟨_, rfl⟩

end Keys

end Tink.Cli
