import Verif.Cli.StreamingLemmas
import Verif.Props.Termination
import Verif.Props.Writing

/-!
# What `encrypt_file` and `decrypt_file` do with the streams of a keyset
-/

namespace Tink.Cli
open Config Io Spec Props

variable {P C : Type} [DecidableEq C] {L : FileLibrary P C} {isInst : P → C → Bool} {lib : SegmentLibrary}
  {text : Exc → Bool} {inBuffer : Bytes} {h : KeysetHandle} {kps : List (Key × P)} {prim : P} {disk : Disk}
  {seed : Seed} {outBuffer ad input : Bytes}

/-- The keyset and its streaming AEAD. -/
abbrev Has (L : FileLibrary P C) (isInst : P → C → Bool) (h : KeysetHandle) (kps : List (Key × P)) (prim : P) :=
  Obtained isInst (wrapper L) (registryOf isInst (registerStreamingAead L)) h (L.cls .streamingAead) kps prim

/-! ## Encryption -/

/-- If the stream was closed, the output file holds an encryption of the blocks that were written. -/
theorem encryptFile_closed (hs : StreamingSetup L isInst lib text inBuffer) (hlib : Spec.LawfulLibrary lib)
    (H : Has L isInst h kps prim)
    (hfit : FitsKeys h) {t t1 t2 : CcEncrypting Nat (Nat × Bytes)} {ops : List (WriteOp × Py Nat)} {body : Py Unit}
    {b : Bytes}
    (ht : (L.streamingAead.view prim).newEncryptingStream seed ⟨true, (0, []), outBuffer⟩ ad = .ok t)
    (hloop : EncryptLoop (inputFile disk) (CcEncrypting.RawWrite (outputFile disk)) (input, 0) t [] ops body t1 b)
    (hclose : BufferedClose (CcEncrypting.RawWrite (outputFile disk)) (CcEncrypting.RawClose (outputFile disk))
      t1 b t2 (.ok ())) :
    (∀ o ∈ ops, ∃ n, o.2 = .ok n) ∧ PrimaryDecrypts L isInst h ad t2.object.2 (writtenBytes ops) := by
  obtain ⟨⟨k, o⟩, hprim⟩ := new_primary H ht
  obtain ⟨hk, -, hgives⟩ := kps_mem H hprim.mem
  obtain ⟨np, hnp, hsound⟩ := key_gives hs (hfit k hk) hgives
  rw [(C54_keyset H).1 k o hprim, hnp] at ht
  have hist := encryptLoop_history hloop .start
  obtain ⟨hok, t3, fuel, hw, hc⟩ := C71_writer (new_not_closed ht) hist hclose
  refine ⟨hok, k, hk, isPrimary_key H hprim, _, hgives, ?_⟩
  rw [hnp]
  rw [List.nil_append, outputFile_eq] at hw
  rw [outputFile_eq] at hc
  exact C67_round_trip (hsound hlib) (countSink_honest disk) ht hw hc hs.buffer

theorem encryptFile_cases (hs : StreamingSetup L isInst lib text inBuffer) (hlib : Spec.LawfulLibrary lib)
    (H : Has L isInst h kps prim)
    (hfit : FitsKeys h) {r : Py Unit} {left : Bytes}
    (hr : EncryptFile disk (L.streamingAead.view prim) seed outBuffer ad input r left) :
    r = .ok () ∧ PrimaryDecrypts L isInst h ad left input ∨ ∃ e, r = .error e := by
  cases hr with
  | notMade _ => exact .inr ⟨_, rfl⟩
  | failed => exact .inr ⟨_, rfl⟩
  | closed ht hloop hclose =>
    cases r with
    | error e => exact .inr ⟨e, rfl⟩
    | ok u =>
      have := (encryptFile_closed hs hlib H hfit ht hloop hclose).2
      rw [(encryptLoop_written hloop).2 rfl] at this
      exact .inl ⟨rfl, this⟩

/-- A run in which nothing fails but reads of the input file. -/
theorem encryptFile_succeeds (hs : StreamingSetup L isInst lib text inBuffer) (hlib : Spec.LawfulLibrary lib)
    (H : Has L isInst h kps prim)
    (hfit : FitsKeys h) {limit : Nat} (hp : PrimaryEncrypts L isInst text inBuffer h limit) (hdisk : Disk.Writes disk)
    (hb : outBuffer ≠ []) (hlen : input.length ≤ limit) :
    (∃ r left, EncryptFile disk (L.streamingAead.view prim) seed outBuffer ad input r left) ∧
    ∀ r left, EncryptFile disk (L.streamingAead.view prim) seed outBuffer ad input r left →
      ∃ (t t1 : CcEncrypting Nat (Nat × Bytes)) (b : Bytes) (ops : List (WriteOp × Py Nat)),
        EncryptLoop (inputFile disk) (CcEncrypting.RawWrite (outputFile disk)) (input, 0) t [] ops r t1 b ∧
        (∀ o ∈ ops, ∃ n, o.2 = .ok n) ∧ PrimaryDecrypts L isInst h ad left (writtenBytes ops) := by
  obtain ⟨k, hk, hprim, np, hgives, hsound, hup, hmade⟩ := hp
  obtain ⟨o, ho, hview⟩ := isPrimary_of H hk hprim hgives
  obtain ⟨t, ht⟩ := hmade seed (0, []) outBuffer ad
  have ht : (L.streamingAead.view prim).newEncryptingStream seed ⟨true, (0, []), outBuffer⟩ ad = .ok t := by
    rw [(C54_keyset H).1 k o ho, hview]; exact ht
  have main : ∀ {ops r t1 b},
      EncryptLoop (inputFile disk) (CcEncrypting.RawWrite (outputFile disk)) (input, 0) t [] ops r t1 b →
      (∃ e2, BufferedClose (CcEncrypting.RawWrite (outputFile disk)) (CcEncrypting.RawClose (outputFile disk))
        t1 b e2 (.ok ())) ∧
      ∀ e2 x, BufferedClose (CcEncrypting.RawWrite (outputFile disk)) (CcEncrypting.RawClose (outputFile disk))
        t1 b e2 x → x = .ok () := by
    intro ops r t1 b hloop
    have hist := encryptLoop_history hloop .start
    refine (C80_succeeds H hsound hup hview ho (outputFile_progresses disk) (outputFile_reliable hdisk) hb ht
      hist ?_).2
    have := (encryptLoop_written hloop).1.length_le
    rw [List.nil_append]
    exact Nat.le_trans this hlen
  refine ⟨?_, ?_⟩
  · obtain ⟨ops, r, b2, hloop⟩ := encryptLoop_exists disk (CcEncrypting.RawWrite (outputFile disk)) t _ (input, 0) []
      (Nat.le_refl _)
    obtain ⟨⟨e2, he⟩, -⟩ := main hloop
    exact ⟨_, _, .closed ht hloop he⟩
  · intro r left hr
    cases hr with
    | notMade hn => rw [ht] at hn; cases hn
    | closed ht' hloop hclose =>
      obtain ⟨h1, h2⟩ := encryptFile_closed hs hlib H hfit ht' hloop hclose
      exact ⟨_, _, _, _, hloop, h1, h2⟩
    | failed _ ht' hloop hclose =>
      rw [ht] at ht'; cases ht'
      cases (main hloop).2 _ _ hclose

/-- Whatever fails, and however much there is to encrypt, all calls return, and there is a result. -/
theorem encryptFile_exists (hs : StreamingSetup L isInst lib text inBuffer) (hlib : Spec.LawfulLibrary lib)
    (H : Has L isInst h kps prim) (hfit : FitsKeys h) (hb : outBuffer ≠ []) :
    (∃ r left, EncryptFile disk (L.streamingAead.view prim) seed outBuffer ad input r left) ∧
    ∀ t ops t1 b, (L.streamingAead.view prim).newEncryptingStream seed ⟨true, (0, []), outBuffer⟩ ad = .ok t →
      WriterHistory (CcEncrypting.RawWrite (outputFile disk)) t ops t1 b →
      EveryWriteReturns (CcEncrypting.RawWrite (outputFile disk)) (CcEncrypting.RawClose (outputFile disk)) t1 b := by
  have main : ∀ t ops t1 b, (L.streamingAead.view prim).newEncryptingStream seed ⟨true, (0, []), outBuffer⟩ ad = .ok t →
      WriterHistory (CcEncrypting.RawWrite (outputFile disk)) t ops t1 b →
      EveryWriteReturns (CcEncrypting.RawWrite (outputFile disk)) (CcEncrypting.RawClose (outputFile disk)) t1 b := by
    intro t ops t1 b ht hist
    obtain ⟨⟨k, o⟩, hprim⟩ := new_primary H ht
    obtain ⟨hk, -, hgives⟩ := kps_mem H hprim.mem
    obtain ⟨np, hnp, hsound⟩ := key_gives hs (hfit k hk) hgives
    exact C80_writer H (hsound hlib) hnp hprim (outputFile_progresses disk) hb ht hist
  refine ⟨?_, main⟩
  cases ht : (L.streamingAead.view prim).newEncryptingStream seed ⟨true, (0, []), outBuffer⟩ ad with
  | error e => exact ⟨_, _, .notMade ht⟩
  | ok t =>
    obtain ⟨ops, r, b2, hloop⟩ := encryptLoop_exists disk (CcEncrypting.RawWrite (outputFile disk)) t _ (input, 0) []
      (Nat.le_refl _)
    obtain ⟨-, -, x, e2, hx⟩ := main t _ _ _ ht (encryptLoop_history hloop .start)
    cases x with
    | ok u => exact ⟨_, _, .closed ht hloop hx⟩
    | error e => exact ⟨_, _, .failed [] ht hloop hx⟩

/-! ## Decryption -/

theorem kps_plain (hs : StreamingSetup L isInst lib text inBuffer) (H : Has L isInst h kps prim)
    (hfit : FitsKeys h) : ∀ q ∈ kps, PlainReads (L.rawStreamingAead.view q.2).stream ∧
      NeverHangs (L.rawStreamingAead.view q.2) ad := by
  intro q hq
  obtain ⟨hk, -, hg⟩ := kps_mem H hq
  obtain ⟨np, hnp, -⟩ := key_gives hs (hfit _ hk) hg
  rw [hnp]
  exact ⟨C71_plain_reads np text inBuffer, C79_key np text hs.buffer ad⟩

theorem decryptFile_authentic (hs : StreamingSetup L isInst lib text inBuffer) (H : Has L isInst h kps prim)
    (hfit : FitsKeys h) {msgs : Bytes → Prop}
    (hq : EveryKey L isInst h fun q => (∃ t, q.newRawDecryptingStream ad = .ok t) ∧ DeliversOneOf q ad msgs)
    {r : Py Unit} {left : Bytes} (hr : DecryptFile disk (L.streamingAead.view prim) ad input r left) :
    r = .ok () ∧ msgs left ∨ (∃ e, r = .error e) ∧ (left = [] ∨ ∃ p, msgs p ∧ left <+: p) ∧
      (Disk.Writes disk → left = [] ∨ ∃ p n, msgs p ∧ left = p.take (n * blockSize)) := by
  have main : ∀ {w ds r n}, (L.streamingAead.view prim).newDecryptingStream (input, 0) true ad = .ok w →
      DecryptLoop (DecryptingStreamWrapper.RawRead (inputFile disk)) disk.outputFails w [] 0 ds r n →
      ((ds = [] ∨ ∃ p, msgs p ∧ ds.flatten = p.take (ds.length * blockSize)) ∧ (r = .ended → msgs ds.flatten)) ∧
      (r = .notWritten → ∃ m, disk.outputFails m = true) := by
    intro w ds r n hnew hloop
    obtain ⟨more, t1, b1, hist, hlast, hfail⟩ := decryptLoop_history hloop .start
    have := C71_authentic H (fun q hq => (kps_plain (ad := ad) hs H hfit q hq).1)
      (fun q hm => hq _ (kps_mem H hm).1 (kps_mem H hm).2.1 _ (kps_mem H hm).2.2) hnew hist
    rw [List.nil_append] at this
    exact ⟨decryptLoop_oneOf this hlast, hfail⟩
  have pre : ∀ {ds : List Bytes} {left : Bytes},
      (ds = [] ∨ ∃ p, msgs p ∧ ds.flatten = p.take (ds.length * blockSize)) → left <+: ds.flatten →
      left = [] ∨ ∃ p, msgs p ∧ left <+: p := by
    intro ds left hd hl
    rcases hd with rfl | ⟨p, h1, h2⟩
    · exact .inl (List.prefix_nil.1 hl)
    · rw [h2] at hl
      exact .inr ⟨p, h1, hl.trans (List.take_prefix _ _)⟩
  cases hr with
  | notMade _ => exact .inr ⟨⟨_, rfl⟩, .inl rfl, fun _ => .inl rfl⟩
  | ended hnew hloop _ => exact .inl ⟨rfl, (main hnew hloop).1.2 rfl⟩
  | raised hnew hloop _ =>
    have hd := (main hnew hloop).1.1
    refine .inr ⟨⟨_, rfl⟩, pre hd (List.prefix_refl _), fun _ => ?_⟩
    rcases hd with rfl | ⟨p, h1, h2⟩
    · exact .inl rfl
    · exact .inr ⟨p, _, h1, h2⟩
  | notWritten _ hnew hloop hl =>
    refine .inr ⟨⟨_, rfl⟩, pre (main hnew hloop).1.1 hl, fun hw => ?_⟩
    obtain ⟨m, hm⟩ := (main hnew hloop).2 rfl
    rw [hw m] at hm; cases hm
  | notClosed _ hnew hloop hf hl =>
    refine .inr ⟨⟨_, rfl⟩, pre (main hnew hloop).1.1 hl, fun hw => ?_⟩
    rw [hw] at hf; cases hf

theorem decryptLoop_exists {ρ : Type} {R : ρ → Nat → ρ → ReadResult → Prop} {fails : Nat → Bool}
    (hf : ∀ n, fails n = false) {t0 : ρ} {pt : Bytes}
    (hread : ∀ ops t b, ReaderHistory R t0 ops t b → ∃ pos, ReadsLikeFile pt ops pos ∧ ∀ op,
      (∃ d t' b', BufferedRead R t b op (.data d) t' b') ∧
      ∀ x t' b', BufferedRead R t b op x t' b' → ∃ d, x = .data d ∧ FileRead pt pos op d) :
    ∀ m ops t b n pos, ReaderHistory R t0 ops t b → ReadsLikeFile pt ops pos → pt.length - pos ≤ m →
      ∃ ds n2, DecryptLoop R fails t b n ds .ended n2 := by
  have step : ∀ ops t b pos, ReaderHistory R t0 ops t b → ReadsLikeFile pt ops pos →
      ∃ t' b', BufferedRead R t b (.read blockSize) (.data ((pt.drop pos).take blockSize)) t' b' := by
    intro ops t b pos hh hp
    obtain ⟨pos', hp', hop⟩ := hread ops t b hh
    obtain ⟨⟨d, t', b', hd⟩, hall⟩ := hop (.read blockSize)
    obtain ⟨d', h1, h2⟩ := hall _ _ _ hd
    cases h1
    have : pos' = pos := readsLikeFile_pos hp' hp
    subst this
    have h2 : d = (pt.drop pos').take blockSize := h2
    subst h2
    exact ⟨t', b', hd⟩
  intro m
  induction m with
  | zero =>
    intro ops t b n pos hh hp hm
    obtain ⟨t', b', hd⟩ := step ops t b pos hh hp
    rw [List.drop_of_length_le (by omega), List.take_nil] at hd
    exact ⟨_, _, .ended hd⟩
  | succ m ih =>
    intro ops t b n pos hh hp hm
    obtain ⟨t', b', hd⟩ := step ops t b pos hh hp
    by_cases he : (pt.drop pos).take blockSize = []
    · rw [he] at hd; exact ⟨_, _, .ended hd⟩
    · have hl := List.length_pos_iff.2 he
      rw [List.length_take, List.length_drop] at hl
      obtain ⟨ds, n2, hrec⟩ := ih _ t' b' (n + 1) _ (.call hh hd)
        (ReadsLikeFile.read (op := .read blockSize) hp (show FileRead pt pos (.read blockSize) _ from rfl))
        (by rw [List.length_take, List.length_drop]; omega)
      exact ⟨_, _, .wrote hd he (hf n) hrec⟩

theorem decryptLoop_result {ρ : Type} {R : ρ → Nat → ρ → ReadResult → Prop} (fails : Nat → Bool) {t0 : ρ}
    (hread : ∀ ops t b, ReaderHistory R t0 ops t b → ∀ op, ∃ r t' b', BufferedRead R t b op r t' b')
    {x : ρ × Bytes} (hx : ReadingEnds R x.1 x.2) :
    ∀ ops n, ReaderHistory R t0 ops x.1 x.2 → ∃ ds r n2, DecryptLoop R fails x.1 x.2 n ds r n2 := by
  replace hx : Acc _ x := hx
  induction hx with
  | intro x _ ih =>
    intro ops n hist
    obtain ⟨r, t', b', hr⟩ := hread ops _ _ hist (.read blockSize)
    cases r with
    | none => exact ⟨_, _, _, .noData hr⟩
    | blocking => exact ⟨_, _, _, .blocking hr⟩
    | raised e => exact ⟨_, _, _, .readRaised hr⟩
    | data d =>
      by_cases hd : d = []
      · subst hd; exact ⟨_, _, _, .ended hr⟩
      · cases hf : fails n with
        | true => exact ⟨_, _, _, .notWritten hr hd hf⟩
        | false =>
          obtain ⟨ds, r, n2, hl⟩ := ih (t', b') ⟨_, d, hd, hr⟩ _ (n + 1) (.call hist hr)
          exact ⟨_, _, _, .wrote hr hd hf hl⟩

/-- Whatever the input is, and whatever fails, there is a result. -/
theorem decryptFile_exists (hs : StreamingSetup L isInst lib text inBuffer) (H : Has L isInst h kps prim)
    (hfit : FitsKeys h) : ∃ r left, DecryptFile disk (L.streamingAead.view prim) ad input r left := by
  have live := fun q hm => (kps_plain (ad := ad) hs H hfit q hm).2
  cases hn : (L.streamingAead.view prim).newDecryptingStream (input, 0) true ad with
  | error e => exact ⟨_, _, .notMade hn⟩
  | ok w =>
    obtain ⟨ds, r, n, hl⟩ := decryptLoop_result disk.outputFails
      (fun ops t b hist => (C79_reader H (inputFile_exhaustible disk) live hn hist).2.2) (x := (w, []))
      (C79_reading_ends H (inputFile_exhaustible disk) live hn .start) [] 0 .start
    cases hf : disk.outputFails n with
    | true => exact ⟨_, _, .notClosed [] hn hl hf List.nil_prefix⟩
    | false =>
      cases r with
      | ended => exact ⟨_, _, .ended hn hl hf⟩
      | raised e => exact ⟨_, _, .raised hn hl hf⟩
      | notWritten => exact ⟨_, _, .notWritten [] hn hl List.nil_prefix⟩

theorem decryptFile_exact (hs : StreamingSetup L isInst lib text inBuffer) (H : Has L isInst h kps prim)
    (hfit : FitsKeys h) (hreads : Disk.Reads disk) (hwrites : Disk.Writes disk) {pt : Bytes}
    (hone : ∃ k ∈ h.keyset.key, Enabled k ∧ ∃ q, KeyGives L isInst k q ∧ DecryptsTo q ad input pt)
    (hall : EveryKey L isInst h fun q => DecryptsTo q ad input pt ∨ RefusesContent q ad input) :
    (∃ r left, DecryptFile disk (L.streamingAead.view prim) ad input r left) ∧
    ∀ r left, DecryptFile disk (L.streamingAead.view prim) ad input r left → r = .ok () ∧ left = pt := by
  have hq : ∀ q ∈ kps, DecryptsTo (L.rawStreamingAead.view q.2) ad input pt ∨
      RefusesContent (L.rawStreamingAead.view q.2) ad input :=
    fun q hm => hall _ (kps_mem H hm).1 (kps_mem H hm).2.1 _ (kps_mem H hm).2.2
  obtain ⟨k, hk, hen, x, hx, hdec⟩ := hone
  obtain ⟨q0, hq0, -, hv⟩ := mem_kps H hk hen hx
  obtain ⟨w0, hnew⟩ := new_decrypting H (ad := ad) (List.ne_nil_of_mem hq0)
    (fun q hm => (hq q hm).elim (·.1) (·.1)) (input, 0)
  have main : ∀ ops w b, ReaderHistory (DecryptingStreamWrapper.RawRead (inputFile disk)) w0 ops w b →
      ∃ pos, ReadsLikeFile pt ops pos ∧ ∀ op,
        (∃ d w' b', BufferedRead (DecryptingStreamWrapper.RawRead (inputFile disk)) w b op (.data d) w' b') ∧
        ∀ x w' b', BufferedRead (DecryptingStreamWrapper.RawRead (inputFile disk)) w b op x w' b' →
          ∃ d, x = .data d ∧ FileRead pt pos op d := by
    intro ops w b hist
    exact C79_like_file H (fun q hm => (kps_plain (ad := ad) hs H hfit q hm).1) (inputFile_faithful disk)
      (inputFile_steady hreads) (inputFile_exhaustible disk) (fun q hm => (kps_plain hs H hfit q hm).2)
      ⟨q0, hq0, by rw [hv]; exact hdec⟩ hq hnew hist
  have loop : ∀ {ds r n}, DecryptLoop (DecryptingStreamWrapper.RawRead (inputFile disk)) disk.outputFails w0 [] 0 ds r n →
      r = .ended ∧ ds.flatten = pt := by
    intro ds r n hloop
    obtain ⟨more, t1, b1, hist, hlast, hfail⟩ := decryptLoop_history hloop .start
    obtain ⟨pos, hlike, -⟩ := main _ _ _ hist
    rw [List.nil_append] at hlike
    have bad : ∀ {x : ReadResult}, ReadsLikeFile pt (ds.map blockRead ++ [(.read blockSize, x)]) pos → ∃ d, x = .data d := by
      intro x hx
      obtain ⟨i, hi⟩ := likeFile_append hx _ _ rfl
      obtain ⟨d, hd, -⟩ := readsLikeFile_last hi hx
      exact ⟨d, hd⟩
    cases hlast with
    | ended => exact ⟨rfl, likeFile_ended hlike⟩
    | raised => obtain ⟨d, hd⟩ := bad hlike; cases hd
    | blocking => obtain ⟨d, hd⟩ := bad hlike; cases hd
    | noData => obtain ⟨d, hd⟩ := bad hlike; cases hd
    | notWritten => obtain ⟨m, hm⟩ := hfail rfl; rw [hwrites m] at hm; cases hm
  refine ⟨?_, ?_⟩
  · obtain ⟨ds, n2, hloop⟩ := decryptLoop_exists hwrites main _ _ w0 [] 0 0 .start .start (Nat.le_refl _)
    exact ⟨_, _, .ended hnew hloop (hwrites _)⟩
  · intro r left hr
    cases hr with
    | notMade hn => rw [hnew] at hn; cases hn
    | ended hn hloop _ => rw [hnew] at hn; cases hn; exact ⟨rfl, (loop hloop).2⟩
    | raised hn hloop _ => rw [hnew] at hn; cases hn; cases (loop hloop).1
    | notWritten _ hn hloop _ => rw [hnew] at hn; cases hn; cases (loop hloop).1
    | notClosed _ hn hloop hf _ => rw [hwrites] at hf; cases hf

end Tink.Cli
