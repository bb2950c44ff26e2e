import Verif.Props.Writing
import Verif.Props.TerminationExamples

/-!
# C80: concrete cases
-/

namespace Tink.Props
open Spec Config Segment Io
namespace WritingExamples
open ToySegments StreamingKeysExamples
open BufferedExamples (stream decrypting Encrypting)
open TerminationExamples (src src_faithful src_steady src_exhaustible left keys_live)

theorem working : WorkingLibrary lib where
  hkdf h ikm salt info n _ _ := by simp [lib, hkdf]
  gcm k n b _ hn _ := by
    simp only [lib, gcmEncrypt]
    rw [if_pos (by omega)]
    simp
  ctr k n b _ _ _ := ⟨b, rfl, rfl⟩
  hmac h k d hh := by
    simp only [lib, hmac]
    rw [if_neg]
    · simp
    · rcases hh with rfl | rfl | rfl <;> decide

/-! ## Destinations -/

theorem sink_progresses : Progresses sink (fun _ => 0) := by
  intro s d n hd hn h0
  simp only [sink, Except.ok.injEq] at hn
  have := List.length_pos_iff.2 hd
  omega

theorem sink_reliable : Reliable sink := ⟨fun _ _ _ => by simp [sink], fun _ _ => by simp [sink]⟩

/-- A destination that accepts nothing twice, then at most two bytes, and so on; and which raises after 1000
bytes. -/
def lazySink : CSink (Nat × Nat) where
  write s d :=
    if 1000 ≤ s.1 then (s, .error ⟨.unknown, false⟩)
    else if 0 < s.2 then ((s.1, s.2 - 1), .ok 0)
    else ((s.1 + min 2 d.length, 2), .ok (min 2 d.length : Nat))
  close s := (s, .ok ())

theorem lazy_progresses : Progresses lazySink (·.2) := by
  intro s d n hd hn h0
  have := List.length_pos_iff.2 hd
  unfold lazySink at hn ⊢
  dsimp only at hn ⊢
  split at hn
  · cases hn
  · rename_i h1
    split at hn
    · rename_i h2
      rw [if_neg h1, if_pos h2]
      exact Nat.sub_lt h2 (by decide)
    · cases hn
      omega

/-- A destination that never accepts a byte. -/
def stuck : CSink Unit where
  write _ _ := ((), .ok 0)
  close _ := ((), .ok ())

/-! ## Limits -/

/-- `C80_gcm_limit`: the hypotheses hold; 8 bytes in the first segment, 32 in the others. -/
theorem gcm_limit {seed : Seed} {ad : Bytes} {se : SegmentEncrypter Nat} {k : Nat}
    (he : (gcm lib).newSegmentEncrypter seed ad = .ok (se, k)) :
    segmentsLimit se = 8 + (2 ^ 32 - 1) * 32 ∧ Encrypts se k (segmentsLimit se) ∧
      ∀ P C, EncryptionOf se k P C → P.length ≤ segmentsLimit se := by
  refine ⟨?_, C80_gcm_limit sound working (new_gcm lib) (by decide) he⟩
  obtain ⟨key, -, -, rfl, -⟩ := Gcm.newSegmentEncrypter_ok sound he
  unfold segmentsLimit
  rw [show (EncryptingStream.firstSegmentSize _).toNat = 8 from rfl,
    show (SegmentEncrypter.plaintextSegmentSize _).toNat = 32 from rfl]

/-- `C80_ctr_limit`: the hypotheses hold. -/
theorem ctr_limit {seed : Seed} {ad : Bytes} {se : SegmentEncrypter Nat} {k : Nat}
    (he : (ctr lib).newSegmentEncrypter seed ad = .ok (se, k)) :
    segmentsLimit se = 4 + (2 ^ 32 - 1) * 28 ∧ Encrypts se k (segmentsLimit se) ∧
      ∀ P C, EncryptionOf se k P C → P.length ≤ segmentsLimit se := by
  refine ⟨?_, C80_ctr_limit sound working (new_ctr lib) (by decide) he⟩
  obtain ⟨key, hk, -, -, -, rfl⟩ := Ctr.newSegmentEncrypter_ok he
  unfold segmentsLimit
  rw [show (EncryptingStream.firstSegmentSize _).toNat = 4 from rfl,
    show (SegmentEncrypter.plaintextSegmentSize _).toNat = 28 from rfl]

theorem gcm_up_to : EncryptsUpTo (gcm lib) (2 ^ 36) := by
  intro seed ad se k he
  obtain ⟨h1, h2, -⟩ := gcm_limit he
  exact encrypts_mono h2 (by rw [h1]; omega)

/-! ## Streams of a keyset -/

/-- `C80_writer`, `C80_succeeds`: the hypotheses hold; here for a destination that takes 5 bytes at a time. -/
example : ∃ writes e e1 waiting, stream = .ok e ∧
    WriterHistory (CcEncrypting.RawWrite (recordedSink sink)) e writes e1 waiting ∧
    writtenBytes writes = pieces.flatten ∧
    EveryWriteReturns (CcEncrypting.RawWrite (recordedSink sink)) (CcEncrypting.RawClose (recordedSink sink))
      e1 waiting ∧
    ∃ e2, BufferedClose (CcEncrypting.RawWrite (recordedSink sink)) (CcEncrypting.RawClose (recordedSink sink))
      e1 waiting e2 (.ok ()) := by
  obtain ⟨writes, e, e1, waiting, e2, h1, h2, h3, h4, h5⟩ := BufferedExamples.history
  have hp := C67_aes_gcm_hkdf lawful (new_gcm lib)
  have hg := recorded_progresses sink_progresses
  refine ⟨writes, e, e1, waiting, h1, h2, h4, ?_, ?_⟩
  · exact C80_writer (o := .inl (Keyset.gcmRaw lib)) (k := StreamingKeysExamples.Keyset.key 1 9) (Keyset.obtained lib) hp rfl rfl hg
      (by simp) h1 h2
  · exact (C80_succeeds (o := .inl (Keyset.gcmRaw lib)) (k := StreamingKeysExamples.Keyset.key 1 9) (Keyset.obtained lib) hp gcm_up_to rfl
      rfl hg (recorded_reliable sink_reliable) (by simp) h1 h2 (by rw [h4]; decide)).2.1

/-- `C80_writer` for the destination that often accepts nothing and at last raises: `close()` returns, after any
calls. -/
example {s : Nat × Nat} {e e1 : CcEncrypting Nat (Nat × Nat)} {writes : List (WriteOp × Py Nat)} {waiting : Bytes}
    (he : (gcm lib).newRawEncryptingStream 3 ⟨true, s, [0, 0, 0]⟩ [1] = .ok e)
    (hw : WriterHistory (CcEncrypting.RawWrite lazySink) e writes e1 waiting) :
    EveryWriteReturns (CcEncrypting.RawWrite lazySink) (CcEncrypting.RawClose lazySink) e1 waiting := by
  obtain ⟨se, k, -, -, -, -, h⟩ := new_writer (C67_aes_gcm_hkdf lawful (new_gcm lib)) he
  exact every_write lazy_progresses (history_serving lazy_progresses (h (by simp)) hw) waiting

/-- `C80_stuck_destination`: the hypotheses hold, at once after the stream was made. -/
example : ∃ e, stream = .ok e ∧ ¬ ∃ e2 x, BufferedClose (CcEncrypting.RawWrite (recordedSink stuck))
    (CcEncrypting.RawClose (recordedSink stuck)) e [] e2 x := by
  obtain ⟨writes, e, e1, waiting, e2, h1, -⟩ := BufferedExamples.history
  exact ⟨e, h1, C80_stuck_destination (o := .inl (Keyset.gcmRaw lib)) (k := StreamingKeysExamples.Keyset.key 1 9) (snk := stuck)
    (Keyset.obtained lib) (C67_aes_gcm_hkdf lawful (new_gcm lib)) gcm_up_to rfl rfl (fun _ _ => rfl)
    ⟨fun _ _ _ => by simp [stuck], fun _ _ => by simp [stuck]⟩ h1 .start (Nat.zero_le _)⟩

/-- `C80_round_trip`: the hypotheses hold. -/
example : ∃ w0 w b, decrypting lib gcmCiphertext [1] = .ok w0 ∧
    BufferedRead (DecryptingStreamWrapper.RawRead src) w0 [] .readAll (.data pieces.flatten) w b := by
  obtain ⟨writes, e, e1, waiting, e2, h1, h2, h3, h4, h5⟩ := BufferedExamples.history
  obtain ⟨w0, -, -, h6, -⟩ :=
    TerminationExamples.reads_ok (lib := lib) (c := gcmCiphertext) (ad := [1]) (ops := []) rfl
  suffices h : ∃ w b, BufferedRead (DecryptingStreamWrapper.RawRead src) w0 [] .readAll
      (.data (writtenBytes writes)) w b by
    rw [h4] at h
    obtain ⟨w, b, h⟩ := h
    exact ⟨w0, w, b, h6, h⟩
  obtain ⟨-, -, -, h7⟩ := C80_round_trip (o := .inl (Keyset.gcmRaw lib)) (k := StreamingKeysExamples.Keyset.key 1 9) (snk := sink)
    (Keyset.obtained lib) (Keyset.obtained lib) (C67_aes_gcm_hkdf lawful (new_gcm lib)) gcm_up_to (by simp) rfl rfl
    sink_honest sink_progresses sink_reliable (by simp) h1 h2 (by rw [h4]; decide)
  refine ((h7 e2 _ h3).2 src (·.1) left (gcmCiphertext, false) true w0 src_faithful src_steady src_exhaustible
    h5.symm ⟨(StreamingKeysExamples.Keyset.key 1 9, .inl (Keyset.gcmRaw lib)), by simp [Keyset.kps], rfl⟩ ?_ h6).1
  intro q hq
  simp only [Keyset.kps, List.mem_cons, List.not_mem_nil, or_false] at hq
  rcases hq with rfl | rfl
  · exact .inr ⟨C71_plain_reads (ctr lib) _ _, C79_key (ctr lib) _ (by simp) _, .inr ctr_refuses⟩
  · exact .inl rfl

/-- `C80_templates`, `C80_new_keyset`: for each template the hypotheses hold. -/
example {t : KeyTemplate} (ht : .ok t ∈ templates .streamingAead) :
    ∃ h p e, KeysetHandle.generateNew StreamingEndToEndExamples.registry 3 [77] t = some (.ok h) ∧
      h.primitive ToyStreamingConfig.isInst StreamingEndToEndExamples.registry .streamingAead = .ok p ∧
      (ToyStreamingConfig.library.streamingAead.view p).newEncryptingStream 5 ⟨true, ((), []), [0, 0, 0]⟩ [1] = .ok e := by
  obtain ⟨h, p, h1, h2, h3⟩ := C80_new_keyset (text := fun _ => false) (inBuffer := [0, 0, 0, 0, 0])
    ToyStreamingConfig.lawful StreamingEndToEndExamples.registered ht ToySegments.lawful working rfl (by simp)
    (fun _ => rfl) 3 77 []
  obtain ⟨e, h4, -⟩ := h3 sink (fun _ => 0) 5 () [0, 0, 0] [1] sink_honest sink_progresses sink_reliable (by simp)
  exact ⟨h, p, e, h1, h2, h4⟩

end WritingExamples
end Tink.Props
