import Verif.Props.Buffered
import Verif.Props.StreamingKeysExamples
import Verif.Examples.ToyBuffered

/-!
# C71: concrete cases
-/

namespace Tink.Props
open Spec Config Segment Io
namespace BufferedExamples
open ToySegments StreamingKeysExamples

abbrev Encrypting := CcEncrypting Nat (Unit × Bytes)
abbrev Wrapper := DecryptingStreamWrapper (Bytes × Bool) (Dest (Unit × Bytes)) Encrypting (CcDecrypting State)

/-- The calls of a writer with a buffer of 4 bytes. -/
def wops : List WriteOp :=
  [.write [1, 2, 3], .write [4, 5], .flush, .write [], .flush, .write [6, 7, 8, 9, 10, 11, 12, 13, 14, 15],
    .write [16, 17]]

/-- What was written to the destination, which takes 5 bytes at a time. -/
def written (p : Py Encrypting) (ops : List WriteOp) : Option (List (WriteOp × Py Nat) × Encrypting) :=
  match p with
  | .error _ => none
  | .ok e =>
    match ToyBuffered.writes (recordedSink sink) 4 e [] ops with
    | some (e1, b, l) => (ToyBuffered.closed (recordedSink sink) e1 b).map fun e2 => (l, e2)
    | none => none

theorem written_ok {p : Py Encrypting} {ops : List WriteOp} {l : List (WriteOp × Py Nat)} {e2 : Encrypting}
    (h : written p ops = some (l, e2)) :
    ∃ e e1 b, p = .ok e ∧ WriterHistory (CcEncrypting.RawWrite (recordedSink sink)) e l e1 b ∧
      BufferedClose (CcEncrypting.RawWrite (recordedSink sink)) (CcEncrypting.RawClose (recordedSink sink))
        e1 b e2 (.ok ()) := by
  unfold written at h
  split at h
  · cases h
  · rename_i e
    split at h
    · rename_i e1 b l' hw
      rw [Option.map_eq_some_iff] at h
      obtain ⟨e2', h1, h2⟩ := h
      cases h2
      exact ⟨e, e1, b, rfl, by simpa using ToyBuffered.writes_ok .start hw, ToyBuffered.closed_ok h1⟩
    · cases h

/-- An encrypting stream of a keyset of two keys, the primary of which is for AES-GCM-HKDF. -/
def stream : Py Encrypting := (Keyset.streamView.view (Keyset.prim lib)).newEncryptingStream 3
  ⟨true, ((), []), [0, 0, 0, 0, 0, 0, 0]⟩ [1]

theorem ciphertext : (written stream wops).map (fun q => q.2.object.2) = some gcmCiphertext := by
  decide +kernel
theorem results : (written stream wops).map (fun q => writtenBytes q.1) = some pieces.flatten := by
  decide +kernel

/-- `C71_writer`: the hypotheses hold. -/
theorem history : ∃ l e e1 b e2, stream = .ok e ∧
    WriterHistory (CcEncrypting.RawWrite (recordedSink sink)) e l e1 b ∧
    BufferedClose (CcEncrypting.RawWrite (recordedSink sink)) (CcEncrypting.RawClose (recordedSink sink))
      e1 b e2 (.ok ()) ∧ writtenBytes l = pieces.flatten ∧ e2.object.2 = gcmCiphertext := by
  cases h : written stream wops with
  | none => exact absurd ciphertext (by rw [h]; simp)
  | some q =>
    obtain ⟨l, e2⟩ := q
    obtain ⟨e, e1, b, h1, h2, h3⟩ := written_ok h
    have h4 := ciphertext
    have h5 := results
    rw [h] at h4 h5
    exact ⟨l, e, e1, b, e2, h1, h2, h3, by simpa using h5, by simpa using h4⟩

/-- The decrypting stream. -/
def decrypting (lib : SegmentLibrary) (c ad : Bytes) : Py Wrapper :=
  (Keyset.streamView.view (Keyset.prim lib)).newDecryptingStream (c, false) true ad

/-- What reads return. -/
def reads (lib : SegmentLibrary) (c ad : Bytes) (ops : List ReadOp) : Option (List (ReadOp × ReadResult)) :=
  match decrypting lib c ad with
  | .ok w => ToyBuffered.calls (ToyBuffered.rawRead ToyStream.src) 64 w [] ops
  | .error _ => none

theorem reads_ok {lib : SegmentLibrary} {c ad : Bytes} {ops : List ReadOp} {l : List (ReadOp × ReadResult)}
    (h : reads lib c ad ops = some l) : ∃ w0 w b, decrypting lib c ad = .ok w0 ∧
      ReaderHistory (DecryptingStreamWrapper.RawRead ToyStream.src) w0 l w b := by
  unfold reads at h
  split at h
  · rename_i w0 hw
    obtain ⟨w, b, h1⟩ := ToyBuffered.reads (by decide) (by decide) h
    exact ⟨w0, w, b, hw, h1⟩
  · cases h

example : reads lib gcmCiphertext [1] [.read 5, .read 0, .read1 100, .read 7, .readAll] =
    some [(.read 5, .data [1, 2, 3, 4, 5]), (.read 0, .data []), (.read1 100, .data [6, 7, 8]),
      (.read 7, .data [9, 10, 11, 12, 13, 14, 15]), (.readAll, .data [16, 17])] := by decide +kernel

/-- `C71_round_trip`: the hypotheses hold, and so the reads are like those of a file. -/
example {ops : List ReadOp} {l : List (ReadOp × ReadResult)} (h : reads lib gcmCiphertext [1] ops = some l) :
    ∃ pos, ReadsLikeFile pieces.flatten l pos := by
  obtain ⟨writes, e, e1, waiting, e2, h1, h2, h3, h4, h5⟩ := history
  obtain ⟨w0, w, b, h6, h7⟩ := reads_ok h
  rw [← h4]
  refine (C71_round_trip (o := .inl (Keyset.gcmRaw lib)) (k := StreamingKeysExamples.Keyset.key 1 9) (seed := 3) (s0 := ())
    (outBuffer := [0, 0, 0, 0, 0, 0, 0]) (Keyset.obtained lib) (Keyset.obtained lib)
    (C67_aes_gcm_hkdf lawful (new_gcm lib)) (by simp) rfl rfl sink_honest h1 h2 h3
    ToyStream.src_faithful ToyStream.src_steady h5.symm
    ⟨(StreamingKeysExamples.Keyset.key 1 9, .inl (Keyset.gcmRaw lib)), by simp [Keyset.kps], rfl⟩ ?_ h6 h7).2
  intro q hq
  simp only [Keyset.kps, List.mem_cons, List.not_mem_nil, or_false] at hq
  rcases hq with rfl | rfl
  · exact .inr ⟨C71_plain_reads (ctr lib) _ _, .inr ctr_refuses⟩
  · exact .inl rfl

/-- `C71_reader`: the hypotheses hold. -/
example {ops : List ReadOp} {l : List (ReadOp × ReadResult)} (h : reads lib gcmCiphertext [1] ops = some l) :
    ∃ pos, ReadsLikeFile pieces.flatten l pos := by
  obtain ⟨w0, w, b, h6, h7⟩ := reads_ok h
  refine C71_reader (pt := pieces.flatten) (Keyset.obtained lib) ?_ ToyStream.src_faithful ToyStream.src_steady
    ⟨(StreamingKeysExamples.Keyset.key 1 9, .inl (Keyset.gcmRaw lib)), by simp [Keyset.kps], ?_⟩ ?_ h6 h7
  · intro q hq
    simp only [Keyset.kps, List.mem_cons, List.not_mem_nil, or_false] at hq
    rcases hq with rfl | rfl
    · exact C71_plain_reads (ctr lib) _ _
    · exact C71_plain_reads (gcm lib) _ _
  · exact gcm_decrypts
  · intro q hq
    simp only [Keyset.kps, List.mem_cons, List.not_mem_nil, or_false] at hq
    rcases hq with rfl | rfl
    · exact .inr ctr_refuses
    · exact .inl gcm_decrypts

/-- `C71_authentic`: the hypotheses hold with ideal cryptography, whatever the source contains. -/
example {c : Bytes} {ops : List ReadOp} {l : List (ReadOp × ReadResult)} (h : reads ideal c [1] ops = some l) :
    ReadsOneOf (fun P => ∃ m, msgs m ∧ m.ad = [1] ∧ P = m.segments.flatten) l := by
  obtain ⟨w0, w, b, h6, h7⟩ := reads_ok h
  have hne : ∀ m, msgs m → m.segments ≠ [] := by rintro m (rfl | rfl) <;> simp [m1, m2]
  refine C71_authentic (Keyset.obtained ideal) ?_ ?_ h6 h7
  · intro q hq
    simp only [Keyset.kps, List.mem_cons, List.not_mem_nil, or_false] at hq
    rcases hq with rfl | rfl
    · exact C71_plain_reads (ctr ideal) _ _
    · exact C71_plain_reads (gcm ideal) _ _
  · intro q hq
    simp only [Keyset.kps, List.mem_cons, List.not_mem_nil, or_false] at hq
    rcases hq with rfl | rfl
    · exact ⟨⟨_, rfl⟩, C68_aes_ctr_hmac ideal_sound (new_ctr ideal) hne (ctr_ideal 1)⟩
    · exact ⟨⟨_, rfl⟩, C68_aes_gcm_hkdf ideal_sound (new_gcm ideal) hne (gcm_ideal 1)⟩

/-- The first message, whole; with the end of the second segment missing; and something else. -/
example : (encrypt (gcm ideal) [1] m1.segments).map
    (fun C => [reads ideal C [1] [.read 4, .readAll, .readAll],
      reads ideal (C.take 60) [1] [.read 4, .read 4, .read 4, .read 4],
      reads ideal (5 :: C) [1] [.read 0, .read 4]]) =
    some [some [(.read 4, .data [1, 2, 3, 4]), (.readAll, .data [5, 6, 7, 8, 9, 10, 11]), (.readAll, .data [])],
      some [(.read 4, .data [1, 2, 3, 4]), (.read 4, .data [5, 6, 7, 8]), (.read 4, .raised .tinkError),
        (.read 4, .raised .tinkError)],
      some [(.read 0, .data []), (.read 4, .raised .tinkError)]] := by decide +kernel

/-- `C71_not_readable`, `C71_not_writable`: the hypotheses hold. -/
example : (Keyset.streamView.view (Keyset.prim lib)).newDecryptingStream (gcmCiphertext, false) false [1] =
    .error .valueError := C71_not_readable (Keyset.obtained lib) _ _
example : (Keyset.streamView.view (Keyset.prim lib)).newEncryptingStream 3 ⟨false, ((), []), [0]⟩ [1] =
    .error .valueError :=
  C71_not_writable (Keyset.obtained lib) (o := .inl (Keyset.gcmRaw lib))
    (k := StreamingKeysExamples.Keyset.key 1 9) (p := gcm lib) rfl rfl _ _ _ _

/-- `C71_new_keyset`: for each template the hypotheses hold. -/
example {t : KeyTemplate} (ht : .ok t ∈ templates .streamingAead) :
    ∃ h p, KeysetHandle.generateNew StreamingEndToEndExamples.registry 3 [77] t = some (.ok h) ∧
      h.primitive ToyStreamingConfig.isInst StreamingEndToEndExamples.registry .streamingAead = .ok p := by
  obtain ⟨h, p, h1, h2, -⟩ := C71_new_keyset (text := fun _ => false) (inBuffer := [0, 0, 0, 0, 0])
    ToyStreamingConfig.lawful StreamingEndToEndExamples.registered ht ToySegments.lawful rfl (by simp)
    (fun _ => rfl) 3 77 []
  exact ⟨h, p, h1, h2⟩

end BufferedExamples
end Tink.Props
