import Verif.Props.Termination
import Verif.Props.BufferedExamples

/-!
# C79: concrete cases
-/

namespace Tink.Props
open Spec Config Segment Io
namespace TerminationExamples
open ToySegments StreamingKeysExamples
open BufferedExamples hiding reads reads_ok

/-- A source that returns `None` before every read that delivers some bytes, at most two. -/
def src : Source (Bytes × Bool) where
  read s n := if s.2 && !s.1.isEmpty then ((s.1, false), .none)
    else ((s.1.drop (min n 2), s.2 || !(s.1.take (min n 2)).isEmpty), .data (s.1.take (min n 2)))

theorem src_faithful : Faithful src (·.1) := by
  constructor
  · intro s n b h
    obtain ⟨c, f⟩ := s
    unfold src at h ⊢
    dsimp only at h ⊢
    split at h
    · cases h
    · rename_i hc
      rw [if_neg hc]
      cases h
      refine ⟨(List.take_append_drop _ _).symm, by simp only [List.length_take]; omega, ?_⟩
      intro h0
      rw [List.take_eq_nil_iff] at h0
      rcases h0 with h0 | h0
      · left; omega
      · right; exact h0
  · intro s n h
    obtain ⟨c, f⟩ := s
    unfold src at h ⊢
    dsimp only at h ⊢
    split at h
    · rename_i hc; rw [if_pos hc]
    · exact absurd rfl (h _)

theorem src_steady : Steady src := by
  intro s n e
  obtain ⟨c, f⟩ := s
  unfold src
  dsimp only
  split <;> simp

/-- What can still be read, and how often it still returns `None`. -/
def left (s : Bytes × Bool) : Nat := 2 * s.1.length + if s.2 then 1 else 0

theorem src_exhaustible : Exhaustible src left := by
  constructor
  · intro s n b h
    obtain ⟨c, f⟩ := s
    unfold src at h ⊢
    dsimp only at h ⊢
    split at h
    · cases h
    · rename_i hc
      rw [if_neg hc]
      cases h
      unfold left
      dsimp only
      rw [List.length_drop, List.length_take]
      have hlen : (c.take (min n 2)).length = min (min n 2) c.length := List.length_take
      cases hx : c.take (min n 2) with
      | nil =>
        rw [hx] at hlen
        simp only [List.length_nil] at hlen
        cases f <;> simp <;> omega
      | cons x l =>
        rw [hx] at hlen
        simp only [List.length_cons] at hlen
        cases f
        · simp; omega
        · simp; omega
  · intro s n h
    obtain ⟨c, f⟩ := s
    unfold src at h ⊢
    dsimp only at h ⊢
    split at h
    · rename_i hc
      rw [if_pos hc]
      simp only [Bool.and_eq_true] at hc
      unfold left
      rw [hc.1]
      simp
    · rcases h with h | h <;> cases h
  · intro s n e h
    exact absurd h (src_steady s n e)

theorem keys_live (lib : SegmentLibrary) (ad : Bytes) :
    ∀ q ∈ Keyset.kps lib, NeverHangs (Keyset.rawView.view q.2) ad := by
  intro q hq
  simp only [Keyset.kps, List.mem_cons, List.not_mem_nil, or_false] at hq
  rcases hq with rfl | rfl
  · exact C79_key (ctr lib) _ (by simp) ad
  · exact C79_key (gcm lib) _ (by simp) ad

/-- What reads return. -/
def reads (lib : SegmentLibrary) (c ad : Bytes) (ops : List ReadOp) : Option (List (ReadOp × ReadResult)) :=
  match decrypting lib c ad with
  | .ok w => ToyBuffered.calls (ToyBuffered.rawRead src) 64 w [] ops
  | .error _ => none

theorem reads_ok {lib : SegmentLibrary} {c ad : Bytes} {ops : List ReadOp} {l : List (ReadOp × ReadResult)}
    (h : reads lib c ad ops = some l) : ∃ w0 w b, decrypting lib c ad = .ok w0 ∧
      ReaderHistory (DecryptingStreamWrapper.RawRead src) w0 l w b := by
  unfold reads at h
  split at h
  · rename_i w0 hw
    obtain ⟨w, b, h1⟩ := ToyBuffered.reads (by decide) (by decide) h
    exact ⟨w0, w, b, hw, h1⟩
  · cases h

example : reads lib gcmCiphertext [1] [.read 5, .read1 100, .readAll, .readAll] =
    some [(.read 5, .data [1, 2, 3, 4, 5]), (.read1 100, .data [6, 7, 8]),
      (.readAll, .data [9, 10, 11, 12, 13, 14, 15, 16, 17]), (.readAll, .data [])] := by decide +kernel
/-- The ciphertext ends too early. -/
example : reads lib (gcmCiphertext.take 60) [1] [.read 5, .readAll] =
    some [(.read 5, .data [1, 2, 3, 4, 5]), (.readAll, .raised .tinkError)] := by decide +kernel

/-- `C79_reader`: the hypotheses hold, for any content of the source; here after some reads. -/
example (c : Bytes) {ops : List ReadOp} {l : List (ReadOp × ReadResult)} (h : reads lib c [1] ops = some l) :
    ∃ w b, EveryCallReturns (DecryptingStreamWrapper.RawRead src) (w : Wrapper) b := by
  obtain ⟨w0, w, b, h6, h7⟩ := reads_ok h
  exact ⟨w, b, C79_reader (Keyset.obtained lib) src_exhaustible (keys_live lib _) h6 h7⟩

/-- `C79_like_file`, `C79_read_all`: the hypotheses hold. -/
example : ∃ w0 w b, decrypting lib gcmCiphertext [1] = .ok w0 ∧
    BufferedRead (DecryptingStreamWrapper.RawRead src) w0 [] .readAll (.data pieces.flatten) w b := by
  obtain ⟨w0, w, b, h6, -⟩ := reads_ok (lib := lib) (c := gcmCiphertext) (ad := [1]) (ops := []) rfl
  suffices h : ∃ w b, BufferedRead (DecryptingStreamWrapper.RawRead src) w0 [] .readAll
      (.data pieces.flatten) w b from let ⟨w, b, h⟩ := h; ⟨w0, w, b, h6, h⟩
  refine C79_read_all (pt := pieces.flatten) (Keyset.obtained lib) ?_ src_faithful
    src_steady src_exhaustible (keys_live lib _)
    ⟨(StreamingKeysExamples.Keyset.key 1 9, .inl (Keyset.gcmRaw lib)), by simp [Keyset.kps], ?_⟩ ?_ h6
  · intro q hq
    simp only [Keyset.kps, List.mem_cons, List.not_mem_nil, or_false] at hq
    rcases hq with rfl | rfl
    · exact C71_plain_reads (ctr lib) _ _
    · exact C71_plain_reads (gcm lib) _ _
  · exact gcm_decrypts
  · intro q hq
    simp only [Keyset.kps, List.mem_cons, List.not_mem_nil, or_false] at hq
    rcases hq with rfl | rfl
    · exact .inr ctr_refuses
    · exact .inl gcm_decrypts

/-- `C79_new_keyset`: for each template the hypotheses hold. -/
example {t : KeyTemplate} (ht : .ok t ∈ templates .streamingAead) :
    ∃ h p, KeysetHandle.generateNew StreamingEndToEndExamples.registry 3 [77] t = some (.ok h) ∧
      h.primitive ToyStreamingConfig.isInst StreamingEndToEndExamples.registry .streamingAead = .ok p := by
  obtain ⟨h, p, h1, h2, -⟩ := C79_new_keyset (text := fun _ => false) (inBuffer := [0, 0, 0, 0, 0])
    ToyStreamingConfig.lawful StreamingEndToEndExamples.registered ht ToySegments.lawful rfl (by simp)
    (fun _ => rfl) 3 77 []
  exact ⟨h, p, h1, h2⟩

end TerminationExamples
end Tink.Props
