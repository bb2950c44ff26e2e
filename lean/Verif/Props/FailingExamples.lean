import Verif.Props.BufferedExamples
import Verif.Props.Failing

/-!
# C73: concrete cases
-/

namespace Tink.Props
open Spec Config Segment Io
namespace FailingExamples
open ToySegments StreamingKeysExamples BufferedExamples

/-- `C73_keyset`: the hypotheses hold for a keyset of two keys. -/
example {src : Source (Bytes × Bool)} {s : Bytes × Bool} {w0 w : Wrapper} {calls : Calls}
    (hnew : (Keyset.streamView.view (Keyset.prim ideal)).newDecryptingStream s true [1] = .ok w0)
    (hist : StreamHistory src w0 calls w) : StaysFailed calls := by
  refine C73_keyset (Keyset.obtained ideal) ?_ hnew hist
  intro q hq
  simp only [Keyset.kps, List.mem_cons, List.not_mem_nil, or_false] at hq
  rcases hq with rfl | rfl
  · exact ⟨⟨_, rfl⟩, C73_keys (ctr ideal) _ _ _⟩
  · exact ⟨⟨_, rfl⟩, C73_keys (gcm ideal) _ _ _⟩

/-- `C73_reader`: the hypotheses hold with ideal cryptography, whatever the source contains. -/
example {c : Bytes} {ops : List ReadOp} {l : List (ReadOp × ReadResult)} (h : reads ideal c [1] ops = some l) :
    OnlyReadsOneOf (fun P => ∃ m, msgs m ∧ m.ad = [1] ∧ P = m.segments.flatten) l := by
  obtain ⟨w0, w, b, h6, h7⟩ := reads_ok h
  have hne : ∀ m, msgs m → m.segments ≠ [] := by rintro m (rfl | rfl) <;> simp [m1, m2]
  refine C73_reader (Keyset.obtained ideal) ?_ ?_ h6 h7
  · intro q hq
    simp only [Keyset.kps, List.mem_cons, List.not_mem_nil, or_false] at hq
    rcases hq with rfl | rfl
    · exact C71_plain_reads (ctr ideal) _ _
    · exact C71_plain_reads (gcm ideal) _ _
  · intro q hq
    simp only [Keyset.kps, List.mem_cons, List.not_mem_nil, or_false] at hq
    rcases hq with rfl | rfl
    · exact ⟨⟨_, rfl⟩, C73_keys (ctr ideal) _ _ _, C68_aes_ctr_hmac ideal_sound (new_ctr ideal) hne (ctr_ideal 1)⟩
    · exact ⟨⟨_, rfl⟩, C73_keys (gcm ideal) _ _ _, C68_aes_gcm_hkdf ideal_sound (new_gcm ideal) hne (gcm_ideal 1)⟩

/-- The first message with the end of the second segment missing, read by a reader that keeps what it had when
the raw stream fails: calls after the failure get that. -/
example : (encrypt (gcm ideal) [1] m1.segments).map
    (fun C => reads ideal (C.take 60) [1] [.read 4, .read 6, .read 3, .read 2]) =
    some (some [(.read 4, .data [1, 2, 3, 4]), (.read 6, .raised .tinkError), (.read 3, .data [5, 6, 7]),
      (.read 2, .raised .tinkError)]) := by decide +kernel

/-- A source that fails once, when there are at most 30 bytes left. -/
def failingOnce : Source (Bytes × Bool) where
  read s n :=
    match s with
    | (c, true) => ((c.drop n, true), .data (c.take n))
    | (c, false) =>
      match c.drop 30 with
      | [] => ((c, true), .raised .osError)
      | _ => ((c.drop n, false), .data (c.take n))

/-- What calls on a stream over this source return. -/
def calls (ops : List ReadOp) : Option (List (ReadOp × ReadResult)) :=
  match decrypting lib gcmCiphertext [1] with
  | .ok w => ToyBuffered.calls (ToyBuffered.rawRead failingOnce) 64 w [] ops
  | .error _ => none

/-- The stream does not recover from a passing error of the source. -/
example : calls [.readAll, .read 20, .readAll] =
    some [(.readAll, .raised .tinkError), (.read 20, .raised .tinkError), (.readAll, .raised .tinkError)] := by
  decide +kernel

end FailingExamples
end Tink.Props
