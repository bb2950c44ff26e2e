import Verif.Props.Interrupted
import Verif.Props.BufferedExamples

/-!
# C83: concrete cases
-/

namespace Tink.Props
open Spec Segment Io
namespace InterruptedExamples
open ToySegments StreamingKeysExamples

/-! ## A message of which one segment was encrypted, and not as the last one -/

def segment : Bytes := [1, 2, 3, 4, 5, 6, 7, 8]

/-- Another message, which is finished. -/
def finished (m : StreamMessage) : Prop := m = m2

/-- What was encrypted so far: key, nonce, plaintext. -/
def log : List (Bytes × Bytes × Bytes) :=
  [(derived 3 1, [4, 4, 4, 4, 4, 4, 4, 0, 0, 0, 0, 0], segment),
   (derived 5 2, [6, 6, 6, 6, 6, 6, 6, 0, 0, 0, 0, 1], [20, 21])]

/-- Decryption and verification succeed only for what is in the log. -/
def soFar : SegmentLibrary where
  hkdf := lib.hkdf
  gcmEncrypt := lib.gcmEncrypt
  gcmDecrypt k n c :=
    match gcmDecrypt k n c with
    | some b => if (k, n, b) ∈ log then some b else none
    | none => none
  ctrEncrypt := lib.ctrEncrypt
  ctrDecrypt := lib.ctrDecrypt
  hmac := lib.hmac
  hmacVerify h k t d :=
    some (decide (k ∈ [derived 3 1 ++ derived 3 1, derived 5 2 ++ derived 5 2] ∧
      (k.take 16, d.take 12, d.drop 16) ∈ log ∧ d = d.take 12 ++ [0, 0, 0, 0] ++ d.drop 16 ∧
      hmacVerify h k t d = some true))
  random := lib.random
  random' := lib.random'

theorem soFar_sound : SoundLibrary soFar where
  hkdf := sound.hkdf
  random := sound.random
  random' := sound.random'
  gcmLength := sound.gcmLength
  ctrSame := sound.ctrSame
  hmacLength := sound.hmacLength

theorem gcm_soFar : GcmIdealSoFar soFar gcmParams [1] finished 3 [segment] := by
  intro last
  refine ⟨?_, ?_, ?_⟩
  · intro salt key n c b _ h
    simp only [soFar] at h
    split at h
    · split at h
      · rename_i hm
        simp only [Option.some.injEq] at h
        subst h
        simp only [log, List.mem_cons, Prod.mk.injEq, List.not_mem_nil, or_false] at hm
        rcases hm with ⟨rfl, rfl, rfl⟩ | ⟨rfl, rfl, rfl⟩
        · exact ⟨_, .inr rfl, hkdf_1, 0, by simp, by decide, rfl, by simp; decide +kernel⟩
        · exact ⟨m2, .inl rfl, hkdf_2, 0, by decide, by decide, rfl, by decide +kernel⟩
      · cases h
    · cases h
  · intro m m' key h h' _ _ he
    rcases h with rfl | rfl <;> rcases h' with rfl | rfl
    · rfl
    · exact absurd he (by simp only [m2]; decide +kernel)
    · exact absurd he (by simp only [m2]; decide +kernel)
    · rfl
  · intro m salt key h h1 h2
    rcases h with rfl | rfl
    · have := h1.symm.trans hkdf_2
      simp only [Option.some.injEq] at this
      subst this
      have := hkdf_ad (b := 2) (c := 5) (Nat.le_refl 16) h2 (by decide)
      exact absurd this (by decide)
    · rfl

theorem ctr_soFar : CtrHmacIdealSoFar soFar ctrParams [1] finished 3 [segment] := by
  intro last
  refine ⟨?_, ?_, ?_⟩
  · intro salt key hk d t _ h
    simp only [soFar, Option.some.injEq, decide_eq_true_eq] at h
    obtain ⟨h1, h2, h3, -⟩ := h
    simp only [List.mem_cons, List.not_mem_nil, or_false] at h1
    simp only [log, List.mem_cons, Prod.mk.injEq, List.not_mem_nil, or_false] at h2
    rcases h1 with rfl | rfl <;>
      rcases h2 with ⟨e1, e2, e3⟩ | ⟨e1, e2, e3⟩ <;>
      first | exact absurd e1 (by decide) | (rw [e2, e3] at h3; subst h3)
    · exact ⟨_, _, .inr rfl, keys_1, 0,
        [4, 4, 4, 4, 4, 4, 4, 0, 0, 0, 0, 0], _, _, ⟨by simp, by decide, rfl, by simp; decide +kernel⟩, rfl,
        rfl⟩
    · exact ⟨m2, _, .inl rfl, keys_2, 0,
        [6, 6, 6, 6, 6, 6, 6, 0, 0, 0, 0, 1], _, _, ⟨by decide, by decide, rfl, by decide +kernel⟩, rfl,
        by decide +kernel⟩
  · intro m m' key key' hk h h' _ _ he
    rcases h with rfl | rfl <;> rcases h' with rfl | rfl
    · rfl
    · exact absurd he (by simp only [m2]; decide +kernel)
    · exact absurd he (by simp only [m2]; decide +kernel)
    · rfl
  · intro m salt key key' hk h h1 h2
    obtain ⟨b1, l1, rfl, e1, f1⟩ := keys_of h1
    obtain ⟨b2, l2, rfl, e2, f2⟩ := keys_of h2
    rw [e1] at e2
    have he : key = key' := (List.append_inj e2 (by omega)).1
    subst he
    refine ⟨?_, rfl⟩
    rcases h with rfl | rfl
    · have := f1.symm.trans hkdf_2
      simp only [Option.some.injEq] at this
      subst this
      have := hkdf_ad (b := 2) (c := 5) (Nat.le_refl 16) f2 (by decide)
      exact absurd this (by decide)
    · rfl

/-- `C83_any_source_aes_gcm_hkdf`, `C83_any_source_aes_ctr_hmac`: the hypotheses hold. -/
theorem gcm_any : DeliversUnfinished ((gcm soFar).toRaw (σ := Unit × Bytes) (fun _ => false) [0, 0, 0, 0, 0]) [1]
    (fun P => ∃ m, finished m ∧ m.ad = [1] ∧ P = m.segments.flatten) segment := by
  have := C83_any_source_aes_gcm_hkdf (σd := Unit × Bytes) (text := fun _ => false) (inBuffer := [0, 0, 0, 0, 0])
    soFar_sound (new_gcm soFar) (msgs := finished) (by rintro m rfl; simp [m2]) gcm_soFar
  simpa using this
theorem ctr_any : DeliversUnfinished ((ctr soFar).toRaw (σ := Unit × Bytes) (fun _ => false) [0, 0, 0, 0, 0]) [1]
    (fun P => ∃ m, finished m ∧ m.ad = [1] ∧ P = m.segments.flatten) segment := by
  have := C83_any_source_aes_ctr_hmac (σd := Unit × Bytes) (text := fun _ => false) (inBuffer := [0, 0, 0, 0, 0])
    soFar_sound (new_ctr soFar) (msgs := finished) (by rintro m rfl; simp [m2]) ctr_soFar
  simpa using this

/-- `C83_keyset`: the hypotheses hold for the keyset of the two keys, whatever the source contains. -/
example {c : Bytes} {ops : List ReadOp} {l : List (ReadOp × ReadResult)}
    (h : BufferedExamples.reads soFar c [1] ops = some l) :
    ReadsOneOf (fun P => ∃ m, finished m ∧ m.ad = [1] ∧ P = m.segments.flatten) l ∨
      ReadsUnfinished segment l := by
  obtain ⟨w0, w, b, h6, h7⟩ := BufferedExamples.reads_ok h
  refine C83_keyset (Keyset.obtained soFar) ?_ ?_ h6 h7
  · intro q hq
    simp only [Keyset.kps, List.mem_cons, List.not_mem_nil, or_false] at hq
    rcases hq with rfl | rfl
    · exact C71_plain_reads (ctr soFar) _ _
    · exact C71_plain_reads (gcm soFar) _ _
  · intro q hq
    simp only [Keyset.kps, List.mem_cons, List.not_mem_nil, or_false] at hq
    rcases hq with rfl | rfl
    · exact ⟨⟨_, rfl⟩, ctr_any⟩
    · exact ⟨⟨_, rfl⟩, gcm_any⟩

/-! ## Writing it, to a destination that is full after some bytes -/

/-- A destination that takes 5 bytes at a time, and no more than 35. -/
def full : CSink Nat where
  write s d := if 35 ≤ s then (s, .error ⟨.unknown, false⟩) else (s + min 5 d.length, .ok (min 5 d.length : Nat))
  close s := (s, .ok ())

theorem full_honest : Honest full := by
  intro s d n h
  simp only [full] at h
  split at h
  · cases h
  · simp only [Except.ok.injEq] at h
    omega

abbrev Encrypting := CcEncrypting Nat (Nat × Bytes)

def stream (p : NonceBased Nat State) : Py Encrypting :=
  p.newRawEncryptingStream 3 ⟨true, (0, []), [0, 0, 0, 0, 0, 0, 0]⟩ [1]

def wops : List WriteOp := [.write [1, 2, 3], .write [4, 5, 6, 7, 8, 9, 10, 11, 12], .write (List.replicate 40 0), .write [1, 2], .flush]

/-- The calls with their results, and the state of the stream. -/
def written (p : NonceBased Nat State) (ops : List WriteOp) : Option (Encrypting × Bytes × List (WriteOp × Py Nat)) :=
  match stream p with
  | .error _ => none
  | .ok e => ToyBuffered.writes (recordedSink full) 4 e [] ops

theorem written_ok {p : NonceBased Nat State} {ops : List WriteOp} {q : Encrypting × Bytes × List (WriteOp × Py Nat)}
    (h : written p ops = some q) : ∃ e, stream p = .ok e ∧
      WriterHistory (CcEncrypting.RawWrite (recordedSink full)) e q.2.2 q.1 q.2.1 := by
  unfold written at h
  split at h
  · cases h
  · rename_i e he
    exact ⟨e, he, by simpa using ToyBuffered.writes_ok .start h⟩

def plain : Bytes := [1, 2, 3, 4, 5, 6, 7, 8, 9, 10, 11, 12] ++ List.replicate 40 0 ++ [1, 2]

/-- What the destination took: the header, and 11 bytes of the encryption of the first segment. -/
def taken : Bytes :=
  [24] ++ List.replicate 16 3 ++ List.replicate 7 4 ++ segment ++ [4, 4, 4]

/-- One of the calls failed. -/
theorem gcm_written : (written (gcm soFar) wops).map
      (fun q => (q.1.object.2, q.1.raw.adapter.encrypter, writtenBytes q.2.2, q.2.2.map fun o => o.2.toOption)) =
    some (taken, 1, plain, [some 3, some 9, none, some 2, none]) := by decide +kernel

theorem segments_of {se : SegmentEncrypter Nat} {bs cs : List Bytes}
    (he : (gcm soFar).newSegmentEncrypter 3 [1] = .ok (se, 0)) (h : EncryptedSoFar se 0 bs cs 1)
    (hb : bs.flatten <+: plain) (hc : taken <+: se.header ++ cs.flatten) :
    bs = [segment] := by
  obtain ⟨key, hk, -, rfl, -⟩ := Gcm.newSegmentEncrypter_ok soFar_sound he
  obtain ⟨k1, hem, hk1⟩ := h
  have hn := Gcm.emitted_number hem
  have h1 : bs.length = 1 := by
    rcases hk1 with rfl | ⟨b, last, x, hx⟩
    · exact hn.symm
    · simp only [AesGcmHkdf.encrypter, AesGcmHkdf.encryptSegment] at hx
      repeat' split at hx
      all_goals first | (simp at hx; omega) | (simp at hx)
  have hl := Decrypting.emitted_length hem
  match bs, cs, h1, hl with
  | [b], [c], _, _ =>
    obtain ⟨bs', cs', kj, kj', a1, a2, a3⟩ := Decrypting.emitted_at hem 0 (by simp) (by simp)
    have a4 := Gcm.emitted_number a1
    rw [a2] at a4
    obtain rfl := a4
    have a3 : AesGcmHkdf.encryptSegment soFar key (soFar.random' 3 7)
        (gcmParams.ciphertextSegmentSize - AesGcmHkdf.tagSize) 0 b false = (kj', .ok c) := a3
    obtain ⟨-, -, a5, -⟩ := Gcm.encryptSegment_ok a3
    have a6 : c = b ++ [4, 4, 4, 4, 4, 4, 4, 0, 0, 0, 0, 0, 0, 0, 0, 0] := by
      have : soFar.gcmEncrypt key (nonce (soFar.random' 3 7) 0 false) b =
          some (b ++ [4, 4, 4, 4, 4, 4, 4, 0, 0, 0, 0, 0, 0, 0, 0, 0]) := rfl
      exact Option.some.inj (a5.symm.trans this)
    have hb' : b = plain.take b.length := by
      have : b <+: plain := by simpa using hb
      exact List.prefix_iff_eq_take.mp this
    have hlen : b.length < 55 := by
      have := congrArg List.length hb'
      have hp : plain.length = 54 := by decide
      rw [List.length_take, hp] at this
      omega
    have hc' : (segment ++ [4, 4, 4]) <+: c := by
      have h2 : taken = Segment.makeHeader (soFar.random 3 gcmParams.derivedKeySize.toNat) (soFar.random' 3 7) ++
          (segment ++ [4, 4, 4]) := by decide +kernel
      have h3 : taken <+: Segment.makeHeader (soFar.random 3 gcmParams.derivedKeySize.toNat) (soFar.random' 3 7) ++ c := by
        have hc : taken <+: Segment.makeHeader (soFar.random 3 gcmParams.derivedKeySize.toNat)
          (soFar.random' 3 7) ++ [c].flatten := hc
        simpa using hc
      rw [h2] at h3
      exact (List.prefix_append_right_inj _).mp h3
    have key : ∀ m < 55, (segment ++ [4, 4, 4]) <+: plain.take m ++
        [4, 4, 4, 4, 4, 4, 4, 0, 0, 0, 0, 0, 0, 0, 0, 0] → m = 8 := by decide +kernel
    have := key b.length hlen (by rw [← hb', ← a6]; exact hc')
    rw [this] at hb'
    rw [hb']
    rfl

/-- `C83_aes_gcm_hkdf`: the hypotheses hold, and so do those about ideal cryptography: whenever the program
stops, what was taken is never complete. -/
theorem gcm_unfinished (D : Bytes) (hD : D <+: taken) :
    NeverComplete ((gcm soFar).toRaw (σ := Nat) (fun _ => false) [0, 0, 0, 0, 0]) [1] D segment := by
  have hw := gcm_written
  cases h : written (gcm soFar) wops with
  | none => rw [h] at hw; cases hw
  | some q =>
    rw [h] at hw
    simp only [Option.map_some, Option.some.injEq, Prod.mk.injEq] at hw
    obtain ⟨w1, w2, w3, -⟩ := hw
    obtain ⟨e, h1, h2⟩ := written_ok h
    obtain ⟨se, bs, cs, a1, a2, a3, a4, a5⟩ := C83_aes_gcm_hkdf (text := fun _ => false)
      (inBuffer := [0, 0, 0, 0, 0]) soFar_sound (new_gcm soFar) full_honest h1 h2 (by simp)
    rw [w2] at a2
    rw [w3] at a3
    rw [w1] at a4
    obtain rfl := segments_of a1 a2 a3 a4
    have := a5 finished gcm_soFar D (by rw [w1]; exact hD)
    simpa using this

/-- What reading it is like, if the destination had taken all of the first segment, and if not. -/
example : decrypt (gcm soFar) [1] (taken ++ [4, 4, 4, 4, 0, 0, 0, 0, 0, 0, 0, 0, 0, 5]) [3, 100, 3] =
    [some (.data [1, 2, 3]), some (.data [4, 5, 6, 7, 8]), some (.raised .tinkError)] := by decide +kernel
example : decrypt (gcm soFar) [1] taken [3, 100] =
    [some (.raised .tinkError), some (.raised .tinkError)] := by decide +kernel

/-- `C83_aes_ctr_hmac`, `C83_before_close`: there are such histories. -/
example : ∃ (e : Encrypting) (q : Encrypting × Bytes × List (WriteOp × Py Nat)), stream (ctr soFar) = .ok e ∧
    WriterHistory (CcEncrypting.RawWrite (recordedSink full)) e q.2.2 q.1 q.2.1 ∧
    q.1.object.2 = [24] ++ List.replicate 16 3 ++ List.replicate 7 4 ++
      [1, 2, 3, 4, 0, 0, 0, 0, 0, 0, 0] := by
  have hw : (written (ctr soFar) wops).map (fun q => q.1.object.2) = some ([24] ++ List.replicate 16 3 ++
    List.replicate 7 4 ++ [1, 2, 3, 4, 0, 0, 0, 0, 0, 0, 0]) := by decide +kernel
  cases h : written (ctr soFar) wops with
  | none => rw [h] at hw; cases hw
  | some q =>
    rw [h] at hw
    obtain ⟨e, h1, h2⟩ := written_ok h
    exact ⟨e, q, h1, h2, by simpa using hw⟩

/-! ## Closing -/

/-- `close()` of a stream with nothing waiting in the buffer. -/
def closing (p : NonceBased Nat State) (ops : List WriteOp) : Option (Encrypting × Py Unit × List (WriteOp × Py Nat)) :=
  match written p ops with
  | some (e, [], l) => (e.close (recordedSink full) 100).map fun x => (x.1, x.2, l)
  | _ => none

theorem closing_ok {p : NonceBased Nat State} {ops : List WriteOp} {l : List (WriteOp × Py Nat)} {e2 : Encrypting}
    {r : Py Unit} (h : closing p ops = some (e2, r, l)) : ∃ e e1, stream p = .ok e ∧
      WriterHistory (CcEncrypting.RawWrite (recordedSink full)) e l e1 [] ∧
      BufferedClose (CcEncrypting.RawWrite (recordedSink full)) (CcEncrypting.RawClose (recordedSink full))
        e1 [] e2 r := by
  unfold closing at h
  split at h
  · rename_i e1 l' hw
    rw [Option.map_eq_some_iff] at h
    obtain ⟨⟨e2', r'⟩, h1, h2⟩ := h
    cases h2
    obtain ⟨e, h3, h4⟩ := written_ok hw
    exact ⟨e, e1, h3, h4, .closed .start ⟨100, h1⟩⟩
  · cases h

/-- `C83_close`, `C83_aes_gcm_hkdf_close`: there are such histories: this destination is full when the last
segment is written, and `close()` raises. -/
example : (closing (gcm soFar) [.write segment, .flush]).map (fun q => (q.1.object.2, q.2.1.toOption)) =
    some (taken, none) := by decide +kernel

/-! ## A `with` block that is left by an exception -/

/-- C83, what one might not expect.  The program was to encrypt more, but after the first bytes there was an
exception: from the ciphertext one gets these bytes, and then the end of the data. -/
theorem C83_with_exception_witness : ∃ e e2 ops,
    (gcm lib).newRawEncryptingStream 3 ⟨true, ((), []), [0, 0, 0, 0, 0, 0, 0]⟩ [1] = .ok e ∧
    WithBlock (CcEncrypting.RawWrite (recordedSink sink)) (CcEncrypting.RawClose (recordedSink sink))
      e ops (.error .osError) e2 (.error .osError) ∧
    writtenBytes ops = [1, 2, 3] ∧
    DecryptsTo ((gcm lib).toRaw (σ := Unit × Bytes) (fun _ => false) [0, 0, 0, 0, 0]) [1] e2.object.2 [1, 2, 3] ∧
    decrypt (gcm lib) [1] e2.object.2 [-1, -1] = [some (.data [1, 2, 3]), some (.data [])] := by
  have hw : (BufferedExamples.written
      ((gcm lib).newRawEncryptingStream 3 ⟨true, ((), []), [0, 0, 0, 0, 0, 0, 0]⟩ [1])
      [.write [1, 2], .write [3]]).map (fun q => (writtenBytes q.1, decrypt (gcm lib) [1] q.2.object.2 [-1, -1])) =
    some ([1, 2, 3], [some (.data [1, 2, 3]), some (.data [])]) := by decide +kernel
  cases h : BufferedExamples.written
      ((gcm lib).newRawEncryptingStream 3 ⟨true, ((), []), [0, 0, 0, 0, 0, 0, 0]⟩ [1])
      [.write [1, 2], .write [3]] with
  | none => rw [h] at hw; cases hw
  | some q =>
    obtain ⟨l, e2⟩ := q
    rw [h] at hw
    simp only [Option.map_some, Option.some.injEq, Prod.mk.injEq] at hw
    obtain ⟨w1, w2⟩ := hw
    obtain ⟨e, e1, b, h1, h2, h3⟩ := BufferedExamples.written_ok h
    have hwith := WithBlock.closed (.error .osError) h2 h3
    refine ⟨e, e2, l, h1, hwith, w1, ?_, w2⟩
    have hnc : e.raw.closed = false := new_not_closed (p := gcm lib) (text := fun _ => false)
      (buffer := [0, 0, 0, 0, 0]) (seed := 3) (ad := [1])
      (dest := ⟨true, ((), []), [0, 0, 0, 0, 0, 0, 0]⟩) h1
    obtain ⟨-, t3, fuel, a1, a2⟩ := C71_writer hnc h2 h3
    rw [← w1]
    exact C67_round_trip (C67_aes_gcm_hkdf lawful (new_gcm lib)) sink_honest h1 a1 a2 (by simp)

end InterruptedExamples
end Tink.Props
