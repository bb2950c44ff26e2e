import Verif.Props.RotationStreaming
import Verif.Props.RotationExamples
import Verif.Props.BufferedExamples

/-!
# C109, streaming AEAD: examples
-/

namespace Tink.Props
open Spec Config Segment Io Cc
namespace RotationStreamingExample
open ToyStreamingConfig RotationKeysetsExample StreamingKeysExamples BufferedExamples
open StreamingEndToEndExamples (registry registered)

/-- A key of AES-GCM-HKDF with 16-byte derived keys and segments of 48 bytes. -/
def gcmKey (b : UInt8) : AesGcmHkdfStreamingKey :=
  { params := some { ciphertextSegmentSize := 48, derivedKeySize := 16, hkdfHashType := HashType.SHA256 }
    keyValue := List.replicate 16 b }

/-- A key of AES-CTR-HMAC with segments of 70 bytes. -/
def ctrKey (size segment : UInt32) (b : UInt8) : AesCtrHmacStreamingKey :=
  { params := some { ciphertextSegmentSize := segment, derivedKeySize := size, hkdfHashType := HashType.SHA256
                     hmacParams := some { hash := HashType.SHA256, tagSize := 10 } }
    keyValue := List.replicate size.toNat b }

def gcmData (b : UInt8) : KeyData :=
  { typeUrl := ps! "type.googleapis.com/google.crypto.tink.AesGcmHkdfStreamingKey"
    value := encodeFields (gcmKey b).fields, keyMaterialType := KeyMaterialType.SYMMETRIC }

def ctrData (size segment : UInt32) (b : UInt8) : KeyData :=
  { typeUrl := ps! "type.googleapis.com/google.crypto.tink.AesCtrHmacStreamingKey"
    value := encodeFields (ctrKey size segment b).fields, keyMaterialType := KeyMaterialType.SYMMETRIC }

theorem gcm_stored {b : UInt8} (h : (encodeFields (gcmKey b).fields).length < 2 ^ 31) :
    AesGcmHkdfStreamingKey.fromString (gcmData b).value = .ok (gcmKey b) :=
  AesGcmHkdfStreamingKey.fromString_serializeToString (serializeFields_of_length h)

theorem ctr_stored {size segment : UInt32} {b : UInt8}
    (h : (encodeFields (ctrKey size segment b).fields).length < 2 ^ 31) :
    AesCtrHmacStreamingKey.fromString (ctrData size segment b).value = .ok (ctrKey size segment b) :=
  AesCtrHmacStreamingKey.fromString_serializeToString (serializeFields_of_length h)

def oldKey : Key := ⟨some (gcmData 7), KeyStatusType.ENABLED, 7, OutputPrefixType.RAW⟩

/-- A keyset of three keys; 7, the last, is primary, and 9 has the same size. -/
def handle : KeysetHandle where
  keyset := ⟨7, [⟨some (ctrData 32 70 5), KeyStatusType.ENABLED, 5, OutputPrefixType.RAW⟩,
    ⟨some (gcmData 9), KeyStatusType.ENABLED, 9, OutputPrefixType.RAW⟩, oldKey]⟩

theorem usable : AllUsable streamingTypes GoodStreaming handle.keyset := by
  intro k hk
  simp only [handle, List.mem_cons, List.not_mem_nil, or_false] at hk
  rcases hk with rfl | rfl | rfl
  · exact ⟨by decide +kernel, fits_key (by decide +kernel), by unfold PrefixKnown; decide,
      .inr ⟨rfl, _, ctr_stored (by decide +kernel), rfl, by decide +kernel,
        ⟨.inr (.inl rfl), .inr rfl, .inr (.inl rfl), by decide, by decide, by decide, by decide⟩⟩⟩
  · exact ⟨by decide +kernel, fits_key (by decide +kernel), by unfold PrefixKnown; decide,
      .inl ⟨rfl, _, gcm_stored (by decide +kernel), rfl, by decide +kernel, ⟨.inr (.inl rfl), .inl rfl, by decide⟩,
        by decide⟩⟩
  · exact ⟨by decide +kernel, fits_key (by decide +kernel), by unfold PrefixKnown; decide,
      .inl ⟨rfl, _, gcm_stored (by decide +kernel), rfl, by decide +kernel, ⟨.inr (.inl rfl), .inl rfl, by decide⟩,
        by decide⟩⟩

def newTemplate : KeyTemplate := Templates.Streaming.AES256_CTR_HMAC_SHA256_4KB.toOption.getD {}

theorem newTemplate_mem : .ok newTemplate ∈ templates .streamingAead := by
  unfold newTemplate
  rw [← toOption_ok (by decide +kernel)]
  simp [templates]

/-- The keyset after the rotation: a 256-bit key is added and made primary, 9 is disabled. -/
def rotated : KeysetHandle :=
  match KeysetBuilder.fromKeysetHandle handle with
  | .error _ => handle
  | .ok b =>
    match runBuilder registry (opsWith newTemplate) b with
    | none => handle
    | some b' => (KeysetBuilder.keysetHandle b').toOption.getD handle

theorem rotated_ok : Rotated registry handle (opsWith newTemplate) rotated := by
  have hc : rotates registry handle (opsWith newTemplate) = true := by decide +kernel
  unfold rotates at hc
  unfold rotated
  split at hc
  · cases hc
  · rename_i b hb
    split at hc
    · cases hc
    · rename_i b' hb'
      cases hh : KeysetBuilder.keysetHandle b' with
      | error e => rw [hh] at hc; cases hc
      | ok h' =>
        refine ⟨b, b', hb, hb', ?_⟩
        simp only [hb, hb', hh]
        rfl

example : rotated.keyset.key.map (fun k => (k.keyId, k.status, rotated.keyset.primaryKeyId)) =
    [(5, KeyStatusType.ENABLED, 18), (9, KeyStatusType.DISABLED, 18), (7, KeyStatusType.ENABLED, 18),
      (18, KeyStatusType.ENABLED, 18)] := by decide +kernel

theorem others : ∀ k' ∈ rotated.keyset.key, Enabled k' → k' ≠ oldKey → ∃ n', DerivedSize k'.data n' ∧ n' ≠ 16 := by
  have h : ∀ k' ∈ rotated.keyset.key, k'.status = KeyStatusType.ENABLED → k' ≠ oldKey →
      k'.data.typeUrl = ps! "type.googleapis.com/google.crypto.tink.AesCtrHmacStreamingKey" ∧
      (AesCtrHmacStreamingKey.fromString k'.data.value).toOption.map
        (fun k => k.getParams.derivedKeySize.toNat) = some 32 := by decide +kernel
  intro k' hm he hne
  obtain ⟨h1, h2⟩ := h k' hm he hne
  cases hk : AesCtrHmacStreamingKey.fromString k'.data.value with
  | error e => rw [hk] at h2; cases h2
  | ok k =>
    rw [hk] at h2
    exact ⟨32, .inr ⟨h1, k, hk, by simpa [Except.toOption] using h2⟩, by decide⟩

/-- What is written with the old keyset. -/
def oldStream : Py Encrypting :=
  match handle.primitive ToyStreamingConfig.isInst registry .streamingAead with
  | .ok p => (library.streamingAead.view p).newEncryptingStream 3 ⟨true, ((), []), [0, 0, 0, 0, 0, 0, 0]⟩ [1]
  | .error e => .error e

def newReads (c : Bytes) (ops : List ReadOp) : Option (List (ReadOp × ReadResult)) :=
  match rotated.primitive ToyStreamingConfig.isInst registry .streamingAead with
  | .ok p =>
    match (library.streamingAead.view p).newDecryptingStream (c, false) true [1] with
    | .ok w => ToyBuffered.calls (ToyBuffered.rawRead ToyStream.src) 64 w [] ops
    | .error _ => none
  | .error _ => none

theorem old_ciphertext : (BufferedExamples.written oldStream wops).map (fun q => (q.2.object.2, writtenBytes q.1)) =
    some (gcmCiphertext, pieces.flatten) := by decide +kernel

example : newReads gcmCiphertext [.read 5, .read1 100, .read 7, .readAll] =
    some [(.read 5, .data [1, 2, 3, 4, 5]), (.read1 100, .data [6, 7, 8]),
      (.read 7, .data [9, 10, 11, 12, 13, 14, 15]), (.readAll, .data [16, 17])] := by decide +kernel

/-- The hypotheses of `C109_streaming_works` and `C109_streaming_sizes` hold together. -/
example {ops : List ReadOp} {l : List (ReadOp × ReadResult)} (hl : newReads gcmCiphertext ops = some l) :
    ∃ pos, ReadsLikeFile pieces.flatten l pos := by
  obtain ⟨-, p, hp, -⟩ := C109_streaming_works (text := fun _ => false) (inBuffer := [0, 0, 0, 0, 0])
    ToyStreamingConfig.lawful ToySegments.lawful rfl (fun _ => rfl) registered
    (rotated_nil (h := handle) (by decide +kernel)) (by intro _ _ _ h; cases h) never_none usable.except
  obtain ⟨hu, p', hp', -⟩ := C109_streaming_works (text := fun _ => false) (inBuffer := [0, 0, 0, 0, 0])
    ToyStreamingConfig.lawful ToySegments.lawful rfl (fun _ => rfl) registered
    rotated_ok (opsWith_predefined newTemplate_mem).variants never_none usable.except
  cases hw : BufferedExamples.written oldStream wops with
  | none => exact absurd old_ciphertext (by rw [hw]; simp)
  | some x =>
    obtain ⟨writes, e2⟩ := x
    have h1 := old_ciphertext
    rw [hw, Option.map_some, Option.some.injEq, Prod.mk.injEq] at h1
    obtain ⟨h1, h2⟩ := h1
    obtain ⟨e, e1, b, g1, g2, g3⟩ := written_ok hw
    have g1' : (library.streamingAead.view p).newEncryptingStream 3 ⟨true, ((), []), [0, 0, 0, 0, 0, 0, 0]⟩ [1] =
        .ok e := by
      have := g1
      unfold oldStream at this
      rw [show handle.primitive ToyStreamingConfig.isInst registry .streamingAead = .ok p from hp] at this
      exact this
    unfold newReads at hl
    rw [show rotated.primitive ToyStreamingConfig.isInst registry .streamingAead = .ok p' from hp'] at hl
    dsimp only at hl
    cases hd : (library.streamingAead.view p').newDecryptingStream (gcmCiphertext, false) true [1] with
    | error x => rw [hd] at hl; cases hl
    | ok w0 =>
      rw [hd] at hl
      obtain ⟨w, b', h6⟩ := ToyBuffered.reads (by decide) (by decide) hl
      rw [← h2]
      exact (C109_streaming_sizes (text := fun _ => false) (inBuffer := [0, 0, 0, 0, 0]) (L := library)
        (n := 16) (k := oldKey) ToySegments.lawful rfl (by simp) (fun _ => rfl) registered registered rotated_ok
        (usable_keysOf usable) (except_keysOf hu) hp hp' (by decide +kernel) (by decide +kernel) (opsWith_spares _)
        (.inl ⟨rfl, _, gcm_stored (by decide +kernel), by decide⟩) others ToySegments.sink_honest g1' g2 g3
        ToyStream.src_faithful ToyStream.src_steady h1.symm hd h6).2

/-! ## A key that was deleted -/

/-- The library with ideal cryptography. -/
def idealLibrary := { library with ccStreamingAead := ccStreamingAead ideal }

theorem ideal_lawful : LawfulConfig idealLibrary ToyStreamingConfig.isInst :=
  { ToyStreamingConfig.lawful with
    ccStreamingAead := by
      intro u h
      simp only [keyTypes, List.mem_cons, Prod.mk.injEq, and_true, List.not_mem_nil, or_false] at h
      rcases h with rfl | rfl
      · exact ⟨(AesCtrHmacStreamingKeyManager.keyTypeManager ideal).toKeyManager, rfl, rfl⟩
      · exact ⟨(AesGcmHkdfStreamingKeyManager.keyTypeManager ideal).toKeyManager, rfl, rfl⟩ }

def idealRegistry : Registry Prim PrimClass :=
  runConfig ToyStreamingConfig.isInst idealLibrary [.register .streamingAead] {}

theorem ideal_registered : PackageRegistered idealLibrary idealRegistry .streamingAead :=
  C64_registered (before := []) (after := []) ideal_lawful (.inl rfl) ⟨by simp, by simp⟩ (by simp)

def restKey : Key := ⟨some (ctrData 16 38 7), KeyStatusType.ENABLED, 5, OutputPrefixType.RAW⟩

def twoKeys : KeysetHandle where
  keyset := ⟨7, [restKey, oldKey]⟩

def oneLeft : KeysetHandle where
  keyset := ⟨5, [restKey]⟩

theorem deleted : Rotated idealRegistry twoKeys ([.setPrimaryKey 5] ++ .deleteKey 7 :: []) oneLeft := by
  obtain ⟨h', H⟩ := exists_rotated (r := idealRegistry) (h := twoKeys)
    (ops := [.setPrimaryKey 5] ++ .deleteKey 7 :: []) (by decide +kernel)
  have e := (rotated_iff_run H).1
  have e' : runBuilder idealRegistry ([.setPrimaryKey 5] ++ .deleteKey 7 :: []) twoKeys.keyset =
    some oneLeft.keyset := by decide +kernel
  rw [e', Option.some.injEq] at e
  have : h' = oneLeft := by cases h'; cases e; rfl
  exact this ▸ H

/-- What the key that is left gives. -/
theorem rest_key {q : NonceBased Nat State} (h : StreamingKeyOf ideal restKey q) : q = ToySegments.ctr ideal := by
  obtain ⟨cc, h1, h2⟩ := h
  have e : ccStreamingAead ideal restKey.data.typeUrl =
      some (AesCtrHmacStreamingKeyManager.keyTypeManager ideal).toKeyManager := ccStreamingAead_ctr _
  rw [e] at h1
  cases h1
  obtain ⟨-, k, h3, -, h4⟩ := getPrimitive_iff.1
    (show (AesCtrHmacStreamingKeyManager.keyTypeManager ideal).getPrimitive restKey.data = .ok q from h2)
  have h5 : k = ctrKey 16 38 7 := by
    have := h3.symm.trans (show _ = _ from ctr_stored (size := 16) (segment := 38) (b := 7) (by decide +kernel))
    simpa using this
  subst h5
  have h6 : AesCtrHmac.new ideal (AesCtrHmacStreamingKeyManager.params (ctrKey 16 38 7)) = .ok q := h4
  have h7 : AesCtrHmacStreamingKeyManager.params (ctrKey 16 38 7) = ToySegments.ctrParams := by rfl
  rw [h7, ToySegments.new_ctr] at h6
  cases h6
  rfl

/-- `C109_streaming_revoked`: the hypotheses hold. -/
example {p' : Prim} (hp' : oneLeft.primitive ToyStreamingConfig.isInst idealRegistry .streamingAead = .ok p')
    {c : Bytes} {w0 w : Wrapper} {l : List (ReadOp × ReadResult)} {b : Bytes}
    (hnew : (idealLibrary.streamingAead.view p').newDecryptingStream (c, false) true [1] = .ok w0)
    (hist : ReaderHistory (DecryptingStreamWrapper.RawRead ToyStream.src) w0 l w b) :
    ReadsOneOf (fun P => ∃ m, msgs m ∧ m.ad = [1] ∧ P = m.segments.flatten) l := by
  have hne : ∀ m, msgs m → m.segments ≠ [] := by rintro m (rfl | rfl) <;> simp [m1, m2]
  refine C109_streaming_revoked (text := fun _ => false) (inBuffer := [0, 0, 0, 0, 0]) (L := idealLibrary) (id := 7)
    (lib := ideal) ideal_sound rfl (fun _ => rfl) ideal_registered deleted ?_ hp' (by decide)
    (by unfold AtMostOne; decide +kernel) ?_ (by simp) ?_ hnew hist
  · intro k hk _
    simp only [oneLeft, List.mem_singleton] at hk
    subst hk
    exact ⟨by decide +kernel, fits_key (by decide +kernel)⟩
  · simp [Revokes]
  · intro k hk _ _ q hq
    simp only [oneLeft, List.mem_singleton] at hk
    subst hk
    rw [rest_key hq]
    exact C68_aes_ctr_hmac ideal_sound (ToySegments.new_ctr ideal) hne (ctr_ideal 1)

/-- ... and a decrypting stream can be made. -/
example : (match oneLeft.primitive ToyStreamingConfig.isInst idealRegistry .streamingAead with
    | .ok p => Except.isOk ((idealLibrary.streamingAead.view p).newDecryptingStream (gcmCiphertext, false) true [1])
    | .error _ => false) = true := by decide +kernel

end RotationStreamingExample
end Tink.Props
