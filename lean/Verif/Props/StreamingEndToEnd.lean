import Verif.Props.EndToEnd
import Verif.Props.CcStreaming
import Verif.Props.StreamingKeyManagers
import Verif.Props.StreamingKeyset
import Verif.Examples.ToyStreamingConfig

/-!
# C66, C70: from registration to streams

For streaming AEAD the C++ primitives of single keys are modelled, so nothing is assumed of them: a program
that registers the package, makes a keyset from a predefined template and takes its primitive can encrypt
and decrypt streams.
-/

namespace Tink.Props
open Spec Config Segment

theorem ccStreamingAead_gcm (lib : SegmentLibrary) :
    ccStreamingAead lib (ps! "type.googleapis.com/google.crypto.tink.AesGcmHkdfStreamingKey") =
      some (AesGcmHkdfStreamingKeyManager.keyTypeManager lib).toKeyManager := if_pos rfl

theorem ccStreamingAead_ctr (lib : SegmentLibrary) :
    ccStreamingAead lib (ps! "type.googleapis.com/google.crypto.tink.AesCtrHmacStreamingKey") =
      some (AesCtrHmacStreamingKeyManager.keyTypeManager lib).toKeyManager := by
  have hne : (ps! "type.googleapis.com/google.crypto.tink.AesCtrHmacStreamingKey") ≠
      ps! "type.googleapis.com/google.crypto.tink.AesGcmHkdfStreamingKey" := by decide
  exact (if_neg hne).trans (if_pos rfl)

/-- What the predefined templates ask for. -/
theorem streaming_templates {t : KeyTemplate} (ht : .ok t ∈ templates .streamingAead) :
    (t.typeUrl = ps! "type.googleapis.com/google.crypto.tink.AesGcmHkdfStreamingKey" ∧
      ∃ f, AesGcmHkdfStreamingKeyFormat.fromString t.value = .ok f ∧
        AesGcmHkdfStreamingKeyManager.validateKeyFormat f = .ok () ∧
        f.getParams.ciphertextSegmentSize.toNat < 2 ^ 31 ∧ f.keySize.toNat < 2 ^ 31 - 1000) ∨
    (t.typeUrl = ps! "type.googleapis.com/google.crypto.tink.AesCtrHmacStreamingKey" ∧
      ∃ f, AesCtrHmacStreamingKeyFormat.fromString t.value = .ok f ∧
        AesCtrHmacStreamingKeyManager.validateKeyFormat f = .ok () ∧ f.keySize.toNat < 2 ^ 31 - 1000) := by
  have hcheck : ∀ x ∈ templates .streamingAead, (match x with
      | .error _ => false
      | .ok t =>
        (decide (t.typeUrl = ps! "type.googleapis.com/google.crypto.tink.AesGcmHkdfStreamingKey") &&
          match AesGcmHkdfStreamingKeyFormat.fromString t.value with
          | .error _ => false
          | .ok f => Except.isOk (AesGcmHkdfStreamingKeyManager.validateKeyFormat f) &&
            decide (f.getParams.ciphertextSegmentSize.toNat < 2 ^ 31) &&
            decide (f.keySize.toNat < 2 ^ 31 - 1000)) ||
        (decide (t.typeUrl = ps! "type.googleapis.com/google.crypto.tink.AesCtrHmacStreamingKey") &&
          match AesCtrHmacStreamingKeyFormat.fromString t.value with
          | .error _ => false
          | .ok f => Except.isOk (AesCtrHmacStreamingKeyManager.validateKeyFormat f) &&
            decide (f.keySize.toNat < 2 ^ 31 - 1000))) = true := by decide +kernel
  have := hcheck _ ht
  simp only [Bool.or_eq_true, Bool.and_eq_true, decide_eq_true_eq] at this
  rcases this with ⟨h1, h2⟩ | ⟨h1, h2⟩
  · left
    refine ⟨h1, ?_⟩
    cases hf : AesGcmHkdfStreamingKeyFormat.fromString t.value with
    | error e => rw [hf] at h2; cases h2
    | ok f =>
      rw [hf] at h2
      simp only [Bool.and_eq_true, decide_eq_true_eq] at h2
      refine ⟨f, rfl, ?_, h2.1.2, h2.2⟩
      cases hv : AesGcmHkdfStreamingKeyManager.validateKeyFormat f with
      | ok u => rfl
      | error e => rw [hv] at h2; cases h2.1.1
  · right
    refine ⟨h1, ?_⟩
    cases hf : AesCtrHmacStreamingKeyFormat.fromString t.value with
    | error e => rw [hf] at h2; cases h2
    | ok f =>
      rw [hf] at h2
      simp only [Bool.and_eq_true, decide_eq_true_eq] at h2
      refine ⟨f, rfl, ?_, h2.2⟩
      cases hv : AesCtrHmacStreamingKeyManager.validateKeyFormat f with
      | ok u => rfl
      | error e => rw [hv] at h2; cases h2.1

/-- C70.  For every predefined template, C++ makes key data that can be stored, and from them a primitive
that decrypts what it encrypts, and with which streams can be made. -/
theorem C70_templates {lib : SegmentLibrary} (hl : Spec.LawfulLibrary lib) {t : KeyTemplate}
    (ht : .ok t ∈ templates .streamingAead) (seed : Seed) :
    ∃ cc kd p, ccStreamingAead lib t.typeUrl = some cc ∧ cc.newKeyData seed t.value = .ok kd ∧
      kd.typeUrl = t.typeUrl ∧ Fits kd ∧ cc.getPrimitive kd = .ok p ∧ SoundStreaming p ∧ Opens lib p := by
  rcases streaming_templates ht with ⟨hu, f, hf, hv, h1, h2⟩ | ⟨hu, f, hf, hv, h2⟩
  · obtain ⟨kd, hkd⟩ := C70_gcm_formats (lib := lib) (seed := seed).2 ⟨f, hf, gcm_format_iff.1 hv⟩
    obtain ⟨hfit, p, hp, hnew, hop⟩ := C70_gcm_usable hl.toSoundLibrary hf hkd h1 h2
    rw [hu, ccStreamingAead_gcm]
    exact ⟨_, kd, p, rfl, hkd, (getPrimitive_iff.1 hp).1, hfit, hp, C67_aes_gcm_hkdf hl hnew, hop⟩
  · obtain ⟨kd, hkd⟩ := C70_ctr_formats (lib := lib) (seed := seed).2 ⟨f, hf, ctr_format_iff.1 hv⟩
    obtain ⟨hfit, p, hp, hnew, hop⟩ := C70_ctr_usable hl.toSoundLibrary hf hkd h2
    rw [hu, ccStreamingAead_ctr]
    exact ⟨_, kd, p, rfl, hkd, (getPrimitive_iff.1 hp).1, hfit, hp, C67_aes_ctr_hmac hl hnew, hop⟩

section
variable {σ σd P C : Type} [DecidableEq C]
  {L : Library σ (Dest (σd × Bytes)) (CcEncrypting Nat (σd × Bytes)) (CcDecrypting State)
    (NonceBased Nat State) P C}
  {isInst : P → C → Bool} {r : Registry P C} {t : KeyTemplate}

/-- C66.  Streaming AEAD: with a new keyset, streams can be made; what is written to an encrypting stream,
in any pieces and to a destination that takes any number of bytes at a time, is what reads from a
decrypting stream return, however many bytes they ask for and the source returns at a time. -/
theorem C66_streaming_aead (hl : LawfulConfig L isInst) (hr : PackageRegistered L r .streamingAead)
    (ht : .ok t ∈ templates .streamingAead) {lib : SegmentLibrary} (hlib : Spec.LawfulLibrary lib)
    (hcc : L.ccStreamingAead = ccStreamingAead lib) {text : Exc → Bool} {inBuffer : Bytes}
    (hb : inBuffer ≠ []) (hpy : ∀ p, L.streamingCcToPy p = p.toRaw text inBuffer)
    (seed : Seed) (d : UInt32) (draws : List UInt32) :
    ∃ h p, KeysetHandle.generateNew r seed (d :: draws) t = some (.ok h) ∧
      h.primitive isInst r (L.cls .streamingAead) = .ok p ∧
      ((∀ h ikm salt info n, StreamHash h → n ≤ 64 → lib.hkdf h ikm salt info n ≠ none) →
        ∀ s0 outBuffer seed ad, ∃ e,
          (L.streamingAead.view p).newEncryptingStream seed ⟨true, s0, outBuffer⟩ ad = .ok e) ∧
      (∀ s ad, ∃ w, (L.streamingAead.view p).newDecryptingStream s true ad = .ok w) ∧
      ∀ (snk : CSink σd) (seed : Seed) (s0 : σd) (outBuffer ad pt : Bytes)
        (e e1 e2 : CcEncrypting Nat (σd × Bytes)) (fuel : Nat), Honest snk →
        (L.streamingAead.view p).newEncryptingStream seed ⟨true, (s0, []), outBuffer⟩ ad = .ok e →
        Written (recordedSink snk) e pt e1 → e1.close (recordedSink snk) fuel = some (e2, .ok ()) →
        ∀ (src : Source σ) (rest : σ → Bytes) (s : σ) (readable : Bool)
          (w0 w : DecryptingStreamWrapper σ (Dest (σd × Bytes)) (CcEncrypting Nat (σd × Bytes))
            (CcDecrypting State)) (calls : Calls),
          Faithful src rest → Steady src → rest s = e2.object.2 →
          (L.streamingAead.view p).newDecryptingStream s readable ad = .ok w0 →
          StreamHistory src w0 calls w →
          Calls.bytes calls <+: pt ∧ (∀ c ∈ calls, ∀ e, c.2 ≠ .raised e) ∧
            ((∃ c ∈ calls, c.2 = .data []) → Calls.bytes calls = pt) := by
  obtain ⟨cc, kd, a, found, new, hu, hfit, made, hsound, hopens⟩ := C70_templates hlib ht seed
  rw [← hcc] at found
  obtain ⟨h, w, p, h1, h2, hw, H⟩ := C64_new_keyset hl hr ht (.rawStreamingAead found new made) hfit hu d draws
  cases hw
  refine ⟨h, p, h1, H.primitive, ?_, ?_, ?_⟩
  · intro hk s0 outBuffer seed' ad
    have hprim := single_primary (P := P) (o := L.rawStreamingAead.inj (L.streamingCcToPy a)) h2 rfl
    obtain ⟨e, he⟩ := hopens.2 hk _ s0 seed' outBuffer ad
    refine ⟨e, ((C54_keyset H).1 _ _ hprim _ _ _).trans ?_⟩
    rw [L.rawStreamingAead.view_inj, hpy]
    exact he
  · intro s ad
    rw [(C54_keyset H).2]
    have hmem := fun q => mem_groupOrder (q := q) H.prop.2
    cases hg : groupOrder [((⟨some kd, KeyStatusType.ENABLED, d, t.outputPrefixType⟩ : Key),
        L.rawStreamingAead.inj (L.streamingCcToPy a))] with
    | nil => exact absurd ((hmem _).2 (List.mem_singleton.2 rfl)) (by rw [hg]; simp)
    | cons q qs =>
      have : q = (⟨some kd, KeyStatusType.ENABLED, d, t.outputPrefixType⟩,
          L.rawStreamingAead.inj (L.streamingCcToPy a)) :=
        List.mem_singleton.1 ((hmem q).1 (by rw [hg]; simp))
      subst this
      obtain ⟨x, hx⟩ := hopens.1 inBuffer ad
      have hx' : (L.rawStreamingAead.view (L.rawStreamingAead.inj (L.streamingCcToPy a))).newRawDecryptingStream
          ad = .ok x := by
        rw [L.rawStreamingAead.view_inj, hpy]; exact hx
      unfold DecryptingStreamWrapper.new
      simp only [Rewindable.new, if_true, bind, Except.bind, List.map_cons, hx', pure, Except.pure]
      exact ⟨_, rfl⟩
  · intro snk seed' s0 outBuffer ad pt e e1 e2 fuel hk he hwr hc src rest s readable w0 w calls hsrc hst hs
      hnew hist
    have hprim := single_primary (P := P) (o := L.rawStreamingAead.inj (L.streamingCcToPy a)) h2 rfl
    refine C67_keyset_round_trip (text := text) (seed := seed') (s0 := s0) (outBuffer := outBuffer) H H hsound hb
      ((L.rawStreamingAead.view_inj _).trans (hpy a)) hprim hk he hwr hc hsrc hst hs
      ⟨_, List.mem_singleton.2 rfl, rfl⟩ ?_ hnew hist
    intro q hq
    rw [List.mem_singleton.1 hq]
    exact .inl rfl

end

/-! ## Examples -/

namespace StreamingEndToEndExamples
open ToyStreamingConfig

/-- After `streaming_aead.register()`. -/
def registry : Registry Prim PrimClass := runConfig isInst library [.register .streamingAead] {}

theorem registered : PackageRegistered library registry .streamingAead :=
  C64_registered (before := []) (after := []) lawful (.inl rfl) ⟨by simp, by simp⟩ (by simp)

/-- `C66_streaming_aead`: for each template the hypotheses hold. -/
example {t : KeyTemplate} (ht : .ok t ∈ templates .streamingAead) :
    ∃ h p, KeysetHandle.generateNew registry 3 [77] t = some (.ok h) ∧
      h.primitive isInst registry .streamingAead = .ok p := by
  obtain ⟨h, p, h1, h2, -⟩ := C66_streaming_aead (text := fun _ => false) (inBuffer := [0, 0, 0, 0, 0])
    lawful registered ht ToySegments.lawful rfl (by simp) (fun _ => rfl) 3 77 []
  exact ⟨h, p, h1, h2⟩

/-- The primitive of a new keyset. -/
def primitive (t : Py KeyTemplate) : Option Streaming :=
  match t with
  | .error _ => none
  | .ok t =>
    match KeysetHandle.generateNew registry 3 [77] t with
    | some (.ok h) =>
      match h.primitive isInst registry .streamingAead with
      | .ok p => some (library.streamingAead.view p)
      | .error _ => none
    | _ => none

def encrypted (t : Py KeyTemplate) (ad : Bytes) (pieces : List Bytes) : Option Bytes := do
  let p ← primitive t
  match p.newEncryptingStream 3 ⟨true, ((), []), [0, 0, 0, 0, 0, 0, 0]⟩ ad with
  | .ok e => ToySegments.writeAll e pieces
  | .error _ => none

def roundTrip (t : Py KeyTemplate) (ad : Bytes) (pieces : List Bytes) : Option Bytes := do
  let p ← primitive t
  let c ← encrypted t ad pieces
  match p.newDecryptingStream (c, false) true ad with
  | .ok w => ToySegments.plaintext (ToyStream.results ToyStream.src 200 w [3, 3, -1, -1, -1])
  | .error _ => none

example : roundTrip Templates.Streaming.AES128_GCM_HKDF_4KB [1] [[1, 2, 3, 4, 5], [], [6, 7, 8]] =
    some [1, 2, 3, 4, 5, 6, 7, 8] := by decide +kernel
example : roundTrip Templates.Streaming.AES128_CTR_HMAC_SHA256_4KB [1] [[1, 2, 3, 4, 5], [], [6, 7, 8]] =
    some [1, 2, 3, 4, 5, 6, 7, 8] := by decide +kernel

/-- A template for AES-GCM-HKDF with segments of 2³¹ bytes. -/
def largeSegments : Py KeyTemplate :=
  Templates.Streaming.createAesGcmHkdf 16 HashType.SHA256 16 (2 ^ 31)

/-- C70, violation.  A keyset is made from this template, but it has no primitive: `primitive` raises
`TinkError`. -/
theorem C70_gcm_large_segment_witness : ∃ t h, largeSegments = .ok t ∧
    KeysetHandle.generateNew registry 3 [77] t = some (.ok h) ∧
    h.primitive isInst registry .streamingAead = .error .tinkError := by
  have h : (match largeSegments with
      | .error _ => false
      | .ok t =>
        match KeysetHandle.generateNew registry 3 [77] t with
        | some (.ok h) =>
          match h.primitive isInst registry .streamingAead with
          | .error .tinkError => true
          | _ => false
        | _ => false) = true := by decide +kernel
  cases ht : largeSegments with
  | error e => rw [ht] at h; cases h
  | ok t =>
    rw [ht] at h
    dsimp only at h
    cases hg : KeysetHandle.generateNew registry 3 [77] t with
    | none => rw [hg] at h; cases h
    | some g =>
      cases g with
      | error e => rw [hg] at h; cases h
      | ok k =>
        rw [hg] at h
        dsimp only at h
        cases hp : k.primitive isInst registry .streamingAead with
        | ok p => rw [hp] at h; cases h
        | error e =>
          rw [hp] at h
          cases e <;> first | exact ⟨t, k, rfl, hg, hp⟩ | cases h

/-- The largest segment size that works. -/
example : (primitive (Templates.Streaming.createAesGcmHkdf 16 HashType.SHA256 16 (2 ^ 31 - 1))).isSome = true ∧
    (primitive (Templates.Streaming.createAesGcmHkdf 16 HashType.SHA256 16 41)).isSome = true ∧
    (primitive (Templates.Streaming.createAesGcmHkdf 16 HashType.SHA256 16 40)).isSome = false := by
  decide +kernel

/-- The format of a key. -/
def gcmFormat (segment keySize : UInt32) : AesGcmHkdfStreamingKeyFormat :=
  { params := some { ciphertextSegmentSize := segment, derivedKeySize := 32, hkdfHashType := HashType.SHA1 }
    keySize := keySize }

def ctrFormat (segment keySize : UInt32) : AesCtrHmacStreamingKeyFormat :=
  { params := some { ciphertextSegmentSize := segment, derivedKeySize := 16, hkdfHashType := HashType.SHA512
                     hmacParams := some { hash := HashType.SHA1, tagSize := 20 } }
    keySize := keySize }

theorem gcmFormat_ok {b : Bytes} {segment keySize : UInt32}
    (h : (gcmFormat segment keySize).serializeToString = .ok b) :
    AesGcmHkdfStreamingKeyFormat.fromString b = .ok (gcmFormat segment keySize) :=
  AesGcmHkdfStreamingKeyFormat.fromString_serializeToString h

/-- `C70_gcm_formats`, `C70_gcm_usable`: the hypotheses hold for 57-byte segments, the smallest ones for
this derived key size, and a key of 40 bytes. -/
example : ∃ b kd p, AesGcmHkdfStreamingKeyFormat.fromString b = .ok (gcmFormat 57 40) ∧
    (AesGcmHkdfStreamingKeyManager.keyTypeManager ToySegments.lib).newKeyData 3 b = .ok kd ∧
    (AesGcmHkdfStreamingKeyManager.keyTypeManager ToySegments.lib).getPrimitive kd = .ok p := by
  have hv : (gcmFormat 57 40).serializeToString = .ok (encodeFields (gcmFormat 57 40).fields) :=
    serializeFields_of_length (by decide +kernel)
  obtain ⟨kd, hkd⟩ := C70_gcm_formats (lib := ToySegments.lib) (seed := 3).2
    ⟨_, gcmFormat_ok hv, ⟨.inl rfl, .inr rfl, by decide⟩, by decide⟩
  obtain ⟨-, p, hp, -⟩ := C70_gcm_usable ToySegments.sound (gcmFormat_ok hv) hkd (by decide) (by decide)
  exact ⟨_, kd, p, gcmFormat_ok hv, hkd, hp⟩

/-- `C70_ctr_formats`, `C70_ctr_usable`. -/
example : ∃ b kd p, AesCtrHmacStreamingKeyFormat.fromString b = .ok (ctrFormat 45 17) ∧
    (AesCtrHmacStreamingKeyManager.keyTypeManager ToySegments.lib).newKeyData 3 b = .ok kd ∧
    (AesCtrHmacStreamingKeyManager.keyTypeManager ToySegments.lib).getPrimitive kd = .ok p := by
  have hv : (ctrFormat 45 17).serializeToString = .ok (encodeFields (ctrFormat 45 17).fields) :=
    serializeFields_of_length (by decide +kernel)
  have hf := AesCtrHmacStreamingKeyFormat.fromString_serializeToString hv
  obtain ⟨kd, hkd⟩ := C70_ctr_formats (lib := ToySegments.lib) (seed := 3).2
    ⟨_, hf, ⟨.inr (.inr rfl), .inl rfl, .inl rfl, by decide, by decide, by decide, by decide⟩, by decide⟩
  obtain ⟨-, p, hp, -⟩ := C70_ctr_usable ToySegments.sound hf hkd (by decide)
  exact ⟨_, kd, p, hf, hkd, hp⟩

/-- `C70_gcm_large_segment`, `C70_gcm_large_key`, `C70_ctr_large_key`. -/
example : GcmParamsOk (gcmFormat 2147483648 32).getParams ∧ GcmParamsOk (gcmFormat 4096 2147483648).getParams ∧
    CtrParamsOk (ctrFormat 2147483647 2147483648).getParams :=
  ⟨⟨.inl rfl, .inr rfl, by decide⟩, ⟨.inl rfl, .inr rfl, by decide⟩,
   ⟨.inr (.inr rfl), .inl rfl, .inl rfl, by decide, by decide, by decide, by decide⟩⟩

end StreamingEndToEndExamples
end Tink.Props
