import Verif.Spec.RotationStreaming
import Verif.Props.RotationWorks
import Verif.Props.Buffered

/-!
# C109: rotation of keysets for streaming AEAD
-/

namespace Tink.Props
open Spec Config Segment Io Cc

section Keys
variable {lib : SegmentLibrary}

theorem streaming_types {u : PStr} (h : u ∈ streamingTypes) :
    u = ps! "type.googleapis.com/google.crypto.tink.AesGcmHkdfStreamingKey" ∨
      u = ps! "type.googleapis.com/google.crypto.tink.AesCtrHmacStreamingKey" := by
  simpa [streamingTypes] using h

/-- Which key data give a primitive. -/
theorem streaming_good {u : PStr} {cc : Cpp.KeyManager (NonceBased Nat State)} (hc : ccStreamingAead lib u = some cc)
    {kd : KeyData} (hu : kd.typeUrl = u) (hm : u ∈ streamingTypes) :
    (∃ q, cc.getPrimitive kd = .ok q) ↔ GoodStreaming kd := by
  subst hu
  have hne : (ps! "type.googleapis.com/google.crypto.tink.AesCtrHmacStreamingKey") ≠
      ps! "type.googleapis.com/google.crypto.tink.AesGcmHkdfStreamingKey" := by decide
  rcases streaming_types hm with e | e
  · rw [e, ccStreamingAead_gcm] at hc
    cases hc
    refine (C70_gcm_keys (lib := lib) (kd := kd)).trans ⟨.inl, ?_⟩
    rintro (h | h)
    · exact h
    · exact absurd (h.1.symm.trans e) hne
  · rw [e, ccStreamingAead_ctr] at hc
    cases hc
    refine (C70_ctr_keys (lib := lib) (kd := kd)).trans ⟨.inr, ?_⟩
    rintro (h | h)
    · exact absurd (e.symm.trans h.1) hne
    · exact h

/-- What C++ makes of a key, and the parameters it makes it with. -/
theorem streaming_cases {k : Key} (hm : k.data.typeUrl ∈ streamingTypes) {q : NonceBased Nat State}
    (h : StreamingKeyOf lib k q) :
    (∃ p : AesGcmHkdf.Params, AesGcmHkdf.new lib p = .ok q ∧ p.ciphertextOffset = 0 ∧
      1 + p.derivedKeySize + 7 + 16 < p.ciphertextSegmentSize ∧
      ∀ n, DerivedSize k.data n → p.derivedKeySize = n) ∨
    ∃ p : AesCtrHmac.Params, AesCtrHmac.new lib p = .ok q ∧ StreamHash p.hkdfAlgo ∧
      (p.keySize = 16 ∨ p.keySize = 32) ∧ p.ciphertextOffset = 0 ∧
      1 + p.keySize + 7 + p.tagSize < p.ciphertextSegmentSize ∧ 10 ≤ p.tagSize ∧
      p.tagSize ≤ AesCtrHmac.digestSize p.tagAlgo ∧ ∀ n, DerivedSize k.data n → p.keySize = n := by
  obtain ⟨cc, hc, hq⟩ := h
  have hne : (ps! "type.googleapis.com/google.crypto.tink.AesCtrHmacStreamingKey") ≠
      ps! "type.googleapis.com/google.crypto.tink.AesGcmHkdfStreamingKey" := by decide
  rcases streaming_types hm with e | e
  · rw [e, ccStreamingAead_gcm] at hc
    cases hc
    obtain ⟨-, k1, g1, -, -, hp, hs⟩ := C70_gcm_keys.1 ⟨q, hq⟩
    obtain ⟨-, k2, g2, -, hnew⟩ := getPrimitive_iff.1 hq
    have : k2 = k1 := by
      have := g2.symm.trans g1
      simpa using this
    subst this
    replace hnew : AesGcmHkdf.new lib (AesGcmHkdfStreamingKeyManager.params k2) = .ok q := hnew
    have h1 := hp.derived
    have h2 := hp.segment
    have hd : (AesGcmHkdfStreamingKeyManager.params k2).derivedKeySize = k2.getParams.derivedKeySize.toNat :=
      toInt_small (by omega)
    refine .inl ⟨_, hnew, rfl, ?_, fun n hn => ?_⟩
    · rw [hd]
      simp only [AesGcmHkdfStreamingKeyManager.params]
      rw [toInt_small hs]
      omega
    · rw [hd]
      rcases hn with ⟨-, k3, g3, rfl⟩ | ⟨e', -⟩
      · rw [g1] at g3
        cases g3
        rfl
      · exact absurd (e'.symm.trans e) hne
  · rw [e, ccStreamingAead_ctr] at hc
    cases hc
    obtain ⟨-, k1, g1, -, -, hp⟩ := C70_ctr_keys.1 ⟨q, hq⟩
    obtain ⟨-, k2, g2, -, hnew⟩ := getPrimitive_iff.1 hq
    have : k2 = k1 := by
      have := g2.symm.trans g1
      simpa using this
    subst this
    replace hnew : AesCtrHmac.new lib (AesCtrHmacStreamingKeyManager.params k2) = .ok q := hnew
    rw [ctr_params_eq hp] at hnew
    refine .inr ⟨_, hnew, hp.hash, ?_, rfl, ?_, ?_, ?_, fun n hn => ?_⟩
    · have := hp.derived; dsimp only; omega
    · have := hp.segment; dsimp only; omega
    · have := hp.tagMin; dsimp only; omega
    · have := ctr_tagMax hp; dsimp only; omega
    · dsimp only
      rcases hn with ⟨e', -⟩ | ⟨-, k3, g3, rfl⟩
      · exact absurd (e.symm.trans e') hne
      · rw [g1] at g3
        cases g3
        rfl

/-- Streams can be made with what C++ makes of a key. -/
theorem streaming_opens (hl : SoundLibrary lib) {k : Key} (hm : k.data.typeUrl ∈ streamingTypes)
    {q : NonceBased Nat State} (h : StreamingKeyOf lib k q) : Opens lib q := by
  rcases streaming_cases hm h with ⟨p, h1, h2, h3, -⟩ | ⟨p, h1, h2, h3, h4, h5, h6, h7, -⟩
  · exact gcm_opens hl h1 h2 h3
  · exact ctr_opens hl h1 h2 h3 h4 h5 h6 h7

/-- It decrypts what it encrypts. -/
theorem streaming_sound (hl : Spec.LawfulLibrary lib) {k : Key} (hm : k.data.typeUrl ∈ streamingTypes)
    {q : NonceBased Nat State} (h : StreamingKeyOf lib k q) : SoundStreaming q := by
  rcases streaming_cases hm h with ⟨p, h1, -⟩ | ⟨p, h1, -⟩
  · exact C67_aes_gcm_hkdf hl h1
  · exact C67_aes_ctr_hmac hl h1

/-- A key refuses a ciphertext that starts with the size of another header. -/
theorem streaming_refuses {k : Key} (hm : k.data.typeUrl ∈ streamingTypes) {q : NonceBased Nat State}
    (h : StreamingKeyOf lib k q) {n n' : Nat} (hn : DerivedSize k.data n) (hne : n ≠ n') (hn' : n' ≤ 32)
    {text : Exc → Bool} {inBuffer : Bytes} (hb : inBuffer ≠ []) {σ : Type} {ad C : Bytes} :
    RefusesContent (q.toRaw (σ := σ) text inBuffer) ad (UInt8.ofNat (1 + n' + 7) :: C) := by
  have h8 : (UInt8.ofNat (1 + n' + 7)).toNat = 1 + n' + 7 := by
    rw [UInt8.toNat_ofNat']
    omega
  rcases streaming_cases hm h with ⟨p, h1, h2, h3, h4⟩ | ⟨p, h1, -, h3, h4, h5, h6, -, h7⟩
  · replace h4 := h4 n hn
    obtain ⟨rfl, a1, a2, a3, a4, a5⟩ := Gcm.new_ok h1
    refine C67_refuses (sd := AesGcmHkdf.decrypter lib p ad) (v := none) hb
      (Gcm.newSegmentDecrypter_some a1 a2 a3 a4 a5 (by omega)) (Gcm.sober ad) ?_ ?_ (.inr (.inl ⟨none, ⟨.invalidArgument, false⟩, ?_⟩))
    · simp only [AesGcmHkdf.decrypter, noncePrefixSize]; omega
    · simp only [DecryptingStream.firstSegmentSize, AesGcmHkdf.decrypter, noncePrefixSize]; omega
    · have hs : (AesGcmHkdf.decrypter lib p ad).headerSize.toNat = (n + 7) + 1 := by
        simp only [AesGcmHkdf.decrypter, noncePrefixSize]; omega
      rw [hs, List.take_succ_cons, Gcm.init_eq]
      unfold AesGcmHkdf.init
      simp only [List.headD_cons, h8]
      rw [if_pos (show ((1 + n' + 7 : Nat) : Int) ≠ 1 + p.derivedKeySize + noncePrefixSize by
        simp only [noncePrefixSize]; omega)]
      split <;> rfl
  · replace h7 := h7 n hn
    obtain ⟨rfl, hval⟩ := Ctr.new_ok h1
    refine C67_refuses (sd := AesCtrHmac.decrypter lib p ad) (v := none) hb
      (by simp only [AesCtrHmac.newSegmentDecrypter, hval, bind, Except.bind, pure, Except.pure]) (Ctr.sober ad) ?_ ?_
      (.inr (.inl ⟨none, ⟨.invalidArgument, false⟩, ?_⟩))
    · simp only [AesCtrHmac.decrypter, AesCtrHmac.headerSize, noncePrefixSize]; omega
    · simp only [DecryptingStream.firstSegmentSize, AesCtrHmac.decrypter, AesCtrHmac.headerSize, noncePrefixSize]; omega
    · have hs : (AesCtrHmac.decrypter lib p ad).headerSize.toNat = (n + 7) + 1 := by
        simp only [AesCtrHmac.decrypter, AesCtrHmac.headerSize, noncePrefixSize]; omega
      rw [hs, List.take_succ_cons, Ctr.init_eq]
      unfold AesCtrHmac.init
      dsimp only
      by_cases hlen : (((UInt8.ofNat (1 + n' + 7) :: C.take (n + 7)).length : Nat) : Int) = AesCtrHmac.headerSize p
      · rw [if_neg (by simpa using hlen), if_pos]
        · rfl
        · rw [List.headD_cons, h8]
          simp only [AesCtrHmac.headerSize, noncePrefixSize] at hlen
          omega
      · rw [if_pos hlen]
        rfl

/-- A ciphertext starts with the size of its header. -/
theorem streaming_header (hl : Spec.LawfulLibrary lib) {k : Key} (hm : k.data.typeUrl ∈ streamingTypes)
    {q : NonceBased Nat State} (h : StreamingKeyOf lib k q) {n : Nat} (hn : DerivedSize k.data n)
    {σd : Type} {snk : CSink σd} (hk : Honest snk) {seed : Seed} {s0 : σd} {buffer ad P : Bytes}
    {t t1 t2 : CcEncrypting Nat (σd × Bytes)}
    (ht : q.newRawEncryptingStream seed ⟨true, (s0, []), buffer⟩ ad = .ok t)
    (hw : Written (recordedSink snk) t P t1) {fuel : Nat}
    (hc : t1.close (recordedSink snk) fuel = some (t2, .ok ())) :
    n ≤ 32 ∧ ∃ C, t2.object.2 = UInt8.ofNat (1 + n + 7) :: C := by
  rcases streaming_cases hm h with ⟨p, h1, -, -, h4⟩ | ⟨p, h1, -, h3, -, -, -, -, h7⟩
  · replace h4 := h4 n hn
    obtain ⟨key, salt, np, e1, e2, -, full, last, cs, -, -, -, e3, -⟩ := C69_aes_gcm_hkdf hl h1 hk ht hw hc
    obtain ⟨-, -, -, -, a4, -⟩ := Gcm.new_ok h1
    refine ⟨by omega, salt ++ np ++ cs.flatten, e3.trans ?_⟩
    rw [e1, e2, h4, Int.toNat_natCast]
  · replace h7 := h7 n hn
    obtain ⟨key, hk', salt, np, e1, e2, -, full, last, cs, -, -, -, e3, -⟩ := C69_aes_ctr_hmac hl h1 hk ht hw hc
    refine ⟨by omega, salt ++ np ++ cs.flatten, e3.trans ?_⟩
    rw [e1, e2, h7, Int.toNat_natCast]

end Keys

section
variable {σ σd P C : Type} [DecidableEq C]
  {L : Library σ (Dest (σd × Bytes)) (CcEncrypting Nat (σd × Bytes)) (CcDecrypting State)
    (NonceBased Nat State) P C}
  {isInst isInst' : P → C → Bool} {r r' rb : Registry P C} {h h' : KeysetHandle} {p p' : P} {ops : List BuilderOp}
  {lib : SegmentLibrary} {text : Exc → Bool} {inBuffer : Bytes}

theorem streaming_registry (hcc : L.ccStreamingAead = ccStreamingAead lib) (hr : PackageRegistered L r .streamingAead)
    {kd : KeyData} (hu : kd.typeUrl ∈ streamingTypes) (hf : Fits kd) :
    ∃ cc, ccStreamingAead lib kd.typeUrl = some cc ∧ r.primitive kd (L.cls .rawStreamingAead) =
      reported (fun a => L.rawStreamingAead.inj (L.streamingCcToPy a)) (cc.getPrimitive kd) := by
  have hmem : ∀ u ∈ streamingTypes, (u, PrimClass.rawStreamingAead) ∈ keyTypes .streamingAead := by decide
  obtain ⟨m, hm, hcl, -, htm⟩ := hr.managers _ _ (hmem _ hu)
  cases htm with
  | rawStreamingAead found serves =>
    rw [hcc] at found
    exact ⟨_, found, registry_primitive hm hcl serves hf⟩

theorem streaming_key (hcc : L.ccStreamingAead = ccStreamingAead lib) (hr : PackageRegistered L r .streamingAead)
    (hpy : ∀ q, L.streamingCcToPy q = q.toRaw text inBuffer) {k : Key} (hu : k.data.typeUrl ∈ streamingTypes)
    (hf : Fits k.data) {o : P} (ho : r.primitive k.data (L.cls .rawStreamingAead) = .ok o) :
    ∃ q, StreamingKeyOf lib k q ∧ o = L.rawStreamingAead.inj (q.toRaw text inBuffer) := by
  obtain ⟨cc, hc, hp⟩ := streaming_registry hcc hr hu hf
  rw [hp, reported_inj_ok] at ho
  obtain ⟨q, hq, rfl⟩ := ho
  exact ⟨q, ⟨cc, hc, hq⟩, by rw [hpy]⟩

theorem streaming_key_unique {k : Key} {q q' : NonceBased Nat State} (h : StreamingKeyOf lib k q)
    (h' : StreamingKeyOf lib k q') : q' = q := by
  obtain ⟨cc, h1, h2⟩ := h
  obtain ⟨cc', h3, h4⟩ := h'
  rw [h1] at h3
  cases h3
  rw [h2] at h4
  cases h4
  rfl

theorem streaming_obtained (hr : PackageRegistered L r .streamingAead)
    (hp : h.primitive isInst r (L.cls .streamingAead) = .ok p) :
    ∃ kps, Obtained isInst (streamingAeadWrapper L.rawStreamingAead L.streamingAead (L.wrapperType .streamingAead)
      (L.cls .rawStreamingAead) (L.cls .streamingAead)) r h (L.cls .streamingAead) kps p := by
  obtain ⟨_, w, kps, h1, h2, _⟩ := primitive_ok_iff.1 hp
  obtain ⟨w', h3, h4⟩ := hr.wrappers .streamingAead (by decide)
  rw [h1] at h3
  cases h3
  cases h4
  exact ⟨kps, h1, hp, h2⟩

/-- C109, streaming AEAD.  If the primary key is neither disabled nor deleted, the rotated keyset decrypts what was
encrypted before.  A stream is written to and flushed in any way, and closed, which returned normally.  It is decrypted,
with the same associated data, with the rotated keyset, whose other enabled keys refuse the ciphertext (or decrypt it to
the same).  Then no call raised while it was written, and the decrypting stream is like a file with the content that was
written. -/
theorem C109_streaming (hl : Spec.LawfulLibrary lib) (hcc : L.ccStreamingAead = ccStreamingAead lib)
    (hb : inBuffer ≠ []) (hpy : ∀ q, L.streamingCcToPy q = q.toRaw text inBuffer)
    (hr : PackageRegistered L r .streamingAead) (hr' : PackageRegistered L r' .streamingAead)
    (H : Rotated rb h ops h') (hk : KeysOf streamingTypes h.keyset) (hk' : KeysOf streamingTypes h'.keyset)
    (hp : h.primitive isInst r (L.cls .streamingAead) = .ok p)
    (hp' : h'.primitive isInst r' (L.cls .streamingAead) = .ok p')
    {k : Key} (hm : k ∈ h.keyset.key) (hpk : IsPrimaryKey h.keyset k) (hs : ∀ op ∈ ops, Spares k.keyId op)
    -- encryption
    {snk : CSink σd} (hsnk : Honest snk) {seed : Seed} {s0 : σd} {outBuffer ad : Bytes}
    {e e1 e2 : CcEncrypting Nat (σd × Bytes)}
    (he : (L.streamingAead.view p).newEncryptingStream seed ⟨true, (s0, []), outBuffer⟩ ad = .ok e)
    {writes : List (WriteOp × Py Nat)} {waiting : Bytes}
    (hw : WriterHistory (CcEncrypting.RawWrite (recordedSink snk)) e writes e1 waiting)
    (hc : BufferedClose (CcEncrypting.RawWrite (recordedSink snk)) (CcEncrypting.RawClose (recordedSink snk))
      e1 waiting e2 (.ok ()))
    -- decryption
    {src : Source σ} {rest : σ → Bytes} (hsrc : Faithful src rest) (hst : Steady src) {s : σ}
    (hrest : rest s = e2.object.2)
    (hothers : ∀ k' ∈ h'.keyset.key, Enabled k' → k' ≠ k → ∀ q, StreamingKeyOf lib k' q →
      DecryptsTo (q.toRaw (σ := σd × Bytes) text inBuffer) ad (rest s) (writtenBytes writes) ∨
        RefusesContent (q.toRaw (σ := σd × Bytes) text inBuffer) ad (rest s))
    {readable : Bool}
    {w0 w : DecryptingStreamWrapper σ (Dest (σd × Bytes)) (CcEncrypting Nat (σd × Bytes)) (CcDecrypting State)}
    {reads : List (ReadOp × ReadResult)} {ahead : Bytes}
    (hnew : (L.streamingAead.view p').newDecryptingStream s readable ad = .ok w0)
    (hist : ReaderHistory (DecryptingStreamWrapper.RawRead src) w0 reads w ahead) :
    (∀ x ∈ writes, ∃ n, x.2 = .ok n) ∧ ∃ pos, ReadsLikeFile (writtenBytes writes) reads pos := by
  obtain ⟨kps, O⟩ := streaming_obtained hr hp
  obtain ⟨kps', O'⟩ := streaming_obtained hr' hp'
  obtain ⟨o, ho⟩ := isPrimary_of_key ((C20_validate_iff _).1 (primitive_ok_iff.1 hp).1) O.keys.1 hm hpk
  have hkey := hk k hm hpk.1
  obtain ⟨q, hq, rfl⟩ := streaming_key hcc hr hpy hkey.1 hkey.2 (O.keys.2 _ ho.mem)
  have hstay : k ∈ h'.keyset.key := C12_key_survives hs (rotated_iff_run H).1 hm hpk.1
  have hsame : ∀ o', r'.primitive k.data (L.cls .rawStreamingAead) = .ok o' →
      o' = L.rawStreamingAead.inj (q.toRaw text inBuffer) := by
    intro o' ho'
    obtain ⟨q', hq', rfl⟩ := streaming_key hcc hr' hpy hkey.1 hkey.2 ho'
    rw [streaming_key_unique hq hq']
  obtain ⟨o', hm', ho'⟩ := enabled_mem O'.keys hstay hpk.1
  cases hsame o' ho'
  refine C71_round_trip O O' (streaming_sound hl hkey.1 hq) hb (L.rawStreamingAead.view_inj _) ho hsnk he hw hc hsrc
    hst hrest ⟨_, hm', rfl⟩ ?_ hnew hist
  rintro ⟨k', o'⟩ hmem
  have hen := mem_enabled O'.keys hmem
  by_cases hkk : k' = k
  · subst hkk
    exact .inl (hsame o' (O'.keys.2 _ hmem))
  · right
    have hkey' := hk' k' hen.1 hen.2
    obtain ⟨q', hq', rfl⟩ := streaming_key hcc hr' hpy hkey'.1 hkey'.2 (O'.keys.2 _ hmem)
    rw [L.rawStreamingAead.view_inj]
    exact ⟨C71_plain_reads q' text inBuffer, hothers k' hen.1 hen.2 hkk q' hq'⟩

/-- C109, streaming AEAD.  The sizes of the derived keys tell keys apart: if those of the other enabled keys differ from
that of the old primary key (say, the keyset was rotated from 128-bit to 256-bit keys), the rotated keyset decrypts what
was encrypted before, whatever the keys are. -/
theorem C109_streaming_sizes (hl : Spec.LawfulLibrary lib) (hcc : L.ccStreamingAead = ccStreamingAead lib)
    (hb : inBuffer ≠ []) (hpy : ∀ q, L.streamingCcToPy q = q.toRaw text inBuffer)
    (hr : PackageRegistered L r .streamingAead) (hr' : PackageRegistered L r' .streamingAead)
    (H : Rotated rb h ops h') (hk : KeysOf streamingTypes h.keyset) (hk' : KeysOf streamingTypes h'.keyset)
    (hp : h.primitive isInst r (L.cls .streamingAead) = .ok p)
    (hp' : h'.primitive isInst r' (L.cls .streamingAead) = .ok p')
    {k : Key} (hm : k ∈ h.keyset.key) (hpk : IsPrimaryKey h.keyset k) (hs : ∀ op ∈ ops, Spares k.keyId op)
    {n : Nat} (hn : DerivedSize k.data n)
    (hothers : ∀ k' ∈ h'.keyset.key, Enabled k' → k' ≠ k → ∃ n', DerivedSize k'.data n' ∧ n' ≠ n)
    -- encryption
    {snk : CSink σd} (hsnk : Honest snk) {seed : Seed} {s0 : σd} {outBuffer ad : Bytes}
    {e e1 e2 : CcEncrypting Nat (σd × Bytes)}
    (he : (L.streamingAead.view p).newEncryptingStream seed ⟨true, (s0, []), outBuffer⟩ ad = .ok e)
    {writes : List (WriteOp × Py Nat)} {waiting : Bytes}
    (hw : WriterHistory (CcEncrypting.RawWrite (recordedSink snk)) e writes e1 waiting)
    (hc : BufferedClose (CcEncrypting.RawWrite (recordedSink snk)) (CcEncrypting.RawClose (recordedSink snk))
      e1 waiting e2 (.ok ()))
    -- decryption
    {src : Source σ} {rest : σ → Bytes} (hsrc : Faithful src rest) (hst : Steady src) {s : σ}
    (hrest : rest s = e2.object.2) {readable : Bool}
    {w0 w : DecryptingStreamWrapper σ (Dest (σd × Bytes)) (CcEncrypting Nat (σd × Bytes)) (CcDecrypting State)}
    {reads : List (ReadOp × ReadResult)} {ahead : Bytes}
    (hnew : (L.streamingAead.view p').newDecryptingStream s readable ad = .ok w0)
    (hist : ReaderHistory (DecryptingStreamWrapper.RawRead src) w0 reads w ahead) :
    (∀ x ∈ writes, ∃ n, x.2 = .ok n) ∧ ∃ pos, ReadsLikeFile (writtenBytes writes) reads pos := by
  refine C109_streaming hl hcc hb hpy hr hr' H hk hk' hp hp' hm hpk hs hsnk he hw hc hsrc hst hrest ?_ hnew hist
  obtain ⟨kps, O⟩ := streaming_obtained hr hp
  obtain ⟨o, ho⟩ := isPrimary_of_key ((C20_validate_iff _).1 (primitive_ok_iff.1 hp).1) O.keys.1 hm hpk
  have hkey := hk k hm hpk.1
  obtain ⟨q, hq, rfl⟩ := streaming_key hcc hr hpy hkey.1 hkey.2 (O.keys.2 _ ho.mem)
  rw [(C54_keyset O).1 k _ ho, L.rawStreamingAead.view_inj] at he
  obtain ⟨-, t1, fuel, hw1, hc1⟩ := C71_writer (new_not_closed he) hw hc
  obtain ⟨h32, C, hC⟩ := streaming_header hl hkey.1 hq hn hsnk he hw1 hc1
  intro k' hm' hen' hkk q' hq'
  obtain ⟨n', hn', hnn⟩ := hothers k' hm' hen' hkk
  right
  rw [hrest, hC]
  exact streaming_refuses (hk' k' hm' hen').1 hq' hn' hnn h32 hb

/-- C109, streaming AEAD.  Once a key has been disabled or deleted, a decrypting stream delivers only what the other
keys deliver: if these deliver nothing but certain messages, the stream is like a file whose content is one of them, until
`TinkError` is raised; whatever the source does. -/
theorem C109_streaming_revoked (hl : SoundLibrary lib) (hcc : L.ccStreamingAead = ccStreamingAead lib)
    (hpy : ∀ q, L.streamingCcToPy q = q.toRaw text inBuffer) (hr' : PackageRegistered L r' .streamingAead)
    {before after : List BuilderOp} {op : BuilderOp} (H : Rotated rb h (before ++ op :: after) h')
    (hk' : KeysOf streamingTypes h'.keyset) (hp' : h'.primitive isInst r' (L.cls .streamingAead) = .ok p')
    {id : UInt32} (h0 : id ≠ 0) (hone : AtMostOne id h.keyset) (hop : Revokes id op)
    (ha : ∀ op ∈ after, KeepsOut id op) {ad : Bytes} {msgs : Bytes → Prop}
    (hothers : ∀ k' ∈ h'.keyset.key, Enabled k' → k'.keyId ≠ id → ∀ q, StreamingKeyOf lib k' q →
      DeliversOneOf (q.toRaw (σ := σd × Bytes) text inBuffer) ad msgs)
    {src : Source σ} {s : σ} {readable : Bool}
    {w0 w : DecryptingStreamWrapper σ (Dest (σd × Bytes)) (CcEncrypting Nat (σd × Bytes)) (CcDecrypting State)}
    {reads : List (ReadOp × ReadResult)} {ahead : Bytes}
    (hnew : (L.streamingAead.view p').newDecryptingStream s readable ad = .ok w0)
    (hist : ReaderHistory (DecryptingStreamWrapper.RawRead src) w0 reads w ahead) : ReadsOneOf msgs reads := by
  obtain ⟨kps', O'⟩ := streaming_obtained hr' hp'
  have hkeys : ∀ x ∈ kps', ∃ q, StreamingKeyOf lib x.1 q ∧
      L.rawStreamingAead.view x.2 = q.toRaw text inBuffer ∧ Opens lib q := by
    rintro ⟨k', o'⟩ hmem
    have hen := mem_enabled O'.keys hmem
    have hkey' := hk' k' hen.1 hen.2
    obtain ⟨q', hq', rfl⟩ := streaming_key hcc hr' hpy hkey'.1 hkey'.2 (O'.keys.2 _ hmem)
    exact ⟨q', hq', L.rawStreamingAead.view_inj _, streaming_opens hl hkey'.1 hq'⟩
  refine C71_authentic O' (fun x hx => ?_) (fun x hx => ?_) hnew hist
  · obtain ⟨q, -, e, -⟩ := hkeys x hx
    rw [e]
    exact C71_plain_reads q text inBuffer
  · obtain ⟨q, hq, e, hop'⟩ := hkeys x hx
    rw [e]
    have hen := mem_enabled O'.keys hx
    exact ⟨hop'.1 inBuffer ad, hothers x.1 hen.1 hen.2 (C109_gone H h0 hone hop ha x.1 hen.1 hen.2) q hq⟩

theorem streaming_new_key (hl : Spec.LawfulLibrary lib) (hcc : L.ccStreamingAead = ccStreamingAead lib)
    (hr : PackageRegistered L r .streamingAead) (seed : Seed) (t tv : KeyTemplate) (kd : KeyData)
    (ht : .ok t ∈ templates .streamingAead) (hv : VariantOf t tv) (hn : r.newKeyData seed tv = .ok kd) :
    kd.typeUrl ∈ streamingTypes ∧ Fits kd ∧ GoodStreaming kd := by
  obtain ⟨cc, kd', q, found, new, hu, hfit, made, -, -⟩ := C70_templates hl ht seed
  obtain ⟨t', e, hft, hk, k1, k2, -⟩ := C64_templates _ _ ht
  cases e
  have hc : CcMakes L t.typeUrl seed t.value kd' .rawStreamingAead _ :=
    .rawStreamingAead (by rw [hcc]; exact found) new made
  have hf := variant_fits ht hft hv
  have : r.newKeyData seed tv = .ok kd' := by
    rcases hv with rfl | rfl | rfl
    · exact (registry_makes hr hk k1 k2 hf hc hfit hu).1
    · exact (registry_makes (t := KeysetBuilder.rawTemplate t) hr hk k1 k2 hf hc hfit hu).1
    · exact (registry_makes (t := KeysetBuilder.legacyTemplate t) hr hk k1 k2 hf hc hfit hu).1
  rw [hn] at this
  cases this
  have hty : t.typeUrl ∈ streamingTypes := by
    rcases streaming_templates ht with ⟨e, -⟩ | ⟨e, -⟩ <;> rw [e] <;> decide
  exact ⟨by rw [hu]; exact hty, hfit, (streaming_good found hu hty).1 ⟨q, made⟩⟩

/-- C109, streaming AEAD.  A rotated keyset works: it gives a primitive, decrypting streams can be made for every readable
source if a key is enabled, and encrypting streams for every writable destination if the primary key is (a handle may lack
one only if all its keys claim to be public). -/
theorem C109_streaming_works (hi : LawfulConfig L isInst) (hl : Spec.LawfulLibrary lib)
    (hcc : L.ccStreamingAead = ccStreamingAead lib) (hpy : ∀ q, L.streamingCcToPy q = q.toRaw text inBuffer)
    (hr : PackageRegistered L r .streamingAead) (H : Rotated r h ops h') (hops : FromPredefined .streamingAead ops)
    {ids : List UInt32} (hids : NeverEnables ids ops) (h0 : UsableExcept ids streamingTypes GoodStreaming h.keyset) :
    UsableExcept ids streamingTypes GoodStreaming h'.keyset ∧
      ∃ p, h'.primitive isInst r (L.cls .streamingAead) = .ok p ∧
        (∀ k ∈ h'.keyset.key, Enabled k →
          ∀ s ad, ∃ w, (L.streamingAead.view p).newDecryptingStream s true ad = .ok w) ∧
        (∀ k ∈ h'.keyset.key, IsPrimaryKey h'.keyset k → (∀ h ikm salt info n, StreamHash h → n ≤ 64 → lib.hkdf h ikm salt info n ≠ none) →
          ∀ s0 outBuffer seed ad, ∃ e,
            (L.streamingAead.view p).newEncryptingStream seed ⟨true, s0, outBuffer⟩ ad = .ok e) := by
  have h1 := rotated_usable_except H hops hids h0 (streaming_new_key hl hcc hr)
  have hv := (rotated_iff_run H).2
  have hk := except_keysOf h1
  refine ⟨h1, ?_⟩
  obtain ⟨w, hw, hw2⟩ := hr.wrappers .streamingAead (by decide)
  cases hw2
  have hiff := handle_primitive_iff (isInst := isInst) (h := h') hw
    (ok := fun k => GoodStreaming k.data) (good := fun _ => True)
    (fun k hm he => by
      obtain ⟨cc, hc, hp⟩ := streaming_registry hcc hr (hk k hm he).1 (hk k hm he).2
      show (∃ o, r.primitive k.data (L.cls .rawStreamingAead) = .ok o) ↔ _
      rw [← streaming_good hc rfl (hk k hm he).1, hp]
      simp only [reported_inj_ok]
      exact ⟨fun ⟨_, a, ha, _⟩ => ⟨a, ha⟩, fun ⟨a, ha⟩ => ⟨_, a, ha, rfl⟩⟩)
    (fun k hm he o ho => by
      obtain ⟨q, -, rfl⟩ := streaming_key hcc hr hpy (hk k hm he).1 (hk k hm he).2 ho
      exact hi.rawStreamingAead _)
    (fun kps id => ⟨fun _ _ _ => trivial, fun _ => ⟨_, rfl⟩⟩)
  obtain ⟨p, hp⟩ := hiff.2 ⟨hv, fun k hm he =>
    ⟨(usable_enabled h1 hm he).2.2.1, trivial, (usable_enabled h1 hm he).2.2.2⟩⟩
  obtain ⟨kps, O⟩ := streaming_obtained hr hp
  have hkeys : ∀ x ∈ kps, ∃ q, L.rawStreamingAead.view x.2 = q.toRaw text inBuffer ∧ Opens lib q := by
    rintro ⟨k', o'⟩ hmem
    have hen := mem_enabled O.keys hmem
    have hkey' := hk k' hen.1 hen.2
    obtain ⟨q', hq', rfl⟩ := streaming_key hcc hr hpy hkey'.1 hkey'.2 (O.keys.2 _ hmem)
    exact ⟨q', L.rawStreamingAead.view_inj _, streaming_opens hl.toSoundLibrary hkey'.1 hq'⟩
  refine ⟨p, hp, fun k hm hen s ad => ?_, fun k hm hpk hh s0 outBuffer seed ad => ?_⟩
  · obtain ⟨o, ho, -⟩ := enabled_mem O.keys hm hen
    rw [(C54_keyset O).2]
    cases hg : groupOrder kps with
    | nil => exact absurd ((mem_groupOrder O.prop.2).2 ho) (by rw [hg]; simp)
    | cons x xs =>
      obtain ⟨q, e, hq⟩ := hkeys x ((mem_groupOrder O.prop.2).1 (by rw [hg]; simp))
      obtain ⟨y, hy⟩ := hq.1 inBuffer ad
      have hy' : (L.rawStreamingAead.view x.2).newRawDecryptingStream ad = .ok y := by rw [e]; exact hy
      unfold DecryptingStreamWrapper.new
      simp only [Rewindable.new, if_true, bind, Except.bind, List.map_cons, hy', pure, Except.pure]
      exact ⟨_, rfl⟩
  · obtain ⟨o, ho⟩ := isPrimary_of_key hv O.keys.1 hm hpk
    obtain ⟨q, e, hq⟩ := hkeys _ ho.mem
    obtain ⟨y, hy⟩ := hq.2 hh _ s0 seed outBuffer ad
    refine ⟨y, ((C54_keyset O).1 _ _ ho _ _ _).trans ?_⟩
    rw [e]
    exact hy

end
end Tink.Props
