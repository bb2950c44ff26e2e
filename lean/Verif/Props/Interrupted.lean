import Verif.Stream.InterruptedLemmas
import Verif.Props.Buffered

/-!
# C83: an encrypting stream that is not closed, or that is closed early

What reached the destination of an encrypting stream by the time the program, or the destination, stopped.
The object to which the stream writes records what it took (`t.object.2`), and the record only grows: so the
prefixes `D` of the record after a call are what was there at any moment before, also in the midst of a call.
-/

namespace Tink.Props
open Spec Segment Io

section General
variable {κ ν σd : Type} {snk : CSink σd} {p : NonceBased κ ν} {seed : Seed} {s0 : σd} {outBuffer ad : Bytes}
  {t t1 t2 : CcEncrypting κ (σd × Bytes)} {ops : List (WriteOp × Py Nat)} {waiting : Bytes}

/-- C83.  Until `close()` is called, whatever calls are made and whatever they raise, no segment is encrypted
as the last one: the destination has at most the header and encryptions, as segments that are not the last
one, of some first bytes of what was written. -/
theorem C83_before_close
    (hp : ∀ seed ad se k, p.newSegmentEncrypter seed ad = .ok (se, k) → 0 ≤ se.ciphertextOffset)
    (hk : Honest snk) (ht : p.newRawEncryptingStream seed ⟨true, (s0, []), outBuffer⟩ ad = .ok t)
    (hw : WriterHistory (CcEncrypting.RawWrite (recordedSink snk)) t ops t1 waiting) :
    ∃ se k bs cs, p.newSegmentEncrypter seed ad = .ok (se, k) ∧
      EncryptedSoFar se k bs cs t1.raw.adapter.encrypter ∧ bs.flatten <+: writtenBytes ops ∧
      t1.object.2 <+: se.header ++ cs.flatten := by
  obtain ⟨se, k, h1, h2, h3, h4⟩ := new_soFar hp ht
  obtain ⟨bs, cs, a1, a2, D, rfl, a3⟩ := soFar_partly hk (history_soFar hk h2 h3 h4 hw)
  exact ⟨se, k, bs, cs, h1, a1, a2, a3⟩

/-- C83.  When `close()` was called, and even if it raised: either this is still so, or the destination has
some first bytes of the encryption of all that was written. -/
theorem C83_close
    (hp : ∀ seed ad se k, p.newSegmentEncrypter seed ad = .ok (se, k) → 0 ≤ se.ciphertextOffset)
    (hk : Honest snk) (ht : p.newRawEncryptingStream seed ⟨true, (s0, []), outBuffer⟩ ad = .ok t)
    (hw : WriterHistory (CcEncrypting.RawWrite (recordedSink snk)) t ops t1 waiting) {result : Py Unit}
    (hc : BufferedClose (CcEncrypting.RawWrite (recordedSink snk)) (CcEncrypting.RawClose (recordedSink snk))
      t1 waiting t2 result) :
    ∃ se k, p.newSegmentEncrypter seed ad = .ok (se, k) ∧
      ((∃ bs cs, EncryptedSoFar se k bs cs t2.raw.adapter.encrypter ∧ bs.flatten <+: writtenBytes ops ∧
          t2.object.2 <+: se.header ++ cs.flatten) ∨
        ∃ C, EncryptionOf se k (writtenBytes ops) C ∧ t2.object.2 <+: C) := by
  obtain ⟨se, k, h1, h2, h3, h4⟩ := new_soFar hp ht
  refine ⟨se, k, h1, ?_⟩
  rcases bufferedClose_closing hk h2 h3 (history_soFar hk h2 h3 h4 hw) hc with h | h
  · obtain ⟨bs, cs, a1, a2, D, rfl, a3⟩ := h
    exact .inl ⟨bs, cs, a1, a2, a3⟩
  · exact .inr h

/-- C83.  What the program does when a `with` block is left by an exception `e`: unless closing fails, the
destination has a valid encryption of what was written until then, and the exception goes on.  A recipient
cannot tell it from a message that was meant to be no longer. -/
theorem C83_with_exception (hp : SoundStreaming p) (hk : Honest snk)
    (ht : p.newRawEncryptingStream seed ⟨true, (s0, []), outBuffer⟩ ad = .ok t) {e : Exc} {result : Py Unit}
    (h : WithBlock (CcEncrypting.RawWrite (recordedSink snk)) (CcEncrypting.RawClose (recordedSink snk))
      t ops (.error e) t2 result) {text : Exc → Bool} {inBuffer : Bytes} (hb : inBuffer ≠ []) :
    (result = .error e ∧
      DecryptsTo (p.toRaw (σ := σd × Bytes) text inBuffer) ad t2.object.2 (writtenBytes ops)) ∨
    ∃ t1 waiting e', WriterHistory (CcEncrypting.RawWrite (recordedSink snk)) t ops t1 waiting ∧
      BufferedClose (CcEncrypting.RawWrite (recordedSink snk)) (CcEncrypting.RawClose (recordedSink snk))
        t1 waiting t2 (.error e') ∧ result = .error e' := by
  have hnc : t.raw.closed = false :=
    new_not_closed (p := p) (text := text) (buffer := inBuffer) (dest := ⟨true, (s0, []), outBuffer⟩) ht
  cases h with
  | closed _ hw hc =>
    obtain ⟨-, t3, fuel, a1, a2⟩ := C71_writer hnc hw hc
    exact .inl ⟨rfl, C67_round_trip hp hk ht a1 a2 hb⟩
  | failed _ hw hc => exact .inr ⟨_, _, _, hw, hc, rfl⟩

end General

/-! ## What a recipient makes of it -/

section Recipient
variable {σd : Type} {lib : SegmentLibrary} {np : NonceBased Nat State} {snk : CSink σd} {seed : Seed} {s0 : σd}
  {outBuffer ad : Bytes} {t t1 t2 : CcEncrypting Nat (σd × Bytes)} {ops : List (WriteOp × Py Nat)}
  {waiting : Bytes} {text : Exc → Bool} {inBuffer : Bytes}

/-- C83, AES-GCM-HKDF.  Until `close()` is called, what the destination has is never taken for a message.
With ideal cryptography a recipient reads first bytes of what was written, and then gets `TinkError`, and
never the end of the data. -/
theorem C83_aes_gcm_hkdf (hl : SoundLibrary lib) {p : AesGcmHkdf.Params} (h : AesGcmHkdf.new lib p = .ok np)
    (hk : Honest snk) (ht : np.newRawEncryptingStream seed ⟨true, (s0, []), outBuffer⟩ ad = .ok t)
    (hw : WriterHistory (CcEncrypting.RawWrite (recordedSink snk)) t ops t1 waiting) (hb : inBuffer ≠ []) :
    ∃ se bs cs, np.newSegmentEncrypter seed ad = .ok (se, 0) ∧
      EncryptedSoFar se 0 bs cs t1.raw.adapter.encrypter ∧ bs.flatten <+: writtenBytes ops ∧
      t1.object.2 <+: se.header ++ cs.flatten ∧
      ∀ msgs, GcmIdealSoFar lib p ad msgs seed bs → ∀ D, D <+: t1.object.2 →
        NeverComplete (np.toRaw (σ := σd) text inBuffer) ad D bs.flatten := by
  have hoff := Gcm.offset hl h
  obtain ⟨se, k, bs, cs, h1, h2, h3, h4⟩ := C83_before_close hoff hk ht hw
  obtain rfl := Gcm.start_zero hl h h1
  exact ⟨se, bs, cs, h1, h2, h3, h4, fun msgs hi D hD =>
    own_neverComplete hb (Gcm.accepts_own hl h ad) h1 hi (hD.trans h4)⟩

/-- C83, AES-CTR-HMAC. -/
theorem C83_aes_ctr_hmac (hl : SoundLibrary lib) {p : AesCtrHmac.Params} (h : AesCtrHmac.new lib p = .ok np)
    (hk : Honest snk) (ht : np.newRawEncryptingStream seed ⟨true, (s0, []), outBuffer⟩ ad = .ok t)
    (hw : WriterHistory (CcEncrypting.RawWrite (recordedSink snk)) t ops t1 waiting) (hb : inBuffer ≠ []) :
    ∃ se bs cs, np.newSegmentEncrypter seed ad = .ok (se, 0) ∧
      EncryptedSoFar se 0 bs cs t1.raw.adapter.encrypter ∧ bs.flatten <+: writtenBytes ops ∧
      t1.object.2 <+: se.header ++ cs.flatten ∧
      ∀ msgs, CtrHmacIdealSoFar lib p ad msgs seed bs → ∀ D, D <+: t1.object.2 →
        NeverComplete (np.toRaw (σ := σd) text inBuffer) ad D bs.flatten := by
  have hoff := Ctr.offset h
  obtain ⟨se, k, bs, cs, h1, h2, h3, h4⟩ := C83_before_close hoff hk ht hw
  obtain rfl := Ctr.start_zero h h1
  exact ⟨se, bs, cs, h1, h2, h3, h4, fun msgs hi D hD =>
    own_neverComplete hb (Ctr.accepts_own hl h ad) h1 hi (hD.trans h4)⟩

/-- C83, AES-GCM-HKDF.  When `close()` was called, even if it raised, what the destination has is never taken
for less than all that was written. -/
theorem C83_aes_gcm_hkdf_close (hl : SoundLibrary lib) {p : AesGcmHkdf.Params}
    (h : AesGcmHkdf.new lib p = .ok np) (hk : Honest snk)
    (ht : np.newRawEncryptingStream seed ⟨true, (s0, []), outBuffer⟩ ad = .ok t)
    (hw : WriterHistory (CcEncrypting.RawWrite (recordedSink snk)) t ops t1 waiting) {result : Py Unit}
    (hc : BufferedClose (CcEncrypting.RawWrite (recordedSink snk)) (CcEncrypting.RawClose (recordedSink snk))
      t1 waiting t2 result) (hb : inBuffer ≠ []) :
    ∃ se, np.newSegmentEncrypter seed ad = .ok (se, 0) ∧
      ((∃ bs cs, EncryptedSoFar se 0 bs cs t2.raw.adapter.encrypter ∧ bs.flatten <+: writtenBytes ops ∧
          t2.object.2 <+: se.header ++ cs.flatten ∧
        ∀ msgs, GcmIdealSoFar lib p ad msgs seed bs → ∀ D, D <+: t2.object.2 →
          NeverComplete (np.toRaw (σ := σd) text inBuffer) ad D bs.flatten) ∨
      ∃ full last cs k1 k2 c, Emitted se 0 full cs k1 ∧ se.encryptSegment k1 last true = (k2, .ok c) ∧
        writtenBytes ops = full.flatten ++ last ∧ t2.object.2 <+: se.header ++ (cs ++ [c]).flatten ∧
        ∀ msgs, GcmIdeal lib p ad (andOneMore msgs seed ad full [last]) → ∀ D, D <+: t2.object.2 →
          NotCutShort (np.toRaw (σ := σd) text inBuffer) ad D (writtenBytes ops)) := by
  have hoff := Gcm.offset hl h
  obtain ⟨se, k, h1, h2⟩ := C83_close hoff hk ht hw hc
  obtain rfl := Gcm.start_zero hl h h1
  refine ⟨se, h1, ?_⟩
  rcases h2 with ⟨bs, cs, h2, h3, h4⟩ | ⟨C, h2, h3⟩
  · exact .inl ⟨bs, cs, h2, h3, h4, fun msgs hi D hD =>
      own_neverComplete hb (Gcm.accepts_own hl h ad) h1 hi (hD.trans h4)⟩
  · obtain ⟨full, last, cs, k1, k2, c, hdiv, hem, he, rfl⟩ := h2
    refine .inr ⟨full, last, cs, k1, k2, c, hem, he, hdiv.content, h3, fun msgs hi D hD => ?_⟩
    have := own_notCutShort (σd := σd) (text := text) (msgs := msgs) hb (Gcm.accepts_own hl h ad) h1
      (segs := full ++ [last]) (by simp)
      (by unfold andOneMore at hi ⊢; rw [List.append_nil]; exact hi) (hD.trans h3)
    rw [hdiv.content]
    simpa using this

/-- C83, AES-CTR-HMAC. -/
theorem C83_aes_ctr_hmac_close (hl : SoundLibrary lib) {p : AesCtrHmac.Params}
    (h : AesCtrHmac.new lib p = .ok np) (hk : Honest snk)
    (ht : np.newRawEncryptingStream seed ⟨true, (s0, []), outBuffer⟩ ad = .ok t)
    (hw : WriterHistory (CcEncrypting.RawWrite (recordedSink snk)) t ops t1 waiting) {result : Py Unit}
    (hc : BufferedClose (CcEncrypting.RawWrite (recordedSink snk)) (CcEncrypting.RawClose (recordedSink snk))
      t1 waiting t2 result) (hb : inBuffer ≠ []) :
    ∃ se, np.newSegmentEncrypter seed ad = .ok (se, 0) ∧
      ((∃ bs cs, EncryptedSoFar se 0 bs cs t2.raw.adapter.encrypter ∧ bs.flatten <+: writtenBytes ops ∧
          t2.object.2 <+: se.header ++ cs.flatten ∧
        ∀ msgs, CtrHmacIdealSoFar lib p ad msgs seed bs → ∀ D, D <+: t2.object.2 →
          NeverComplete (np.toRaw (σ := σd) text inBuffer) ad D bs.flatten) ∨
      ∃ full last cs k1 k2 c, Emitted se 0 full cs k1 ∧ se.encryptSegment k1 last true = (k2, .ok c) ∧
        writtenBytes ops = full.flatten ++ last ∧ t2.object.2 <+: se.header ++ (cs ++ [c]).flatten ∧
        ∀ msgs, CtrHmacIdeal lib p ad (andOneMore msgs seed ad full [last]) → ∀ D, D <+: t2.object.2 →
          NotCutShort (np.toRaw (σ := σd) text inBuffer) ad D (writtenBytes ops)) := by
  have hoff := Ctr.offset h
  obtain ⟨se, k, h1, h2⟩ := C83_close hoff hk ht hw hc
  obtain rfl := Ctr.start_zero h h1
  refine ⟨se, h1, ?_⟩
  rcases h2 with ⟨bs, cs, h2, h3, h4⟩ | ⟨C, h2, h3⟩
  · exact .inl ⟨bs, cs, h2, h3, h4, fun msgs hi D hD =>
      own_neverComplete hb (Ctr.accepts_own hl h ad) h1 hi (hD.trans h4)⟩
  · obtain ⟨full, last, cs, k1, k2, c, hdiv, hem, he, rfl⟩ := h2
    refine .inr ⟨full, last, cs, k1, k2, c, hem, he, hdiv.content, h3, fun msgs hi D hD => ?_⟩
    have := own_notCutShort (σd := σd) (text := text) (msgs := msgs) hb (Ctr.accepts_own hl h ad) h1
      (segs := full ++ [last]) (by simp)
      (by unfold andOneMore at hi ⊢; rw [List.append_nil]; exact hi) (hD.trans h3)
    rw [hdiv.content]
    simpa using this

/-! ## Whatever becomes of the ciphertext afterwards -/

/-- C83, AES-GCM-HKDF.  While a message is being encrypted, of which there are the segments `bs` and not yet
the last one, a recipient gets nothing, from any source, but the finished messages and perhaps the start of
that one, of which the end is never reported. -/
theorem C83_any_source_aes_gcm_hkdf (hl : SoundLibrary lib) {p : AesGcmHkdf.Params}
    (h : AesGcmHkdf.new lib p = .ok np) {msgs : StreamMessage → Prop} (hne : ∀ m, msgs m → m.segments ≠ [])
    {bs : List Bytes} (hi : GcmIdealSoFar lib p ad msgs seed bs) :
    DeliversUnfinished (np.toRaw (σ := σd) text inBuffer) ad
      (fun P => ∃ m, msgs m ∧ m.ad = ad ∧ P = m.segments.flatten) bs.flatten := by
  intro σ src s t ht calls t' s' hses
  apply fromOneOf_unfinished
  intro z
  have := C68_aes_gcm_hkdf (σd := σd) (text := text) (buffer := inBuffer) hl h
    (msgs := andOneMore msgs seed ad bs [[z]])
    (by rintro m (hm | rfl) <;> first | exact hne m hm | simp) (hi [z]) σ src s t ht calls t' s' hses
  refine ⟨this.1, this.2.imp id ?_⟩
  rintro ⟨P, ⟨m, hm | rfl, had, rfl⟩, hP⟩
  · exact ⟨_, .inl ⟨m, hm, had, rfl⟩, hP⟩
  · exact ⟨_, .inr (by simp), hP⟩

/-- C83, AES-CTR-HMAC. -/
theorem C83_any_source_aes_ctr_hmac (hl : SoundLibrary lib) {p : AesCtrHmac.Params}
    (h : AesCtrHmac.new lib p = .ok np) {msgs : StreamMessage → Prop} (hne : ∀ m, msgs m → m.segments ≠ [])
    {bs : List Bytes} (hi : CtrHmacIdealSoFar lib p ad msgs seed bs) :
    DeliversUnfinished (np.toRaw (σ := σd) text inBuffer) ad
      (fun P => ∃ m, msgs m ∧ m.ad = ad ∧ P = m.segments.flatten) bs.flatten := by
  intro σ src s t ht calls t' s' hses
  apply fromOneOf_unfinished
  intro z
  have := C68_aes_ctr_hmac (σd := σd) (text := text) (buffer := inBuffer) hl h
    (msgs := andOneMore msgs seed ad bs [[z]])
    (by rintro m (hm | rfl) <;> first | exact hne m hm | simp) (hi [z]) σ src s t ht calls t' s' hses
  refine ⟨this.1, this.2.imp id ?_⟩
  rintro ⟨P, ⟨m, hm | rfl, had, rfl⟩, hP⟩
  · exact ⟨_, .inl ⟨m, hm, had, rfl⟩, hP⟩
  · exact ⟨_, .inr (by simp), hP⟩

end Recipient

/-- C83, keysets.  If the enabled keys deliver nothing but finished messages and perhaps the start of an
unfinished one, the decrypting stream of the keyset is like a file whose content is one of the finished
messages, or like a file that starts with the unfinished one and goes on, until `TinkError` is raised. -/
theorem C83_keyset {P C σ δ ε τ : Type} [DecidableEq C] {isInst : P → C → Bool} {t : Nat} {ci c : C}
    {V : View P (RawStreamingAead δ ε τ)} {W : View P (StreamingAead σ δ ε τ)}
    {r : Registry P C} {h : KeysetHandle} {kps : List (Key × P)} {prim : P}
    (H : Obtained isInst (streamingAeadWrapper V W t ci c) r h c kps prim)
    (hplain : ∀ q ∈ kps, PlainReads (V.view q.2).stream)
    {src : Source σ} {s : σ} {readable : Bool} {ad unfinished : Bytes} {msgs : Bytes → Prop}
    (hq : ∀ q ∈ kps, (∃ t, (V.view q.2).newRawDecryptingStream ad = .ok t) ∧
      DeliversUnfinished (V.view q.2) ad msgs unfinished)
    {w0 w : DecryptingStreamWrapper σ δ ε τ} {ops : List (ReadOp × ReadResult)} {b : Bytes}
    (hnew : (W.view prim).newDecryptingStream s readable ad = .ok w0)
    (hist : ReaderHistory (DecryptingStreamWrapper.RawRead src) w0 ops w b) :
    ReadsOneOf msgs ops ∨ ReadsUnfinished unfinished ops :=
  readsOneOf_unfinished fun z => C71_authentic H hplain
    (fun q hqm => ⟨(hq q hqm).1, deliversOneOf_of_unfinished (hq q hqm).2 z⟩) hnew hist

end Tink.Props
