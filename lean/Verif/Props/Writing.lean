import Verif.Stream.WritingSuccess
import Verif.Stream.WritingLimits
import Verif.Props.Termination

/-!
# C80: writing an encrypting stream comes to an end, and succeeds
-/

namespace Tink.Props
open Spec Io Segment Config

variable {κ ν σ σd : Type}

theorem recorded_progresses {snk : CSink σd} {patience : σd → Nat} (h : Progresses snk patience) :
    Progresses (recordedSink snk) (fun s => patience s.1) := by
  intro s d n hd hw hn
  simp only [recordedSink] at hw ⊢
  have := h s.1 d n hd
  cases hx : snk.write s.1 d with
  | mk s' r =>
    rw [hx] at hw this
    cases r with
    | error e => cases hw
    | ok m =>
      cases hw
      exact this rfl hn

theorem recorded_reliable {snk : CSink σd} (h : Reliable snk) : Reliable (recordedSink snk) := by
  refine ⟨fun s d x hw => ?_, fun s x hc => h.close s.1 x hc⟩
  simp only [recordedSink] at hw
  have := h.write s.1 d
  cases hx : snk.write s.1 d with
  | mk s' r =>
    rw [hx] at hw this
    cases r with
    | error e => exact this e rfl
    | ok m => cases hw

/-- A new stream. -/
theorem new_writer {p : NonceBased κ ν} (hp : SoundStreaming p) {seed : Seed} {s0 : σd} {buffer ad : Bytes}
    {t : CcEncrypting κ σd} (ht : p.newRawEncryptingStream seed ⟨true, s0, buffer⟩ ad = .ok t) :
    ∃ se k, p.newSegmentEncrypter seed ad = .ok (se, k) ∧ 0 < EncryptingStream.firstSegmentSize se ∧
      0 ≤ se.ciphertextOffset ∧ WorkingWriter se k t [] ∧ (buffer ≠ [] → Serving t) := by
  unfold NonceBased.newRawEncryptingStream NonceBased.newEncryptingStream at ht
  simp only [if_true] at ht
  cases hq : p.newSegmentEncrypter seed ad with
  | error e => rw [hq] at ht; cases ht
  | ok q =>
    obtain ⟨se, k⟩ := q
    rw [hq] at ht
    cases hn : EncryptingStream.new se k (PythonOutputStream.new s0 buffer) with
    | error e => simp only [bind, Except.bind, hn] at ht; cases ht
    | ok e =>
      simp only [bind, Except.bind, hn] at ht
      cases ht
      obtain ⟨hoff, -⟩ := hp _ _ _ _ hq
      obtain ⟨hf, hinv⟩ := Encrypting.new_inv (inv := Working)
        (show Working (PythonOutputStream.new s0 buffer) [] from rfl) hn
      refine ⟨se, k, rfl, hf, hoff, ⟨rfl, rfl, _, _, hinv⟩, fun hb _ => ?_⟩
      unfold EncryptingStream.new at hn
      rw [if_neg (by omega)] at hn
      cases hn
      refine ⟨⟨hb, Nat.zero_le _⟩, ?_, ?_⟩
      · intro h0
        have := congrArg List.length h0
        simp only [List.length_replicate, List.length_nil] at this
        omega
      · show 0 < se.plaintextSegmentSize
        unfold EncryptingStream.firstSegmentSize at hf
        omega

section
variable {snk : CSink σd} {patience : σd → Nat}

theorem rawWrite_serving (hp : Progresses snk patience) {t t' : CcEncrypting κ σd} {b : Bytes} {r : Py Nat}
    (hg : Serving t) (hmax : b.length < 2 ^ 31) (h : CcEncrypting.RawWrite snk t b t' r) : Serving t' := by
  obtain ⟨t2, r2, h1, h2, -⟩ := rawWrite_ends hp hg hmax
  rw [(rawWrite_unique h h1).1]
  exact h2

theorem flushed_serving (hp : Progresses snk patience) {t t' : CcEncrypting κ σd} {b rest : Bytes}
    (hg : Serving t) (h : Flushed (CcEncrypting.RawWrite snk) t b t' rest) : Serving t' := by
  induction h with
  | start => exact hg
  | more c _ _ _ hmax hw _ ih => exact rawWrite_serving hp ih hmax hw

theorem history_serving (hp : Progresses snk patience) {t0 t : CcEncrypting κ σd}
    {ops : List (WriteOp × Py Nat)} {b : Bytes} (hg : Serving t0)
    (h : WriterHistory (CcEncrypting.RawWrite snk) t0 ops t b) : Serving t := by
  induction h with
  | start => exact hg
  | call _ hc ih =>
    cases hc with
    | write b hfl => exact flushed_serving hp ih hfl
    | flush hfl => exact flushed_serving hp ih hfl
    | writeRaised b c buffer' hfl hpre hmax hw =>
      exact rawWrite_serving hp (flushed_serving hp ih hfl) hmax hw
    | flushRaised c buffer' hfl hpre hmax hw =>
      exact rawWrite_serving hp (flushed_serving hp ih hfl) hmax hw

/-- All that is waiting is written, or the raw stream raises. -/
theorem flush_all (hp : Progresses snk patience) {t : CcEncrypting κ σd} {b : Bytes} (hg : Serving t) :
    ∀ (m : Nat) (t' : CcEncrypting κ σd) (rest : Bytes), rest.length ≤ m →
      Flushed (CcEncrypting.RawWrite snk) t b t' rest →
      (∃ t1, Flushed (CcEncrypting.RawWrite snk) t b t1 []) ∨
      ∃ t1 rest1 c t2 e, Flushed (CcEncrypting.RawWrite snk) t b t1 rest1 ∧ c <+: rest1 ∧ c.length < 2 ^ 31 ∧
        CcEncrypting.RawWrite snk t1 c t2 (.error e) := by
  intro m
  induction m with
  | zero =>
    intro t' rest hm h
    rw [List.length_eq_zero_iff.1 (Nat.le_zero.1 hm)] at h
    exact .inl ⟨t', h⟩
  | succ m ih =>
    intro t' rest hm h
    by_cases hr : rest = []
    · rw [hr] at h; exact .inl ⟨t', h⟩
    · have hpos : 0 < rest.length := List.length_pos_iff.2 hr
      have hlen : (rest.take (2 ^ 31 - 1)).length = min (2 ^ 31 - 1) rest.length := List.length_take
      have hmax : (rest.take (2 ^ 31 - 1)).length < 2 ^ 31 := by omega
      obtain ⟨t2, r, h1, -, h3⟩ := rawWrite_ends hp (flushed_serving hp hg h) hmax
      cases r with
      | error e => exact .inr ⟨t', rest, _, t2, e, h, List.take_prefix _ _, hmax, h1⟩
      | ok n =>
        have hn := h3 n rfl
        have hne : rest.take (2 ^ 31 - 1) ≠ [] := by
          intro h0
          rw [h0, List.length_nil] at hlen
          omega
        exact ih t2 (rest.drop n) (by rw [List.length_drop]; omega)
          (.more _ h (List.take_prefix _ _) hne hmax h1 (by omega))

theorem every_write (hp : Progresses snk patience) {t : CcEncrypting κ σd} (hg : Serving t) (b : Bytes) :
    EveryWriteReturns (CcEncrypting.RawWrite snk) (CcEncrypting.RawClose snk) t b := by
  refine ⟨?_, ?_, ?_⟩
  · intro data t' rest h c hc hmax
    obtain ⟨t2, r, h1, -, h3⟩ := rawWrite_ends hp (flushed_serving hp hg h) hmax
    refine ⟨t2, r, h1, fun n hn => ?_⟩
    have := h3 n hn
    have : 0 < c.length := List.length_pos_iff.2 hc
    omega
  · rcases flush_all hp hg b.length t b (Nat.le_refl _) .start with ⟨t1, h⟩ | ⟨t1, rest1, c, t2, e, h1, h2, h3, h4⟩
    · exact ⟨_, _, _, .flush h⟩
    · exact ⟨_, _, [], .flushRaised c _ h1 h2 h3 h4⟩
  · rcases flush_all hp hg b.length t b (Nat.le_refl _) .start with ⟨t1, h⟩ | ⟨t1, rest1, c, t2, e, h1, h2, h3, h4⟩
    · obtain ⟨t3, r, h5, -⟩ := rawClose_ends hp (flushed_serving hp hg h)
      exact ⟨_, _, .closed h h5⟩
    · obtain ⟨t3, r, h5, -⟩ := rawClose_ends hp (rawWrite_serving hp (flushed_serving hp hg h1) h3 h4)
      exact ⟨_, _, .failed c e h1 h2 h3 h4 h5⟩

end

section Keyset
variable {P C : Type} [DecidableEq C] {isInst : P → C → Bool} {t : Nat} {ci c : C} {text : Exc → Bool}
  {V : View P (RawStreamingAead (Dest σd) (CcEncrypting κ σd) (CcDecrypting ν))}
  {W : View P (StreamingAead σ (Dest σd) (CcEncrypting κ σd) (CcDecrypting ν))}
  {r : Registry P C} {h : KeysetHandle} {kps : List (Key × P)} {prim : P}

/-- C80.  Writing does not hang.  A stream was made with a keyset, whose primary key is `o`, for a destination
that may take few bytes at a time, or none for a while, and may raise.  After any calls of `write` and `flush`,
some of which may have raised, the next call returns, be it `write`, `flush` or `close`. -/
theorem C80_writer (H : Obtained isInst (streamingAeadWrapper V W t ci c) r h c kps prim)
    {p : NonceBased κ ν} (hp : SoundStreaming p) {inBuffer : Bytes} {o : P}
    (ho : V.view o = p.toRaw text inBuffer) {k : Key} (hprim : IsPrimary h.keyset kps (k, o))
    {snk : CSink σd} {patience : σd → Nat} (hg : Progresses snk patience)
    {seed : Seed} {s0 : σd} {outBuffer ad : Bytes} (hb : outBuffer ≠ []) {e e1 : CcEncrypting κ σd}
    (he : (W.view prim).newEncryptingStream seed ⟨true, s0, outBuffer⟩ ad = .ok e)
    {writes : List (WriteOp × Py Nat)} {waiting : Bytes}
    (hw : WriterHistory (CcEncrypting.RawWrite snk) e writes e1 waiting) :
    EveryWriteReturns (CcEncrypting.RawWrite snk) (CcEncrypting.RawClose snk) e1 waiting := by
  rw [(C54_keyset H).1 k o hprim, ho] at he
  obtain ⟨se, k', -, -, -, -, h6⟩ := new_writer hp he
  exact every_write hg (history_serving hg (h6 hb) hw) waiting

theorem close_succeeds {p : NonceBased κ ν} (hp : SoundStreaming p) {limit : Nat} (hL : EncryptsUpTo p limit)
    {snk : CSink σd} (hr : Reliable snk) {seed : Seed} {s0 : σd} {outBuffer ad : Bytes} {e e1 : CcEncrypting κ σd}
    (he : p.newRawEncryptingStream seed ⟨true, s0, outBuffer⟩ ad = .ok e)
    {writes : List (WriteOp × Py Nat)} {waiting : Bytes}
    (hw : WriterHistory (CcEncrypting.RawWrite snk) e writes e1 waiting)
    (hlen : (writtenBytes writes).length ≤ limit) :
    (∀ x ∈ writes, ∃ n, x.2 = .ok n) ∧
    ∀ e2 x, BufferedClose (CcEncrypting.RawWrite snk) (CcEncrypting.RawClose snk) e1 waiting e2 x → x = .ok () := by
  obtain ⟨se, k', h1, h2, h3, h4, -⟩ := new_writer hp he
  have hL' := hL _ _ _ _ h1
  obtain ⟨h5, P, h6, h7⟩ := history_working hr h2 h3 hL' h4 hw hlen
  refine ⟨h5, ?_⟩
  intro e2 x hx
  cases hx with
  | closed hfl hc =>
    obtain ⟨P', j1, j2⟩ := flushed_working hr h2 h3 hL' h6 (by rw [h7]; exact hlen) hfl
    rw [List.append_nil] at j2
    exact rawClose_working hr h2 h3 hL' j1 (by rw [j2, h7]; exact hlen) hc
  | failed c e' hfl hpre hmax hwr hc =>
    exact (flushed_raises hr h2 h3 hL' h6 (by rw [h7]; exact hlen) hfl hpre hmax hwr).elim

/-- C80.  Writing succeeds: if the destination never raises, and no more was written than the primary key can
encrypt, then no call has raised, `close()` returns, and it returns normally. -/
theorem C80_succeeds (H : Obtained isInst (streamingAeadWrapper V W t ci c) r h c kps prim)
    {p : NonceBased κ ν} (hp : SoundStreaming p) {limit : Nat} (hL : EncryptsUpTo p limit) {inBuffer : Bytes}
    {o : P} (ho : V.view o = p.toRaw text inBuffer) {k : Key} (hprim : IsPrimary h.keyset kps (k, o))
    {snk : CSink σd} {patience : σd → Nat} (hg : Progresses snk patience) (hr : Reliable snk)
    {seed : Seed} {s0 : σd} {outBuffer ad : Bytes} (hb : outBuffer ≠ []) {e e1 : CcEncrypting κ σd}
    (he : (W.view prim).newEncryptingStream seed ⟨true, s0, outBuffer⟩ ad = .ok e)
    {writes : List (WriteOp × Py Nat)} {waiting : Bytes}
    (hw : WriterHistory (CcEncrypting.RawWrite snk) e writes e1 waiting)
    (hlen : (writtenBytes writes).length ≤ limit) :
    (∀ x ∈ writes, ∃ n, x.2 = .ok n) ∧
    (∃ e2, BufferedClose (CcEncrypting.RawWrite snk) (CcEncrypting.RawClose snk) e1 waiting e2 (.ok ())) ∧
    ∀ e2 x, BufferedClose (CcEncrypting.RawWrite snk) (CcEncrypting.RawClose snk) e1 waiting e2 x → x = .ok () := by
  have hret := C80_writer H hp ho hprim hg hb he hw
  rw [(C54_keyset H).1 k o hprim, ho] at he
  obtain ⟨h5, key⟩ := close_succeeds hp hL hr he hw hlen
  obtain ⟨-, -, x, e2, hx⟩ := hret
  have := key e2 x hx
  subst this
  exact ⟨h5, ⟨e2, hx⟩, key⟩

end Keyset

/-- C80.  How much an AES-GCM-HKDF key can encrypt with one stream: 2³² segments, and not more. -/
theorem C80_gcm_limit {lib : SegmentLibrary} (hl : SoundLibrary lib) (hw : WorkingLibrary lib)
    {p : AesGcmHkdf.Params} {np : NonceBased Nat State} (h : AesGcmHkdf.new lib p = .ok np)
    (hsize : p.ciphertextSegmentSize < 2 ^ 31) {seed : Seed} {ad : Bytes} {se : SegmentEncrypter Nat} {k : Nat}
    (he : np.newSegmentEncrypter seed ad = .ok (se, k)) :
    Encrypts se k (segmentsLimit se) ∧ ∀ P C, EncryptionOf se k P C → P.length ≤ segmentsLimit se :=
  ⟨Gcm.encrypts hl hw h hsize he, fun _ _ hx => Gcm.limit hl h he hx⟩

/-- C80.  The same for AES-CTR-HMAC keys. -/
theorem C80_ctr_limit {lib : SegmentLibrary} (hl : SoundLibrary lib) (hw : WorkingLibrary lib)
    {p : AesCtrHmac.Params} {np : NonceBased Nat State} (h : AesCtrHmac.new lib p = .ok np)
    (hsize : p.ciphertextSegmentSize < 2 ^ 31) {seed : Seed} {ad : Bytes} {se : SegmentEncrypter Nat} {k : Nat}
    (he : np.newSegmentEncrypter seed ad = .ok (se, k)) :
    Encrypts se k (segmentsLimit se) ∧ ∀ P C, EncryptionOf se k P C → P.length ≤ segmentsLimit se :=
  ⟨Ctr.encrypts hl hw h hsize he, fun _ _ hx => Ctr.limit h he hx⟩

theorem encrypts_mono {se : SegmentEncrypter κ} {k : κ} {m n : Nat} (h : Encrypts se k n) (hmn : m ≤ n) :
    Encrypts se k m := fun P full last hd hP => h P full last hd (Nat.le_trans hP hmn)

/-- The segments of the predefined templates have at least 4096 bytes. -/
theorem streaming_template_sizes {t : KeyTemplate} (ht : .ok t ∈ templates .streamingAead) :
    (∀ f, AesGcmHkdfStreamingKeyFormat.fromString t.value = .ok f →
      t.typeUrl = ps! "type.googleapis.com/google.crypto.tink.AesGcmHkdfStreamingKey" →
      4096 ≤ f.getParams.ciphertextSegmentSize.toNat) ∧
    ∀ f, AesCtrHmacStreamingKeyFormat.fromString t.value = .ok f →
      t.typeUrl = ps! "type.googleapis.com/google.crypto.tink.AesCtrHmacStreamingKey" →
      4096 ≤ f.getParams.ciphertextSegmentSize.toNat := by
  have hcheck : ∀ x ∈ templates .streamingAead, (match x with
      | .error _ => false
      | .ok t =>
        (decide (t.typeUrl ≠ ps! "type.googleapis.com/google.crypto.tink.AesGcmHkdfStreamingKey") ||
          match AesGcmHkdfStreamingKeyFormat.fromString t.value with
          | .error _ => true
          | .ok f => decide (4096 ≤ f.getParams.ciphertextSegmentSize.toNat)) &&
        (decide (t.typeUrl ≠ ps! "type.googleapis.com/google.crypto.tink.AesCtrHmacStreamingKey") ||
          match AesCtrHmacStreamingKeyFormat.fromString t.value with
          | .error _ => true
          | .ok f => decide (4096 ≤ f.getParams.ciphertextSegmentSize.toNat))) = true := by decide +kernel
  have := hcheck _ ht
  simp only [Bool.or_eq_true, Bool.and_eq_true, decide_eq_true_eq] at this
  refine ⟨fun f hf hu => ?_, fun f hf hu => ?_⟩
  · rcases this.1 with h | h
    · exact absurd hu h
    · rw [hf] at h; exact of_decide_eq_true h
  · rcases this.2 with h | h
    · exact absurd hu h
    · rw [hf] at h; exact of_decide_eq_true h

/-- C80.  With a key from a predefined template, 2⁴³ bytes (8 TiB) can be encrypted with one stream. -/
theorem C80_templates {lib : SegmentLibrary} (hl : SoundLibrary lib) (hw : WorkingLibrary lib) {t : KeyTemplate}
    (ht : .ok t ∈ templates .streamingAead) {seed : Seed} {cc : Cpp.KeyManager (NonceBased Nat State)}
    {kd : KeyData} {p : NonceBased Nat State} (hcc : ccStreamingAead lib t.typeUrl = some cc)
    (hkd : cc.newKeyData seed t.value = .ok kd) (hp : cc.getPrimitive kd = .ok p) :
    EncryptsUpTo p (2 ^ 43) := by
  intro seed' ad se k he
  rcases streaming_templates ht with ⟨hu, f, hf, hv, h1, h2⟩ | ⟨hu, f, hf, hv, h2⟩
  · rw [hu, ccStreamingAead_gcm] at hcc
    cases hcc
    obtain ⟨-, p', hp', hnew, -⟩ := C70_gcm_usable hl hf hkd h1 h2
    cases hp.symm.trans hp'
    have hmin := (streaming_template_sizes ht).1 f hf hu
    refine encrypts_mono (Gcm.encrypts hl hw hnew (by simp only [gcmKey]; omega) he) ?_
    obtain ⟨rfl, -⟩ := Gcm.new_ok hnew
    obtain ⟨key, hk, rfl, rfl, -⟩ := Gcm.newSegmentEncrypter_ok hl he
    have : 4080 ≤ (AesGcmHkdf.encrypter lib (gcmKey lib seed f) key
        (lib.random seed' (gcmKey lib seed f).derivedKeySize.toNat) (lib.random' seed' 7)).plaintextSegmentSize.toNat := by
      simp only [AesGcmHkdf.encrypter, gcmKey, AesGcmHkdf.tagSize]; omega
    have := Nat.mul_le_mul_left (2 ^ 32 - 1) this
    unfold segmentsLimit
    omega
  · rw [hu, ccStreamingAead_ctr] at hcc
    cases hcc
    obtain ⟨-, p', hp', hnew, -⟩ := C70_ctr_usable hl hf hkd h2
    cases hp.symm.trans hp'
    have hmin := (streaming_template_sizes ht).2 f hf hu
    have hok := (ctr_format_iff.1 hv).1
    have hint := hok.int
    refine encrypts_mono (Ctr.encrypts hl hw hnew (by simp only [ctrKey]; omega) he) ?_
    obtain ⟨rfl, -⟩ := Ctr.new_ok hnew
    obtain ⟨key, hk, -, -, rfl, rfl⟩ := Ctr.newSegmentEncrypter_ok he
    have htag : f.getParams.getHmacParams.tagSize.toNat ≤ 64 := by
      have := hok.tagMax
      split at this
      · omega
      · split at this <;> omega
    have : 4032 ≤ (AesCtrHmac.encrypter lib (ctrKey lib seed f) key hk
        (lib.random seed' (ctrKey lib seed f).keySize.toNat) (lib.random' seed' 7)).plaintextSegmentSize.toNat := by
      simp only [AesCtrHmac.encrypter, ctrKey]; omega
    have := Nat.mul_le_mul_left (2 ^ 32 - 1) this
    unfold segmentsLimit
    omega

theorem stuck_log {snk : CSink σd} (h : ∀ s d, (snk.write s d).2 = .ok 0) (s : σd × Bytes) (d : Bytes) :
    ((recordedSink snk).write s d).1.2 = s.2 := by
  have := h s.1 d
  simp only [recordedSink]
  cases hx : snk.write s.1 d with
  | mk s' r =>
    rw [hx] at this
    cases this
    simp

theorem stuck_flush {snk : CSink σd} (h : ∀ s d, (snk.write s d).2 = .ok 0) {q : PythonOutputStream (σd × Bytes)} :
    ∀ (f : Nat) {s : σd × Bytes} {w : Nat} {s' r}, q.flush (recordedSink snk) f s w = some (s', r) → s'.2 = s.2 := by
  intro f
  induction f with
  | zero => intro s w s' r hx; cases hx
  | succ f ih =>
    intro s w s' r hx
    unfold PythonOutputStream.flush at hx
    split at hx
    · have hl := stuck_log h s ((q.buffer.drop w).take (q.countInBuffer - w))
      cases hw : (recordedSink snk).write s ((q.buffer.drop w).take (q.countInBuffer - w)) with
      | mk s1 x =>
        rw [hw] at hx hl
        cases x with
        | error y => cases hx; exact hl
        | ok n => exact (ih hx).trans hl
    · cases hx; rfl

theorem stuck_lawful {snk : CSink σd} (h : ∀ s d, (snk.write s d).2 = .ok 0) (fuel : Nat) :
    LawfulOut (PythonOutputStream.stream (recordedSink snk) fuel) (fun q _ => q.adapter.2 = []) (fun _ _ => True)
      (fun q _ => q.adapter.2 = []) where
  put := by
    intro q D q' k d hq hx hd
    have hx : q.next (recordedSink snk) = (q', .ok k) := Option.some.inj hx
    have h1 : q'.adapter.2 = [] := by
      rw [show q' = (q.next (recordedSink snk)).1 by rw [hx]]
      unfold PythonOutputStream.next
      split
      · exact hq
      · split
        · exact hq
        · split
          · exact hq
          · have hl := stuck_log h q.adapter q.buffer
            cases hw : (recordedSink snk).write q.adapter q.buffer with
            | mk s1 x =>
              rw [hw] at hl
              cases x with
              | error y => exact hl.trans hq
              | ok n => exact hl.trans hq
    have h2 : ∀ i, ((q'.store d).backUp i).adapter = q'.adapter := by
      intro i
      unfold PythonOutputStream.backUp
      split <;> rfl
    unfold OutputStreamAdapter.put
    dsimp only [PythonOutputStream.stream]
    split
    · rw [h2]; exact h1
    · exact h1
  failed := fun _ _ _ _ _ _ => trivial
  close := by
    intro q D q' hq hx
    have hx : q.close (recordedSink snk) fuel = some (q', .ok ()) := hx
    unfold PythonOutputStream.close at hx
    split at hx
    · cases hx
    · cases hf : q.flush (recordedSink snk) fuel q.adapter 0 with
      | none => rw [hf] at hx; cases hx
      | some y =>
        obtain ⟨s1, x⟩ := y
        rw [hf] at hx
        have hl := stuck_flush h _ hf
        cases x with
        | error y => cases hx
        | ok n =>
          simp only [recordedSink] at hx
          cases hc : (snk.close s1.1).2 with
          | error y => rw [hc] at hx; cases hx
          | ok n => rw [hc] at hx; cases hx; exact hl.trans hq

theorem _root_.Tink.Spec.LawfulOut.and {ο : Type} {st : COutputStream ο} {inv bad done inv' bad' done' : ο → Bytes → Prop}
    (h : LawfulOut st inv bad done) (h' : LawfulOut st inv' bad' done') :
    LawfulOut st (fun s P => inv s P ∧ inv' s P) (fun s P => bad s P ∧ bad' s P)
      (fun s P => done s P ∧ done' s P) where
  put s P s' k d hi hx hd := ⟨h.put s P s' k d hi.1 hx hd, h'.put s P s' k d hi.2 hx hd⟩
  failed s P s' e hi hx := ⟨h.failed s P s' e hi.1 hx, h'.failed s P s' e hi.2 hx⟩
  close s P s' hi hx := ⟨h.close s P s' hi.1 hx, h'.close s P s' hi.2 hx⟩

theorem written_lawful {p : NonceBased κ ν} (hp : SoundStreaming p) {snk : CSink σd}
    {inv bad done : PythonOutputStream σd → Bytes → Prop}
    (hl : ∀ fuel, LawfulOut (PythonOutputStream.stream snk fuel) inv bad done)
    {seed : Seed} {s0 : σd} {buffer ad P : Bytes} (h0 : inv (PythonOutputStream.new s0 buffer) [])
    {t t1 t2 : CcEncrypting κ σd} (ht : p.newRawEncryptingStream seed ⟨true, s0, buffer⟩ ad = .ok t)
    (hw : Written snk t P t1) {fuel : Nat} (hc : t1.close snk fuel = some (t2, .ok ())) :
    ∃ se k C, p.newSegmentEncrypter seed ad = .ok (se, k) ∧ EncryptionOf se k P C ∧
      done t2.raw.adapter.dest C := by
  unfold NonceBased.newRawEncryptingStream NonceBased.newEncryptingStream at ht
  simp only [if_true] at ht
  cases hq : p.newSegmentEncrypter seed ad with
  | error e => rw [hq] at ht; cases ht
  | ok q =>
    obtain ⟨se, k⟩ := q
    rw [hq] at ht
    cases hn : EncryptingStream.new se k (PythonOutputStream.new s0 buffer) with
    | error e => simp only [bind, Except.bind, hn] at ht; cases ht
    | ok e =>
      simp only [bind, Except.bind, hn] at ht
      cases ht
      obtain ⟨hoff, -⟩ := hp _ _ _ _ hq
      obtain ⟨hf, hinv⟩ := Encrypting.new_inv
        (inv := inv) h0 hn
      refine ⟨se, k, ?_⟩
      have hlaw := fun fuel => C67_encrypting_stream (hl fuel) (se := se) k hf hoff fuel
      have key : t1.encrypter = se ∧ t1.raw.closed = false ∧ ∃ bs cs, Encrypting.EncInv se k inv bs cs t1.raw.adapter P := by
        clear hc
        induction hw with
        | start => exact ⟨rfl, rfl, _, _, hinv⟩
        | @write P t1 b t2 n fuel _ hmax hwr ih =>
          obtain ⟨i1, i2, i3⟩ := ih
          unfold CcEncrypting.write CcEncrypting.stream at hwr
          rw [i1] at hwr
          cases hx : t1.raw.write (EncryptingStream.stream se
              (PythonOutputStream.stream snk fuel) fuel) fuel (.bytesLike b) with
          | none => rw [hx] at hwr; cases hwr
          | some q =>
            obtain ⟨r, x⟩ := q
            rw [hx] at hwr
            simp only [Option.map_some, Option.some.injEq, Prod.mk.injEq] at hwr
            obtain ⟨rfl, rfl⟩ := hwr
            obtain ⟨a1, a2⟩ := C56_raw_write (hlaw fuel) i3 i2 hmax hx
            obtain ⟨rfl, a3⟩ := a2
            refine ⟨rfl, a1, ?_⟩
            rw [List.take_length]
            exact a3
      obtain ⟨i1, i2, i3⟩ := key
      unfold CcEncrypting.close CcEncrypting.stream at hc
      rw [i1] at hc
      cases hx : t1.raw.close (EncryptingStream.stream se
          (PythonOutputStream.stream snk fuel) fuel) with
      | none => rw [hx] at hc; cases hc
      | some q =>
        obtain ⟨r, x⟩ := q
        rw [hx] at hc
        simp only [Option.map_some, Option.some.injEq, Prod.mk.injEq] at hc
        obtain ⟨rfl, rfl⟩ := hc
        rcases C56_raw_close (hlaw fuel) i3 i2 hx with ⟨-, -, C, a1, a2⟩ | ⟨a1, -⟩
        · exact ⟨C, rfl, a1, a2⟩
        · cases a1

/-- C80 needs a destination that goes on: if it never accepts a byte, and never raises, `close()` does not
return, not even if nothing was written.  (For a non-blocking file `write` returns `None` when it is full, and
this is passed on as 0; the code then tries again, without waiting.) -/
theorem C80_stuck_destination {P C : Type} [DecidableEq C] {isInst : P → C → Bool} {t : Nat} {ci c : C}
    {text : Exc → Bool}
    {V : View P (RawStreamingAead (Dest (σd × Bytes)) (CcEncrypting κ (σd × Bytes)) (CcDecrypting ν))}
    {W : View P (StreamingAead σ (Dest (σd × Bytes)) (CcEncrypting κ (σd × Bytes)) (CcDecrypting ν))}
    {r : Registry P C} {h : KeysetHandle} {kps : List (Key × P)} {prim : P}
    (H : Obtained isInst (streamingAeadWrapper V W t ci c) r h c kps prim)
    {p : NonceBased κ ν} (hp : SoundStreaming p) {limit : Nat} (hL : EncryptsUpTo p limit) {inBuffer : Bytes} {o : P}
    (ho : V.view o = p.toRaw text inBuffer) {k : Key} (hprim : IsPrimary h.keyset kps (k, o))
    {snk : CSink σd} (hz : ∀ s d, (snk.write s d).2 = .ok 0) (hr : Reliable snk)
    {seed : Seed} {s0 : σd} {outBuffer ad : Bytes} {e e1 : CcEncrypting κ (σd × Bytes)}
    (he : (W.view prim).newEncryptingStream seed ⟨true, (s0, []), outBuffer⟩ ad = .ok e)
    {writes : List (WriteOp × Py Nat)} {waiting : Bytes}
    (hw : WriterHistory (CcEncrypting.RawWrite (recordedSink snk)) e writes e1 waiting)
    (hlen : (writtenBytes writes).length ≤ limit) :
    ¬ ∃ e2 x, BufferedClose (CcEncrypting.RawWrite (recordedSink snk))
      (CcEncrypting.RawClose (recordedSink snk)) e1 waiting e2 x := by
  rintro ⟨e2, x, hx⟩
  rw [(C54_keyset H).1 k o hprim, ho] at he
  have := (close_succeeds hp hL (recorded_reliable hr) he hw hlen).2 e2 x hx
  subst this
  have hhon : Honest snk := by
    intro s d n hn
    rw [hz] at hn
    cases hn
    exact ⟨Int.le_refl _, by omega⟩
  obtain ⟨-, t1, fuel, hw1, hc1⟩ := C71_writer (new_not_closed he) hw hx
  have hl := fun fuel => (C56_lawful hhon fuel).and (stuck_lawful hz fuel)
  obtain ⟨se, k', ct, h1, ⟨full, last, cs, k1, k2, c', -, -, -, h2⟩, h3, h4⟩ :=
    written_lawful hp hl ⟨⟨fun _ => ⟨0, open_new s0 outBuffer⟩, rfl⟩, rfl⟩ he hw1 hc1
  obtain ⟨-, sd, v, -, hm⟩ := hp _ _ _ _ h1
  exact hm.header (List.append_eq_nil_iff.1 (h2.symm.trans (h3.symm.trans h4))).1

/-- C80, with C71 and C79.  What is written with one keyset is read with another one: the destination never
raises, no more is written than the primary key `o` can encrypt, `o` is enabled in the second keyset, and the
other enabled keys of that refuse the ciphertext (or decrypt it to the same).  Then no call raises or hangs
until the encrypting stream is closed; and `read()` on the decrypting stream returns, and returns what was
written. -/
theorem C80_round_trip {P C : Type} [DecidableEq C] {isInst : P → C → Bool} {t : Nat} {ci c : C}
    {text : Exc → Bool}
    {V : View P (RawStreamingAead (Dest (σd × Bytes)) (CcEncrypting κ (σd × Bytes)) (CcDecrypting ν))}
    {W : View P (StreamingAead σ (Dest (σd × Bytes)) (CcEncrypting κ (σd × Bytes)) (CcDecrypting ν))}
    {r1 r2 : Registry P C} {h1 h2 : KeysetHandle} {kps1 kps2 : List (Key × P)} {prim1 prim2 : P}
    (H1 : Obtained isInst (streamingAeadWrapper V W t ci c) r1 h1 c kps1 prim1)
    (H2 : Obtained isInst (streamingAeadWrapper V W t ci c) r2 h2 c kps2 prim2)
    {p : NonceBased κ ν} (hp : SoundStreaming p) {limit : Nat} (hL : EncryptsUpTo p limit)
    {inBuffer : Bytes} (hb : inBuffer ≠ []) {o : P}
    (ho : V.view o = p.toRaw text inBuffer) {k : Key} (hprim : IsPrimary h1.keyset kps1 (k, o))
    -- encryption
    {snk : CSink σd} (hk : Honest snk) {patience : σd → Nat} (hg : Progresses snk patience) (hr : Reliable snk)
    {seed : Seed} {s0 : σd} {outBuffer ad : Bytes} (hob : outBuffer ≠ []) {e e1 : CcEncrypting κ (σd × Bytes)}
    (he : (W.view prim1).newEncryptingStream seed ⟨true, (s0, []), outBuffer⟩ ad = .ok e)
    {writes : List (WriteOp × Py Nat)} {waiting : Bytes}
    (hw : WriterHistory (CcEncrypting.RawWrite (recordedSink snk)) e writes e1 waiting)
    (hlen : (writtenBytes writes).length ≤ limit) :
    (∀ x ∈ writes, ∃ n, x.2 = .ok n) ∧
    EveryWriteReturns (CcEncrypting.RawWrite (recordedSink snk)) (CcEncrypting.RawClose (recordedSink snk))
      e1 waiting ∧
    (∃ e2 x, BufferedClose (CcEncrypting.RawWrite (recordedSink snk))
      (CcEncrypting.RawClose (recordedSink snk)) e1 waiting e2 x) ∧
    ∀ e2 x, BufferedClose (CcEncrypting.RawWrite (recordedSink snk))
      (CcEncrypting.RawClose (recordedSink snk)) e1 waiting e2 x → x = .ok () ∧
      -- decryption
      ∀ (src : Source σ) (rest : σ → Bytes) (left : σ → Nat) (s : σ) (readable : Bool)
        (w0 : DecryptingStreamWrapper σ (Dest (σd × Bytes)) (CcEncrypting κ (σd × Bytes)) (CcDecrypting ν)),
        Faithful src rest → Steady src → Exhaustible src left → rest s = e2.object.2 →
        (∃ q ∈ kps2, q.2 = o) →
        (∀ q ∈ kps2, q.2 = o ∨ PlainReads (V.view q.2).stream ∧ NeverHangs (V.view q.2) ad ∧
          (DecryptsTo (V.view q.2) ad (rest s) (writtenBytes writes) ∨ RefusesContent (V.view q.2) ad (rest s))) →
        (W.view prim2).newDecryptingStream s readable ad = .ok w0 →
        (∃ w b, BufferedRead (DecryptingStreamWrapper.RawRead src) w0 [] .readAll
          (.data (writtenBytes writes)) w b) ∧
        ∀ x w b, BufferedRead (DecryptingStreamWrapper.RawRead src) w0 [] .readAll x w b →
          x = .data (writtenBytes writes) := by
  have hg' := recorded_progresses hg
  obtain ⟨a1, ⟨e2, a2⟩, a3⟩ := C80_succeeds H1 hp hL ho hprim hg' (recorded_reliable hr) hob he hw hlen
  refine ⟨a1, C80_writer H1 hp ho hprim hg' hob he hw, ⟨e2, _, a2⟩, ?_⟩
  intro e2 x hx
  have := a3 e2 x hx
  subst this
  refine ⟨rfl, ?_⟩
  intro src rest left s readable w0 hsrc hst hex hs hmem hothers hnew
  have he' := he
  rw [(C54_keyset H1).1 k o hprim, ho] at he'
  obtain ⟨-, t1, fuel, hw1, hc1⟩ := C71_writer (new_not_closed he') hw hx
  have hdec : DecryptsTo (V.view o) ad (rest s) (writtenBytes writes) := by
    rw [ho, hs]
    exact C67_round_trip hp hk he' hw1 hc1 hb
  have hplain : ∀ q ∈ kps2, PlainReads (V.view q.2).stream := by
    intro q hq
    rcases hothers q hq with h | h
    · rw [h, ho]; exact C71_plain_reads p text inBuffer
    · exact h.1
  have hlive : ∀ q ∈ kps2, NeverHangs (V.view q.2) ad := by
    intro q hq
    rcases hothers q hq with h | h
    · rw [h, ho]; exact C79_key p text hb ad
    · exact h.2.1
  have hp' : ∃ q ∈ kps2, DecryptsTo (V.view q.2) ad (rest s) (writtenBytes writes) := by
    obtain ⟨q, hq, hqo⟩ := hmem
    exact ⟨q, hq, by rw [hqo]; exact hdec⟩
  have hq' : ∀ q ∈ kps2, DecryptsTo (V.view q.2) ad (rest s) (writtenBytes writes) ∨
      RefusesContent (V.view q.2) ad (rest s) := by
    intro q hq
    rcases hothers q hq with h | h
    · rw [h]; exact .inl hdec
    · exact h.2.2
  refine ⟨C79_read_all H2 hplain hsrc hst hex hlive hp' hq' hnew, ?_⟩
  intro x w b hx
  obtain ⟨pos, g1, g2⟩ := C79_like_file H2 hplain hsrc hst hex hlive hp' hq' hnew .start
  obtain ⟨d, rfl, g3⟩ := (g2 .readAll).2 _ _ _ hx
  have h0 := readsLikeFile_pos g1 .start
  subst h0
  have g3 : d = (writtenBytes writes).drop 0 := g3
  rw [g3]
  rfl

/-- C80, from registration on, for a new keyset from a predefined template, with a library and a destination that
do not fail.  An encrypting stream can be made.  Up to 8 TiB can be written to it, in any calls: none of them
raises, and none hangs.  `close()` returns normally.  A decrypting stream can be made, for any source with
what was written to the destination, and `read()` returns what was written. -/
theorem C80_new_keyset {P C : Type} [DecidableEq C]
    {L : Library σ (Dest (σd × Bytes)) (CcEncrypting Nat (σd × Bytes)) (CcDecrypting State)
      (NonceBased Nat State) P C}
    {isInst : P → C → Bool} {r : Registry P C} {t : KeyTemplate}
    (hl : LawfulConfig L isInst) (hr : PackageRegistered L r .streamingAead)
    (ht : .ok t ∈ templates .streamingAead) {lib : SegmentLibrary} (hlib : Spec.LawfulLibrary lib)
    (hwork : WorkingLibrary lib)
    (hcc : L.ccStreamingAead = ccStreamingAead lib) {text : Exc → Bool} {inBuffer : Bytes}
    (hb : inBuffer ≠ []) (hpy : ∀ p, L.streamingCcToPy p = p.toRaw text inBuffer)
    (seed : Seed) (d : UInt32) (draws : List UInt32) :
    ∃ h p, KeysetHandle.generateNew r seed (d :: draws) t = some (.ok h) ∧
      h.primitive isInst r (L.cls .streamingAead) = .ok p ∧
      ∀ (snk : CSink σd) (patience : σd → Nat) (seed : Seed) (s0 : σd) (outBuffer ad : Bytes),
        Honest snk → Progresses snk patience → Reliable snk → outBuffer ≠ [] →
        ∃ e, (L.streamingAead.view p).newEncryptingStream seed ⟨true, (s0, []), outBuffer⟩ ad = .ok e ∧
        ∀ (e1 : CcEncrypting Nat (σd × Bytes)) (writes : List (WriteOp × Py Nat)) (waiting : Bytes),
        WriterHistory (CcEncrypting.RawWrite (recordedSink snk)) e writes e1 waiting →
        (writtenBytes writes).length ≤ 2 ^ 43 →
        (∀ x ∈ writes, ∃ n, x.2 = .ok n) ∧
        EveryWriteReturns (CcEncrypting.RawWrite (recordedSink snk)) (CcEncrypting.RawClose (recordedSink snk))
          e1 waiting ∧
        (∃ e2 x, BufferedClose (CcEncrypting.RawWrite (recordedSink snk))
          (CcEncrypting.RawClose (recordedSink snk)) e1 waiting e2 x) ∧
        ∀ e2 x, BufferedClose (CcEncrypting.RawWrite (recordedSink snk))
          (CcEncrypting.RawClose (recordedSink snk)) e1 waiting e2 x → x = .ok () ∧
          ∀ (src : Source σ) (rest : σ → Bytes) (left : σ → Nat) (s : σ),
            Faithful src rest → Steady src → Exhaustible src left → rest s = e2.object.2 →
            ∃ w0, (L.streamingAead.view p).newDecryptingStream s true ad = .ok w0 ∧
              (∃ w b, BufferedRead (DecryptingStreamWrapper.RawRead src) w0 [] .readAll
                (.data (writtenBytes writes)) w b) ∧
              ∀ x w b, BufferedRead (DecryptingStreamWrapper.RawRead src) w0 [] .readAll x w b →
                x = .data (writtenBytes writes) := by
  obtain ⟨h', p', q1, q2, q3, q4, -⟩ := C66_streaming_aead hl hr ht hlib hcc hb hpy seed d draws
  obtain ⟨cc, kd, a, found, new, hu, hfit, made, hsound, hopens⟩ := C70_templates hlib ht seed
  have hL := C80_templates hlib.toSoundLibrary hwork ht found new made
  rw [← hcc] at found
  obtain ⟨h, w, p, h1, h2, hw, H⟩ := C64_new_keyset hl hr ht (.rawStreamingAead found new made) hfit hu d draws
  cases hw
  cases q1.symm.trans h1
  cases q2.symm.trans H.primitive
  refine ⟨_, _, h1, H.primitive, ?_⟩
  intro snk patience seed' s0 outBuffer ad hk hg hrel hob
  have hprim := single_primary (P := P) (o := L.rawStreamingAead.inj (L.streamingCcToPy a)) h2 rfl
  have ho := (L.rawStreamingAead.view_inj (L.streamingCcToPy a)).trans (hpy a)
  obtain ⟨e, he⟩ := q3 hwork.hkdf (s0, []) outBuffer seed' ad
  refine ⟨e, he, ?_⟩
  intro e1 writes waiting hwr hlen
  obtain ⟨b1, b2, b3, b4⟩ := C80_round_trip (text := text) H H hsound hL hb ho hprim hk hg hrel hob he hwr hlen
  refine ⟨b1, b2, b3, ?_⟩
  intro e2 x hx
  refine ⟨(b4 e2 x hx).1, ?_⟩
  intro src rest left s hsrc hst hex hs
  obtain ⟨w0, hnew⟩ := q4 s ad
  refine ⟨w0, hnew, (b4 e2 x hx).2 src rest left s true w0 hsrc hst hex hs ⟨_, List.mem_singleton.2 rfl, rfl⟩ ?_ hnew⟩
  intro q hq
  rw [List.mem_singleton.1 hq]
  exact .inl rfl

end Tink.Props
