import Verif.Props.StreamingEndToEnd
import Verif.Stream.BufferedLemmas

/-!
# C71: the streams that users get

`new_encrypting_stream` returns an `io.BufferedWriter`, `new_decrypting_stream` an `io.BufferedReader`.
-/

namespace Tink.Props
open Spec Config Segment Io

/-- C71.  Writing: calls of `write` and `flush`, some of which may have raised, and then `close()` returned
normally.  Then none of them has raised, and the arguments of `write`, one after the other, are what was
written to the raw encrypting stream of the key, before it was closed. -/
theorem C71_writer {κ σ : Type} {snk : CSink σ} {t0 t t2 : CcEncrypting κ σ} {ops : List (WriteOp × Py Nat)}
    {b : Bytes} (h0 : t0.raw.closed = false) (h : WriterHistory (CcEncrypting.RawWrite snk) t0 ops t b)
    (hc : BufferedClose (CcEncrypting.RawWrite snk) (CcEncrypting.RawClose snk) t b t2 (.ok ())) :
    (∀ o ∈ ops, ∃ n, o.2 = .ok n) ∧
      ∃ t1 fuel, Written snk t0 (writtenBytes ops) t1 ∧ t1.close snk fuel = some (t2, .ok ()) :=
  writer_closed h0 h hc

/-- C71.  The decrypting streams of the keys that are modelled are such that the following theorems apply:
`read(n)` returns at most `n` bytes, and never `None`. -/
theorem C71_plain_reads {κ ν σ : Type} (p : NonceBased κ ν) (text : Exc → Bool) (buffer : Bytes) :
    PlainReads (p.toRaw (σ := σ) text buffer).stream := toRaw_plain p text buffer

section Keyset
variable {P C σ δ ε τ : Type} [DecidableEq C] {isInst : P → C → Bool} {t : Nat} {ci c : C}
  {V : View P (RawStreamingAead δ ε τ)} {W : View P (StreamingAead σ δ ε τ)}
  {r : Registry P C} {h : KeysetHandle} {kps : List (Key × P)} {prim : P}

theorem keyset_plain (H : Obtained isInst (streamingAeadWrapper V W t ci c) r h c kps prim)
    {s : σ} {readable : Bool} {ad : Bytes} {w0 : DecryptingStreamWrapper σ δ ε τ}
    (hplain : ∀ q ∈ kps, PlainReads (V.view q.2).stream)
    (hnew : (W.view prim).newDecryptingStream s readable ad = .ok w0) : PlainWrapper w0 := by
  rw [(C54_keyset H).2] at hnew
  refine new_plain ?_ hnew
  intro x hx
  obtain ⟨q, hqm, rfl⟩ := List.mem_map.mp hx
  exact hplain q ((mem_groupOrder H.prop.2).mp hqm)

/-- C71.  Reading: some enabled key decrypts the content of the source to `pt`, every enabled key does so or
refuses it.  Then the stream is like a file with the content `pt`: `read(n)` returns the next `n` bytes, or
those that are left, and `read()` all that are left.  No call raises or returns `None`, though the source
may return few bytes at a time, or have none for a while. -/
theorem C71_reader (H : Obtained isInst (streamingAeadWrapper V W t ci c) r h c kps prim)
    (hplain : ∀ q ∈ kps, PlainReads (V.view q.2).stream)
    {src : Source σ} {rest : σ → Bytes} {s : σ} {readable : Bool} {ad pt : Bytes}
    (hsrc : Faithful src rest) (hst : Steady src)
    (hp : ∃ q ∈ kps, DecryptsTo (V.view q.2) ad (rest s) pt)
    (hq : ∀ q ∈ kps, DecryptsTo (V.view q.2) ad (rest s) pt ∨ RefusesContent (V.view q.2) ad (rest s))
    {w0 w : DecryptingStreamWrapper σ δ ε τ} {ops : List (ReadOp × ReadResult)} {b : Bytes}
    (hnew : (W.view prim).newDecryptingStream s readable ad = .ok w0)
    (hist : ReaderHistory (DecryptingStreamWrapper.RawRead src) w0 ops w b) :
    ∃ pos, ReadsLikeFile pt ops pos :=
  reader_like_file (keyset_plain H hplain hnew)
    (fun _ _ hc => C54_keyset_plaintext H hsrc hst hp hq hnew hc) hist

/-- C71.  Authenticity: if the enabled keys deliver nothing but certain messages, the stream is like a file
whose content is one of them, until `TinkError` is raised; whatever the source does. -/
theorem C71_authentic (H : Obtained isInst (streamingAeadWrapper V W t ci c) r h c kps prim)
    (hplain : ∀ q ∈ kps, PlainReads (V.view q.2).stream)
    {src : Source σ} {s : σ} {readable : Bool} {ad : Bytes} {msgs : Bytes → Prop}
    (hq : ∀ q ∈ kps, (∃ t, (V.view q.2).newRawDecryptingStream ad = .ok t) ∧
      DeliversOneOf (V.view q.2) ad msgs)
    {w0 w : DecryptingStreamWrapper σ δ ε τ} {ops : List (ReadOp × ReadResult)} {b : Bytes}
    (hnew : (W.view prim).newDecryptingStream s readable ad = .ok w0)
    (hist : ReaderHistory (DecryptingStreamWrapper.RawRead src) w0 ops w b) : ReadsOneOf msgs ops :=
  reader_one_of (keyset_plain H hplain hnew) (fun _ _ hc => C68_keyset H hq hnew hc) hist

end Keyset

theorem new_not_closed {κ ν σ : Type} {p : NonceBased κ ν} {text : Exc → Bool} {buffer : Bytes} {seed : Seed}
    {dest : Dest σ} {ad : Bytes} {e : CcEncrypting κ σ}
    (h : (p.toRaw text buffer).newRawEncryptingStream seed dest ad = .ok e) : e.raw.closed = false := by
  have h : p.newRawEncryptingStream seed dest ad = .ok e := h
  unfold NonceBased.newRawEncryptingStream at h
  split at h
  · cases hx : p.newEncryptingStream seed (PythonOutputStream.new dest.object dest.buffer) ad with
    | error x => rw [hx] at h; cases h
    | ok q =>
      rw [hx] at h
      cases h
      rfl
  · cases h

/-- C71.  A decrypting stream is not made for a source that is not readable: `ValueError` is raised. -/
theorem C71_not_readable {P C σ δ ε τ : Type} [DecidableEq C] {isInst : P → C → Bool} {t : Nat} {ci c : C}
    {V : View P (RawStreamingAead δ ε τ)} {W : View P (StreamingAead σ δ ε τ)}
    {r : Registry P C} {h : KeysetHandle} {kps : List (Key × P)} {prim : P}
    (H : Obtained isInst (streamingAeadWrapper V W t ci c) r h c kps prim) (s : σ) (ad : Bytes) :
    (W.view prim).newDecryptingStream s false ad = .error .valueError := by
  rw [(C54_keyset H).2]
  rfl

/-- C71.  Nor is an encrypting stream for a destination that is not writable. -/
theorem C71_not_writable {κ ν σ σd P C : Type} [DecidableEq C] {isInst : P → C → Bool} {t : Nat} {ci c : C}
    {V : View P (RawStreamingAead (Dest σd) (CcEncrypting κ σd) (CcDecrypting ν))}
    {W : View P (StreamingAead σ (Dest σd) (CcEncrypting κ σd) (CcDecrypting ν))}
    {r : Registry P C} {h : KeysetHandle} {kps : List (Key × P)} {prim : P}
    (H : Obtained isInst (streamingAeadWrapper V W t ci c) r h c kps prim) {p : NonceBased κ ν}
    {text : Exc → Bool} {inBuffer : Bytes} {o : P} (ho : V.view o = p.toRaw text inBuffer) {k : Key}
    (hprim : IsPrimary h.keyset kps (k, o)) (seed : Seed) (s0 : σd) (outBuffer ad : Bytes) :
    (W.view prim).newEncryptingStream seed ⟨false, s0, outBuffer⟩ ad = .error .valueError := by
  rw [(C54_keyset H).1 k o hprim, ho]
  rfl

/-- C71, for keysets.  A stream is encrypted with one keyset, whose primary key is `o`: it is written and
flushed in any way, to a destination that takes any number of bytes at a time, and closed, which returned
normally.  It is decrypted, with the same associated data, with a keyset in which `o` is enabled, and in
which all other enabled keys refuse the ciphertext (or decrypt it to the same).  Then no call raised, and
the decrypting stream is like a file with the content that was written. -/
theorem C71_round_trip {κ ν σ σd P C : Type} [DecidableEq C] {isInst : P → C → Bool} {t : Nat} {ci c : C}
    {text : Exc → Bool}
    {V : View P (RawStreamingAead (Dest (σd × Bytes)) (CcEncrypting κ (σd × Bytes)) (CcDecrypting ν))}
    {W : View P (StreamingAead σ (Dest (σd × Bytes)) (CcEncrypting κ (σd × Bytes)) (CcDecrypting ν))}
    {r1 r2 : Registry P C} {h1 h2 : KeysetHandle} {kps1 kps2 : List (Key × P)} {prim1 prim2 : P}
    (H1 : Obtained isInst (streamingAeadWrapper V W t ci c) r1 h1 c kps1 prim1)
    (H2 : Obtained isInst (streamingAeadWrapper V W t ci c) r2 h2 c kps2 prim2)
    {p : NonceBased κ ν} (hp : SoundStreaming p) {inBuffer : Bytes} (hb : inBuffer ≠ []) {o : P}
    (ho : V.view o = p.toRaw text inBuffer) {k : Key} (hprim : IsPrimary h1.keyset kps1 (k, o))
    -- encryption
    {snk : CSink σd} (hk : Honest snk) {seed : Seed} {s0 : σd} {outBuffer ad : Bytes}
    {e e1 e2 : CcEncrypting κ (σd × Bytes)}
    (he : (W.view prim1).newEncryptingStream seed ⟨true, (s0, []), outBuffer⟩ ad = .ok e)
    {writes : List (WriteOp × Py Nat)} {waiting : Bytes}
    (hw : WriterHistory (CcEncrypting.RawWrite (recordedSink snk)) e writes e1 waiting)
    (hc : BufferedClose (CcEncrypting.RawWrite (recordedSink snk)) (CcEncrypting.RawClose (recordedSink snk))
      e1 waiting e2 (.ok ()))
    -- decryption
    {src : Source σ} {rest : σ → Bytes} (hsrc : Faithful src rest) (hst : Steady src) {s : σ}
    (hs : rest s = e2.object.2) (hmem : ∃ q ∈ kps2, q.2 = o)
    (hothers : ∀ q ∈ kps2, q.2 = o ∨ PlainReads (V.view q.2).stream ∧
      (DecryptsTo (V.view q.2) ad (rest s) (writtenBytes writes) ∨ RefusesContent (V.view q.2) ad (rest s)))
    {readable : Bool}
    {w0 w : DecryptingStreamWrapper σ (Dest (σd × Bytes)) (CcEncrypting κ (σd × Bytes)) (CcDecrypting ν)}
    {reads : List (ReadOp × ReadResult)} {ahead : Bytes}
    (hnew : (W.view prim2).newDecryptingStream s readable ad = .ok w0)
    (hist : ReaderHistory (DecryptingStreamWrapper.RawRead src) w0 reads w ahead) :
    (∀ x ∈ writes, ∃ n, x.2 = .ok n) ∧ ∃ pos, ReadsLikeFile (writtenBytes writes) reads pos := by
  have he' := he
  rw [(C54_keyset H1).1 k o hprim, ho] at he'
  obtain ⟨hok, t1, fuel, hw1, hc1⟩ := C71_writer (new_not_closed he') hw hc
  refine ⟨hok, reader_like_file (keyset_plain H2 ?_ hnew) (fun _ _ hcalls => ?_) hist⟩
  · intro q hq
    rcases hothers q hq with h | h
    · rw [h, ho]; exact C71_plain_reads p text inBuffer
    · exact h.1
  · exact C67_keyset_round_trip H1 H2 hp hb ho hprim hk he hw1 hc1 hsrc hst hs hmem
      (fun q hq => (hothers q hq).imp_right And.right) hnew hcalls

/-- C71, from registration on: with a new keyset, made from a predefined template, streams can be made, and
what is written to an encrypting stream that is then closed can be read from a decrypting stream like from
a file. -/
theorem C71_new_keyset {σ σd P C : Type} [DecidableEq C]
    {L : Library σ (Dest (σd × Bytes)) (CcEncrypting Nat (σd × Bytes)) (CcDecrypting State)
      (NonceBased Nat State) P C}
    {isInst : P → C → Bool} {r : Registry P C} {t : KeyTemplate}
    (hl : LawfulConfig L isInst) (hr : PackageRegistered L r .streamingAead)
    (ht : .ok t ∈ templates .streamingAead) {lib : SegmentLibrary} (hlib : Spec.LawfulLibrary lib)
    (hcc : L.ccStreamingAead = ccStreamingAead lib) {text : Exc → Bool} {inBuffer : Bytes}
    (hb : inBuffer ≠ []) (hpy : ∀ p, L.streamingCcToPy p = p.toRaw text inBuffer)
    (seed : Seed) (d : UInt32) (draws : List UInt32) :
    ∃ h p, KeysetHandle.generateNew r seed (d :: draws) t = some (.ok h) ∧
      h.primitive isInst r (L.cls .streamingAead) = .ok p ∧
      ∀ (snk : CSink σd) (seed : Seed) (s0 : σd) (outBuffer ad : Bytes)
        (e e1 e2 : CcEncrypting Nat (σd × Bytes)) (writes : List (WriteOp × Py Nat)) (waiting : Bytes),
        Honest snk →
        (L.streamingAead.view p).newEncryptingStream seed ⟨true, (s0, []), outBuffer⟩ ad = .ok e →
        WriterHistory (CcEncrypting.RawWrite (recordedSink snk)) e writes e1 waiting →
        BufferedClose (CcEncrypting.RawWrite (recordedSink snk))
          (CcEncrypting.RawClose (recordedSink snk)) e1 waiting e2 (.ok ()) →
        (∀ x ∈ writes, ∃ n, x.2 = .ok n) ∧
        ∀ (src : Source σ) (rest : σ → Bytes) (s : σ) (readable : Bool)
          (w0 w : DecryptingStreamWrapper σ (Dest (σd × Bytes)) (CcEncrypting Nat (σd × Bytes))
            (CcDecrypting State)) (reads : List (ReadOp × ReadResult)) (ahead : Bytes),
          Faithful src rest → Steady src → rest s = e2.object.2 →
          (L.streamingAead.view p).newDecryptingStream s readable ad = .ok w0 →
          ReaderHistory (DecryptingStreamWrapper.RawRead src) w0 reads w ahead →
          ∃ pos, ReadsLikeFile (writtenBytes writes) reads pos := by
  obtain ⟨cc, kd, a, found, new, hu, hfit, made, hsound, hopens⟩ := C70_templates hlib ht seed
  rw [← hcc] at found
  obtain ⟨h, w, p, h1, h2, hw, H⟩ := C64_new_keyset hl hr ht (.rawStreamingAead found new made) hfit hu d draws
  cases hw
  refine ⟨h, p, h1, H.primitive, ?_⟩
  intro snk seed' s0 outBuffer ad e e1 e2 writes waiting hk he hwr hc
  have hprim := single_primary (P := P) (o := L.rawStreamingAead.inj (L.streamingCcToPy a)) h2 rfl
  have ho := (L.rawStreamingAead.view_inj (L.streamingCcToPy a)).trans (hpy a)
  have he' := he
  rw [(C54_keyset H).1 _ _ hprim, ho] at he'
  refine ⟨(C71_writer (new_not_closed he') hwr hc).1, ?_⟩
  intro src rest s readable w0 w reads ahead hsrc hst hs hnew hist
  refine (C71_round_trip (text := text) (seed := seed') (s0 := s0) (outBuffer := outBuffer) H H hsound hb ho
    hprim hk he hwr hc hsrc hst hs ⟨_, List.mem_singleton.2 rfl, rfl⟩ ?_ hnew hist).2
  intro q hq
  rw [List.mem_singleton.1 hq]
  exact .inl rfl

end Tink.Props
