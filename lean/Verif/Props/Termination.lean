import Verif.Stream.TerminationLemmas
import Verif.Stream.TerminationWrapper
import Verif.Props.Buffered

/-!
# C79: reading a decrypting stream comes to an end
-/

namespace Tink.Props
open Spec Io Segment Config

/-- C79.  The decrypting streams of the keys that are modelled do not hang, whatever the segment decrypter
of the key does, and whatever the source delivers until it comes to an end. -/
theorem C79_key {κ ν σ : Type} (p : NonceBased κ ν) (text : Exc → Bool) {buffer : Bytes} (hb : buffer ≠ [])
    (ad : Bytes) : NeverHangs (p.toRaw (σ := σ) text buffer) ad := by
  intro t ht
  obtain ⟨v, -, -, h3⟩ := open_ok ht
  refine rawStream_live text ?_
  unfold DecryptingStream.new at h3
  split at h3
  · cases h3
  · have h4 := congrArg DecryptingStream.source (Except.ok.inj h3)
    rw [← h4]
    exact hb

theorem new_live {σ δ ε τ : Type} {ps : List (RawStreamingAead δ ε τ)} {s : σ} {readable : Bool} {ad : Bytes}
    {w : DecryptingStreamWrapper σ δ ε τ} (hps : ∀ p ∈ ps, NeverHangs p ad)
    (h : DecryptingStreamWrapper.new ps s readable ad = .ok w) : LiveWrapper w := by
  unfold DecryptingStreamWrapper.new at h
  obtain ⟨r, -, h⟩ := bind_ok_iff.mp h
  cases ps with
  | nil => cases h
  | cons p ps =>
    obtain ⟨t, ht, h⟩ := bind_ok_iff.mp h
    cases h
    exact ⟨fun _ _ hx => by (cases hx), fun _ _ hx => by cases hx; exact hps p List.mem_cons_self t ht,
      fun q hq => hps q (List.mem_cons_of_mem _ hq)⟩

theorem readsLikeFile_pos {P : Bytes} {ops : List (ReadOp × ReadResult)} {i j : Nat}
    (h : ReadsLikeFile P ops i) (h' : ReadsLikeFile P ops j) : i = j := by
  induction h generalizing j with
  | start =>
    generalize hl : ([] : List (ReadOp × ReadResult)) = l at h'
    cases h' with
    | start => rfl
    | read => simp at hl
  | @read ops pos op b _ _ ih =>
    generalize hl : ops ++ [(op, ReadResult.data b)] = l at h'
    cases h' with
    | start => simp at hl
    | @read ops' pos' op' b' h1 h2 =>
      obtain ⟨rfl, h3⟩ := List.append_inj' hl rfl
      cases h3
      rw [ih h1]

theorem readsLikeFile_last {P : Bytes} {ops : List (ReadOp × ReadResult)} {op : ReadOp} {r : ReadResult}
    {i j : Nat} (h : ReadsLikeFile P ops i) (h' : ReadsLikeFile P (ops ++ [(op, r)]) j) :
    ∃ d, r = .data d ∧ FileRead P i op d := by
  generalize hl : ops ++ [(op, r)] = l at h'
  cases h' with
  | start => simp at hl
  | @read ops' pos' op' b' h1 h2 =>
    obtain ⟨rfl, h3⟩ := List.append_inj' hl rfl
    cases h3
    rw [readsLikeFile_pos h h1]
    exact ⟨b', rfl, h2⟩

section Keyset
variable {P C σ δ ε τ : Type} [DecidableEq C] {isInst : P → C → Bool} {t : Nat} {ci c : C}
  {V : View P (RawStreamingAead δ ε τ)} {W : View P (StreamingAead σ δ ε τ)}
  {r : Registry P C} {h : KeysetHandle} {kps : List (Key × P)} {prim : P}

theorem keyset_live (H : Obtained isInst (streamingAeadWrapper V W t ci c) r h c kps prim)
    {s : σ} {readable : Bool} {ad : Bytes} {w0 : DecryptingStreamWrapper σ δ ε τ}
    (hlive : ∀ q ∈ kps, NeverHangs (V.view q.2) ad)
    (hnew : (W.view prim).newDecryptingStream s readable ad = .ok w0) : LiveWrapper w0 := by
  rw [(C54_keyset H).2] at hnew
  refine new_live ?_ hnew
  intro x hx
  obtain ⟨q, hqm, rfl⟩ := List.mem_map.mp hx
  exact hlive q ((mem_groupOrder H.prop.2).mp hqm)

/-- C79.  For keysets: if none of the enabled keys' streams hangs, and the ciphertext source comes to an end,
then after any calls on the stream that the user got, the next call returns. -/
theorem C79_reader (H : Obtained isInst (streamingAeadWrapper V W t ci c) r h c kps prim)
    {src : Source σ} {left : σ → Nat} (hsrc : Exhaustible src left) {s : σ} {readable : Bool} {ad : Bytes}
    (hlive : ∀ q ∈ kps, NeverHangs (V.view q.2) ad)
    {w0 w : DecryptingStreamWrapper σ δ ε τ} {ops : List (ReadOp × ReadResult)} {b : Bytes}
    (hnew : (W.view prim).newDecryptingStream s readable ad = .ok w0)
    (hist : ReaderHistory (DecryptingStreamWrapper.RawRead src) w0 ops w b) :
    EveryCallReturns (DecryptingStreamWrapper.RawRead src) w b := by
  have step : ∀ (w : DecryptingStreamWrapper σ δ ε τ) n, LiveWrapper w → 0 < n → n < 2 ^ 63 → _ :=
    fun w n hw h0 hm => rawRead_live hsrc hw h0 hm
  exact every_call step (fun w hw => wrapper_finishes hsrc hw) b
    (history_live (fun w n w' r hw h0 hm hr => (step w n hw h0 hm).2 w' r hr) (keyset_live H hlive hnew) hist)

/-- C79.  A user who reads such a stream until there is nothing more, in whatever pieces, gets there: calls that
return bytes do not follow each other forever, whatever the source contains. -/
theorem C79_reading_ends (H : Obtained isInst (streamingAeadWrapper V W t ci c) r h c kps prim)
    {src : Source σ} {left : σ → Nat} (hsrc : Exhaustible src left) {s : σ} {readable : Bool} {ad : Bytes}
    (hlive : ∀ q ∈ kps, NeverHangs (V.view q.2) ad)
    {w0 w : DecryptingStreamWrapper σ δ ε τ} {ops : List (ReadOp × ReadResult)} {b : Bytes}
    (hnew : (W.view prim).newDecryptingStream s readable ad = .ok w0)
    (hist : ReaderHistory (DecryptingStreamWrapper.RawRead src) w0 ops w b) :
    ReadingEnds (DecryptingStreamWrapper.RawRead src) w b :=
  reading_ends (C79_reader H hsrc hlive hnew hist).2.1 b

/-- C79, together with C71.  Some enabled key decrypts the content of the source to `pt`, every enabled key
does so or refuses it, and the source comes to an end.  After any calls on the stream, whatever call is made
next returns; it returns what the same call on a file with the content `pt` returns; and it cannot do
anything else. -/
theorem C79_like_file (H : Obtained isInst (streamingAeadWrapper V W t ci c) r h c kps prim)
    (hplain : ∀ q ∈ kps, PlainReads (V.view q.2).stream)
    {src : Source σ} {rest : σ → Bytes} {left : σ → Nat} {s : σ} {readable : Bool} {ad pt : Bytes}
    (hsrc : Faithful src rest) (hst : Steady src) (hex : Exhaustible src left)
    (hlive : ∀ q ∈ kps, NeverHangs (V.view q.2) ad)
    (hp : ∃ q ∈ kps, DecryptsTo (V.view q.2) ad (rest s) pt)
    (hq : ∀ q ∈ kps, DecryptsTo (V.view q.2) ad (rest s) pt ∨ RefusesContent (V.view q.2) ad (rest s))
    {w0 w : DecryptingStreamWrapper σ δ ε τ} {ops : List (ReadOp × ReadResult)} {b : Bytes}
    (hnew : (W.view prim).newDecryptingStream s readable ad = .ok w0)
    (hist : ReaderHistory (DecryptingStreamWrapper.RawRead src) w0 ops w b) :
    ∃ pos, ReadsLikeFile pt ops pos ∧ ∀ op,
      (∃ d w' b', BufferedRead (DecryptingStreamWrapper.RawRead src) w b op (.data d) w' b') ∧
      ∀ x w' b', BufferedRead (DecryptingStreamWrapper.RawRead src) w b op x w' b' →
        ∃ d, x = .data d ∧ FileRead pt pos op d := by
  obtain ⟨pos, hpos⟩ := C71_reader H hplain hsrc hst hp hq hnew hist
  have key : ∀ op x w' b', BufferedRead (DecryptingStreamWrapper.RawRead src) w b op x w' b' →
      ∃ d, x = .data d ∧ FileRead pt pos op d := by
    intro op x w' b' hx
    obtain ⟨j, hj⟩ := C71_reader H hplain hsrc hst hp hq hnew (.call hist hx)
    exact readsLikeFile_last hpos hj
  refine ⟨pos, hpos, fun op => ⟨?_, key op⟩⟩
  obtain ⟨x, w', b', hx⟩ := (C79_reader H hex hlive hnew hist).2.2 op
  obtain ⟨d, rfl, -⟩ := key op x w' b' hx
  exact ⟨d, w', b', hx⟩

/-- C79, together with C71.  In particular the first thing that a user may do, `read()`, returns the
plaintext. -/
theorem C79_read_all (H : Obtained isInst (streamingAeadWrapper V W t ci c) r h c kps prim)
    (hplain : ∀ q ∈ kps, PlainReads (V.view q.2).stream)
    {src : Source σ} {rest : σ → Bytes} {left : σ → Nat} {s : σ} {readable : Bool} {ad pt : Bytes}
    (hsrc : Faithful src rest) (hst : Steady src) (hex : Exhaustible src left)
    (hlive : ∀ q ∈ kps, NeverHangs (V.view q.2) ad)
    (hp : ∃ q ∈ kps, DecryptsTo (V.view q.2) ad (rest s) pt)
    (hq : ∀ q ∈ kps, DecryptsTo (V.view q.2) ad (rest s) pt ∨ RefusesContent (V.view q.2) ad (rest s))
    {w0 : DecryptingStreamWrapper σ δ ε τ}
    (hnew : (W.view prim).newDecryptingStream s readable ad = .ok w0) :
    ∃ w b, BufferedRead (DecryptingStreamWrapper.RawRead src) w0 [] .readAll (.data pt) w b := by
  obtain ⟨pos, h1, h2⟩ := C79_like_file H hplain hsrc hst hex hlive hp hq hnew .start
  obtain ⟨⟨d, w, b, h3⟩, h4⟩ := h2 .readAll
  obtain ⟨d', h5, h6⟩ := h4 _ _ _ h3
  cases h5
  have h0 := readsLikeFile_pos h1 .start
  subst h0
  have h6 : d = pt.drop 0 := h6
  rw [h6] at h3
  exact ⟨w, b, h3⟩

end Keyset

/-- C79, from registration on: no call on a decrypting stream that was made with a keyset from a predefined
template hangs, and whoever reads it until there is nothing more gets there, if the source comes to an end;
whatever it contains. -/
theorem C79_new_keyset {σ σd P C : Type} [DecidableEq C]
    {L : Library σ (Dest (σd × Bytes)) (CcEncrypting Nat (σd × Bytes)) (CcDecrypting State)
      (NonceBased Nat State) P C}
    {isInst : P → C → Bool} {r : Registry P C} {t : KeyTemplate}
    (hl : LawfulConfig L isInst) (hr : PackageRegistered L r .streamingAead)
    (ht : .ok t ∈ templates .streamingAead) {lib : SegmentLibrary} (hlib : Spec.LawfulLibrary lib)
    (hcc : L.ccStreamingAead = ccStreamingAead lib) {text : Exc → Bool} {inBuffer : Bytes}
    (hb : inBuffer ≠ []) (hpy : ∀ p, L.streamingCcToPy p = p.toRaw text inBuffer)
    (seed : Seed) (d : UInt32) (draws : List UInt32) :
    ∃ h p, KeysetHandle.generateNew r seed (d :: draws) t = some (.ok h) ∧
      h.primitive isInst r (L.cls .streamingAead) = .ok p ∧
      ∀ (src : Source σ) (left : σ → Nat) (s : σ) (readable : Bool) (ad : Bytes)
        (w0 w : DecryptingStreamWrapper σ (Dest (σd × Bytes)) (CcEncrypting Nat (σd × Bytes))
          (CcDecrypting State)) (reads : List (ReadOp × ReadResult)) (ahead : Bytes),
        Exhaustible src left → (L.streamingAead.view p).newDecryptingStream s readable ad = .ok w0 →
        ReaderHistory (DecryptingStreamWrapper.RawRead src) w0 reads w ahead →
        EveryCallReturns (DecryptingStreamWrapper.RawRead src) w ahead ∧
          ReadingEnds (DecryptingStreamWrapper.RawRead src) w ahead := by
  obtain ⟨cc, kd, a, found, new, hu, hfit, made, hsound, hopens⟩ := C70_templates hlib ht seed
  rw [← hcc] at found
  obtain ⟨h, w, p, h1, h2, hw, H⟩ := C64_new_keyset hl hr ht (.rawStreamingAead found new made) hfit hu d draws
  cases hw
  refine ⟨h, p, h1, H.primitive, ?_⟩
  intro src left s readable ad w0 w reads ahead hex hnew hist
  suffices live : _ from ⟨C79_reader H hex live hnew hist, C79_reading_ends H hex live hnew hist⟩
  intro q hq
  rw [List.mem_singleton.1 hq]
  have ho := (L.rawStreamingAead.view_inj (L.streamingCcToPy a)).trans (hpy a)
  rw [show L.rawStreamingAead.view (L.rawStreamingAead.inj (L.streamingCcToPy a)) = _ from ho]
  exact C79_key a text hb ad

end Tink.Props
