import Verif.Props.StreamingEndToEnd
import Verif.Props.Buffered
import Verif.Stream.ClosingLemmas

/-!
# C72: closing streams
-/

namespace Tink.Props
open Spec Config Segment Io

/-- C72.  The decrypting streams of the keys that are modelled close quietly: `close()` does not raise, does
not close the ciphertext source, and afterwards `read` raises `ValueError` and does not use it. -/
theorem C72_keys_close_quietly {κ ν σ ρ : Type} (p : NonceBased κ ν) (text : Exc → Bool) (buffer ad : Bytes) :
    ClosesQuietly (CcDecrypting.close (ρ := ClosableRewindable ρ)) (p.toRaw (σ := σ) text buffer) ad :=
  toRaw_closes p text buffer ad

theorem OfKeys.mono {σ δ ε τ : Type} {closeRaw : RawClosing (ClosableRewindable σ) τ}
    {ps ps' : List (RawStreamingAead δ ε τ)} {ad : Bytes} {w : DecryptingStreamWrapper σ δ ε τ}
    (h : OfKeys closeRaw ps ad w) (hs : ∀ p ∈ ps, p ∈ ps') : OfKeys closeRaw ps' ad w :=
  ⟨h.data, h.current, fun x hx => let ⟨p, hp, h⟩ := h.matching x hx; ⟨p, hs p hp, h⟩,
    fun x hx => let ⟨p, hp, h⟩ := h.attempting x hx; ⟨p, hs p hp, h⟩, fun p hp => hs p (h.remaining p hp)⟩

section Keyset
variable {P C σ δ ε τ : Type} [DecidableEq C] {isInst : P → C → Bool} {t : Nat} {ci c : C}
  {r : Registry P C} {h : KeysetHandle} {kps : List (Key × P)} {prim : P}

theorem keyset_ofKeys {V : View P (RawStreamingAead δ ε τ)} {W : View P (StreamingAead σ δ ε τ)}
    (H : Obtained isInst (streamingAeadWrapper V W t ci c) r h c kps prim)
    (closeRaw : RawClosing (ClosableRewindable σ) τ) {s : σ} {readable : Bool} {ad : Bytes}
    {w0 : DecryptingStreamWrapper σ δ ε τ}
    (hnew : (W.view prim).newDecryptingStream s readable ad = .ok w0) :
    OfKeys closeRaw (kps.map fun q => V.view q.2) ad w0 ∧ w0.source.source = s := by
  rw [(C54_keyset H).2] at hnew
  obtain ⟨h1, h2⟩ := new_ofKeys (closeRaw := closeRaw) hnew
  refine ⟨h1.mono ?_, h2⟩
  intro p hp
  obtain ⟨q, hq, rfl⟩ := List.mem_map.mp hp
  exact List.mem_map.mpr ⟨q, (mem_groupOrder H.prop.2).mp hq, rfl⟩

theorem keyset_quiet {V : View P (RawStreamingAead δ ε τ)} {closeRaw : RawClosing (ClosableRewindable σ) τ}
    {ad : Bytes} (hq : ∀ q ∈ kps, ClosesQuietly closeRaw (V.view q.2) ad) :
    ∀ p ∈ kps.map (fun q => V.view q.2), ClosesQuietly closeRaw p ad := by
  intro p hp
  obtain ⟨q, hqm, rfl⟩ := List.mem_map.mp hp
  exact hq q hqm

/-- C72.  The ciphertext source of a keyset's decrypting stream is closed only by `close()`: not by reading,
not if keys are given up and their streams are garbage collected, and once only.  That is, the number of
times it was closed is the number of times that `close()` has raised, and one more if it has returned
normally (from then on it has no effect). -/
theorem C72_source_closed {V : View P (RawStreamingAead δ ε τ)} {W : View P (StreamingAead (σ × Nat) δ ε τ)}
    (H : Obtained isInst (streamingAeadWrapper V W t ci c) r h c kps prim)
    {closeRaw : RawClosing (ClosableRewindable (σ × Nat)) τ} {ad : Bytes}
    (hq : ∀ q ∈ kps, ClosesQuietly closeRaw (V.view q.2) ad)
    {src : Source σ} {closeSource : σ → σ × Py Unit} {s : σ} {readable : Bool}
    {w0 : DecryptingStreamWrapper (σ × Nat) δ ε τ}
    (hnew : (W.view prim).newDecryptingStream (s, 0) readable ad = .ok w0)
    {calls : List StreamCall} {w : ClosableDecrypting (σ × Nat) δ ε τ}
    (hist : CloseHistory (countingSource src) (countingClose closeSource) closeRaw
      (kps.map fun q => V.view q.2) ad w0 calls w) :
    (.close (.ok ()) ∈ calls → closings w = failedCloses calls + 1) ∧
    (.close (.ok ()) ∉ calls → closings w = failedCloses calls) := by
  obtain ⟨h0, hs⟩ := keyset_ofKeys H closeRaw hnew
  have so := closingSoFar (keyset_quiet hq) h0 hist
  have := closings_eq (keyset_quiet hq) h0 hist
  rw [hs] at this
  constructor
  · intro hm
    rw [this, if_pos (so.closed.mpr hm)]
    simp
  · intro hm
    rw [this, if_neg (fun hc => hm (so.closed.mp hc))]
    simp

variable {V : View P (RawStreamingAead δ ε τ)} {W : View P (StreamingAead σ δ ε τ)}

/-- C72.  After `close()` has returned normally, `read` raises `ValueError`, whatever the size, and `close()`
has no effect; in particular neither uses the source. -/
theorem C72_closed (H : Obtained isInst (streamingAeadWrapper V W t ci c) r h c kps prim)
    {closeRaw : RawClosing (ClosableRewindable σ) τ} {ad : Bytes}
    (hq : ∀ q ∈ kps, ClosesQuietly closeRaw (V.view q.2) ad)
    {src : Source σ} {closeSource : σ → σ × Py Unit} {s : σ} {readable : Bool}
    {w0 : DecryptingStreamWrapper σ δ ε τ}
    (hnew : (W.view prim).newDecryptingStream s readable ad = .ok w0)
    {calls : List StreamCall} {w : ClosableDecrypting σ δ ε τ}
    (hist : CloseHistory src closeSource closeRaw (kps.map fun q => V.view q.2) ad w0 calls w)
    (hm : .close (.ok ()) ∈ calls) :
    (∀ fuel n, w.read src fuel n = some (w, .raised .valueError)) ∧
      w.close closeRaw closeSource = (w, .ok ()) := by
  have so := closingSoFar (keyset_quiet hq) (keyset_ofKeys H closeRaw hnew).1 hist
  have hc := so.closed.mpr hm
  constructor
  · intro fuel n
    unfold ClosableDecrypting.read
    rw [if_pos hc]
  · unfold ClosableDecrypting.close
    rw [if_pos hc]

/-- C72.  `close()` raises only what closing the source raises.  After that the stream cannot be used any
more: `read` raises `ValueError`, unless the size is 0, and does not use the source.  `close()` can be
called again; it closes the source again and has the result of that. -/
theorem C72_failed_close (H : Obtained isInst (streamingAeadWrapper V W t ci c) r h c kps prim)
    {closeRaw : RawClosing (ClosableRewindable σ) τ} {ad : Bytes}
    (hq : ∀ q ∈ kps, ClosesQuietly closeRaw (V.view q.2) ad)
    {src : Source σ} {closeSource : σ → σ × Py Unit} {s : σ} {readable : Bool}
    {w0 : DecryptingStreamWrapper σ δ ε τ}
    (hnew : (W.view prim).newDecryptingStream s readable ad = .ok w0)
    {calls : List StreamCall} {w : ClosableDecrypting σ δ ε τ}
    (hist : CloseHistory src closeSource closeRaw (kps.map fun q => V.view q.2) ad w0 calls w)
    (hm : .close (.ok ()) ∉ calls) :
    (w.close closeRaw closeSource).2 = (closeSource w.stream.source.source).2 ∧
    (w.close closeRaw closeSource).1.stream.source.source = (closeSource w.stream.source.source).1 ∧
    ∀ e, .close (.error e) ∈ calls → ∀ fuel n,
      w.read src fuel n = some (w, if n = 0 then .data [] else .raised .valueError) := by
  have so := closingSoFar (keyset_quiet hq) (keyset_ofKeys H closeRaw hnew).1 hist
  have hc : w.closed = false := by
    cases hx : w.closed with
    | true => exact absurd (so.closed.mp hx) hm
    | false => rfl
  obtain ⟨w', h1, -, -, h4, -⟩ :=
    close_open closeSource (keyset_quiet hq) so.ofKeys hc (so.source.trans hc)
  refine ⟨by rw [h1], by rw [h1]; exact h4, ?_⟩
  intro e he fuel n
  unfold ClosableDecrypting.read
  rw [if_neg (by simp [hc]), read_dead src fuel so.ofKeys (so.dead ⟨_, he⟩)]
  rfl

end Keyset

/-- C72.  The destination of an encrypting stream is closed only by `close()`, never by writing, and at most
once, whatever fails.  If `close()` has returned normally it was closed once. -/
theorem C72_destination_closed {κ σ : Type} {snk : CSink σ} {t0 t : CcEncrypting κ (σ × Nat)}
    {calls : List EncryptingCall} (h0 : t0.raw.closed = false) (hn : t0.object.2 = 0)
    (hist : EncryptingHistory (countingSink snk) t0 calls t) :
    ((¬ ∃ r, .close r ∈ calls) → t.object.2 = 0) ∧ t.object.2 ≤ 1 ∧
      (.close (.ok ()) ∈ calls → t.object.2 = 1) := by
  have so := encryptingSoFar h0 hist
  rw [hn] at so
  exact ⟨so.unclosed, so.atMost, fun h => so.once (so.closed.mpr h)⟩

/-- C72, for keysets: it is so for the stream that is made for the primary key. -/
theorem C72_destination_keyset {κ ν σ σd P C : Type} [DecidableEq C] {isInst : P → C → Bool} {t : Nat} {ci c : C}
    {text : Exc → Bool}
    {V : View P (RawStreamingAead (Dest (σd × Nat)) (CcEncrypting κ (σd × Nat)) (CcDecrypting ν))}
    {W : View P (StreamingAead σ (Dest (σd × Nat)) (CcEncrypting κ (σd × Nat)) (CcDecrypting ν))}
    {r : Registry P C} {h : KeysetHandle} {kps : List (Key × P)} {prim : P}
    (H : Obtained isInst (streamingAeadWrapper V W t ci c) r h c kps prim)
    {p : NonceBased κ ν} {inBuffer : Bytes} {o : P}
    (ho : V.view o = p.toRaw text inBuffer) {k : Key} (hprim : IsPrimary h.keyset kps (k, o))
    {snk : CSink σd} {seed : Seed} {writable : Bool} {s0 : σd} {outBuffer ad : Bytes}
    {e e1 : CcEncrypting κ (σd × Nat)}
    (he : (W.view prim).newEncryptingStream seed ⟨writable, (s0, 0), outBuffer⟩ ad = .ok e)
    {calls : List EncryptingCall} (hist : EncryptingHistory (countingSink snk) e calls e1) :
    ((¬ ∃ r, .close r ∈ calls) → e1.object.2 = 0) ∧ e1.object.2 ≤ 1 ∧
      (.close (.ok ()) ∈ calls → e1.object.2 = 1) := by
  rw [(C54_keyset H).1 k o hprim, ho] at he
  refine C72_destination_closed (new_not_closed he) ?_ hist
  have he : p.newRawEncryptingStream seed ⟨writable, (s0, 0), outBuffer⟩ ad = .ok e := he
  unfold NonceBased.newRawEncryptingStream at he
  split at he
  · unfold NonceBased.newEncryptingStream at he
    cases hx : p.newSegmentEncrypter seed ad with
    | error x => rw [hx] at he; cases he
    | ok q =>
      obtain ⟨se, kk⟩ := q
      rw [hx] at he
      cases hy : EncryptingStream.new se kk (PythonOutputStream.new (s0, 0) outBuffer) with
      | error x =>
        simp only [hy, bind, Except.bind, NonceBased.raising, Except.map] at he
        cases he
      | ok e' =>
        simp only [hy, bind, Except.bind, NonceBased.raising, Except.map, pure, Except.pure] at he
        cases he
        unfold EncryptingStream.new at hy
        split at hy
        · cases hy
        · cases hy; rfl
  · cases he

end Tink.Props
