import Verif.Props.Buffered
import Verif.Stream.FailingLemmas

/-!
# C73: decrypting streams that have failed
-/

namespace Tink.Props
open Spec Config Segment Io

/-- C73.  The decrypting streams of the keys that are modelled are such that the following theorems apply: they
do not recover from `TinkError`. -/
theorem C73_keys {κ ν σ : Type} (p : NonceBased κ ν) (text : Exc → Bool) (buffer ad : Bytes) :
    FailsForGood (p.toRaw (σ := σ) text buffer) ad := toRaw_fails p text buffer ad

section Keyset
variable {P C σ δ ε τ : Type} [DecidableEq C] {isInst : P → C → Bool} {t : Nat} {ci c : C}
  {V : View P (RawStreamingAead δ ε τ)} {W : View P (StreamingAead σ δ ε τ)}
  {r : Registry P C} {h : KeysetHandle} {kps : List (Key × P)} {prim : P}

/-- C73, for keysets.  After a call of `read` raised `TinkError`, all calls do, whatever the source does; no
other key is tried. -/
theorem C73_keyset (H : Obtained isInst (streamingAeadWrapper V W t ci c) r h c kps prim)
    {src : Source σ} {s : σ} {readable : Bool} {ad : Bytes}
    (hq : ∀ q ∈ kps, (∃ t, (V.view q.2).newRawDecryptingStream ad = .ok t) ∧ FailsForGood (V.view q.2) ad)
    {w0 w : DecryptingStreamWrapper σ δ ε τ} {calls : Calls}
    (hnew : (W.view prim).newDecryptingStream s readable ad = .ok w0) (hist : StreamHistory src w0 calls w) :
    StaysFailed calls := by
  have hk := H.prop.2
  rw [(C54_keyset H).2] at hnew
  refine history_fails ?_ ?_ hnew hist
  · intro x hx
    obtain ⟨q, hqm, rfl⟩ := List.mem_map.mp hx
    exact (hq q ((mem_groupOrder hk).mp hqm)).1
  · intro x hx
    obtain ⟨q, hqm, rfl⟩ := List.mem_map.mp hx
    exact (hq q ((mem_groupOrder hk).mp hqm)).2

/-- C73, for the streams that users get.  If the enabled keys deliver nothing but certain messages, all calls
are like those on a file whose content is one of them, or raise `TinkError`: also after a failure no bytes are
returned that are wrong, out of order or after bytes that were lost. -/
theorem C73_reader (H : Obtained isInst (streamingAeadWrapper V W t ci c) r h c kps prim)
    (hplain : ∀ q ∈ kps, PlainReads (V.view q.2).stream)
    {src : Source σ} {s : σ} {readable : Bool} {ad : Bytes} {msgs : Bytes → Prop}
    (hq : ∀ q ∈ kps, (∃ t, (V.view q.2).newRawDecryptingStream ad = .ok t) ∧ FailsForGood (V.view q.2) ad ∧
      DeliversOneOf (V.view q.2) ad msgs)
    {w0 w : DecryptingStreamWrapper σ δ ε τ} {ops : List (ReadOp × ReadResult)} {b : Bytes}
    (hnew : (W.view prim).newDecryptingStream s readable ad = .ok w0)
    (hist : ReaderHistory (DecryptingStreamWrapper.RawRead src) w0 ops w b) : OnlyReadsOneOf msgs ops :=
  reader_only (keyset_plain H hplain hnew) (fun _ _ hc =>
    ⟨C68_keyset H (fun q hm => ⟨(hq q hm).1, (hq q hm).2.2⟩) hnew hc,
      C73_keyset H (fun q hm => ⟨(hq q hm).1, (hq q hm).2.1⟩) hnew hc⟩) hist

end Keyset
end Tink.Props
