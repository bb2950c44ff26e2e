import Verif.Props.Closing
import Verif.Props.StreamingKeysExamples

/-!
# C72: concrete cases
-/

namespace Tink.Props
open Spec Config Segment Io
namespace ClosingExamples
open ToySegments StreamingKeysExamples

/-! ## Decrypting streams -/

/-- A source, which raises when it is closed for the first time if the flag is set. -/
def src : Source (Bytes × Bool) where
  read s n := ((s.1.drop n, s.2), .data (s.1.take n))
def closeSrc (s : Bytes × Bool) : (Bytes × Bool) × Py Unit :=
  if s.2 then ((s.1, false), .error .osError) else (s, .ok ())

abbrev Counted := (Bytes × Bool) × Nat
abbrev Raw := RawStreamingAead (Dest (Unit × Nat)) (CcEncrypting Nat (Unit × Nat)) (CcDecrypting State)
abbrev Wrapped := StreamingAead Counted (Dest (Unit × Nat)) (CcEncrypting Nat (Unit × Nat)) (CcDecrypting State)
abbrev Wrapper := DecryptingStreamWrapper Counted (Dest (Unit × Nat)) (CcEncrypting Nat (Unit × Nat))
  (CcDecrypting State)
abbrev Closable := ClosableDecrypting Counted (Dest (Unit × Nat)) (CcEncrypting Nat (Unit × Nat))
  (CcDecrypting State)
abbrev Prim := Sum Raw Wrapped

def gcmRaw : Raw := (gcm lib).toRaw (fun _ => false) [0, 0, 0, 0, 0]
def ctrRaw : Raw := (ctr lib).toRaw (fun _ => false) [0, 0, 0, 0, 0]

def rawView : View Prim Raw where
  inj := .inl
  view | .inl a => a | .inr _ => gcmRaw
  view_inj _ := rfl
def streamView : View Prim Wrapped where
  inj := .inr
  view | .inr a => a | .inl _ => ⟨fun _ _ _ => .error .tinkError, fun _ _ _ => .error .tinkError⟩
  view_inj _ := rfl

def manager : KeyManager Prim Bool where
  pyType := 1
  primitiveClass := false
  keyType := ['s']
  doesSupport u := u = ['s']
  primitive kd := .ok (.inl (if kd.value = [1] then gcmRaw else ctrRaw))
  newKeyData _ _ := .error .tinkError

def wrapper : PrimitiveWrapper Prim Bool := streamingAeadWrapper rawView streamView 2 false true

def registry : Registry Prim Bool where
  keyManagers := [(['s'], (manager, true))]
  wrappers := [(true, wrapper)]

def isInst : Prim → Bool → Bool
  | .inl _, c => c = false
  | .inr _, c => c = true

def key (v : UInt8) (id : UInt32) : Key :=
  { keyData := some { typeUrl := ['s'], value := [v],
                      keyMaterialType := KeyMaterialType.SYMMETRIC }
    status := KeyStatusType.ENABLED, keyId := id, outputPrefixType := OutputPrefixType.RAW }

def ks : Tink.Keyset := { primaryKeyId := 9, key := [key 2 8, key 1 9] }
def kps : List (Key × Prim) := [(key 2 8, .inl ctrRaw), (key 1 9, .inl gcmRaw)]
def prim : Prim := .inr (WrappedStreamingAead.wrap ((psetOf false 9 kps).map rawView.view))

theorem obtained : Obtained isInst wrapper registry ⟨ks⟩ true kps prim :=
  ⟨rfl, rfl, rfl, by
    intro q hq
    simp only [kps, List.mem_cons, List.not_mem_nil, or_false] at hq
    rcases hq with rfl | rfl <;> rfl⟩

theorem quiet : ∀ q ∈ kps, ClosesQuietly (CcDecrypting.close (ρ := ClosableRewindable Counted))
    (rawView.view q.2) [1] := by
  intro q hq
  simp only [kps, List.mem_cons, List.not_mem_nil, or_false] at hq
  rcases hq with rfl | rfl
  · exact C72_keys_close_quietly (ctr lib) _ _ _
  · exact C72_keys_close_quietly (gcm lib) _ _ _

/-- Calls: `read` with a size, or `close()`. -/
inductive Op where
  | read (n : Int)
  | close

/-- The calls with their results. -/
def calls (w : Closable) : List Op → Option (Closable × List StreamCall)
  | [] => some (w, [])
  | .read n :: ops =>
    match w.read (countingSource src) 100 n with
    | none => none
    | some (w', r) => (calls w' ops).map fun q => (q.1, .read n r :: q.2)
  | .close :: ops =>
    let q := w.close CcDecrypting.close (countingClose closeSrc)
    (calls q.1 ops).map fun q' => (q'.1, .close q.2 :: q'.2)

theorem calls_ok {w0 : Wrapper} {ps : List Raw} {ad : Bytes} :
    ∀ {ops : List Op} {w w' : Closable} {l l' : List StreamCall},
      CloseHistory (countingSource src) (countingClose closeSrc) CcDecrypting.close ps ad w0 l w →
      calls w ops = some (w', l') →
      CloseHistory (countingSource src) (countingClose closeSrc) CcDecrypting.close ps ad w0 (l ++ l') w' := by
  intro ops
  induction ops with
  | nil => intro w w' l l' h0 h; cases h; simpa using h0
  | cons op ops ih =>
    intro w w' l l' h0 h
    cases op with
    | read n =>
      unfold calls at h
      split at h
      · cases h
      · rename_i hr
        rw [Option.map_eq_some_iff] at h
        obtain ⟨q, hq, h⟩ := h
        cases h
        have := ih (.read 100 n h0 hr) hq
        simpa using this
    | close =>
      unfold calls at h
      rw [Option.map_eq_some_iff] at h
      obtain ⟨q, hq, h⟩ := h
      cases h
      have := ih (.close h0 rfl) hq
      rw [List.append_assoc] at this
      exact this

/-- What the example shows of a history. -/
inductive Seen where
  | read (r : ReadResult)
  | close (ok : Bool)
  deriving DecidableEq

def seen : StreamCall → Seen
  | .read _ r => .read r
  | .close (.ok _) => .close true
  | .close (.error _) => .close false

/-- The results of some calls and how often the source was closed in the end. -/
def outcome (fails : Bool) (ops : List Op) : Option (List Seen × Nat) :=
  match (streamView.view prim).newDecryptingStream ((gcmCiphertext, fails), 0) true [1] with
  | .error _ => none
  | .ok w => (calls { stream := w } ops).map fun q => (q.2.map seen, closings q.1)

/-- The first key is given up, the second decrypts. -/
example : outcome false [.read 4, .read 0, .read 100, .close, .read 5, .close, .read 0] =
    some ([.read (.data [1, 2, 3, 4]), .read (.data []), .read (.data [5, 6, 7, 8]), .close true,
      .read (.raised .valueError), .close true, .read (.raised .valueError)], 1) := by decide +kernel

/-- Closing the source fails at first. -/
example : outcome true [.read 4, .close, .read 5, .read 0, .close, .close, .read 5] =
    some ([.read (.data [1, 2, 3, 4]), .close false, .read (.raised .valueError), .read (.data []), .close true,
      .close true, .read (.raised .valueError)], 2) := by decide +kernel

/-- Closed before anything was read, and never closed. -/
example : outcome false [.close, .read 1] = some ([.close true, .read (.raised .valueError)], 1) ∧
    outcome false [.read 1] = some ([.read (.data [1])], 0) := by decide +kernel

/-- `C72_source_closed`, `C72_closed`, `C72_failed_close`: the hypotheses hold for these calls. -/
example {s : Bytes × Bool} {w0 : Wrapper} {ops : List Op} {w : Closable} {l : List StreamCall}
    (hnew : (streamView.view prim).newDecryptingStream (s, 0) true [1] = .ok w0)
    (h : calls { stream := w0 } ops = some (w, l)) :
    (.close (.ok ()) ∈ l → closings w = failedCloses l + 1) ∧
    (.close (.ok ()) ∉ l → closings w = failedCloses l) :=
  C72_source_closed obtained quiet hnew (by simpa using calls_ok .start h)

example {s : Bytes × Bool} {w0 : Wrapper} {ops : List Op} {w : Closable} {l : List StreamCall}
    (hnew : (streamView.view prim).newDecryptingStream (s, 0) true [1] = .ok w0)
    (h : calls { stream := w0 } ops = some (w, l)) (hm : .close (.ok ()) ∈ l) (fuel : Nat) (n : Int) :
    w.read (countingSource src) fuel n = some (w, .raised .valueError) :=
  (C72_closed obtained quiet hnew
    (show CloseHistory _ (countingClose closeSrc) _ _ _ _ l w by simpa using calls_ok .start h) hm).1 fuel n

example {s : Bytes × Bool} {w0 : Wrapper} {ops : List Op} {w : Closable} {l : List StreamCall}
    (hnew : (streamView.view prim).newDecryptingStream (s, 0) true [1] = .ok w0)
    (h : calls { stream := w0 } ops = some (w, l)) (hm : .close (.ok ()) ∉ l) (he : .close (.error .osError) ∈ l)
    (fuel : Nat) :
    w.read (countingSource src) fuel 5 = some (w, .raised .valueError) :=
  (C72_failed_close obtained quiet hnew
    (show CloseHistory _ (countingClose closeSrc) _ _ _ _ l w by simpa using calls_ok .start h) hm).2.2 _ he fuel 5

/-! ## Encrypting streams -/

/-- An encrypting stream with a buffer of `n` bytes. -/
def stream (n : Nat) : Py (CcEncrypting Nat (Unit × Nat)) :=
  (streamView.view prim).newEncryptingStream 3 ⟨true, ((), 0), List.replicate n 0⟩ [1]

/-- Calls: `write`, or `close()` if there is nothing to write. -/
def wcalls (snk : CSink (Unit × Nat)) (t : CcEncrypting Nat (Unit × Nat)) :
    List (Option Bytes) → Option (CcEncrypting Nat (Unit × Nat) × List EncryptingCall)
  | [] => some (t, [])
  | some b :: ops =>
    match t.write snk 100 b with
    | some (t', .returned r) => (wcalls snk t' ops).map fun q => (q.1, .write b r :: q.2)
    | _ => none
  | none :: ops =>
    match t.close snk 100 with
    | none => none
    | some (t', r) => (wcalls snk t' ops).map fun q => (q.1, .close r :: q.2)

theorem wcalls_ok {snk : CSink (Unit × Nat)} {t0 : CcEncrypting Nat (Unit × Nat)} :
    ∀ {ops : List (Option Bytes)} {t t' : CcEncrypting Nat (Unit × Nat)} {l l' : List EncryptingCall},
      EncryptingHistory snk t0 l t → wcalls snk t ops = some (t', l') → EncryptingHistory snk t0 (l ++ l') t' := by
  intro ops
  induction ops with
  | nil => intro t t' l l' h0 h; cases h; simpa using h0
  | cons op ops ih =>
    intro t t' l l' h0 h
    cases op with
    | some b =>
      unfold wcalls at h
      split at h
      · rename_i hr
        rw [Option.map_eq_some_iff] at h
        obtain ⟨q, hq, h⟩ := h
        cases h
        have := ih (.write b h0 ⟨100, hr⟩) hq
        simpa using this
      · cases h
    | none =>
      unfold wcalls at h
      split at h
      · cases h
      · rename_i hr
        rw [Option.map_eq_some_iff] at h
        obtain ⟨q, hq, h⟩ := h
        cases h
        have := ih (.close h0 ⟨100, hr⟩) hq
        simpa using this

/-- Whether the calls succeeded, and how often the destination was closed. -/
def written (n : Nat) (snk : CSink Unit) (ops : List (Option Bytes)) : Option (List Bool × Nat) :=
  match stream n with
  | .error _ => none
  | .ok e => (wcalls (countingSink snk) e ops).map fun q =>
      (q.2.map fun | .write _ r => r.toBool | .close r => r.toBool, q.1.object.2)

example : written 7 sink [some [1, 2, 3, 4, 5], some [6, 7, 8, 9, 10, 11, 12], none, none, some [1]] =
    some ([true, true, true, true, false], 1) := by decide +kernel
example : written 7 sink [some [1, 2, 3, 4, 5], some [6, 7, 8, 9, 10, 11, 12]] = some ([true, true], 0) := by
  decide +kernel

/-- `C72_destination_keyset`: the hypotheses hold. -/
example {e e1 : CcEncrypting Nat (Unit × Nat)} {ops : List (Option Bytes)} {l : List EncryptingCall}
    (he : stream 7 = .ok e) (h : wcalls (countingSink sink) e ops = some (e1, l)) (hm : .close (.ok ()) ∈ l) :
    e1.object.2 = 1 :=
  (C72_destination_keyset obtained (o := .inl gcmRaw) (k := key 1 9) (p := gcm lib) rfl rfl he
    (by simpa using wcalls_ok .start h)).2.2 hm

/-- A destination that cannot be written to. -/
def full : CSink Unit where
  write s _ := (s, .error ⟨.unknown, false⟩)
  close s := (s, .ok ())

end ClosingExamples

/-- C72, violation.  If the destination raises while the stream is written to or closed, `close()` raises, and
the destination stays open; calling `close()` again raises again and does not close it either. -/
theorem C72_destination_left_open :
    ClosingExamples.written 100 ClosingExamples.full [some [1, 2, 3], none, none] =
      some ([true, false, false], 0) ∧
    ClosingExamples.written 7 ClosingExamples.full [some [1, 2, 3], none, none] =
      some ([false, false, false], 0) := by
  decide +kernel

end Tink.Props
