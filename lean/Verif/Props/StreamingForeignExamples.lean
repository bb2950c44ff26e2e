import Verif.Props.StreamingForeign
import Verif.Props.RotationStreamingExamples
import Verif.Props.CliStreamingExamples
import Verif.Props.TerminationExamples
import Verif.Examples.ToyKeyed

/-!
# Ciphertexts of other keys: examples
-/

namespace Tink.Props
open Spec Config Segment Io Cc Cli
namespace StreamingForeignExample
open RotationStreamingExample (gcmData ctrData ctrKey gcm_stored ctr_stored oldKey handle usable)

abbrev lib := ToyKeyed.lib

/-- What the AES-GCM-HKDF key with the byte `b` is made with. -/
def gcmP (b : UInt8) : AesGcmHkdf.Params := AesGcmHkdfStreamingKeyManager.params (RotationStreamingExample.gcmKey b)

theorem gcm_new {k : Key} {b : UInt8} (hk : k.data = gcmData b)
    (hlen : (encodeFields (RotationStreamingExample.gcmKey b).fields).length < 2 ^ 31) {q : NonceBased Nat State}
    (h : StreamingKeyOf lib k q) : AesGcmHkdf.new lib (gcmP b) = .ok q := by
  obtain ⟨cc, h1, h2⟩ := h
  rw [hk] at h1 h2
  have e : ccStreamingAead lib (gcmData b).typeUrl =
      some (AesGcmHkdfStreamingKeyManager.keyTypeManager lib).toKeyManager := ccStreamingAead_gcm _
  rw [e] at h1
  cases h1
  obtain ⟨-, k', h3, -, h4⟩ := getPrimitive_iff.1
    (show (AesGcmHkdfStreamingKeyManager.keyTypeManager lib).getPrimitive (gcmData b) = .ok q from h2)
  have h5 : k' = RotationStreamingExample.gcmKey b := by
    have := h3.symm.trans (gcm_stored hlen)
    simpa using this
  subst h5
  exact h4

/-- What the AES-CTR-HMAC key with 32-byte derived keys is made with. -/
def ctrP : AesCtrHmac.Params := AesCtrHmacStreamingKeyManager.params (ctrKey 32 70 5)

theorem ctr_new {k : Key} (hk : k.data = ctrData 32 70 5) {q : NonceBased Nat State}
    (h : StreamingKeyOf lib k q) : AesCtrHmac.new lib ctrP = .ok q := by
  obtain ⟨cc, h1, h2⟩ := h
  rw [hk] at h1 h2
  have e : ccStreamingAead lib (ctrData 32 70 5).typeUrl =
      some (AesCtrHmacStreamingKeyManager.keyTypeManager lib).toKeyManager := ccStreamingAead_ctr _
  rw [e] at h1
  cases h1
  obtain ⟨-, k', h3, -, h4⟩ := getPrimitive_iff.1
    (show (AesCtrHmacStreamingKeyManager.keyTypeManager lib).getPrimitive (ctrData 32 70 5) = .ok q from h2)
  have h5 : k' = ctrKey 32 70 5 := by
    have := h3.symm.trans (ctr_stored (by decide +kernel))
    simpa using this
  subst h5
  exact h4

/-- No key both decrypts and refuses a ciphertext. -/
theorem not_both {np : NonceBased Nat State} {σd : Type} {text : Exc → Bool} {buffer ad c pt : Bytes}
    (hb : buffer ≠ []) (h1 : DecryptsTo (np.toRaw (σ := σd) text buffer) ad c pt)
    (h2 : RefusesContent (np.toRaw (σ := σd) text buffer) ad c) : False := by
  obtain ⟨t, ht⟩ := h1.1
  obtain ⟨ok, hok, hall⟩ := C79_key np text hb ad t ht
  obtain ⟨⟨q, fuel, hq⟩, -⟩ := (hall _ TerminationExamples.src _ TerminationExamples.src_exhaustible t (c, false) hok).1 1 (by decide)
    (by decide)
  obtain ⟨t', s', r⟩ := q
  have hq' : (np.toRaw (σ := σd) text buffer).stream.run TerminationExamples.src fuel t (1 : Int) (c, false) = some (t', s', r) :=
    hq fuel (Nat.le_refl _)
  have hses : Session (np.toRaw (σ := σd) text buffer).stream TerminationExamples.src t (c, false) ([] ++ [((1 : Int), r)]) t' s' :=
    .read fuel .start (by decide) hq'
  have g1 := h1.2 _ _ _ TerminationExamples.src_faithful TerminationExamples.src_steady _ rfl t ht _ _ _ hses
  have g2 := h2.2 _ _ _ TerminationExamples.src_faithful TerminationExamples.src_steady _ rfl t ht _ _ _ hses
  have g3 := C71_plain_reads np text buffer _ _ _ _ (1 : Nat) _ _ _ _ hq'
  cases r with
  | data b => exact g2.1 (1, .data b) (by simp) b rfl
  | raised e => exact g1.2.1 (1, .raised e) (by simp) e rfl
  | none => exact g3.2.1 rfl
  | blocking => exact g3.2.2 rfl

/-- What the key 7 decrypts is foreign to the key 9. -/
theorem foreign_9 {q : NonceBased Nat State} (h : AesGcmHkdf.new lib (gcmP 7) = .ok q) {σd : Type} {text : Exc → Bool}
    {buffer ad c pt : Bytes} (hb : buffer ≠ []) (hd : DecryptsTo (q.toRaw (σ := σd) text buffer) ad c pt) :
    GcmForeign lib (gcmP 9) ad c := by
  intro _ key hk flag hflag
  cases hdec : lib.gcmDecrypt key (noncePrefixOf (gcmP 9).derivedKeySize.toNat c ++ [0, 0, 0, 0] ++ [flag])
      (firstSegmentOf (gcmP 9).derivedKeySize.toNat (gcmP 9).ciphertextSegmentSize (gcmP 9).ciphertextOffset c) with
  | none => rfl
  | some b =>
    refine (not_both hb hd (C67_gcm_foreign h hd.1 hb ?_)).elim
    intro _ key' hk' flag' hflag'
    cases hdec' : lib.gcmDecrypt key' (noncePrefixOf (gcmP 7).derivedKeySize.toNat c ++ [0, 0, 0, 0] ++ [flag'])
        (firstSegmentOf (gcmP 7).derivedKeySize.toNat (gcmP 7).ciphertextSegmentSize (gcmP 7).ciphertextOffset c) with
    | none => rfl
    | some b' =>
      have e := ToyKeyed.gcm_head (ToyKeyed.hkdf_head (by decide) hk) (ToyKeyed.hkdf_head (by decide) hk') hdec hdec'
      exact absurd e (by decide)

/-- What it decrypts is foreign to the key with derived keys of another size, too. -/
theorem foreign_5 {q : NonceBased Nat State} (h : AesGcmHkdf.new lib (gcmP 7) = .ok q) {σd : Type} {text : Exc → Bool}
    {buffer ad c pt : Bytes} (hb : buffer ≠ []) (hd : DecryptsTo (q.toRaw (σ := σd) text buffer) ad c pt) :
    CtrHmacForeign lib ctrP ad c := by
  rintro ⟨rest, hc, -⟩
  refine (not_both hb hd (C67_gcm_foreign h hd.1 hb ?_)).elim
  rintro ⟨rest', hc', -⟩
  rw [hc] at hc'
  exact absurd (List.cons.inj hc').1 (by decide)

/-! ## A keyset of three keys -/

abbrev L := ToyFileConfig.library lib
abbrev isInst := ToyFileConfig.isInst

theorem handle_gives {k : Key} {q} (hf : Fits k.data) (h : KeyGives L isInst k q) :
    ∃ np, StreamingKeyOf lib k np ∧ q = np.toRaw (fun _ => false) [0, 0, 0, 0, 0] ∧ k.data.typeUrl ∈ streamingTypes :=
  gives_streaming (ToyFileConfig.setup lib) hf h

theorem handle_fits : FitsKeys handle := fun k hk => (usable k hk).2.1

/-- The primary key can encrypt. -/
theorem handle_encrypts : PrimaryEncrypts L isInst (fun _ => false) [0, 0, 0, 0, 0] handle (2 ^ 36) := by
  have hp : (AesGcmHkdfStreamingKeyManager.keyTypeManager lib).getPrimitive (gcmData 7) =
      .ok ⟨AesGcmHkdf.newSegmentEncrypter lib (gcmP 7), AesGcmHkdf.newSegmentDecrypter lib (gcmP 7)⟩ :=
    getPrimitive_iff.2 ⟨rfl, RotationStreamingExample.gcmKey 7, gcm_stored (by decide +kernel),
      gcm_key_iff.2 ⟨rfl, by decide, ⟨.inr (.inl rfl), .inl rfl, by decide⟩⟩, rfl⟩
  have hnew : AesGcmHkdf.new lib (gcmP 7) =
      .ok ⟨AesGcmHkdf.newSegmentEncrypter lib (gcmP 7), AesGcmHkdf.newSegmentDecrypter lib (gcmP 7)⟩ := rfl
  obtain ⟨cc, hc, hr⟩ := streaming_registry (kd := gcmData 7) (lib := lib) (L := L) rfl
    (registryOf_registered (ToyFileConfig.lawful lib) .streamingAead) (by decide)
    (usable oldKey (by simp [handle])).2.1
  have e : ccStreamingAead lib (gcmData 7).typeUrl =
      some (AesGcmHkdfStreamingKeyManager.keyTypeManager lib).toKeyManager := ccStreamingAead_gcm _
  rw [e] at hc
  cases hc
  refine ⟨oldKey, by simp [handle], ⟨rfl, rfl⟩, _, ⟨_, hr.trans (by rw [show
    (AesGcmHkdfStreamingKeyManager.keyTypeManager lib).toKeyManager.getPrimitive (gcmData 7) = _ from hp]; rfl),
    L.rawStreamingAead.view_inj _⟩, C67_aes_gcm_hkdf ToyKeyed.lawful hnew, ?_, ?_⟩
  · intro seed ad se k he
    refine encrypts_mono (C80_gcm_limit ToyKeyed.sound ToyKeyed.working hnew (by decide) he).1 ?_
    obtain ⟨key, -, -, rfl, -⟩ := Gcm.newSegmentEncrypter_ok ToyKeyed.sound he
    unfold segmentsLimit
    rw [show (EncryptingStream.firstSegmentSize _).toNat = 8 from rfl,
      show (SegmentEncrypter.plaintextSegmentSize _).toNat = 32 from rfl]
    omega
  · intro seed object buffer ad
    exact (gcm_opens ToyKeyed.sound hnew rfl (by decide)).2 ToyKeyed.working.hkdf _ object seed buffer ad

open CliExample (os E toy_file) in
open CliStreamingExample (world good good_reads good_writes) in
/-- `C87_round_trip_foreign`: the hypotheses hold with this keyset, in which the right key is the last. -/
example : ∃ (w : World Nat) (x1 x2 : Py Exit × World Nat), w.files 105 = some [1, 2, 3] ∧
    streamingCli L isInst E os good 5 [0, 0, 0] ⟨.encrypt, py! "k", py! "i", py! "o", some [1]⟩ w x1 ∧
    streamingCli L isInst E os good 6 [0, 0, 0] ⟨.decrypt, py! "k", py! "o", py! "q", some [1]⟩ x1.2 x2 ∧
    exitStatus x2 = 0 ∧ x2.2.files 113 = some [1, 2, 3] := by
  obtain ⟨b, hb⟩ := toy_file (h := handle) ((C20_validate_iff _).1 (by decide +kernel))
  have hks : KeysetFile E os (world b [1, 2, 3]).files (py! "k") handle := hb _ _ rfl
  have hprim : ∃ p, handle.primitive isInst (registryOf isInst (registerStreamingAead L)) (L.cls .streamingAead) =
      .ok p := by
    have : (handle.primitive isInst (registryOf isInst (registerStreamingAead L)) .streamingAead).toOption.isSome =
        true := by decide +kernel
    cases h : handle.primitive isInst (registryOf isInst (registerStreamingAead L)) (L.cls .streamingAead) with
    | ok p => exact ⟨p, rfl⟩
    | error e =>
      rw [show handle.primitive isInst (registryOf isInst (registerStreamingAead L)) .streamingAead = .error e from h] at this
      cases this
  have hflag : FlagBytes (some [1]) [1] := rfl
  have H : Ready L isInst E os (world b [1, 2, 3]).files ⟨.encrypt, py! "k", py! "i", py! "o", some [1]⟩ handle [1]
      (if os.file (py! "i") = os.file (py! "o") then [] else [1, 2, 3]) :=
    ⟨hflag, hks, hprim, rfl, [1, 2, 3], ⟨rfl, rfl⟩, rfl⟩
  obtain ⟨⟨x1, hx1⟩, hall⟩ := C87_encrypts (disk := good) (seed := 5) (outBuffer := [0, 0, 0])
    (fl := ⟨.encrypt, py! "k", py! "i", py! "o", some [1]⟩) (w := world b [1, 2, 3]) (ad := [1])
    (ToyFileConfig.setup lib) ToyKeyed.lawful
    H handle_fits rfl handle_encrypts (by decide) good_reads good_writes (by simp)
  obtain ⟨c, hc, hd⟩ := hall x1 hx1
  obtain ⟨⟨x2, hx2⟩, hev⟩ := C87_round_trip_foreign (disk2 := good) (seed2 := 6) (buffer2 := [0, 0, 0]) (ad := [1])
    (plainPath := py! "q") (ToyFileConfig.setup lib) ToyKeyed.lawful CliExample.working hks handle_fits hflag rfl
    (by decide) (by decide) (by decide) hx1 hc.status hc.files.1 (by
      obtain ⟨k, hk, hprim, q, hg, hdec⟩ := hd
      rw [if_neg (by decide)] at hdec
      have e : k = oldKey := by
        have : ∀ k ∈ handle.keyset.key, k.keyId = 7 → k = oldKey := by decide +kernel
        exact this k hk hprim.2
      subst e
      obtain ⟨np, h1, rfl, -⟩ := handle_gives (handle_fits _ hk) hg
      have hnew := gcm_new rfl (by decide +kernel) h1
      intro k' hk' _ hnp np' h'
      simp only [handle, List.mem_cons, List.not_mem_nil, or_false] at hk'
      rcases hk' with rfl | rfl | rfl
      · exact .ctr (ctr_new rfl h') (foreign_5 hnew (by simp) hdec)
      · exact .gcm (gcm_new rfl (by decide +kernel) h') (foreign_9 hnew (by simp) hdec)
      · exact absurd ⟨rfl, rfl⟩ hnp) good_reads good_writes
  exact ⟨_, x1, x2, rfl, hx1, hx2, (hev x2 hx2).1, (hev x2 hx2).2.1⟩

/-! ## A rotated keyset in which another key of the same size is still enabled -/
section Rotated
open RotationKeysetsExample StreamingKeysExamples BufferedExamples

/-- The library of `ToyStreamingConfig`, with keys that matter. -/
def keyedLibrary := { ToyStreamingConfig.library with ccStreamingAead := ccStreamingAead lib }

theorem keyed_lawful : LawfulConfig keyedLibrary ToyStreamingConfig.isInst :=
  { ToyStreamingConfig.lawful with
    ccStreamingAead := by
      intro u h
      simp only [keyTypes, List.mem_cons, Prod.mk.injEq, and_true, List.not_mem_nil, or_false] at h
      rcases h with rfl | rfl
      · exact ⟨(AesCtrHmacStreamingKeyManager.keyTypeManager lib).toKeyManager, rfl, rfl⟩
      · exact ⟨(AesGcmHkdfStreamingKeyManager.keyTypeManager lib).toKeyManager, rfl, rfl⟩ }

def keyedRegistry := runConfig ToyStreamingConfig.isInst keyedLibrary [.register .streamingAead] {}

theorem keyed_registered : PackageRegistered keyedLibrary keyedRegistry .streamingAead :=
  C64_registered (before := []) (after := []) keyed_lawful (.inl rfl) ⟨by simp, by simp⟩ (by simp)

/-- Another key is primary now; all are still enabled. -/
def rotatedHandle : KeysetHandle where
  keyset := { handle.keyset with primaryKeyId := 9 }

theorem rotated_keyed : Rotated keyedRegistry handle [.setPrimaryKey 9] rotatedHandle := by
  obtain ⟨h', H⟩ := exists_rotated (r := keyedRegistry) (h := handle) (ops := [.setPrimaryKey 9]) (by decide +kernel)
  have e := (rotated_iff_run H).1
  have e' : runBuilder keyedRegistry [.setPrimaryKey 9] handle.keyset = some rotatedHandle.keyset := by decide +kernel
  rw [e', Option.some.injEq] at e
  have : h' = rotatedHandle := by cases h'; cases e; rfl
  exact this ▸ H

/-- What is written with the old keyset. -/
def oldStream : Py Encrypting :=
  match handle.primitive ToyStreamingConfig.isInst keyedRegistry .streamingAead with
  | .ok p => (keyedLibrary.streamingAead.view p).newEncryptingStream 3 ⟨true, ((), []), [0, 0, 0, 0, 0, 0, 0]⟩ [1]
  | .error e => .error e

def oldCiphertext : Bytes := ((BufferedExamples.written oldStream wops).map (fun q => q.2.object.2)).getD []

theorem old_ciphertext : (BufferedExamples.written oldStream wops).map (fun q => (q.2.object.2, writtenBytes q.1)) =
    some (oldCiphertext, pieces.flatten) := by decide +kernel

theorem old_foreign_9 : GcmForeign lib (gcmP 9) [1] oldCiphertext := by
  intro _ key hk flag hflag
  have e : key = (lib.hkdf (gcmP 9).hkdfHash (gcmP 9).ikm (saltOf (gcmP 9).derivedKeySize.toNat oldCiphertext) [1]
      (gcmP 9).derivedKeySize.toNat).getD [] := by rw [hk]; rfl
  subst e
  clear hk
  revert flag
  decide +kernel

theorem old_foreign_5 : CtrHmacForeign lib ctrP [1] oldCiphertext := by
  rintro ⟨rest, hc, -⟩
  have : oldCiphertext.head? = some 24 := by decide +kernel
  rw [hc] at this
  exact absurd (Option.some.inj this) (by decide)

def newReads (ops : List ReadOp) : Option (List (ReadOp × ReadResult)) :=
  match rotatedHandle.primitive ToyStreamingConfig.isInst keyedRegistry .streamingAead with
  | .ok p =>
    match (keyedLibrary.streamingAead.view p).newDecryptingStream (oldCiphertext, false) true [1] with
    | .ok w => ToyBuffered.calls (ToyBuffered.rawRead ToyStream.src) 64 w [] ops
    | .error _ => none
  | .error _ => none

example : newReads [.read 5, .read1 100, .read 7, .readAll] =
    some [(.read 5, .data [1, 2, 3, 4, 5]), (.read1 100, .data [6, 7, 8]),
      (.read 7, .data [9, 10, 11, 12, 13, 14, 15]), (.readAll, .data [16, 17])] := by decide +kernel

/-- `C109_streaming_foreign`: the hypotheses hold together. -/
example {ops : List ReadOp} {l : List (ReadOp × ReadResult)} (hl : newReads ops = some l) :
    ∃ pos, ReadsLikeFile pieces.flatten l pos := by
  obtain ⟨-, p, hp, -⟩ := C109_streaming_works (text := fun _ => false) (inBuffer := [0, 0, 0, 0, 0])
    keyed_lawful ToyKeyed.lawful rfl (fun _ => rfl) keyed_registered
    (rotated_nil (h := handle) (by decide +kernel)) (by intro _ _ _ h; cases h) never_none usable.except
  obtain ⟨hu, p', hp', -⟩ := C109_streaming_works (text := fun _ => false) (inBuffer := [0, 0, 0, 0, 0])
    keyed_lawful ToyKeyed.lawful rfl (fun _ => rfl) keyed_registered
    rotated_keyed (by intro _ _ _ h; simp at h) never_none usable.except
  cases hw : BufferedExamples.written oldStream wops with
  | none => exact absurd old_ciphertext (by rw [hw]; simp)
  | some x =>
    obtain ⟨writes, e2⟩ := x
    have h1 := old_ciphertext
    rw [hw, Option.map_some, Option.some.injEq, Prod.mk.injEq] at h1
    obtain ⟨h1, h2⟩ := h1
    dsimp only at h1
    obtain ⟨e, e1, b, g1, g2, g3⟩ := written_ok hw
    have g1' : (keyedLibrary.streamingAead.view p).newEncryptingStream 3 ⟨true, ((), []), [0, 0, 0, 0, 0, 0, 0]⟩ [1] =
        .ok e := by
      have := g1
      unfold oldStream at this
      rw [show handle.primitive ToyStreamingConfig.isInst keyedRegistry .streamingAead = .ok p from hp] at this
      exact this
    unfold newReads at hl
    rw [show rotatedHandle.primitive ToyStreamingConfig.isInst keyedRegistry .streamingAead = .ok p' from hp'] at hl
    dsimp only at hl
    cases hd : (keyedLibrary.streamingAead.view p').newDecryptingStream (oldCiphertext, false) true [1] with
    | error x => rw [hd] at hl; cases hl
    | ok w0 =>
      rw [hd] at hl
      obtain ⟨w, b', h6⟩ := ToyBuffered.reads (by decide) (by decide) hl
      rw [← h2]
      refine (C109_streaming_foreign (text := fun _ => false) (inBuffer := [0, 0, 0, 0, 0]) (L := keyedLibrary)
        (k := oldKey) ToyKeyed.lawful rfl (by simp) (fun _ => rfl) keyed_registered keyed_registered rotated_keyed
        (usable_keysOf usable) (except_keysOf hu) hp hp' (by decide +kernel) (by decide +kernel)
        (by simp [Spares]) ToySegments.sink_honest g1' g2 g3
        ToyStream.src_faithful ToyStream.src_steady h1.symm ?_ hd h6).2
      rw [h1]
      intro k' hk' _ hne np' h'
      simp only [rotatedHandle, handle, List.mem_cons, List.not_mem_nil, or_false] at hk'
      rcases hk' with rfl | rfl | rfl
      · exact .ctr (ctr_new rfl h') old_foreign_5
      · exact .gcm (gcm_new rfl (by decide +kernel) h') old_foreign_9
      · exact absurd rfl hne

end Rotated

/-! ## Ideal cryptography -/
section Ideal
open StreamingKeysExamples ToySegments

/-- `C68_gcm_never_used`, `C67_gcm_foreign`: with this key nothing was encrypted for the associated data `03`. -/
example (c : Bytes) : RefusesContent ((gcm ideal).toRaw (σ := Unit) (fun _ => false) [0, 0, 0, 0, 0]) [3] c :=
  C68_gcm_never_used (new_gcm ideal) ((gcm_opens ideal_sound (new_gcm ideal) rfl (by decide)).1 _ _) (by simp)
    (gcm_ideal 3) (by rintro m (rfl | rfl) <;> decide) c

/-- `C68_ctr_never_used`, `C67_ctr_foreign`. -/
example (c : Bytes) : RefusesContent ((ctr ideal).toRaw (σ := Unit) (fun _ => false) [0, 0, 0, 0, 0]) [3] c :=
  C68_ctr_never_used ideal_sound (new_ctr ideal) (by simp) (ctr_ideal 3) (by rintro m (rfl | rfl) <;> decide) c

/-- A header with another prefix of the nonces than those of the messages. -/
def otherHeader : Bytes := 24 :: List.replicate 23 9

/-- `C68_gcm_foreign`: with this key a message was encrypted for the associated data `01`, but no ciphertext starts
with this header. -/
example (rest : Bytes) : GcmForeign ideal gcmParams [1] (otherHeader ++ rest) := by
  refine C68_gcm_foreign ideal_sound (gcm_ideal 1) ?_
  have e : noncePrefixOf gcmParams.derivedKeySize.toNat (otherHeader ++ rest) = List.replicate 7 9 := rfl
  rintro m key (rfl | rfl) - - <;> rw [e] <;> decide

/-- `C68_ctr_foreign`. -/
example (rest : Bytes) : CtrHmacForeign ideal ctrParams [1] (otherHeader ++ rest) := by
  refine C68_ctr_foreign ideal_sound (ctr_ideal 1) ?_
  have e : noncePrefixOf ctrParams.keySize.toNat (otherHeader ++ rest) = List.replicate 7 9 := rfl
  rintro m key key' hmacKey (rfl | rfl) - - <;> rw [e] <;> decide

end Ideal

end StreamingForeignExample
end Tink.Props
