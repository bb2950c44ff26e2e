import Verif.Props.SegmentCrypters
import Verif.Props.StreamingKeyset
import Verif.Examples.ToySegments

/-!
# C67, C68, C69: concrete cases

The hypotheses of the theorems in `Props/SegmentCrypters` and `Props/CcStreaming` hold for an
AES-GCM-HKDF key and an AES-CTR-HMAC key with toy cryptography, for ciphertexts of several segments.
-/

namespace Tink.Props
open Spec Segment
namespace StreamingKeysExamples
open ToySegments

/-- The plaintext, in the pieces in which it is written. -/
def pieces : List Bytes := [[1, 2, 3, 4, 5], [6, 7, 8, 9, 10, 11, 12, 13, 14, 15], [], [16, 17]]

def gcmCiphertext : Bytes :=
  [24] ++ List.replicate 16 3 ++ List.replicate 7 4 ++
  [1, 2, 3, 4, 5, 6, 7, 8] ++ [4, 4, 4, 4, 4, 4, 4, 0, 0, 0, 0, 0, 0, 0, 0, 0] ++
  [9, 10, 11, 12, 13, 14, 15, 16, 17] ++ [4, 4, 4, 4, 4, 4, 4, 0, 0, 0, 1, 1, 0, 0, 0, 0]

def ctrCiphertext : Bytes :=
  [24] ++ List.replicate 16 3 ++ List.replicate 7 4 ++
  [1, 2, 3, 4] ++ [0, 0, 0, 0, 0, 0, 0, 0, 0, 1] ++
  [5, 6, 7, 8, 9, 10, 11, 12, 13, 14, 15, 16, 17] ++ [0, 0, 0, 1, 1, 0, 0, 0, 0, 5]

example : encrypt (gcm lib) [1] pieces = some gcmCiphertext := by decide +kernel
example : encrypt (ctr lib) [1] pieces = some ctrCiphertext := by decide +kernel

/-- What `encrypt` did. -/
theorem writeAll_ok {t0 t : CcEncrypting Nat (Unit × Bytes)} {P c : Bytes} {bs : List Bytes}
    (hb : ∀ b ∈ bs, b.length < 2 ^ 31) (hw : Written (recordedSink sink) t0 P t)
    (h : writeAll t bs = some c) :
    ∃ t1 t2, Written (recordedSink sink) t0 (P ++ bs.flatten) t1 ∧
      t1.close (recordedSink sink) 100 = some (t2, .ok ()) ∧ t2.object.2 = c := by
  induction bs generalizing t P with
  | nil =>
    unfold writeAll at h
    split at h
    · rename_i t2 u hc
      simp only [Option.some.injEq] at h
      exact ⟨t, t2, by simpa using hw, hc, h⟩
    · cases h
  | cons b bs ih =>
    unfold writeAll at h
    split at h
    · rename_i t2 n hc
      split at h
      · rename_i hn
        have := ih (fun x hx => hb x (by simp [hx])) (Written.write 100 hw (hb b (by simp)) hc) h
        rw [hn, List.take_length] at this
        simpa using this
      · cases h
    · cases h

theorem encrypt_ok {p : NonceBased Nat State} {ad c : Bytes} {bs : List Bytes}
    (hb : ∀ b ∈ bs, b.length < 2 ^ 31) (h : encrypt p ad bs = some c) :
    ∃ t t1 t2, p.newRawEncryptingStream 3 ⟨true, ((), []), [0, 0, 0, 0, 0, 0, 0]⟩ ad = .ok t ∧
      Written (recordedSink sink) t bs.flatten t1 ∧
      t1.close (recordedSink sink) 100 = some (t2, .ok ()) ∧ t2.object.2 = c := by
  unfold encrypt at h
  split at h
  · rename_i t ht
    obtain ⟨t1, t2, h1⟩ := writeAll_ok hb .start h
    exact ⟨t, t1, t2, ht, h1⟩
  · cases h

/-- `C67_aes_gcm_hkdf`, `C67_round_trip`: this ciphertext decrypts to this plaintext. -/
theorem gcm_decrypts : DecryptsTo ((gcm lib).toRaw (σ := Unit) (fun _ => false) [0, 0, 0, 0, 0]) [1]
    gcmCiphertext [1, 2, 3, 4, 5, 6, 7, 8, 9, 10, 11, 12, 13, 14, 15, 16, 17] := by
  obtain ⟨t, t1, t2, h1, h2, h3, h4⟩ := encrypt_ok (p := gcm lib) (ad := [1]) (bs := pieces)
    (c := gcmCiphertext) (by decide) (by decide +kernel)
  rw [← h4]
  exact C67_round_trip (C67_aes_gcm_hkdf lawful (new_gcm lib)) sink_honest h1 h2 h3 (by simp)

/-- `C67_aes_ctr_hmac`, `C67_round_trip`: this ciphertext decrypts to this plaintext. -/
theorem ctr_decrypts : DecryptsTo ((ctr lib).toRaw (σ := Unit) (fun _ => false) [0, 0, 0, 0, 0]) [1]
    ctrCiphertext [1, 2, 3, 4, 5, 6, 7, 8, 9, 10, 11, 12, 13, 14, 15, 16, 17] := by
  obtain ⟨t, t1, t2, h1, h2, h3, h4⟩ := encrypt_ok (p := ctr lib) (ad := [1]) (bs := pieces)
    (c := ctrCiphertext) (by decide) (by decide +kernel)
  rw [← h4]
  exact C67_round_trip (C67_aes_ctr_hmac lawful (new_ctr lib)) sink_honest h1 h2 h3 (by simp)

/-- ... and so it does, from a source that delivers two bytes at a time, with pauses. -/
example : decrypt (gcm lib) [1] gcmCiphertext [3, 100, 3, 3, -1, -1] =
    [some (.data [1, 2, 3]), some (.data [4, 5, 6, 7, 8]), some (.data [9, 10, 11]),
      some (.data [12, 13, 14]), some (.data [15, 16, 17]), some (.data [])] := by decide +kernel
example : plaintext (decrypt (ctr lib) [1] ctrCiphertext [3, 100, 3, 3, -1, -1]) =
    some pieces.flatten := by decide +kernel

/-- `C69_aes_gcm_hkdf`: the format of this ciphertext. -/
example : ∃ key salt noncePrefix, salt.length = 16 ∧ noncePrefix.length = 7 ∧
    lib.hkdf HashType.SHA256 (List.replicate 16 7) salt [1] 16 = some key ∧
    StreamFormat (lib.gcmEncrypt key) 8 32 salt noncePrefix pieces.flatten gcmCiphertext := by
  obtain ⟨t, t1, t2, h1, h2, h3, h4⟩ := encrypt_ok (p := gcm lib) (ad := [1]) (bs := pieces)
    (c := gcmCiphertext) (by decide) (by decide +kernel)
  rw [← h4]
  exact C69_aes_gcm_hkdf lawful (new_gcm lib) sink_honest h1 h2 h3

/-- `C69_aes_ctr_hmac`: the format of this ciphertext. -/
example : ∃ key hmacKey salt noncePrefix, salt.length = 16 ∧ noncePrefix.length = 7 ∧
    CtrHmacKeys lib ctrParams salt [1] key hmacKey ∧
    StreamFormat (ctrHmacSegment lib ctrParams key hmacKey) 4 28 salt noncePrefix pieces.flatten
      ctrCiphertext := by
  obtain ⟨t, t1, t2, h1, h2, h3, h4⟩ := encrypt_ok (p := ctr lib) (ad := [1]) (bs := pieces)
    (c := ctrCiphertext) (by decide) (by decide +kernel)
  rw [← h4]
  exact C69_aes_ctr_hmac lawful (new_ctr lib) sink_honest h1 h2 h3

/-- `C69_nonces_distinct`: the nonces of three segments. -/
example : (List.range 3).map (fun j => segmentNonce [4, 4, 4, 4, 4, 4, 4] j 3) =
    [[4, 4, 4, 4, 4, 4, 4, 0, 0, 0, 0, 0], [4, 4, 4, 4, 4, 4, 4, 0, 0, 0, 1, 0],
      [4, 4, 4, 4, 4, 4, 4, 0, 0, 0, 2, 1]] := by decide +kernel

/-! ### A ciphertext of another key -/

/-- `C67_refuses`: the AES-CTR-HMAC key refuses the ciphertext of the AES-GCM-HKDF key. -/
theorem ctr_refuses : RefusesContent
    ((ctr lib).toRaw (σ := Unit) (fun _ => false) [0, 0, 0, 0, 0]) [1] gcmCiphertext := by
  refine C67_refuses (sd := AesCtrHmac.decrypter lib ctrParams [1]) (v := none) (by simp) rfl
    (Ctr.sober [1]) (by decide) (by decide) (.inr (.inr ⟨_, rfl, ?_⟩))
  intro last b h
  have : Except.isOk ((AesCtrHmac.decrypter lib ctrParams [1]).decryptSegment
      ((AesCtrHmac.decrypter lib ctrParams [1]).init none (gcmCiphertext.take 24)).1
      ((gcmCiphertext.drop 24).take 14) 0 last) = false := by
    cases last <;> decide +kernel
  have e := congrArg Except.isOk h
  exact absurd (this.symm.trans e) (by simp [Except.isOk, Except.toBool])

/-! ### A keyset of two keys -/
namespace Keyset

abbrev Raw := RawStreamingAead (Dest (Unit × Bytes)) (CcEncrypting Nat (Unit × Bytes))
  (CcDecrypting State)
abbrev Wrapped := StreamingAead (Bytes × Bool) (Dest (Unit × Bytes))
  (CcEncrypting Nat (Unit × Bytes)) (CcDecrypting State)

/-- Primitive objects. -/
abbrev Prim := Sum Raw Wrapped

def gcmRaw (lib : SegmentLibrary) : Raw := (gcm lib).toRaw (fun _ => false) [0, 0, 0, 0, 0]
def ctrRaw (lib : SegmentLibrary) : Raw := (ctr lib).toRaw (fun _ => false) [0, 0, 0, 0, 0]

def rawView : View Prim Raw where
  inj := .inl
  view | .inl a => a | .inr _ => gcmRaw lib
  view_inj _ := rfl
def streamView : View Prim Wrapped where
  inj := .inr
  view | .inr a => a | .inl _ => ⟨fun _ _ _ => .error .tinkError, fun _ _ _ => .error .tinkError⟩
  view_inj _ := rfl

def manager (lib : SegmentLibrary) : KeyManager Prim Bool where
  pyType := 1
  primitiveClass := false
  keyType := ['s']
  doesSupport u := u = ['s']
  primitive kd := .ok (.inl (if kd.value = [1] then gcmRaw lib else ctrRaw lib))
  newKeyData _ _ := .error .tinkError

def wrapper : PrimitiveWrapper Prim Bool := streamingAeadWrapper rawView streamView 2 false true

def registry (lib : SegmentLibrary) : Registry Prim Bool where
  keyManagers := [(['s'], (manager lib, true))]
  wrappers := [(true, wrapper)]

def isInst : Prim → Bool → Bool
  | .inl _, c => c = false
  | .inr _, c => c = true

def key (v : UInt8) (id : UInt32) : Key :=
  { keyData := some { typeUrl := ['s'], value := [v],
                      keyMaterialType := KeyMaterialType.SYMMETRIC }
    status := KeyStatusType.ENABLED, keyId := id, outputPrefixType := OutputPrefixType.RAW }

def ks : Keyset := { primaryKeyId := 9, key := [key 2 8, key 1 9] }
def kps (lib : SegmentLibrary) : List (Key × Prim) := [(key 2 8, .inl (ctrRaw lib)), (key 1 9, .inl (gcmRaw lib))]
def prim (lib : SegmentLibrary) : Prim :=
  .inr (WrappedStreamingAead.wrap ((psetOf false 9 (kps lib)).map rawView.view))

theorem obtained (lib : SegmentLibrary) :
    Obtained isInst wrapper (registry lib) ⟨ks⟩ true (kps lib) (prim lib) :=
  ⟨rfl, rfl, rfl, by
    intro q hq
    simp only [kps, List.mem_cons, List.not_mem_nil, or_false] at hq
    rcases hq with rfl | rfl <;> rfl⟩

/-- `C67_keyset_round_trip`: the hypotheses hold for this keyset, whose primary key is the AES-GCM-HKDF
key, and which tries the AES-CTR-HMAC key first. -/
example {w0 w : DecryptingStreamWrapper (Bytes × Bool) (Dest (Unit × Bytes))
      (CcEncrypting Nat (Unit × Bytes)) (CcDecrypting State)} {calls : Calls}
    (hnew : (streamView.view (prim lib)).newDecryptingStream (gcmCiphertext, false) true [1] = .ok w0)
    (hist : StreamHistory ToyStream.src w0 calls w) :
    Calls.bytes calls <+: pieces.flatten ∧ (∀ c ∈ calls, ∀ e, c.2 ≠ .raised e) ∧
      ((∃ c ∈ calls, c.2 = .data []) → Calls.bytes calls = pieces.flatten) := by
  obtain ⟨t, t1, t2, h1, h2, h3, h4⟩ := encrypt_ok (p := gcm lib) (ad := [1]) (bs := pieces)
    (c := gcmCiphertext) (by decide) (by decide +kernel)
  refine C67_keyset_round_trip (o := .inl (gcmRaw lib)) (k := key 1 9) (seed := 3) (s0 := ())
    (outBuffer := [0, 0, 0, 0, 0, 0, 0]) (obtained lib) (obtained lib)
    (C67_aes_gcm_hkdf lawful (new_gcm lib)) (by simp) rfl ?_ sink_honest ?_ h2 h3
    ToyStream.src_faithful ToyStream.src_steady h4.symm ?_ ?_ hnew hist
  · rfl
  · exact ((C54_keyset (obtained lib)).1 (key 1 9) (.inl (gcmRaw lib)) rfl _ _ _).trans h1
  · exact ⟨(key 1 9, .inl (gcmRaw lib)), by simp [kps], rfl⟩
  · intro q hq
    simp only [kps, List.mem_cons, List.not_mem_nil, or_false] at hq
    rcases hq with rfl | rfl
    · exact .inr (.inr ctr_refuses)
    · exact .inl rfl

/-- ... and reading gives the plaintext. -/
example : (match (streamView.view (prim lib)).newDecryptingStream (gcmCiphertext, false) true [1] with
    | .ok w => plaintext (ToyStream.results ToyStream.src 100 w [3, 3, -1, -1, -1])
    | .error _ => none) = some pieces.flatten := by
  decide +kernel

end Keyset

/-! ### Bytes appended to a ciphertext -/

/-- C68, violation of what one might expect.  Some bytes were appended to a ciphertext, and it still
decrypts: the last segment of this one is full, so the stream never looks beyond it. -/
theorem C68_appended_bytes_witness : ∃ C, encrypt (gcm lib) [1] [[1, 2, 3, 4, 5, 6, 7, 8]] = some C ∧
    decrypt (gcm lib) [1] (C ++ [66, 67, 68]) [-1, -1] =
      [some (.data [1, 2, 3, 4, 5, 6, 7, 8]), some (.data [])] :=
  ⟨[24] ++ List.replicate 16 3 ++ List.replicate 7 4 ++ [1, 2, 3, 4, 5, 6, 7, 8] ++
    [4, 4, 4, 4, 4, 4, 4, 0, 0, 0, 0, 1, 0, 0, 0, 0], by decide +kernel, by decide +kernel⟩

/-- If the last segment is not full, they are noticed. -/
example : decrypt (gcm lib) [1] (gcmCiphertext ++ [66, 67, 68]) [9, -1] =
    [some (.data [1, 2, 3, 4, 5, 6, 7, 8]), some (.raised .tinkError)] := by decide +kernel

/-! ### Ideal decryption and verification -/

/-- Two messages, for different associated data. -/
def m1 : StreamMessage := ⟨3, [1], [[1, 2, 3, 4, 5, 6, 7, 8], [9, 10, 11]]⟩
def m2 : StreamMessage := ⟨5, [2], [[20, 21]]⟩
def msgs (m : StreamMessage) : Prop := m = m1 ∨ m = m2

/-- The key that is derived for a message. -/
def derived (seed ad : UInt8) : Bytes := [1, ad] ++ List.replicate 14 seed

/-- What was encrypted: key, nonce, plaintext. -/
def log : List (Bytes × Bytes × Bytes) :=
  [(derived 3 1, [4, 4, 4, 4, 4, 4, 4, 0, 0, 0, 0, 0], [1, 2, 3, 4, 5, 6, 7, 8]),
   (derived 3 1, [4, 4, 4, 4, 4, 4, 4, 0, 0, 0, 1, 1], [9, 10, 11]),
   (derived 5 2, [6, 6, 6, 6, 6, 6, 6, 0, 0, 0, 0, 1], [20, 21])]

/-- Decryption and verification succeed only for what is in the log. -/
def ideal : SegmentLibrary where
  hkdf := lib.hkdf
  gcmEncrypt := lib.gcmEncrypt
  gcmDecrypt k n c :=
    match gcmDecrypt k n c with
    | some b => if (k, n, b) ∈ log then some b else none
    | none => none
  ctrEncrypt := lib.ctrEncrypt
  ctrDecrypt := lib.ctrDecrypt
  hmac := lib.hmac
  hmacVerify h k t d :=
    some (decide (k ∈ [derived 3 1 ++ derived 3 1, derived 5 2 ++ derived 5 2] ∧
      (k.take 16, d.take 12, d.drop 16) ∈ log ∧ d = d.take 12 ++ [0, 0, 0, 0] ++ d.drop 16 ∧
      hmacVerify h k t d = some true))
  random := lib.random
  random' := lib.random'

theorem ideal_sound : SoundLibrary ideal where
  hkdf := sound.hkdf
  random := sound.random
  random' := sound.random'
  gcmLength := sound.gcmLength
  ctrSame := sound.ctrSame
  hmacLength := sound.hmacLength

theorem hkdf_1 : lib.hkdf gcmParams.hkdfHash gcmParams.ikm (lib.random m1.seed 16) m1.ad 16 =
    some (derived 3 1) := by decide +kernel
theorem hkdf_2 : lib.hkdf gcmParams.hkdfHash gcmParams.ikm (lib.random m2.seed 16) m2.ad 16 =
    some (derived 5 2) := by decide +kernel

/-- With another byte as associated data another key is derived. -/
theorem hkdf_ad {salt : Bytes} {a b c : UInt8} {n : Nat} (hn : 16 ≤ n) {k : Bytes}
    (h : lib.hkdf HashType.SHA256 (List.replicate 16 7) salt [a] n = some k)
    (hk : k.take 16 = derived c b) : b = a := by
  simp only [lib, hkdf, Option.some.injEq] at h
  subst h
  have e := congrArg (fun l : Bytes => l[1]?) hk
  simp only [fit, derived] at e
  rw [List.getElem?_take_of_lt (by omega), List.getElem?_take_of_lt (by omega)] at e
  simpa using e.symm

/-- `C68_aes_gcm_hkdf`: the hypotheses hold for these messages and any recipient who expects one byte
of associated data. -/
theorem gcm_ideal (a : UInt8) : GcmIdeal ideal gcmParams [a] msgs where
  unforgeable salt key n c b _ h := by
    simp only [ideal] at h
    split at h
    · split at h
      · rename_i hm
        simp only [Option.some.injEq] at h
        subst h
        simp only [log, List.mem_cons, Prod.mk.injEq, List.not_mem_nil, or_false] at hm
        rcases hm with ⟨rfl, rfl, rfl⟩ | ⟨rfl, rfl, rfl⟩ | ⟨rfl, rfl, rfl⟩
        · exact ⟨m1, .inl rfl, hkdf_1, 0, by decide, by decide, rfl, by decide +kernel⟩
        · exact ⟨m1, .inl rfl, hkdf_1, 1, by decide, by decide, rfl, by decide +kernel⟩
        · exact ⟨m2, .inr rfl, hkdf_2, 0, by decide, by decide, rfl, by decide +kernel⟩
      · cases h
    · cases h
  fresh m m' key h h' _ _ he := by
    rcases h with rfl | rfl <;> rcases h' with rfl | rfl
    · rfl
    · exact absurd he (by decide +kernel)
    · exact absurd he (by decide +kernel)
    · rfl
  separate m salt key h h1 h2 := by
    rcases h with rfl | rfl
    · have := h1.symm.trans hkdf_1
      simp only [Option.some.injEq] at this
      subst this
      have := hkdf_ad (b := 1) (c := 3) (Nat.le_refl 16) h2 (by decide)
      subst this
      rfl
    · have := h1.symm.trans hkdf_2
      simp only [Option.some.injEq] at this
      subst this
      have := hkdf_ad (b := 2) (c := 5) (Nat.le_refl 16) h2 (by decide)
      subst this
      rfl

/-- What a recipient who expects the associated data `[1]` can get. -/
example : DeliversOneOf ((gcm ideal).toRaw (σ := Unit) (fun _ => false) [0, 0, 0, 0, 0]) [1]
    fun P => ∃ m, msgs m ∧ m.ad = [1] ∧ P = m.segments.flatten :=
  C68_aes_gcm_hkdf ideal_sound (new_gcm ideal)
    (by rintro m (rfl | rfl) <;> simp [m1, m2]) (gcm_ideal 1)

/-- ... and does get, from the ciphertext of the first message. -/
example : (encrypt (gcm ideal) [1] m1.segments).map
      (fun C => decrypt (gcm ideal) [1] C [9, 9, 9]) =
    some [some (.data [1, 2, 3, 4, 5, 6, 7, 8]), some (.data [9, 10, 11]), some (.data [])] := by
  decide +kernel

/-- ... with other associated data ... -/
example : (encrypt (gcm ideal) [1] m1.segments).map
      (fun C => decrypt (gcm ideal) [2] C [-1, -1]) =
    some [some (.raised .tinkError), some (.raised .tinkError)] := by
  decide +kernel

/-- ... and if the second segment is missing. -/
example : (encrypt (gcm ideal) [1] m1.segments).map
      (fun C => decrypt (gcm ideal) [1] (C.take 48) [-1, -1]) =
    some [some (.raised .tinkError), some (.raised .tinkError)] := by
  decide +kernel

theorem keys_of {salt ad key hk : Bytes} (h : CtrHmacKeys ideal ctrParams salt ad key hk) :
    ∃ block, block.length = 16 ∧ key = block ∧ hk = block ++ block ∧
      lib.hkdf HashType.SHA256 (List.replicate 16 7) salt ad 16 = some block := by
  obtain ⟨h1, h2⟩ := h
  have hb : (fit 16 (UInt8.ofNat ad.length :: (ad ++ salt))).length = 16 := fit_length _ _
  refine ⟨fit 16 (UInt8.ofNat ad.length :: (ad ++ salt)), hb, ?_⟩
  simp only [ideal, lib, hkdf, Option.some.injEq] at h1 ⊢
  have e : fit (ctrParams.keySize.toNat + 32) (fit 16 (UInt8.ofNat ad.length :: (ad ++ salt)) ++
      fit 16 (UInt8.ofNat ad.length :: (ad ++ salt)) ++ fit 16 (UInt8.ofNat ad.length :: (ad ++ salt))) =
      fit 16 (UInt8.ofNat ad.length :: (ad ++ salt)) ++ (fit 16 (UInt8.ofNat ad.length :: (ad ++ salt)) ++
        fit 16 (UInt8.ofNat ad.length :: (ad ++ salt))) := by
    rw [fit_self (by simp [hb, ctrParams]), List.append_assoc]
  rw [e] at h1
  have h3 : key.length = (fit 16 (UInt8.ofNat ad.length :: (ad ++ salt))).length := by
    rw [h2, hb]; rfl
  obtain ⟨a, b⟩ := List.append_inj h1.symm h3
  refine ⟨a, b, ?_⟩
  generalize fit 16 (UInt8.ofNat ad.length :: (ad ++ salt)) = bl at hb
  rw [fit, List.append_assoc, List.append_assoc, ← hb, List.take_left]

theorem keys_1 : CtrHmacKeys ideal ctrParams (ideal.random m1.seed 16) m1.ad (derived 3 1)
    (derived 3 1 ++ derived 3 1) := by unfold CtrHmacKeys; decide +kernel
theorem keys_2 : CtrHmacKeys ideal ctrParams (ideal.random m2.seed 16) m2.ad (derived 5 2)
    (derived 5 2 ++ derived 5 2) := by unfold CtrHmacKeys; decide +kernel

/-- `C68_aes_ctr_hmac`: the hypotheses hold for these messages and any recipient who expects one byte
of associated data. -/
theorem ctr_ideal (a : UInt8) : CtrHmacIdeal ideal ctrParams [a] msgs where
  unforgeable salt key hk d t _ h := by
    simp only [ideal, Option.some.injEq, decide_eq_true_eq] at h
    obtain ⟨h1, h2, h3, -⟩ := h
    simp only [List.mem_cons, List.not_mem_nil, or_false] at h1
    simp only [log, List.mem_cons, Prod.mk.injEq, List.not_mem_nil, or_false] at h2
    rcases h1 with rfl | rfl <;>
      rcases h2 with ⟨e1, e2, e3⟩ | ⟨e1, e2, e3⟩ | ⟨e1, e2, e3⟩ <;>
      first | exact absurd e1 (by decide) | (rw [e2, e3] at h3; subst h3)
    · exact ⟨m1, _, .inl rfl, keys_1, 0,
        [4, 4, 4, 4, 4, 4, 4, 0, 0, 0, 0, 0], _, _, ⟨by decide, by decide, rfl, by decide +kernel⟩, rfl,
        by decide +kernel⟩
    · exact ⟨m1, _, .inl rfl, keys_1, 1,
        [4, 4, 4, 4, 4, 4, 4, 0, 0, 0, 1, 1], _, _, ⟨by decide, by decide, rfl, by decide +kernel⟩, rfl,
        by decide +kernel⟩
    · exact ⟨m2, _, .inr rfl, keys_2, 0,
        [6, 6, 6, 6, 6, 6, 6, 0, 0, 0, 0, 1], _, _, ⟨by decide, by decide, rfl, by decide +kernel⟩, rfl,
        by decide +kernel⟩
  fresh m m' key key' hk h h' _ _ he := by
    rcases h with rfl | rfl <;> rcases h' with rfl | rfl
    · rfl
    · exact absurd he (by decide +kernel)
    · exact absurd he (by decide +kernel)
    · rfl
  separate m salt key key' hk h h1 h2 := by
    obtain ⟨b1, l1, rfl, e1, f1⟩ := keys_of h1
    obtain ⟨b2, l2, rfl, e2, f2⟩ := keys_of h2
    rw [e1] at e2
    have he : key = key' := (List.append_inj e2 (by omega)).1
    subst he
    refine ⟨?_, rfl⟩
    rcases h with rfl | rfl
    · have := f1.symm.trans hkdf_1
      simp only [Option.some.injEq] at this
      subst this
      have := hkdf_ad (b := 1) (c := 3) (Nat.le_refl 16) f2 (by decide)
      subst this
      rfl
    · have := f1.symm.trans hkdf_2
      simp only [Option.some.injEq] at this
      subst this
      have := hkdf_ad (b := 2) (c := 5) (Nat.le_refl 16) f2 (by decide)
      subst this
      rfl

/-- What a recipient who expects the associated data `[2]` can get. -/
example : DeliversOneOf ((ctr ideal).toRaw (σ := Unit) (fun _ => false) [0, 0, 0, 0, 0]) [2]
    fun P => ∃ m, msgs m ∧ m.ad = [2] ∧ P = m.segments.flatten :=
  C68_aes_ctr_hmac ideal_sound (new_ctr ideal)
    (by rintro m (rfl | rfl) <;> simp [m1, m2]) (ctr_ideal 2)

/-- `C68_keyset`: the hypotheses hold for the keyset of these two keys. -/
example {src : Source (Bytes × Bool)} {w0 w : DecryptingStreamWrapper (Bytes × Bool)
      (Dest (Unit × Bytes)) (CcEncrypting Nat (Unit × Bytes)) (CcDecrypting State)} {calls : Calls}
    {s : Bytes × Bool} (hnew : (Keyset.streamView.view (Keyset.prim ideal)).newDecryptingStream s true [1] =
      .ok w0) (hist : StreamHistory src w0 calls w) :
    FromOneOf (fun P => ∃ m, msgs m ∧ m.ad = [1] ∧ P = m.segments.flatten) calls := by
  have hne : ∀ m, msgs m → m.segments ≠ [] := by rintro m (rfl | rfl) <;> simp [m1, m2]
  refine C68_keyset (Keyset.obtained ideal) ?_ hnew hist
  intro q hq
  simp only [Keyset.kps, List.mem_cons, List.not_mem_nil, or_false] at hq
  rcases hq with rfl | rfl
  · exact ⟨⟨_, rfl⟩, C68_aes_ctr_hmac ideal_sound (new_ctr ideal) hne (ctr_ideal 1)⟩
  · exact ⟨⟨_, rfl⟩, C68_aes_gcm_hkdf ideal_sound (new_gcm ideal) hne (gcm_ideal 1)⟩

end StreamingKeysExamples
end Tink.Props
