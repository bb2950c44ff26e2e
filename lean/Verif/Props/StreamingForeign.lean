import Verif.Spec.StreamingForeign
import Verif.Props.CliStreaming
import Verif.Props.RotationStreaming

/-!
# C67, C68, C87, C109: ciphertexts of other keys

In a keyset, every enabled key that precedes the right one must refuse a ciphertext.  That a key does so is
reduced here to what its cryptographic functions do with the first segment.
-/

namespace Tink.Props
open Spec Segment

variable {lib : SegmentLibrary} {σd : Type} {text : Exc → Bool} {buffer ad C : Bytes}

theorem take_drop_take {α : Type} {l : List α} {a b c : Nat} (h : a + b ≤ c) :
    ((l.take c).drop a).take b = (l.drop a).take b := by
  rw [List.drop_take, List.take_take, Nat.min_eq_left (by omega)]

theorem flag_mem (last : Bool) : (if last then (1 : UInt8) else 0) ∈ [(0 : UInt8), 1] := by
  cases last <;> decide

theorem first_segment {n : Nat} {segment offset : Int} :
    (C.drop (1 + n + 7)).take (segment - offset - (1 + n + 7 : Nat)).toNat = firstSegmentOf n segment offset C := rfl

theorem hasHeader_of {n : Nat} (hn : n = 16 ∨ n = 32) (hlen : (C.take (1 + n + 7)).length = 1 + n + 7)
    (h : ((C.take (1 + n + 7)).headD 0).toNat = 1 + n + 7) : HasHeader n C := by
  cases C with
  | nil => simp at hlen
  | cons x l =>
    rw [show 1 + n + 7 = (n + 7) + 1 by omega, List.take_succ_cons] at hlen h
    refine ⟨l, ?_, by simp at hlen; omega⟩
    have : x = UInt8.ofNat (1 + n + 7) := by
      apply UInt8.toNat_inj.1
      rw [UInt8.toNat_ofNat']
      simp only [List.headD_cons] at h
      rcases hn with rfl | rfl <;> omega
    rw [this]

theorem gcm_init_head {p : AesGcmHkdf.Params} {h : Bytes} {v v' : State}
    (hi : AesGcmHkdf.init lib p ad v h = (v', .ok ())) :
    (h.length : Int) = 1 + p.derivedKeySize + 7 ∧ ((h.headD 0).toNat : Int) = 1 + p.derivedKeySize + 7 := by
  unfold AesGcmHkdf.init at hi
  cases v with
  | some _ => simp at hi
  | none =>
    dsimp only at hi
    by_cases h1 : (h.length : Int) ≠ 1 + p.derivedKeySize + noncePrefixSize
    · rw [if_pos h1] at hi; simp [invalidArgument] at hi
    · rw [if_neg h1] at hi
      by_cases h2 : ((h.headD 0).toNat : Int) ≠ 1 + p.derivedKeySize + noncePrefixSize
      · rw [if_pos h2] at hi; simp [invalidArgument] at hi
      · exact ⟨Decidable.not_not.1 h1, Decidable.not_not.1 h2⟩

theorem ctr_init_head {p : AesCtrHmac.Params} {h : Bytes} {v v' : State}
    (hi : AesCtrHmac.init lib p ad v h = (v', .ok ())) :
    (h.length : Int) = 1 + p.keySize + 7 ∧ (h.headD 0).toNat = h.length := by
  unfold AesCtrHmac.init at hi
  cases v with
  | some _ => simp at hi
  | none =>
    dsimp only at hi
    by_cases h1 : (h.length : Int) ≠ AesCtrHmac.headerSize p
    · rw [if_pos h1] at hi; simp [invalidArgument] at hi
    · rw [if_neg h1] at hi
      by_cases h2 : (h.headD 0).toNat ≠ h.length
      · rw [if_pos h2] at hi; simp [invalidArgument] at hi
      · exact ⟨Decidable.not_not.1 h1, Decidable.not_not.1 h2⟩

/-- C67.  An AES-GCM-HKDF key with which streams can be made refuses a ciphertext that has no header of the
right size for it, or whose first segment does not pass AES-GCM. -/
theorem C67_gcm_foreign {p : AesGcmHkdf.Params} {np : NonceBased Nat State} (h : AesGcmHkdf.new lib p = .ok np)
    (hopen : ∃ t, np.newRawDecryptingStream buffer ad = .ok t) (hb : buffer ≠ [])
    (hf : GcmForeign lib p ad C) : RefusesContent (np.toRaw (σ := σd) text buffer) ad C := by
  obtain ⟨rfl, a1, a2, a3, a4, a5⟩ := Gcm.new_ok h
  obtain ⟨t, ht⟩ := hopen
  obtain ⟨v', g1, -, g3⟩ := open_ok ht
  have g2 := Gcm.newSegmentDecrypter_ok g1
  rw [g2.1, g2.2] at g1 g3
  have hsize : DecryptingStream.firstSegmentSize (AesGcmHkdf.decrypter lib p ad) =
      p.ciphertextSegmentSize - p.ciphertextOffset - (1 + p.derivedKeySize.toNat + 7 : Nat) := by
    simp only [DecryptingStream.firstSegmentSize, AesGcmHkdf.decrypter, noncePrefixSize]; omega
  have hhead : (AesGcmHkdf.decrypter lib p ad).headerSize.toNat = 1 + p.derivedKeySize.toNat + 7 := by
    simp only [AesGcmHkdf.decrypter, noncePrefixSize]; omega
  have hpos : 0 < DecryptingStream.firstSegmentSize (AesGcmHkdf.decrypter lib p ad) := by
    unfold DecryptingStream.new at g3
    split at g3
    · cases g3
    · omega
  refine C67_refuses hb g1 (Gcm.sober ad) (by omega) hpos ?_
  unfold RefusesStart
  rw [hhead, hsize]
  cases hv : (AesGcmHkdf.decrypter lib p ad).init none (C.take (1 + p.derivedKeySize.toNat + 7)) with
  | mk v' x =>
    cases x with
    | error e => exact .inr (.inl ⟨_, _, rfl⟩)
    | ok u =>
      refine .inr (.inr ⟨v', rfl, ?_⟩)
      intro last b hd
      rw [Gcm.init_eq] at hv
      obtain ⟨x, key, rfl, -, hx, hk⟩ := Gcm.init_ok hv
      rw [Gcm.dec_eq] at hd
      obtain ⟨x', key', k', hv', -, hdec⟩ := Gcm.decryptSegment_ok hd
      obtain ⟨rfl, rfl, -⟩ : x = x' ∧ key = key' ∧ [] = k' := by simpa using hv'
      rw [take_drop_take (by omega)] at hx hk
      have g := gcm_init_head hv
      have := hf (hasHeader_of (by omega) (by omega) (by omega)) key hk _ (flag_mem last)
      rw [first_segment, hx] at hdec
      exact absurd (this.symm.trans hdec) (by simp)

theorem ctr_tag_fits {p : AesCtrHmac.Params} {v : State} {c b : Bytes} {j : Nat} {last : Bool}
    (h : AesCtrHmac.decryptSegment lib p v c j last = .ok b) : p.tagSize ≤ c.length := by
  unfold AesCtrHmac.decryptSegment at h
  match v with
  | none => simp at h
  | some (x, key, hk) =>
    dsimp only at h
    by_cases h1 : p.ciphertextSegmentSize < c.length
    · rw [if_pos h1] at h; simp [invalidArgument] at h
    · rw [if_neg h1] at h
      by_cases h2 : (c.length : Int) < p.tagSize
      · rw [if_pos h2] at h; simp [invalidArgument] at h
      · omega

/-- C67.  An AES-CTR-HMAC key refuses a ciphertext that has no header of the right size for it, or whose first
segment has a wrong tag. -/
theorem C67_ctr_foreign (hl : SoundLibrary lib) {p : AesCtrHmac.Params} {np : NonceBased Nat State}
    (h : AesCtrHmac.new lib p = .ok np) (hb : buffer ≠ []) (hf : CtrHmacForeign lib p ad C) :
    RefusesContent (np.toRaw (σ := σd) text buffer) ad C := by
  obtain ⟨rfl, hval⟩ := Ctr.new_ok h
  obtain ⟨-, -, a3, a4, a5, a6, -⟩ := Ctr.validate_ok hval
  have hsize : DecryptingStream.firstSegmentSize (AesCtrHmac.decrypter lib p ad) =
      p.ciphertextSegmentSize - p.ciphertextOffset - (1 + p.keySize.toNat + 7 : Nat) := by
    simp only [DecryptingStream.firstSegmentSize, AesCtrHmac.decrypter, AesCtrHmac.headerSize, noncePrefixSize]; omega
  have hhead : (AesCtrHmac.decrypter lib p ad).headerSize.toNat = 1 + p.keySize.toNat + 7 := by
    simp only [AesCtrHmac.decrypter, AesCtrHmac.headerSize, noncePrefixSize]; omega
  refine C67_refuses (sd := AesCtrHmac.decrypter lib p ad) hb (Ctr.newSegmentDecrypter_eq hval) (Ctr.sober ad)
    (by omega) (by omega) ?_
  unfold RefusesStart
  rw [hhead, hsize]
  cases hv : (AesCtrHmac.decrypter lib p ad).init none (C.take (1 + p.keySize.toNat + 7)) with
  | mk v' x =>
    cases x with
    | error e => exact .inr (.inl ⟨_, _, rfl⟩)
    | ok u =>
      refine .inr (.inr ⟨v', rfl, ?_⟩)
      intro last b hd
      rw [Ctr.init_eq] at hv
      obtain ⟨x, key, hk, rfl, -, hx, hder⟩ := Ctr.init_ok hv
      have hkeys := (Ctr.deriveKeys_ok hl hder).1
      rw [Ctr.dec_eq] at hd
      have hlen := ctr_tag_fits hd
      obtain ⟨x', key', hk', hv', -, ht, -⟩ := Ctr.decryptSegment_ok hd
      obtain ⟨rfl, rfl, rfl⟩ : x = x' ∧ key = key' ∧ hk = hk' := by simpa using hv'
      rw [take_drop_take (by omega)] at hx hkeys
      rw [first_segment] at ht hlen
      have g := ctr_init_head hv
      refine hf (hasHeader_of (by omega) (by omega) (by omega)) key hk hkeys _ (flag_mem last) _ _ (List.take_append_drop _ _).symm ?_ (hx ▸ ht)
      rw [List.length_drop]
      omega

/-- C67.  A key of either kind refuses a ciphertext that is foreign to it. -/
theorem C67_foreign (hl : SoundLibrary lib) {np : NonceBased Nat State} (hopen : Opens lib np) (hb : buffer ≠ [])
    (hf : ForeignStream lib ad C np) : RefusesContent (np.toRaw (σ := σd) text buffer) ad C := by
  cases hf with
  | gcm h hf => exact C67_gcm_foreign h (hopen.1 _ _) hb hf
  | ctr h hf => exact C67_ctr_foreign hl h hb hf

/-! ## Ideal cryptography -/

/-- C68.  With ideal AES-GCM and HKDF, a ciphertext is foreign to an AES-GCM-HKDF key unless its header is that of a
message that was encrypted with this key. -/
theorem C68_gcm_foreign (hl : SoundLibrary lib) {p : AesGcmHkdf.Params} {msgs : StreamMessage → Prop}
    (hi : GcmIdeal lib p ad msgs) (hu : GcmUnused lib p ad msgs C) : GcmForeign lib p ad C := by
  intro hh key hk flag _
  cases hd : lib.gcmDecrypt key (noncePrefixOf p.derivedKeySize.toNat C ++ [0, 0, 0, 0] ++ [flag])
      (firstSegmentOf p.derivedKeySize.toNat p.ciphertextSegmentSize p.ciphertextOffset C) with
  | none => rfl
  | some b =>
    obtain ⟨m, hm, hmk, j, _, _, _, hn⟩ := hi.unforgeable _ _ _ _ _ hk hd
    refine absurd ?_ (hu m key hm hmk hk)
    rw [List.append_assoc, List.append_assoc] at hn
    refine (List.append_inj hn ?_).1.symm
    obtain ⟨rest, rfl, hlen⟩ := hh
    rw [hl.random', noncePrefixOf, List.length_take, List.length_drop, List.length_cons]
    omega

/-- C68.  With ideal HMAC and HKDF, a ciphertext is foreign to an AES-CTR-HMAC key unless its header is that of a
message that was encrypted with this key. -/
theorem C68_ctr_foreign (hl : SoundLibrary lib) {p : AesCtrHmac.Params} {msgs : StreamMessage → Prop}
    (hi : CtrHmacIdeal lib p ad msgs) (hu : CtrHmacUnused lib p ad msgs C) : CtrHmacForeign lib p ad C := by
  intro hh key hmacKey hk flag _ ct tag _ _ hv
  obtain ⟨m, key', hm, hmk, j, n, b, c, ⟨_, _, _, rfl⟩, _, hn⟩ := hi.unforgeable _ _ _ _ _ hk hv
  refine absurd ?_ (hu m key' key hmacKey hm hmk hk)
  simp only [List.append_assoc] at hn
  refine (List.append_inj hn ?_).1.symm
  obtain ⟨rest, rfl, hlen⟩ := hh
  rw [hl.random', noncePrefixOf, List.length_take, List.length_drop, List.length_cons]
  omega

/-- C68.  In particular, with ideal cryptography a key with which nothing was encrypted for the associated data `ad`
refuses every ciphertext. -/
theorem C68_gcm_never_used {p : AesGcmHkdf.Params} {np : NonceBased Nat State}
    (h : AesGcmHkdf.new lib p = .ok np) (hopen : ∃ t, np.newRawDecryptingStream buffer ad = .ok t)
    (hb : buffer ≠ []) {msgs : StreamMessage → Prop} (hi : GcmIdeal lib p ad msgs)
    (hno : ∀ m, msgs m → m.ad ≠ ad) (C : Bytes) : RefusesContent (np.toRaw (σ := σd) text buffer) ad C := by
  refine C67_gcm_foreign h hopen hb ?_
  intro _ key hk flag _
  cases hd : lib.gcmDecrypt key (noncePrefixOf p.derivedKeySize.toNat C ++ [0, 0, 0, 0] ++ [flag])
      (firstSegmentOf p.derivedKeySize.toNat p.ciphertextSegmentSize p.ciphertextOffset C) with
  | none => rfl
  | some b =>
    obtain ⟨m, hm, hmk, -⟩ := hi.unforgeable _ _ _ _ _ hk hd
    exact absurd (hi.separate _ _ _ hm hmk hk) (hno m hm)

/-- C68.  The same for AES-CTR-HMAC. -/
theorem C68_ctr_never_used (hl : SoundLibrary lib) {p : AesCtrHmac.Params} {np : NonceBased Nat State}
    (h : AesCtrHmac.new lib p = .ok np) (hb : buffer ≠ []) {msgs : StreamMessage → Prop}
    (hi : CtrHmacIdeal lib p ad msgs) (hno : ∀ m, msgs m → m.ad ≠ ad) (C : Bytes) :
    RefusesContent (np.toRaw (σ := σd) text buffer) ad C := by
  refine C67_ctr_foreign hl h hb ?_
  intro _ key hmacKey hk flag _ ct tag _ _ hv
  obtain ⟨m, key', hm, hmk, -⟩ := hi.unforgeable _ _ _ _ _ hk hv
  exact absurd (hi.separate _ _ _ _ _ hm hmk hk).1 (hno m hm)

/-! ## Keysets -/

section Cli
open Config Cli Io
variable {P C F κ : Type} [DecidableEq C] {L : FileLibrary P C} {isInst : P → C → Bool}
  {inBuffer : Bytes} {E : JsonFormatEnv F} {os : Os} {w : World κ}

/-- What the streaming AEAD of a key is. -/
theorem gives_streaming (hs : StreamingSetup L isInst lib text inBuffer) {k : Key} (hfit : Fits k.data) {q}
    (hq : KeyGives L isInst k q) :
    ∃ np, StreamingKeyOf lib k np ∧ q = np.toRaw text inBuffer ∧ k.data.typeUrl ∈ streamingTypes := by
  obtain ⟨o, ho, rfl⟩ := hq
  have ho' := ho
  unfold Registry.primitive at ho
  obtain ⟨m, hm, ho⟩ := bind_ok_iff.1 ho
  split at ho
  · cases ho
  · rename_i hcls
    have hcls : m.primitiveClass = L.cls .rawStreamingAead := Decidable.not_not.1 hcls
    unfold Registry.keyManager Registry.keyManagerInternal at hm
    cases hg : PyDict.get? (registryOf isInst (registerStreamingAead L)).keyManagers k.data.typeUrl with
    | none => rw [hg] at hm; cases hm
    | some mb =>
      obtain ⟨m', b⟩ := mb
      obtain ⟨c, hc⟩ := registryOf_types hs.config .streamingAead hg
      have hall : ∀ x ∈ keyTypes .streamingAead, x.1 ∈ streamingTypes := by decide
      have hu := hall _ hc
      obtain ⟨np, h1, h2⟩ := streaming_key hs.keys (registryOf_registered hs.config .streamingAead) hs.streams hu hfit ho'
      exact ⟨np, h1, by rw [h2, L.rawStreamingAead.view_inj], hu⟩

/-- C87.  A run that encrypts, with status 0, is undone by a run that decrypts with the same keyset and associated
data, if to the other enabled keys the ciphertext is foreign. -/
theorem C87_round_trip_foreign (hs : StreamingSetup L isInst lib text inBuffer) (hlib : Spec.LawfulLibrary lib)
    (hos : Spec.Working os)
    {keysetPath inputPath cipherPath plainPath : Path} {flag : Option PyStr} {disk1 disk2 : Disk} {seed1 seed2 : Seed}
    {buffer1 buffer2 : Bytes} {x1 : Py Exit × World κ} {h : KeysetHandle} {ad pt c : Bytes}
    (hks : KeysetFile E os w.files keysetPath h) (hfit : FitsKeys h) (had : FlagBytes flag ad)
    (hin : w.files (os.file inputPath) = some pt) (hkc : os.file keysetPath ≠ os.file cipherPath)
    (hic : os.file inputPath ≠ os.file cipherPath) (hcp : os.file cipherPath ≠ os.file plainPath)
    (hrun : streamingCli L isInst E os disk1 seed1 buffer1 ⟨.encrypt, keysetPath, inputPath, cipherPath, flag⟩ w x1)
    (hok : exitStatus x1 = 0) (hc : x1.2.files (os.file cipherPath) = some c)
    (hothers : ∀ k ∈ h.keyset.key, Enabled k → ¬ IsPrimaryKey h.keyset k → ∀ np, StreamingKeyOf lib k np →
      ForeignStream lib ad c np)
    (hreads : Disk.Reads disk2) (hwrites : Disk.Writes disk2) :
    (∃ x2, streamingCli L isInst E os disk2 seed2 buffer2 ⟨.decrypt, keysetPath, cipherPath, plainPath, flag⟩ x1.2 x2) ∧
    ∀ x2, streamingCli L isInst E os disk2 seed2 buffer2 ⟨.decrypt, keysetPath, cipherPath, plainPath, flag⟩ x1.2 x2 →
      exitStatus x2 = 0 ∧ x2.2.files (os.file plainPath) = some pt ∧
      ∀ f, f ≠ os.file cipherPath → f ≠ os.file plainPath → x2.2.files f = w.files f := by
  refine C87_round_trip hs hlib hos hks hfit had hin hkc hic hcp hrun hok hc ?_ hreads hwrites
  intro k hk hen q hq
  by_cases hpk : IsPrimaryKey h.keyset k
  · rcases C87_encrypt hs hlib (fun h' hk' => by cases keysetFile_unique hks hk'; exact hfit) rfl hrun with
      ⟨-, h1, -⟩ | ⟨h', ad', input, c', H, ⟨hl, hd⟩ | hl⟩
    · rw [hok] at h1; cases h1
    · cases keysetFile_unique hks H.keyset
      cases flagBytes_unique had H.flag
      obtain ⟨content, hcontent, rfl⟩ := H.input
      have h1 := hcontent.2
      dsimp only at h1 hd
      rw [hin] at h1; cases h1
      rw [if_neg hic] at hd
      have h2 := hl.files.1
      dsimp only at h2
      rw [hc] at h2; cases h2
      obtain ⟨k', hk', hprim, q', hgives, hdec⟩ := hd
      obtain ⟨p, hp⟩ := H.primitive
      have hval := (C20_validate_iff _).1 (primitive_ok_iff.1 hp).1
      have hone : k' = k := by
        apply Decidable.byContradiction
        intro hne
        rcases two_mem hk' hk hne with ⟨a, b, c, habc⟩ | ⟨a, b, c, habc⟩
        · exact hval.one_primary _ _ _ _ _ habc ⟨hprim, hpk⟩
        · exact hval.one_primary _ _ _ _ _ habc ⟨hpk, hprim⟩
      cases hone
      obtain ⟨o, ho, rfl⟩ := hq
      obtain ⟨o', ho', rfl⟩ := hgives
      rw [ho] at ho'; cases ho'
      exact .inl hdec
    · have := hl.status
      rw [hok] at this; cases this
  · obtain ⟨np, h1, rfl, hu⟩ := gives_streaming hs (hfit k hk) hq
    exact .inr (C67_foreign hlib.toSoundLibrary (streaming_opens hlib.toSoundLibrary hu h1) hs.buffer
      (hothers k hk hen hpk np h1))

end Cli

section Rotated
open Config Io Cc
variable {σ σd P C : Type} [DecidableEq C]
  {L : Library σ (Dest (σd × Bytes)) (CcEncrypting Nat (σd × Bytes)) (CcDecrypting State) (NonceBased Nat State) P C}
  {isInst : P → C → Bool} {rb r r' : Registry P C} {h h' : KeysetHandle} {ops : List BuilderOp} {p p' : P}
  {inBuffer : Bytes}

/-- C109, streaming AEAD.  If the primary key is neither disabled nor deleted, the rotated keyset decrypts what was
encrypted before, provided that the ciphertext is foreign to the other enabled keys. -/
theorem C109_streaming_foreign (hl : Spec.LawfulLibrary lib) (hcc : L.ccStreamingAead = ccStreamingAead lib)
    (hb : inBuffer ≠ []) (hpy : ∀ q, L.streamingCcToPy q = q.toRaw text inBuffer)
    (hr : PackageRegistered L r .streamingAead) (hr' : PackageRegistered L r' .streamingAead)
    (H : Rotated rb h ops h') (hk : KeysOf streamingTypes h.keyset) (hk' : KeysOf streamingTypes h'.keyset)
    (hp : h.primitive isInst r (L.cls .streamingAead) = .ok p)
    (hp' : h'.primitive isInst r' (L.cls .streamingAead) = .ok p')
    {k : Key} (hm : k ∈ h.keyset.key) (hpk : IsPrimaryKey h.keyset k) (hs : ∀ op ∈ ops, Spares k.keyId op)
    -- encryption
    {snk : CSink σd} (hsnk : Honest snk) {seed : Seed} {s0 : σd} {outBuffer ad : Bytes}
    {e e1 e2 : CcEncrypting Nat (σd × Bytes)}
    (he : (L.streamingAead.view p).newEncryptingStream seed ⟨true, (s0, []), outBuffer⟩ ad = .ok e)
    {writes : List (WriteOp × Py Nat)} {waiting : Bytes}
    (hw : WriterHistory (CcEncrypting.RawWrite (recordedSink snk)) e writes e1 waiting)
    (hc : BufferedClose (CcEncrypting.RawWrite (recordedSink snk)) (CcEncrypting.RawClose (recordedSink snk))
      e1 waiting e2 (.ok ()))
    -- decryption
    {src : Source σ} {rest : σ → Bytes} (hsrc : Faithful src rest) (hst : Steady src) {s : σ}
    (hrest : rest s = e2.object.2)
    (hothers : ∀ k' ∈ h'.keyset.key, Enabled k' → k' ≠ k → ∀ q, StreamingKeyOf lib k' q →
      ForeignStream lib ad e2.object.2 q)
    {readable : Bool}
    {w0 w : DecryptingStreamWrapper σ (Dest (σd × Bytes)) (CcEncrypting Nat (σd × Bytes)) (CcDecrypting State)}
    {reads : List (ReadOp × ReadResult)} {ahead : Bytes}
    (hnew : (L.streamingAead.view p').newDecryptingStream s readable ad = .ok w0)
    (hist : ReaderHistory (DecryptingStreamWrapper.RawRead src) w0 reads w ahead) :
    (∀ x ∈ writes, ∃ n, x.2 = .ok n) ∧ ∃ pos, ReadsLikeFile (writtenBytes writes) reads pos :=
  C109_streaming hl hcc hb hpy hr hr' H hk hk' hp hp' hm hpk hs hsnk he hw hc hsrc hst hrest
    (fun k' hm' hen hne q hq => .inr (C67_foreign hl.toSoundLibrary
      (streaming_opens hl.toSoundLibrary (hk' k' hm' hen).1 hq) hb (hrest ▸ hothers k' hm' hen hne q hq))) hnew hist

end Rotated
end Tink.Props
