import Verif.Spec.SegmentCrypters
import Verif.Props.CcStreaming
import Verif.Props.PrimitiveSet

/-!
# C67, C68: the two kinds of streaming AEAD keys
-/

namespace Tink.Props
open Tink.Spec Segment

/-! ## Nonces -/

theorem nonce_length (x : Bytes) (j : Nat) (last : Bool) : (nonce x j last).length = x.length + 5 := by
  simp [nonce, be32]

theorem nonce_inj {x y : Bytes} {j j' : Nat} {last last' : Bool} (hl : x.length = y.length)
    (hj : j < 2 ^ 32) (hj' : j' < 2 ^ 32) (h : nonce x j last = nonce y j' last') :
    x = y ∧ j = j' ∧ last = last' := by
  simp only [nonce, List.append_assoc] at h
  obtain ⟨h1, h2⟩ := List.append_inj h hl
  obtain ⟨h3, h4⟩ := List.append_inj h2 (by simp [be32])
  refine ⟨h1, be32_inj hj hj' h3, ?_⟩
  cases last <;> cases last' <;> simp_all

theorem not_tooMany {j : Nat} {last : Bool} (h : tooMany j last = false) : j < 2 ^ 32 := by
  simp [tooMany] at h
  omega

theorem checked_ok {α : Type} {o : Option α} {a : α} (h : checked o = .ok a) : o = some a := by
  cases o with
  | none => simp [checked] at h
  | some b => simpa [checked] using h

theorem checked_error {α : Type} {o : Option α} {e : Status} (h : checked o = .error e) :
    e.code ≠ .outOfRange := by
  cases o with
  | none => simp only [checked, Except.error.injEq] at h; subst h; simp [Code.internal]
  | some b => simp [checked] at h

theorem makeHeader_length (s x : Bytes) : (makeHeader s x).length = 1 + s.length + x.length := by
  simp [makeHeader]; omega

/-- In a message whose segments have numbers from 0 to 2³² - 1, a place is determined by the nonce. -/
theorem at_nonce {m : StreamMessage} {x n b : Bytes} {j : Nat} (h : m.At x j n b) :
    n = nonce x j (decide (j + 1 = m.segments.length)) := by
  obtain ⟨hj, _, _, hn⟩ := h
  simp [nonce, hn]

/-! ## AES-GCM-HKDF -/

namespace Gcm
open AesGcmHkdf

variable {lib : SegmentLibrary} {p : Params}

theorem encryptSegment_ok {key x : Bytes} {size : Int} {j k : Nat} {b c : Bytes} {last : Bool}
    (h : encryptSegment lib key x size j b last = (k, .ok c)) :
    b.length ≤ size ∧ tooMany j last = false ∧ lib.gcmEncrypt key (nonce x j last) b = some c ∧
      k = j + 1 := by
  unfold encryptSegment at h
  by_cases h1 : size < b.length
  · simp [h1, invalidArgument] at h
  · rw [if_neg h1] at h
    by_cases h2 : tooMany j last = true
    · simp [h2, invalidArgument] at h
    · rw [if_neg h2] at h
      cases h3 : lib.gcmEncrypt key (nonce x j last) b with
      | none => simp [h3, checked] at h
      | some c' =>
        simp only [h3, Prod.mk.injEq, Except.ok.injEq] at h
        refine ⟨by omega, by simpa using h2, by rw [h.2], h.1.symm⟩

theorem emitted_number {key salt x : Bytes} {bs cs : List Bytes} {k : Nat}
    (h : Emitted (encrypter lib p key salt x) 0 bs cs k) : k = bs.length := by
  induction h with
  | start => rfl
  | more h he ih =>
    have := encryptSegment_ok he
    simp [this.2.2.2, ih]

/-- What is written for the segments of a message. -/
theorem emitted_segments {key salt x : Bytes} {bs cs : List Bytes} {k : Nat}
    (h : Emitted (encrypter lib p key salt x) 0 bs cs k) :
    ∀ j, ∀ h1 : j < bs.length, ∀ h2 : j < cs.length,
      lib.gcmEncrypt key (nonce x j false) bs[j] = some cs[j] := by
  induction h with
  | start => intro j h1; simp at h1
  | @more bs cs k1 b k2 c h he ih =>
    intro j h1 h2
    have hl := Decrypting.emitted_length h
    have hn := emitted_number h
    have he' := (encryptSegment_ok he).2.2.1
    by_cases hj : j < bs.length
    · rw [List.getElem_append_left hj, List.getElem_append_left (by omega)]
      exact ih j hj (by omega)
    · have : j = bs.length := by simp at h1; omega
      subst this
      rw [List.getElem_concat_length rfl]
      simp only [hl, List.getElem_concat_length]
      rw [← hl, ← hn]; exact he'

theorem init_ok {ad h : Bytes} {v v' : State} (hi : init lib p ad v h = (v', .ok ())) :
    ∃ x key, v' = some (x, key, []) ∧ h.length = 1 + p.derivedKeySize + 7 ∧
      x = (h.drop (1 + p.derivedKeySize.toNat)).take 7 ∧
      lib.hkdf p.hkdfHash p.ikm ((h.drop 1).take p.derivedKeySize.toNat) ad
        p.derivedKeySize.toNat = some key := by
  unfold init at hi
  cases v with
  | some _ => simp at hi
  | none =>
    dsimp only at hi
    by_cases h1 : (h.length : Int) ≠ 1 + p.derivedKeySize + noncePrefixSize
    · rw [if_pos h1] at hi; simp [invalidArgument] at hi
    · rw [if_neg h1] at hi
      by_cases h2 : ((h.headD 0).toNat : Int) ≠ 1 + p.derivedKeySize + noncePrefixSize
      · rw [if_pos h2] at hi; simp [invalidArgument] at hi
      · rw [if_neg h2] at hi
        cases h3 : lib.hkdf p.hkdfHash p.ikm ((h.drop 1).take p.derivedKeySize.toNat) ad
            p.derivedKeySize.toNat with
        | none => simp only [h3, checked, Prod.mk.injEq, reduceCtorEq, and_false] at hi
        | some key =>
          simp only [h3, Prod.mk.injEq, and_true] at hi
          exact ⟨_, key, hi.symm, Decidable.not_not.mp h1, rfl, rfl⟩

theorem init_header {ad salt x key : Bytes} (hs : (salt.length : Int) = p.derivedKeySize)
    (hx : x.length = 7) (h32 : salt.length ≤ 32)
    (hk : lib.hkdf p.hkdfHash p.ikm salt ad p.derivedKeySize.toNat = some key) :
    init lib p ad none (makeHeader salt x) = (some (x, key, []), .ok ()) := by
  have hn : p.derivedKeySize.toNat = salt.length := by omega
  rw [hn] at hk
  unfold init
  dsimp only
  rw [if_neg (by rw [makeHeader_length, hx, ← hs]; simp [noncePrefixSize]),
    if_neg (by
      simp only [makeHeader, List.headD_cons, UInt8.toNat_ofNat', hx, ← hs, noncePrefixSize]
      have : (1 + salt.length + 7) % 2 ^ 8 = 1 + salt.length + 7 := Nat.mod_eq_of_lt (by omega)
      omega)]
  have e1 : ((makeHeader salt x).drop 1).take salt.length = salt := by simp [makeHeader]
  have e2 : ((makeHeader salt x).drop (1 + salt.length)).take noncePrefixSize = x := by
    rw [Nat.add_comm]
    simp [makeHeader, noncePrefixSize, ← hx]
  rw [hn, e1, e2, hk]

theorem decryptSegment_ok {v : State} {c b : Bytes} {j : Nat} {last : Bool}
    (h : decryptSegment lib p v c j last = .ok b) :
    ∃ x key k', v = some (x, key, k') ∧ tooMany j last = false ∧
      lib.gcmDecrypt key (nonce x j last) c = some b := by
  unfold decryptSegment at h
  match v with
  | none => simp at h
  | some (x, key, k') =>
    dsimp only at h
    by_cases h1 : p.ciphertextSegmentSize < c.length
    · rw [if_pos h1] at h; simp [invalidArgument] at h
    · rw [if_neg h1] at h
      by_cases h2 : c.length < tagSize
      · rw [if_pos h2] at h; simp [invalidArgument] at h
      · rw [if_neg h2] at h
        by_cases h3 : tooMany j last = true
        · rw [if_pos h3] at h; simp [invalidArgument] at h
        · rw [if_neg h3] at h
          exact ⟨x, key, k', rfl, by simpa using h3, checked_ok h⟩

theorem init_eq (ad : Bytes) (v : State) (h : Bytes) :
    (decrypter lib p ad).init v h = init lib p ad v h := rfl

theorem dec_eq (ad : Bytes) (v : State) (c : Bytes) (j : Nat) (last : Bool) :
    (decrypter lib p ad).decryptSegment v c j last = decryptSegment lib p v c j last := rfl

theorem sober (ad : Bytes) : Sober (decrypter lib p ad) where
  init v h v' e he := by
    change init lib p ad v h = (v', .error e) at he
    unfold init at he
    cases v with
    | some _ => simp only [Prod.mk.injEq, Except.error.injEq] at he; rw [← he.2]; simp
    | none =>
      dsimp only at he
      split at he
      · simp only [invalidArgument, Prod.mk.injEq, Except.error.injEq] at he
        rw [← he.2]; simp [Code.invalidArgument]
      · split at he
        · simp only [invalidArgument, Prod.mk.injEq, Except.error.injEq] at he
          rw [← he.2]; simp [Code.invalidArgument]
        · split at he
          · simp only [Prod.mk.injEq] at he; exact checked_error he.2
          · simp at he
  decrypt v c j last e he := by
    change decryptSegment lib p v c j last = .error e at he
    unfold decryptSegment at he
    split at he
    · simp only [Except.error.injEq] at he; rw [← he]; simp
    · split at he
      · simp only [invalidArgument, Except.error.injEq] at he; rw [← he]; simp [Code.invalidArgument]
      · split at he
        · simp only [invalidArgument, Except.error.injEq] at he; rw [← he]; simp [Code.invalidArgument]
        · split at he
          · simp only [invalidArgument, Except.error.injEq] at he; rw [← he]; simp [Code.invalidArgument]
          · exact checked_error he

/-- What is known of an encrypter that was made. -/
theorem newSegmentEncrypter_ok (hl : SoundLibrary lib) {seed : Seed} {ad : Bytes}
    {se : SegmentEncrypter Nat} {k : Nat} (h : newSegmentEncrypter lib p seed ad = .ok (se, k)) :
    ∃ key, lib.hkdf p.hkdfHash p.ikm (lib.random seed p.derivedKeySize.toNat) ad
        p.derivedKeySize.toNat = some key ∧ k = 0 ∧
      se = encrypter lib p key (lib.random seed p.derivedKeySize.toNat) (lib.random' seed 7) ∧
      (p.derivedKeySize.toNat = 16 ∨ p.derivedKeySize.toNat = 32) ∧ 0 ≤ p.ciphertextOffset ∧
      p.ciphertextOffset + (1 + p.derivedKeySize.toNat + 7 : Nat) + 16 < p.ciphertextSegmentSize := by
  unfold newSegmentEncrypter at h
  dsimp only at h
  cases h1 : lib.hkdf p.hkdfHash p.ikm (lib.random seed p.derivedKeySize.toNat) ad
      p.derivedKeySize.toNat with
  | none => rw [h1] at h; simp [checked, bind, Except.bind] at h
  | some key =>
    rw [h1] at h
    simp only [checked, bind, Except.bind] at h
    have hk := hl.hkdf _ _ _ _ _ _ h1
    cases h2 : validateEncrypter p key (lib.random seed p.derivedKeySize.toNat) with
    | error e => rw [h2] at h; simp at h
    | ok u =>
      rw [h2] at h
      simp only [pure, Except.pure, Except.ok.injEq, Prod.mk.injEq] at h
      refine ⟨key, rfl, h.2.symm, h.1.symm, ?_⟩
      unfold validateEncrypter at h2
      rw [hl.random, hk] at h2
      by_cases g1 : p.derivedKeySize.toNat = 16 ∨ p.derivedKeySize.toNat = 32
      · refine ⟨g1, ?_⟩
        rw [if_neg (by rcases g1 with g | g <;> simp [g]), if_neg (by simp)] at h2
        by_cases g2 : p.ciphertextOffset < 0
        · rw [if_pos g2] at h2; simp [invalidArgument] at h2
        · rw [if_neg g2] at h2
          by_cases g3 : p.ciphertextSegmentSize ≤
              p.ciphertextOffset + (1 + p.derivedKeySize.toNat + noncePrefixSize : Nat) + tagSize
          · rw [if_pos g3] at h2; simp [invalidArgument] at h2
          · simp only [noncePrefixSize, tagSize] at g3
            exact ⟨by omega, by omega⟩
      · rw [if_pos (by simp at g1 ⊢; exact g1)] at h2
        simp [invalidArgument] at h2

theorem new_ok {np : NonceBased Nat State} (h : new lib p = .ok np) :
    np = ⟨newSegmentEncrypter lib p, newSegmentDecrypter lib p⟩ ∧ hashSupported p.hkdfHash = true ∧
      16 ≤ p.ikm.length ∧ p.derivedKeySize ≤ p.ikm.length ∧
      (p.derivedKeySize = 16 ∨ p.derivedKeySize = 32) ∧ 0 ≤ p.ciphertextOffset := by
  unfold new at h
  cases h1 : validate p with
  | error e => rw [h1] at h; simp [bind, Except.bind] at h
  | ok u =>
    rw [h1] at h
    simp only [bind, Except.bind, pure, Except.pure, Except.ok.injEq] at h
    refine ⟨h.symm, ?_⟩
    unfold validate at h1
    by_cases g1 : hashSupported p.hkdfHash = true
    · rw [if_neg (by simp [g1])] at h1
      by_cases g2 : p.ikm.length < 16 ∨ (p.ikm.length : Int) < p.derivedKeySize
      · rw [if_pos (by simpa using g2)] at h1; simp [invalidArgument] at h1
      · rw [if_neg (by simpa using g2)] at h1
        by_cases g3 : p.derivedKeySize = 16 ∨ p.derivedKeySize = 32
        · rw [if_neg (by rcases g3 with g | g <;> simp [g])] at h1
          by_cases g4 : p.ciphertextOffset < 0
          · rw [if_pos g4] at h1; simp [invalidArgument] at h1
          · exact ⟨g1, by omega, by omega, g3, by omega⟩
        · rw [if_pos (by simp at g3 ⊢; exact g3)] at h1; simp [invalidArgument] at h1
    · rw [if_pos (by simp [g1])] at h1; simp [invalidArgument] at h1

theorem newSegmentDecrypter_some {ad : Bytes} (h1 : hashSupported p.hkdfHash = true)
    (h2 : 16 ≤ p.ikm.length) (h3 : p.derivedKeySize ≤ p.ikm.length)
    (h4 : p.derivedKeySize = 16 ∨ p.derivedKeySize = 32) (h5 : 0 ≤ p.ciphertextOffset)
    (h6 : p.ciphertextOffset + (1 + p.derivedKeySize + 7) + 16 < p.ciphertextSegmentSize) :
    newSegmentDecrypter lib p ad = .ok (decrypter lib p ad, none) := by
  have : validateDecrypter p = .ok () := by
    unfold validateDecrypter
    rw [if_neg (by simp [h1]), if_neg (by rcases h4 with g | g <;> simp [g]),
      if_neg (by simp; omega), if_neg (by omega),
      if_neg (by simp only [noncePrefixSize, tagSize]; omega)]
  unfold newSegmentDecrypter
  rw [this]
  rfl

theorem newSegmentDecrypter_ok {ad : Bytes} {sd : SegmentDecrypter State} {v : State}
    (h : newSegmentDecrypter lib p ad = .ok (sd, v)) : sd = decrypter lib p ad ∧ v = none := by
  unfold newSegmentDecrypter at h
  cases h1 : validateDecrypter p with
  | error e => rw [h1] at h; simp [bind, Except.bind] at h
  | ok u =>
    rw [h1] at h
    simp only [bind, Except.bind, pure, Except.pure, Except.ok.injEq, Prod.mk.injEq] at h
    exact ⟨h.1.symm, h.2.symm⟩

theorem matching (hl : LawfulLibrary lib) {seed : Seed} {ad key : Bytes}
    (hk : lib.hkdf p.hkdfHash p.ikm (lib.random seed p.derivedKeySize.toNat) ad
        p.derivedKeySize.toNat = some key)
    (hd : p.derivedKeySize = 16 ∨ p.derivedKeySize = 32) :
    Matching (encrypter lib p key (lib.random seed p.derivedKeySize.toNat) (lib.random' seed 7)) 0
      (decrypter lib p ad) none := by
  have hs := hl.random seed p.derivedKeySize.toNat
  have hx := hl.random' seed 7
  refine ⟨?_, by simp [encrypter, makeHeader], rfl, ⟨16, ?_, ?_⟩,
    some (lib.random' seed 7, key, []), ?_, ?_⟩
  · show 1 + p.derivedKeySize + noncePrefixSize = ((makeHeader _ _).length : Int)
    rw [makeHeader_length, hs, hx]
    simp only [noncePrefixSize]; omega
  · show p.ciphertextSegmentSize = p.ciphertextSegmentSize - tagSize + (16 : Nat)
    simp only [tagSize]; omega
  · intro k1 b last k2 c he
    exact hl.gcmLength _ _ _ _ (encryptSegment_ok he).2.2.1
  · rw [init_eq]
    exact init_header (by omega) hx (by omega) hk
  · intro bs cs k1 hem b last k2 c he
    have hk1 := emitted_number hem
    subst hk1
    obtain ⟨e1, e2, e3, -⟩ := encryptSegment_ok he
    have hlen := hl.gcmLength _ _ _ _ e3
    constructor
    · rw [dec_eq]
      unfold decryptSegment
      dsimp only
      simp only [tagSize] at e1
      rw [if_neg (by omega), if_neg (by simp only [tagSize]; omega), if_neg (by simp [e2]),
        hl.gcmSame _ _ _ _ e3]
      rfl
    · intro hlast b' hb'
      rw [dec_eq] at hb'
      obtain ⟨x', key', k', hv, -, hdec⟩ := decryptSegment_ok hb'
      obtain ⟨rfl, rfl, -⟩ : lib.random' seed 7 = x' ∧ key = key' ∧ [] = k' := by simpa using hv
      subst hlast
      rw [show nonce (lib.random' seed 7) bs.length false =
        (lib.random' seed 7 ++ be32 bs.length) ++ [0] from rfl, hl.gcmLast _ _ _ _ e3] at hdec
      simp at hdec

end Gcm

/-- C67.  The streaming AEAD of an AES-GCM-HKDF key: the decrypter that it makes belongs to its
encrypters. -/
theorem C67_aes_gcm_hkdf {lib : SegmentLibrary} (hl : LawfulLibrary lib) {p : AesGcmHkdf.Params}
    {np : NonceBased Nat Segment.State} (h : AesGcmHkdf.new lib p = .ok np) : SoundStreaming np := by
  obtain ⟨rfl, h1, h2, h3, h4, h5⟩ := Gcm.new_ok h
  intro seed ad se k he
  obtain ⟨key, hk, rfl, rfl, -, -, h8⟩ := Gcm.newSegmentEncrypter_ok hl.toSoundLibrary he
  refine ⟨h5, _, _, Gcm.newSegmentDecrypter_some h1 h2 h3 h4 h5 (by omega), Gcm.matching hl hk h4⟩

/-- C68.  With ideal AES-GCM and HKDF, an AES-GCM-HKDF key accepts only the segments of what was
encrypted with it and with the same associated data. -/
theorem C68_aes_gcm_hkdf_segments {lib : SegmentLibrary} (hl : SoundLibrary lib)
    {p : AesGcmHkdf.Params} (hp : 0 ≤ p.derivedKeySize) {ad : Bytes} {msgs : StreamMessage → Prop} (hi : GcmIdeal lib p ad msgs) :
    AuthenticAmong (AesGcmHkdf.decrypter lib p ad) none
      fun bs => ∃ m, msgs m ∧ m.ad = ad ∧ bs = m.segments := by
  intro h v' hv
  rw [Gcm.init_eq] at hv
  obtain ⟨x, key, rfl, hlen, hx, hk⟩ := Gcm.init_ok hv
  have hxl : x.length = 7 := by rw [hx]; simp; omega
  by_cases hex : ∃ m, msgs m ∧ lib.hkdf p.hkdfHash p.ikm (lib.random m.seed p.derivedKeySize.toNat) m.ad
      p.derivedKeySize.toNat = some key ∧ lib.random' m.seed 7 = x
  · obtain ⟨m, hm, hmk, hmx⟩ := hex
    refine .inl ⟨m.segments, ⟨m, hm, hi.separate _ _ _ hm hmk hk, rfl⟩, ?_⟩
    intro c j last b hb
    rw [Gcm.dec_eq] at hb
    obtain ⟨x', key', k', hv', htm, hdec⟩ := Gcm.decryptSegment_ok hb
    obtain ⟨rfl, rfl, -⟩ : x = x' ∧ key = key' ∧ [] = k' := by simpa using hv'
    obtain ⟨m', hm', hmk', j', hat⟩ := hi.unforgeable _ _ _ _ _ hk hdec
    have hn := at_nonce hat
    obtain ⟨hj, hj2, hb', -⟩ := hat
    obtain ⟨g1, g2, g3⟩ := nonce_inj (by rw [hxl, hl.random']) (not_tooMany htm) hj2 hn
    have := hi.fresh _ _ _ hm hm' hmk hmk' (by rw [hmx, g1])
    subst this
    subst g2
    exact ⟨hj, hb', by simp [g3]⟩
  · refine .inr fun c j last b hb => hex ?_
    rw [Gcm.dec_eq] at hb
    obtain ⟨x', key', k', hv', htm, hdec⟩ := Gcm.decryptSegment_ok hb
    obtain ⟨rfl, rfl, -⟩ : x = x' ∧ key = key' ∧ [] = k' := by simpa using hv'
    obtain ⟨m', hm', hmk', j', hat⟩ := hi.unforgeable _ _ _ _ _ hk hdec
    have hn := at_nonce hat
    obtain ⟨hj, hj2, hb', -⟩ := hat
    exact ⟨m', hm', hmk', (nonce_inj (by rw [hxl, hl.random']) (not_tooMany htm) hj2 hn).1.symm⟩

/-- C68.  With ideal AES-GCM and HKDF, an AES-GCM-HKDF key delivers, whatever the source and whatever calls
are made, nothing but the messages that were encrypted with it and with the same associated data. -/
theorem C68_aes_gcm_hkdf {lib : SegmentLibrary} (hl : SoundLibrary lib) {p : AesGcmHkdf.Params}
    {np : NonceBased Nat Segment.State} (h : AesGcmHkdf.new lib p = .ok np) {ad : Bytes}
    {msgs : StreamMessage → Prop} (hne : ∀ m, msgs m → m.segments ≠ []) (hi : GcmIdeal lib p ad msgs)
    {σd : Type} {text : Exc → Bool} {buffer : Bytes} :
    DeliversOneOf (np.toRaw (σ := σd) text buffer) ad
      fun P => ∃ m, msgs m ∧ m.ad = ad ∧ P = m.segments.flatten := by
  obtain ⟨rfl, -, -, -, h4, -⟩ := Gcm.new_ok h
  intro σ src s t ht calls t' s' hses
  obtain ⟨v', a1, -, -⟩ := open_ok ht
  have h1 := Gcm.newSegmentDecrypter_ok a1
  rw [h1.2] at a1
  rw [h1.1] at a1
  have := C68_delivers_one_of (σd := σd) (text := text) (buffer := buffer) a1 (Gcm.sober ad)
    (by rintro bs ⟨m, hm, -, rfl⟩; exact hne m hm)
    (C68_aes_gcm_hkdf_segments hl (by omega) hi)
  have := this σ src s t ht calls t' s' hses
  obtain ⟨b1, b2⟩ := this
  refine ⟨b1, b2.imp id ?_⟩
  rintro ⟨P, ⟨bs, ⟨m, hm, had, rfl⟩, rfl⟩, b3⟩
  exact ⟨_, ⟨m, hm, had, rfl⟩, b3⟩

/-! ## AES-CTR-HMAC -/

namespace Ctr
open AesCtrHmac

variable {lib : SegmentLibrary} {p : Params}

theorem nonceForSegment_length (x : Bytes) (j : Nat) (last : Bool) :
    (nonceForSegment x j last).length = x.length + 9 := by
  simp [nonceForSegment, nonce_length]

theorem nonceForSegment_inj {x y : Bytes} {j j' : Nat} {last last' : Bool} (hl : x.length = y.length)
    (hj : j < 2 ^ 32) (hj' : j' < 2 ^ 32) (h : nonceForSegment x j last = nonceForSegment y j' last') :
    x = y ∧ j = j' ∧ last = last' := by
  simp only [nonceForSegment] at h
  exact nonce_inj hl hj hj' (List.append_inj h (by simp [nonce_length, hl])).1

theorem computeMac_ok {hk d t : Bytes} (h : computeMac lib p hk d = some t) :
    ∃ m, lib.hmac p.tagAlgo hk d = some m ∧ t = m.take p.tagSize.toNat := by
  unfold computeMac at h
  cases hm : lib.hmac p.tagAlgo hk d with
  | none => rw [hm] at h; simp at h
  | some m => rw [hm] at h; exact ⟨m, rfl, by simpa using h.symm⟩

theorem encryptSegment_ok {key hk x : Bytes} {j k : Nat} {b c : Bytes} {last : Bool}
    (h : encryptSegment lib p key hk x j b last = (k, .ok c)) :
    b.length ≤ p.ciphertextSegmentSize - p.tagSize ∧ tooMany j last = false ∧
      (∃ ct tag, lib.ctrEncrypt key (nonceForSegment x j last) b = some ct ∧ ct.length = b.length ∧
        computeMac lib p hk (nonceForSegment x j last ++ ct) = some tag ∧ c = ct ++ tag) ∧
      k = j + 1 := by
  unfold encryptSegment at h
  by_cases h1 : p.ciphertextSegmentSize - p.tagSize < b.length
  · rw [if_pos h1] at h; simp [invalidArgument] at h
  · rw [if_neg h1] at h
    by_cases h2 : tooMany j last = true
    · rw [if_pos h2] at h; simp [invalidArgument] at h
    · rw [if_neg h2] at h
      cases h3 : lib.ctrEncrypt key (nonceForSegment x j last) b with
      | none => simp [h3, checked] at h
      | some ct =>
        simp only [h3] at h
        by_cases h4 : ct.length ≠ b.length
        · rw [if_pos h4] at h; simp [checked] at h
        · rw [if_neg h4] at h
          cases h5 : computeMac lib p hk (nonceForSegment x j last ++ ct) with
          | none => simp [h5, checked] at h
          | some tag =>
            simp only [h5, Prod.mk.injEq, Except.ok.injEq] at h
            exact ⟨by omega, by simpa using h2, ⟨ct, tag, rfl, by omega, h5, h.2.symm⟩, h.1.symm⟩

theorem emitted_number {key hk salt x : Bytes} {bs cs : List Bytes} {k : Nat}
    (h : Emitted (encrypter lib p key hk salt x) 0 bs cs k) : k = bs.length := by
  induction h with
  | start => rfl
  | more h he ih =>
    have := encryptSegment_ok he
    simp [this.2.2.2, ih]

theorem deriveKeys_ok {salt ad key hk : Bytes} (hl : SoundLibrary lib)
    (h : deriveKeys lib p salt ad = some (key, hk)) :
    CtrHmacKeys lib p salt ad key hk ∧ hk.length = 32 := by
  unfold deriveKeys at h
  cases h1 : lib.hkdf p.hkdfAlgo p.ikm salt ad (p.keySize.toNat + hmacKeySize) with
  | none => rw [h1] at h; simp at h
  | some m =>
    rw [h1] at h
    simp only [Option.map_some, Option.some.injEq, Prod.mk.injEq] at h
    have hlen := hl.hkdf _ _ _ _ _ _ h1
    simp only [hmacKeySize] at h1 hlen
    refine ⟨⟨?_, ?_⟩, ?_⟩
    · rw [← h.1, ← h.2, List.take_append_drop]; exact h1
    · rw [← h.1]; simp; omega
    · rw [← h.2]; simp; omega

theorem newHmac_ok {hk : Bytes} (h : newHmac p hk = .ok ()) : p.tagSize ≤ digestSize p.tagAlgo := by
  unfold newHmac at h
  by_cases h1 : (digestSize p.tagAlgo : Int) < p.tagSize
  · rw [if_pos h1] at h; simp [invalidArgument] at h
  · omega

theorem init_ok {ad h : Bytes} {v v' : State} (hi : init lib p ad v h = (v', .ok ())) :
    ∃ x key hk, v' = some (x, key, hk) ∧ h.length = 1 + p.keySize + 7 ∧
      x = (h.drop (1 + p.keySize.toNat)).take 7 ∧
      deriveKeys lib p ((h.drop 1).take p.keySize.toNat) ad = some (key, hk) := by
  unfold init at hi
  cases v with
  | some _ => simp at hi
  | none =>
    dsimp only at hi
    by_cases h1 : (h.length : Int) ≠ headerSize p
    · rw [if_pos h1] at hi; simp [invalidArgument] at hi
    · rw [if_neg h1] at hi
      by_cases h2 : (h.headD 0).toNat ≠ h.length
      · rw [if_pos h2] at hi; simp [invalidArgument] at hi
      · rw [if_neg h2] at hi
        cases h3 : deriveKeys lib p ((h.drop 1).take p.keySize.toNat) ad with
        | none => simp only [h3, checked, Prod.mk.injEq, reduceCtorEq, and_false] at hi
        | some q =>
          obtain ⟨key, hk⟩ := q
          simp only [h3] at hi
          cases h4 : newHmac p hk with
          | error e => simp [h4] at hi
          | ok u =>
            simp only [h4, Prod.mk.injEq, and_true] at hi
            exact ⟨_, key, hk, hi.symm, by simpa [headerSize, noncePrefixSize] using h1, rfl, rfl⟩

theorem init_header {ad salt x key hk : Bytes} (hs : (salt.length : Int) = p.keySize)
    (hx : x.length = 7) (h32 : salt.length ≤ 32)
    (hd : deriveKeys lib p salt ad = some (key, hk)) (hm : newHmac p hk = .ok ()) :
    init lib p ad none (makeHeader salt x) = (some (x, key, hk), .ok ()) := by
  have hn : p.keySize.toNat = salt.length := by omega
  unfold init
  dsimp only
  rw [if_neg (by rw [makeHeader_length, hx, headerSize, ← hs]; simp [noncePrefixSize]),
    if_neg (by
      rw [makeHeader_length, hx]
      simp only [makeHeader, List.headD_cons, UInt8.toNat_ofNat', hx]
      have : (1 + salt.length + 7) % 2 ^ 8 = 1 + salt.length + 7 := Nat.mod_eq_of_lt (by omega)
      omega)]
  have e1 : ((makeHeader salt x).drop 1).take salt.length = salt := by simp [makeHeader]
  have e2 : ((makeHeader salt x).drop (1 + salt.length)).take noncePrefixSize = x := by
    rw [Nat.add_comm]
    simp [makeHeader, noncePrefixSize, ← hx]
  rw [hn, e1, e2, hd]
  simp only [hm]

theorem decryptSegment_ok {v : State} {c b : Bytes} {j : Nat} {last : Bool}
    (h : decryptSegment lib p v c j last = .ok b) :
    ∃ x key hk, v = some (x, key, hk) ∧ tooMany j last = false ∧
      lib.hmacVerify p.tagAlgo hk (c.drop (c.length - p.tagSize.toNat))
        (nonceForSegment x j last ++ c.take (c.length - p.tagSize.toNat)) = some true ∧
      lib.ctrDecrypt key (nonceForSegment x j last) (c.take (c.length - p.tagSize.toNat)) = some b := by
  unfold decryptSegment at h
  match v with
  | none => simp at h
  | some (x, key, hk) =>
    dsimp only at h
    by_cases h1 : p.ciphertextSegmentSize < c.length
    · rw [if_pos h1] at h; simp [invalidArgument] at h
    · rw [if_neg h1] at h
      by_cases h2 : (c.length : Int) < p.tagSize
      · rw [if_pos h2] at h; simp [invalidArgument] at h
      · rw [if_neg h2] at h
        by_cases h3 : tooMany j last = true
        · rw [if_pos h3] at h; simp [invalidArgument] at h
        · rw [if_neg h3] at h
          cases h4 : lib.hmacVerify p.tagAlgo hk (c.drop (c.length - p.tagSize.toNat))
              (nonceForSegment x j last ++ c.take (c.length - p.tagSize.toNat)) with
          | none => simp [h4, checked] at h
          | some tag =>
            simp only [h4] at h
            cases tag with
            | false => simp [invalidArgument] at h
            | true =>
              rw [if_neg (by simp)] at h
              cases h6 : lib.ctrDecrypt key (nonceForSegment x j last)
                  (c.take (c.length - p.tagSize.toNat)) with
              | none => simp only [h6, checked, reduceCtorEq] at h
              | some pt =>
                simp only [h6] at h
                by_cases h7 : pt.length ≠ (c.take (c.length - p.tagSize.toNat)).length
                · rw [if_pos h7] at h; simp [checked] at h
                · rw [if_neg h7] at h
                  simp only [Except.ok.injEq] at h
                  subst h
                  exact ⟨x, key, hk, rfl, by simpa using h3, h4, h6⟩

theorem init_eq (ad : Bytes) (v : State) (h : Bytes) :
    (decrypter lib p ad).init v h = init lib p ad v h := rfl

theorem dec_eq (ad : Bytes) (v : State) (c : Bytes) (j : Nat) (last : Bool) :
    (decrypter lib p ad).decryptSegment v c j last = decryptSegment lib p v c j last := rfl

theorem invalid_code {α : Type} {e : Status} (h : (invalidArgument : StatusOr α) = .error e) :
    e.code ≠ .outOfRange := by
  simp only [invalidArgument, Except.error.injEq] at h
  subst h
  simp [Code.invalidArgument]

theorem newHmac_error {hk : Bytes} {e : Status} (h : newHmac p hk = .error e) :
    e.code ≠ .outOfRange := by
  unfold newHmac at h
  split at h
  · exact invalid_code h
  · split at h
    · exact invalid_code h
    · simp at h

theorem sober (ad : Bytes) : Sober (decrypter lib p ad) where
  init v h v' e he := by
    rw [init_eq] at he
    unfold init at he
    cases v with
    | some _ => simp only [Prod.mk.injEq, Except.error.injEq] at he; rw [← he.2]; simp
    | none =>
      dsimp only at he
      split at he
      · exact invalid_code (Prod.mk.inj he).2
      · split at he
        · exact invalid_code (Prod.mk.inj he).2
        · split at he
          · exact checked_error (Prod.mk.inj he).2
          · split at he
            · rename_i h4
              simp only [Prod.mk.injEq, Except.error.injEq] at he
              rw [← he.2]
              exact newHmac_error h4
            · simp at he
  decrypt v c j last e he := by
    rw [dec_eq] at he
    unfold decryptSegment at he
    split at he
    · simp only [Except.error.injEq] at he; rw [← he]; simp
    · split at he
      · exact invalid_code he
      · split at he
        · exact invalid_code he
        · split at he
          · exact invalid_code he
          · dsimp only at he
            split at he
            · exact checked_error he
            · split at he
              · exact invalid_code he
              · split at he
                · exact checked_error he
                · split at he
                  · exact checked_error he
                  · simp at he

theorem validate_ok (h : validate p = .ok ()) :
    max 16 p.keySize ≤ p.ikm.length ∧ hashSupported p.hkdfAlgo = true ∧
      (p.keySize = 16 ∨ p.keySize = 32) ∧
      p.ciphertextOffset + (1 + p.keySize + 7) + p.tagSize < p.ciphertextSegmentSize ∧
      0 ≤ p.ciphertextOffset ∧ 10 ≤ p.tagSize ∧ p.tagSize ≤ digestSize p.tagAlgo := by
  unfold validate at h
  by_cases h1 : (p.ikm.length : Int) < max 16 p.keySize
  · rw [if_pos h1] at h; simp [invalidArgument] at h
  rw [if_neg h1] at h
  by_cases h2 : hashSupported p.hkdfAlgo = true
  case neg => rw [if_pos (by simp [h2])] at h; simp [invalidArgument] at h
  rw [if_neg (by simp [h2])] at h
  by_cases h3 : p.keySize = 16 ∨ p.keySize = 32
  case neg => rw [if_pos (by simp at h3 ⊢; exact h3)] at h; simp [invalidArgument] at h
  rw [if_neg (by rcases h3 with g | g <;> simp [g])] at h
  by_cases h4 : p.ciphertextSegmentSize ≤ p.ciphertextOffset + headerSize p + p.tagSize
  · rw [if_pos h4] at h; simp [invalidArgument] at h
  rw [if_neg h4] at h
  by_cases h5 : p.ciphertextOffset < 0
  · rw [if_pos h5] at h; simp [invalidArgument] at h
  rw [if_neg h5] at h
  by_cases h6 : p.tagSize < 10
  · rw [if_pos h6] at h; simp [invalidArgument] at h
  rw [if_neg h6] at h
  by_cases h7 : hashSupported p.tagAlgo = true
  case neg => rw [if_pos (by simp [h7])] at h; simp [invalidArgument] at h
  rw [if_neg (by simp [h7])] at h
  by_cases h8 : ((p.tagAlgo = HashType.SHA1 && 20 < p.tagSize) ||
      (p.tagAlgo = HashType.SHA256 && 32 < p.tagSize) ||
      (p.tagAlgo = HashType.SHA512 && 64 < p.tagSize)) = true
  · rw [if_pos h8] at h; simp [invalidArgument] at h
  simp only [headerSize, noncePrefixSize] at h4
  refine ⟨by omega, h2, h3, by omega, by omega, by omega, ?_⟩
  simp only [hashSupported, Bool.or_eq_true, decide_eq_true_eq] at h7
  simp only [Bool.or_eq_true, Bool.and_eq_true, decide_eq_true_eq] at h8
  unfold digestSize
  by_cases g1 : p.tagAlgo = HashType.SHA1
  · rw [if_pos g1]
    simp [g1] at h8
    have := h8.1.1
    omega
  · rw [if_neg g1]
    by_cases g2 : p.tagAlgo = HashType.SHA256
    · rw [if_pos g2]
      simp [g2] at h8
      omega
    · rw [if_neg g2]
      have g3 : p.tagAlgo = HashType.SHA512 := by
        rcases h7 with (g | g) | g
        · exact absurd g g1
        · exact absurd g g2
        · exact g
      rw [if_pos g3]
      simp [g3] at h8
      omega

theorem new_ok {np : NonceBased Nat State} (h : new lib p = .ok np) :
    np = ⟨newSegmentEncrypter lib p, newSegmentDecrypter lib p⟩ ∧ validate p = .ok () := by
  unfold new at h
  cases h1 : validate p with
  | error e => rw [h1] at h; simp [bind, Except.bind] at h
  | ok u =>
    rw [h1] at h
    simp only [bind, Except.bind, pure, Except.pure, Except.ok.injEq] at h
    exact ⟨h.symm, rfl⟩

/-- What is known of an encrypter that was made. -/
theorem newSegmentEncrypter_ok {seed : Seed} {ad : Bytes}
    {se : SegmentEncrypter Nat} {k : Nat} (h : newSegmentEncrypter lib p seed ad = .ok (se, k)) :
    ∃ key hk, deriveKeys lib p (lib.random seed p.keySize.toNat) ad = some (key, hk) ∧
      newHmac p hk = .ok () ∧ k = 0 ∧
      se = encrypter lib p key hk (lib.random seed p.keySize.toNat) (lib.random' seed 7) := by
  unfold newSegmentEncrypter at h
  cases h1 : validate p with
  | error e => rw [h1] at h; simp [bind, Except.bind] at h
  | ok u =>
    rw [h1] at h
    simp only [bind, Except.bind] at h
    cases h2 : deriveKeys lib p (lib.random seed p.keySize.toNat) ad with
    | none => rw [h2] at h; simp [checked] at h
    | some q =>
      obtain ⟨key, hk⟩ := q
      rw [h2] at h
      simp only [checked] at h
      cases h3 : newHmac p hk with
      | error e => rw [h3] at h; simp at h
      | ok u =>
        rw [h3] at h
        simp only [pure, Except.pure, Except.ok.injEq, Prod.mk.injEq] at h
        exact ⟨key, hk, rfl, h3, h.2.symm, h.1.symm⟩

theorem newSegmentDecrypter_eq {ad : Bytes} (h : validate p = .ok ()) :
    newSegmentDecrypter lib p ad = .ok (decrypter lib p ad, none) := by
  unfold newSegmentDecrypter
  rw [h]
  rfl

theorem tag_length (hl : SoundLibrary lib) {hk d t : Bytes} (h2 : p.tagSize ≤ digestSize p.tagAlgo)
    (h : computeMac lib p hk d = some t) : t.length = p.tagSize.toNat := by
  obtain ⟨m, hm, rfl⟩ := computeMac_ok h
  have := hl.hmacLength _ _ _ _ hm
  unfold digestSize at h2
  rw [← this] at h2
  simp; omega

theorem matching (hl : LawfulLibrary lib) {seed : Seed} {ad key hk : Bytes}
    (hv : validate p = .ok ())
    (hd : deriveKeys lib p (lib.random seed p.keySize.toNat) ad = some (key, hk))
    (hm : newHmac p hk = .ok ()) :
    Matching (encrypter lib p key hk (lib.random seed p.keySize.toNat) (lib.random' seed 7)) 0
      (decrypter lib p ad) none := by
  obtain ⟨-, -, v1, -, -, v2, v3⟩ := validate_ok hv
  have hs := hl.random seed p.keySize.toNat
  have hx := hl.random' seed 7
  refine ⟨?_, by simp [encrypter, makeHeader], rfl, ⟨p.tagSize.toNat, ?_, ?_⟩,
    some (lib.random' seed 7, key, hk), ?_, ?_⟩
  · show 1 + p.keySize + noncePrefixSize = ((makeHeader _ _).length : Int)
    rw [makeHeader_length, hs, hx]
    simp only [noncePrefixSize]; omega
  · show p.ciphertextSegmentSize = p.ciphertextSegmentSize - p.tagSize + (p.tagSize.toNat : Nat)
    omega
  · intro k1 b last k2 c he
    obtain ⟨-, -, ⟨ct, tag, -, e4, e5, rfl⟩, -⟩ := encryptSegment_ok he
    rw [List.length_append, e4, tag_length hl.toSoundLibrary v3 e5]
  · rw [init_eq]
    exact init_header (by omega) hx (by omega) hd hm
  · intro bs cs k1 hem b last k2 c he
    have hk1 := emitted_number hem
    subst hk1
    obtain ⟨e1, e2, ⟨ct, tag, e3, e4, e5, rfl⟩, -⟩ := encryptSegment_ok he
    have htl := tag_length hl.toSoundLibrary v3 e5
    have hct : (ct ++ tag).take ((ct ++ tag).length - p.tagSize.toNat) = ct := by
      rw [List.length_append, htl, Nat.add_sub_cancel, List.take_left]
    have htag : (ct ++ tag).drop ((ct ++ tag).length - p.tagSize.toNat) = tag := by
      rw [List.length_append, htl, Nat.add_sub_cancel, List.drop_left]
    constructor
    · rw [dec_eq]
      unfold decryptSegment
      dsimp only
      obtain ⟨m, g1, g2⟩ := computeMac_ok e5
      rw [hct, htag, g2, hl.hmacSame _ _ _ _ _ g1 (by omega), ← g2, if_neg (by rw [List.length_append]; omega),
        if_neg (by rw [List.length_append]; omega), if_neg (by simp [e2])]
      dsimp only
      rw [if_neg (by simp), hl.ctrSame _ _ _ _ e3]
      dsimp only
      rw [if_neg (by omega)]
    · intro hlast b' hb'
      rw [dec_eq] at hb'
      obtain ⟨x', key', hk', hv', -, f1, -⟩ := decryptSegment_ok hb'
      obtain ⟨rfl, rfl, rfl⟩ : lib.random' seed 7 = x' ∧ key = key' ∧ hk = hk' := by simpa using hv'
      rw [hct, htag] at f1
      obtain ⟨m, g1, g2⟩ := computeMac_ok e5
      rw [g2] at f1
      subst hlast
      have e : ∀ l : Bool, nonceForSegment (lib.random' seed 7) bs.length l =
          (lib.random' seed 7 ++ be32 bs.length) ++ [if l then 1 else 0, 0, 0, 0, 0] := by
        intro l; simp [nonceForSegment, nonce]
      rw [e] at g1 f1
      exact hl.hmacLast _ _ _ _ _ p.tagSize.toNat (by simp [hx, be32]) g1 (by omega) f1

end Ctr

/-- C67.  The streaming AEAD of an AES-CTR-HMAC key: the decrypter that it makes belongs to its
encrypters. -/
theorem C67_aes_ctr_hmac {lib : SegmentLibrary} (hl : LawfulLibrary lib) {p : AesCtrHmac.Params}
    {np : NonceBased Nat Segment.State} (h : AesCtrHmac.new lib p = .ok np) : SoundStreaming np := by
  obtain ⟨rfl, hv⟩ := Ctr.new_ok h
  intro seed ad se k he
  obtain ⟨key, hk, hd, hm, rfl, rfl⟩ := Ctr.newSegmentEncrypter_ok he
  exact ⟨(Ctr.validate_ok hv).2.2.2.2.1, _, _, Ctr.newSegmentDecrypter_eq hv, Ctr.matching hl hv hd hm⟩

/-- C68.  With ideal HMAC and HKDF, an AES-CTR-HMAC key accepts only the segments of what was encrypted
with it and with the same associated data. -/
theorem C68_aes_ctr_hmac_segments {lib : SegmentLibrary} (hl : SoundLibrary lib)
    {p : AesCtrHmac.Params} (hp : 0 ≤ p.keySize) {ad : Bytes} {msgs : StreamMessage → Prop}
    (hi : CtrHmacIdeal lib p ad msgs) :
    AuthenticAmong (AesCtrHmac.decrypter lib p ad) none
      fun bs => ∃ m, msgs m ∧ m.ad = ad ∧ bs = m.segments := by
  intro h v' hv
  rw [Ctr.init_eq] at hv
  obtain ⟨x, key, hk, rfl, hlen, hx, hd⟩ := Ctr.init_ok hv
  have hxl : x.length = 7 := by rw [hx]; simp; omega
  have hkeys := (Ctr.deriveKeys_ok hl hd).1
  -- what an accepted segment is
  have acc : ∀ c j last b, AesCtrHmac.decryptSegment lib p (some (x, key, hk)) c j last = .ok b →
      ∃ m key', msgs m ∧ CtrHmacKeys lib p (lib.random m.seed p.keySize.toNat) m.ad key' hk ∧
        lib.random' m.seed 7 = x ∧ ∃ hj : j < m.segments.length,
          b = m.segments[j] ∧ (last = true ↔ j + 1 = m.segments.length) := by
    intro c j last b hb
    obtain ⟨x', key', hk', hv', htm, ht, hdec⟩ := Ctr.decryptSegment_ok hb
    obtain ⟨rfl, rfl, rfl⟩ : x = x' ∧ key = key' ∧ hk = hk' := by simpa using hv'
    obtain ⟨m, key', hm, hmk, j', n, b', c', hat, henc, hdata⟩ := hi.unforgeable _ _ _ _ _ hkeys ht
    have hn := at_nonce hat
    obtain ⟨hj, hj2, hb', -⟩ := hat
    have hsplit := List.append_inj hdata (by
      rw [Ctr.nonceForSegment_length, hxl, hn, List.length_append, nonce_length, hl.random']; rfl)
    have hn2 : AesCtrHmac.nonceForSegment x j last =
        AesCtrHmac.nonceForSegment (lib.random' m.seed 7) j' (decide (j' + 1 = m.segments.length)) := by
      rw [hsplit.1, hn]; rfl
    obtain ⟨g1, g2, g3⟩ := Ctr.nonceForSegment_inj (by rw [hxl, hl.random']) (not_tooMany htm) hj2 hn2
    subst g2
    refine ⟨m, key', hm, hmk, g1.symm, hj, ?_, by simp [g3]⟩
    have hkk := (hi.separate _ _ _ _ _ hm hmk hkeys).2
    subst hkk
    rw [hsplit.1, hsplit.2, hl.ctrSame _ _ _ _ henc] at hdec
    rw [← hb']
    simpa using hdec.symm
  by_cases hex : ∃ m key', msgs m ∧
      CtrHmacKeys lib p (lib.random m.seed p.keySize.toNat) m.ad key' hk ∧ lib.random' m.seed 7 = x
  · obtain ⟨m, key', hm, hmk, hmx⟩ := hex
    refine .inl ⟨m.segments, ⟨m, hm, (hi.separate _ _ _ _ _ hm hmk hkeys).1, rfl⟩, ?_⟩
    intro c j last b hb
    rw [Ctr.dec_eq] at hb
    obtain ⟨m', key'', hm', hmk', hmx', h'⟩ := acc c j last b hb
    have := hi.fresh _ _ _ _ _ hm hm' hmk hmk' (by rw [hmx, hmx'])
    subst this
    exact h'
  · refine .inr fun c j last b hb => hex ?_
    rw [Ctr.dec_eq] at hb
    obtain ⟨m', key'', hm', hmk', hmx', -⟩ := acc c j last b hb
    exact ⟨m', key'', hm', hmk', hmx'⟩

/-- C68.  With ideal HMAC and HKDF, an AES-CTR-HMAC key delivers, whatever the source and whatever calls
are made, nothing but the messages that were encrypted with it and with the same associated data. -/
theorem C68_aes_ctr_hmac {lib : SegmentLibrary} (hl : SoundLibrary lib) {p : AesCtrHmac.Params}
    {np : NonceBased Nat Segment.State} (h : AesCtrHmac.new lib p = .ok np) {ad : Bytes}
    {msgs : StreamMessage → Prop} (hne : ∀ m, msgs m → m.segments ≠ [])
    (hi : CtrHmacIdeal lib p ad msgs) {σd : Type} {text : Exc → Bool} {buffer : Bytes} :
    DeliversOneOf (np.toRaw (σ := σd) text buffer) ad
      fun P => ∃ m, msgs m ∧ m.ad = ad ∧ P = m.segments.flatten := by
  obtain ⟨rfl, hv⟩ := Ctr.new_ok h
  have h4 := (Ctr.validate_ok hv).2.2.1
  intro σ src s t ht calls t' s' hses
  have := C68_delivers_one_of (σd := σd) (text := text) (buffer := buffer)
    (p := ⟨AesCtrHmac.newSegmentEncrypter lib p, AesCtrHmac.newSegmentDecrypter lib p⟩)
    (Ctr.newSegmentDecrypter_eq hv) (Ctr.sober ad)
    (by rintro bs ⟨m, hm, -, rfl⟩; exact hne m hm)
    (C68_aes_ctr_hmac_segments hl (by omega) hi)
  have := this σ src s t ht calls t' s' hses
  obtain ⟨b1, b2⟩ := this
  refine ⟨b1, b2.imp id ?_⟩
  rintro ⟨P, ⟨bs, ⟨m, hm, had, rfl⟩, rfl⟩, b3⟩
  exact ⟨_, ⟨m, hm, had, rfl⟩, b3⟩

/-! ## The format -/

/-- C69.  In a stream of at most 2³² segments no nonce is used twice. -/
theorem C69_nonces_distinct {x : Bytes} {i j count : Nat} (hc : count ≤ 2 ^ 32) (hi : i < count)
    (hj : j < count) (h : segmentNonce x i count = segmentNonce x j count) : i = j := by
  have : nonce x i (decide (i + 1 = count)) = nonce x j (decide (j + 1 = count)) := by
    simpa [nonce, segmentNonce] using h
  exact (nonce_inj rfl (by omega) (by omega) this).2.1

theorem format_of {se : SegmentEncrypter Nat} {enc : Bytes → Bytes → Option Bytes} {x salt P C : Bytes}
    (hse : ∀ j b last k c, se.encryptSegment j b last = (k, .ok c) →
      tooMany j last = false ∧ enc (nonce x j last) b = some c ∧ k = j + 1)
    (hh : se.header = makeHeader salt x) (h : EncryptionOf se 0 P C) :
    StreamFormat enc (EncryptingStream.firstSegmentSize se).toNat se.plaintextSegmentSize.toNat
      salt x P C := by
  obtain ⟨full, last, cs, k1, k2, c, hdiv, hem, he, rfl⟩ := h
  have hlen := Decrypting.emitted_length hem
  have hnum : ∀ {bs cs k}, Emitted se 0 bs cs k → k = bs.length := by
    intro bs cs k hem
    induction hem with
    | start => rfl
    | more h he ih => simp [(hse _ _ _ _ _ he).2.2, ih]
  obtain ⟨e1, e2, -⟩ := hse _ _ _ _ _ he
  have hk1 := hnum hem
  subst hk1
  have hlast := not_tooMany e1
  refine ⟨full, last, cs ++ [c], hdiv, by simp [hlen], by simp; omega, ?_, ?_⟩
  · rw [hh, makeHeader]; simp
  · intro j b c' hb hc'
    by_cases hj : j < full.length
    · obtain ⟨bs', cs', kj, kj', a1, a2, a3⟩ := Decrypting.emitted_at hem j hj (by omega)
      rw [List.getElem?_append_left hj, List.getElem?_eq_getElem hj] at hb
      rw [List.getElem?_append_left (by omega), List.getElem?_eq_getElem (by omega)] at hc'
      obtain rfl := Option.some.inj hb
      obtain rfl := Option.some.inj hc'
      have := (hse _ _ _ _ _ a3).2.1
      rw [hnum a1, a2] at this
      rw [← this]
      have : ¬ j + 1 = (cs ++ [c]).length := by simp; omega
      simp only [segmentNonce, if_neg this, nonce, Bool.false_eq_true, if_false]
    · have hj' : j = full.length := by
        have := (List.getElem?_eq_some_iff.mp hb).1
        simp at this; omega
      subst hj'
      have hb' : last = b := by simpa using hb
      have hc'' : c = c' := by rw [hlen] at hc'; simpa using hc'
      subst hb' hc''
      rw [← e2]
      have : full.length + 1 = (cs ++ [c]).length := by simp [hlen]
      simp only [segmentNonce, if_pos this, nonce, if_true]

/-- C69.  What is written by an encrypting stream of an AES-GCM-HKDF key. -/
theorem C69_aes_gcm_hkdf {lib : SegmentLibrary} (hl : LawfulLibrary lib) {p : AesGcmHkdf.Params}
    {np : NonceBased Nat Segment.State} (h : AesGcmHkdf.new lib p = .ok np)
    {σd : Type} {snk : CSink σd} (hk : Honest snk) {seed : Seed} {s0 : σd} {buffer ad P : Bytes}
    {t t1 t2 : CcEncrypting Nat (σd × Bytes)}
    (ht : np.newRawEncryptingStream seed ⟨true, (s0, []), buffer⟩ ad = .ok t)
    (hw : Written (recordedSink snk) t P t1) {fuel : Nat}
    (hc : t1.close (recordedSink snk) fuel = some (t2, .ok ())) :
    ∃ key salt noncePrefix, salt.length = p.derivedKeySize.toNat ∧ noncePrefix.length = 7 ∧
      lib.hkdf p.hkdfHash p.ikm salt ad p.derivedKeySize.toNat = some key ∧
      StreamFormat (lib.gcmEncrypt key)
        (p.ciphertextSegmentSize - p.ciphertextOffset - (1 + p.derivedKeySize + 7) - 16).toNat
        (p.ciphertextSegmentSize - 16).toNat salt noncePrefix P t2.object.2 := by
  obtain ⟨se, k, a1, a2, -⟩ := C67_written (C67_aes_gcm_hkdf hl h) hk ht hw hc
  obtain ⟨rfl, -, -, -, hd, -⟩ := Gcm.new_ok h
  obtain ⟨key, hkey, rfl, rfl, -⟩ := Gcm.newSegmentEncrypter_ok hl.toSoundLibrary a1
  refine ⟨key, _, _, hl.random seed _, hl.random' seed 7, hkey, ?_⟩
  have := format_of (enc := lib.gcmEncrypt key)
    (x := lib.random' seed 7) (salt := lib.random seed p.derivedKeySize.toNat)
    (fun j b last k c he => (Gcm.encryptSegment_ok he).2) rfl a2
  have hf : EncryptingStream.firstSegmentSize (AesGcmHkdf.encrypter lib p key
      (lib.random seed p.derivedKeySize.toNat) (lib.random' seed 7)) =
      p.ciphertextSegmentSize - p.ciphertextOffset - (1 + p.derivedKeySize + 7) - 16 := by
    show p.ciphertextSegmentSize - AesGcmHkdf.tagSize - p.ciphertextOffset -
      ((makeHeader _ _).length : Int) = _
    rw [makeHeader_length, hl.random, hl.random']
    simp only [AesGcmHkdf.tagSize]
    omega
  rw [hf] at this
  exact this

/-- C69.  What is written by an encrypting stream of an AES-CTR-HMAC key. -/
theorem C69_aes_ctr_hmac {lib : SegmentLibrary} (hl : LawfulLibrary lib) {p : AesCtrHmac.Params}
    {np : NonceBased Nat Segment.State} (h : AesCtrHmac.new lib p = .ok np)
    {σd : Type} {snk : CSink σd} (hk : Honest snk) {seed : Seed} {s0 : σd} {buffer ad P : Bytes}
    {t t1 t2 : CcEncrypting Nat (σd × Bytes)}
    (ht : np.newRawEncryptingStream seed ⟨true, (s0, []), buffer⟩ ad = .ok t)
    (hw : Written (recordedSink snk) t P t1) {fuel : Nat}
    (hc : t1.close (recordedSink snk) fuel = some (t2, .ok ())) :
    ∃ key hmacKey salt noncePrefix, salt.length = p.keySize.toNat ∧ noncePrefix.length = 7 ∧
      CtrHmacKeys lib p salt ad key hmacKey ∧
      StreamFormat (ctrHmacSegment lib p key hmacKey)
        (p.ciphertextSegmentSize - p.ciphertextOffset - (1 + p.keySize + 7) - p.tagSize).toNat
        (p.ciphertextSegmentSize - p.tagSize).toNat salt noncePrefix P t2.object.2 := by
  obtain ⟨se, k, a1, a2, -⟩ := C67_written (C67_aes_ctr_hmac hl h) hk ht hw hc
  obtain ⟨rfl, hv⟩ := Ctr.new_ok h
  obtain ⟨key, hmacKey, hkey, -, rfl, rfl⟩ := Ctr.newSegmentEncrypter_ok a1
  refine ⟨key, hmacKey, _, _, hl.random seed _, hl.random' seed 7,
    (Ctr.deriveKeys_ok hl.toSoundLibrary hkey).1, ?_⟩
  have := format_of (enc := ctrHmacSegment lib p key hmacKey) (x := lib.random' seed 7)
    (salt := lib.random seed p.keySize.toNat)
    (fun j b last k c he => by
      obtain ⟨-, b2, ⟨ct, tag, b3, -, b4, rfl⟩, b5⟩ := Ctr.encryptSegment_ok he
      refine ⟨b2, ?_, b5⟩
      obtain ⟨m, b6, rfl⟩ := Ctr.computeMac_ok b4
      unfold AesCtrHmac.nonceForSegment at b3 b6
      unfold ctrHmacSegment
      rw [b3]
      simp only [bind, Option.bind]
      rw [b6]
      rfl) rfl a2
  have hks := (Ctr.validate_ok hv).2.2.1
  have hf : EncryptingStream.firstSegmentSize (AesCtrHmac.encrypter lib p key hmacKey
      (lib.random seed p.keySize.toNat) (lib.random' seed 7)) =
      p.ciphertextSegmentSize - p.ciphertextOffset - (1 + p.keySize + 7) - p.tagSize := by
    show p.ciphertextSegmentSize - p.tagSize - p.ciphertextOffset -
      ((makeHeader _ _).length : Int) = _
    rw [makeHeader_length, hl.random, hl.random']
    omega
  rw [hf] at this
  exact this

end Tink.Props
