import Verif.Spec.Writing
import Verif.Props.StreamingKeyManagers

/-!
# Lemmas for C80: how much can be encrypted with one stream
-/

namespace Tink.Props
open Spec Segment
open EncryptingStream (firstSegmentSize)

theorem flatten_length {n : Nat} : ∀ {l : List Bytes}, (∀ b ∈ l, b.length = n) → l.flatten.length = l.length * n
  | [], _ => by simp
  | a :: l, h => by
    rw [List.flatten_cons, List.length_append, flatten_length (fun b hb => h b (List.mem_cons_of_mem _ hb)),
      h a List.mem_cons_self, List.length_cons, Nat.add_mul]
    omega

theorem divided_length {f n : Nat} {P : Bytes} {full : List Bytes} {last : Bytes}
    (hd : Divided f n P full last) :
    P.length = (if full = [] then 0 else f + (full.length - 1) * n) + last.length := by
  rw [hd.content, List.length_append]
  cases full with
  | nil => simp
  | cons a l =>
    have ha : a.length = f := hd.sizes 0 (by simp)
    have hrest := flatten_length (n := n) (l := l) (by
      intro b hb
      obtain ⟨j, hj, rfl⟩ := List.getElem_of_mem hb
      exact hd.sizes (j + 1) (by simp; omega))
    rw [if_neg (by simp), List.flatten_cons, List.length_append, hrest, ha]
    simp

/-- A plaintext has no more than 2³² segments just if it is no longer than they are together. -/
theorem divided_limit {f n : Nat} {P : Bytes} {full : List Bytes} {last : Bytes} (hn : 0 < n) (hfn : f ≤ n)
    (hd : Divided f n P full last) : full.length ≤ 2 ^ 32 - 1 ↔ P.length ≤ f + (2 ^ 32 - 1) * n := by
  have hl := divided_length hd
  have hs := hd.lastSize
  have hne := hd.nonempty
  by_cases h : full = []
  · rw [if_pos h] at hl hs
    rw [h, List.length_nil]
    omega
  · rw [if_neg h] at hl hs
    have h1 : 0 < last.length := List.length_pos_iff.2 (hne h)
    have h2 : 0 < full.length := List.length_pos_iff.2 h
    constructor
    · intro h3
      have := Nat.mul_le_mul_right n (show full.length - 1 + 1 ≤ 2 ^ 32 - 1 by omega)
      rw [Nat.add_mul] at this
      omega
    · intro h3
      refine Decidable.byContradiction fun h4 => ?_
      have := Nat.mul_le_mul_right n (show 2 ^ 32 - 1 ≤ full.length - 1 by omega)
      omega

section
variable {se : SegmentEncrypter Nat}

theorem counted_emitted (h : ∀ j b, b.length ≤ se.plaintextSegmentSize.toNat → j < 2 ^ 32 - 1 →
      ∃ c, se.encryptSegment j b false = (j + 1, .ok c)) :
    ∀ (m : Nat) (bs : List Bytes), bs.length = m → m ≤ 2 ^ 32 - 1 →
      (∀ b ∈ bs, b.length ≤ se.plaintextSegmentSize.toNat) → ∃ cs, Emitted se 0 bs cs m := by
  intro m
  induction m with
  | zero =>
    intro bs hb _ _
    rw [List.length_eq_zero_iff.1 hb]
    exact ⟨[], .start⟩
  | succ m ih =>
    intro bs hb hm hs
    have hne : bs ≠ [] := by intro h0; rw [h0] at hb; cases hb
    rw [← List.dropLast_concat_getLast hne] at hs ⊢
    obtain ⟨cs, hcs⟩ := ih bs.dropLast (by rw [List.length_dropLast]; omega) (by omega)
      (fun b hb => hs b (List.mem_append_left _ hb))
    obtain ⟨c, hc⟩ := h m (bs.getLast hne) (hs _ (by simp)) (by omega)
    exact ⟨_, .more hcs hc⟩

/-- An encrypter that counts segments, and fails only if there are too many, or one is too large. -/
theorem counted_encrypts (hn : 0 < se.plaintextSegmentSize.toNat)
    (hfn : (firstSegmentSize se).toNat ≤ se.plaintextSegmentSize.toNat)
    (h : ∀ j b last, b.length ≤ se.plaintextSegmentSize.toNat → tooMany j last = false →
      ∃ c, se.encryptSegment j b last = (j + 1, .ok c)) : Encrypts se 0 (segmentsLimit se) := by
  intro P full last hd hP
  have hm := (divided_limit hn hfn hd).2 hP
  obtain ⟨cs, hcs⟩ := counted_emitted (se := se)
    (fun j b hb hj => h j b false hb (by
      have h1 : ¬ 2 ^ 32 - 1 < j := by omega
      have h2 : j ≠ 2 ^ 32 - 1 := by omega
      simp [tooMany, h1, h2])) full.length full rfl hm (by
      intro b hb
      obtain ⟨j, hj, rfl⟩ := List.getElem_of_mem hb
      rw [hd.sizes j hj]
      split <;> omega)
  obtain ⟨c, hc⟩ := h full.length last true
    (by have := hd.lastSize; split at this <;> omega)
    (by simp only [tooMany, Bool.not_true, Bool.and_false, Bool.or_false, decide_eq_false_iff_not]; omega)
  exact ⟨cs, _, _, c, hcs, hc⟩

theorem counted_limit (hn : 0 < se.plaintextSegmentSize.toNat)
    (hfn : (firstSegmentSize se).toNat ≤ se.plaintextSegmentSize.toNat)
    (hnum : ∀ bs cs k, Emitted se 0 bs cs k → k = bs.length)
    (hmany : ∀ j b k c, se.encryptSegment j b true = (k, .ok c) → tooMany j true = false)
    {P C : Bytes} (h : EncryptionOf se 0 P C) : P.length ≤ segmentsLimit se := by
  obtain ⟨full, last, cs, k1, k2, c, hd, he, hl, -⟩ := h
  have h1 := hnum _ _ _ he
  have h2 := not_tooMany (hmany _ _ _ _ hl)
  exact (divided_limit hn hfn hd).1 (by omega)

end

namespace Gcm
open AesGcmHkdf
variable {lib : SegmentLibrary} {p : Params}

theorem sizes (hl : SoundLibrary lib) {np : NonceBased Nat State} (h : new lib p = .ok np) {seed : Seed} {ad : Bytes}
    {se : SegmentEncrypter Nat} {k : Nat} (he : np.newSegmentEncrypter seed ad = .ok (se, k)) :
    0 < se.plaintextSegmentSize.toNat ∧ (firstSegmentSize se).toNat ≤ se.plaintextSegmentSize.toNat := by
  obtain ⟨rfl, -⟩ := new_ok h
  obtain ⟨key, hk, rfl, rfl, h1, h2, h3⟩ := newSegmentEncrypter_ok hl he
  simp only [encrypter, firstSegmentSize, tagSize]
  omega

theorem encrypts (hl : SoundLibrary lib) (hw : WorkingLibrary lib) {np : NonceBased Nat State}
    (h : new lib p = .ok np) (hsize : p.ciphertextSegmentSize < 2 ^ 31) {seed : Seed} {ad : Bytes}
    {se : SegmentEncrypter Nat} {k : Nat} (he : np.newSegmentEncrypter seed ad = .ok (se, k)) :
    Encrypts se k (segmentsLimit se) := by
  obtain ⟨s1, s2⟩ := sizes hl h he
  obtain ⟨rfl, -⟩ := new_ok h
  obtain ⟨key, hk, rfl, rfl, h1, h2, h3⟩ := newSegmentEncrypter_ok hl he
  refine counted_encrypts s1 s2 fun j b last hb hj => ?_
  have hkl := hl.hkdf _ _ _ _ _ _ hk
  have hb' : (b.length : Int) ≤ p.ciphertextSegmentSize - tagSize := by
    simp only [encrypter] at hb s1; omega
  cases hc : lib.gcmEncrypt key (nonce (lib.random' seed 7) j last) b with
  | none =>
    refine absurd hc (hw.gcm _ _ _ (by rw [hkl]; exact h1) (by rw [nonce_length, hl.random']) ?_)
    simp only [tagSize] at hb'; omega
  | some c =>
    refine ⟨c, ?_⟩
    simp only [encrypter, encryptSegment]
    rw [if_neg (by omega), if_neg (by simp [hj]), hc]

theorem limit (hl : SoundLibrary lib) {np : NonceBased Nat State} (h : new lib p = .ok np) {seed : Seed} {ad : Bytes}
    {se : SegmentEncrypter Nat} {k : Nat} (he : np.newSegmentEncrypter seed ad = .ok (se, k)) {P C : Bytes}
    (hx : EncryptionOf se k P C) : P.length ≤ segmentsLimit se := by
  obtain ⟨s1, s2⟩ := sizes hl h he
  obtain ⟨rfl, -⟩ := new_ok h
  obtain ⟨key, hk, rfl, rfl, -⟩ := newSegmentEncrypter_ok hl he
  exact counted_limit s1 s2 (fun _ _ _ => emitted_number) (fun _ _ _ _ hc => (encryptSegment_ok hc).2.1) hx

end Gcm

namespace Ctr
open AesCtrHmac
variable {lib : SegmentLibrary} {p : Params}

theorem sizes {np : NonceBased Nat State} (h : new lib p = .ok np) {seed : Seed} {ad : Bytes}
    {se : SegmentEncrypter Nat} {k : Nat} (he : np.newSegmentEncrypter seed ad = .ok (se, k)) :
    0 < se.plaintextSegmentSize.toNat ∧ (firstSegmentSize se).toNat ≤ se.plaintextSegmentSize.toNat := by
  obtain ⟨rfl, hv⟩ := new_ok h
  obtain ⟨-, -, h3, h4, h5, h6, -⟩ := validate_ok hv
  obtain ⟨key, hk, -, -, rfl, rfl⟩ := newSegmentEncrypter_ok he
  simp only [encrypter, firstSegmentSize]
  omega

theorem encrypts (hl : SoundLibrary lib) (hw : WorkingLibrary lib) {np : NonceBased Nat State}
    (h : new lib p = .ok np) (hsize : p.ciphertextSegmentSize < 2 ^ 31) {seed : Seed} {ad : Bytes}
    {se : SegmentEncrypter Nat} {k : Nat} (he : np.newSegmentEncrypter seed ad = .ok (se, k)) :
    Encrypts se k (segmentsLimit se) := by
  obtain ⟨s1, s2⟩ := sizes h he
  obtain ⟨rfl, hv⟩ := new_ok h
  obtain ⟨-, -, h3, h4, h5, h6, h7⟩ := validate_ok hv
  obtain ⟨key, hk, hd, -, rfl, rfl⟩ := newSegmentEncrypter_ok he
  obtain ⟨⟨-, hkl⟩, -⟩ := deriveKeys_ok hl hd
  have hash : StreamHash p.tagAlgo := by
    unfold digestSize at h7
    by_cases g1 : p.tagAlgo = HashType.SHA1
    · exact .inl g1
    · rw [if_neg g1] at h7
      by_cases g2 : p.tagAlgo = HashType.SHA256
      · exact .inr (.inl g2)
      · rw [if_neg g2] at h7
        by_cases g3 : p.tagAlgo = HashType.SHA512
        · exact .inr (.inr g3)
        · rw [if_neg g3] at h7; omega
  refine counted_encrypts s1 s2 fun j b last hb hj => ?_
  have hb' : (b.length : Int) ≤ p.ciphertextSegmentSize - p.tagSize := by
    simp only [encrypter] at hb s1; omega
  obtain ⟨ct, hc, hcl⟩ := hw.ctr key (nonceForSegment (lib.random' seed 7) j last) b (by omega)
    (by rw [nonceForSegment_length, hl.random']) (by omega)
  cases hm : lib.hmac p.tagAlgo hk (nonceForSegment (lib.random' seed 7) j last ++ ct) with
  | none => exact absurd hm (hw.hmac _ _ _ hash)
  | some tag =>
    refine ⟨ct ++ tag.take p.tagSize.toNat, ?_⟩
    simp only [encrypter, encryptSegment]
    rw [if_neg (by omega), if_neg (by simp [hj]), hc]
    dsimp only
    rw [if_neg (by omega)]
    simp only [computeMac, hm, Option.map_some]

theorem limit {np : NonceBased Nat State} (h : new lib p = .ok np) {seed : Seed} {ad : Bytes}
    {se : SegmentEncrypter Nat} {k : Nat} (he : np.newSegmentEncrypter seed ad = .ok (se, k)) {P C : Bytes}
    (hx : EncryptionOf se k P C) : P.length ≤ segmentsLimit se := by
  obtain ⟨s1, s2⟩ := sizes h he
  obtain ⟨rfl, -⟩ := new_ok h
  obtain ⟨key, hk, -, -, rfl, rfl⟩ := newSegmentEncrypter_ok he
  exact counted_limit s1 s2 (fun _ _ _ => emitted_number) (fun _ _ _ _ hc => (encryptSegment_ok hc).2.1) hx

end Ctr

end Tink.Props
