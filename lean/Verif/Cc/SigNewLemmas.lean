import Verif.Cc.SigManages

/-!
# New signature keys, and which keys sign everything
-/

namespace Tink.Cc
open Spec Cpp Props

section
variable {lib : SigSsl}

/-- Which keys have the signature of a message, and with it those of all messages. -/
theorem ecdsa_total (hl : LawfulSigSsl lib) {g : EcGroup} {x y d : Bytes} {hash enc : EnumVal}
    (hk : (SigKey.ecdsa g x y d hash enc).Ok lib) (seed : Seed) (data : Bytes) :
    ∃ sig, (SigKey.ecdsa g x y d hash enc).signature lib seed data = some sig := by
  obtain ⟨rs, h⟩ := hl.ecdsaTotal seed g (fromBytesBE d) (lib.digest hash data) hk.2
  exact ⟨_, by unfold SigKey.signature; dsimp only; rw [h]; rfl⟩

theorem toInt_bits {x : UInt32} {n : Nat} (h : (bitLength n : Int) ≤ toInt x) : bnNumBytes n ≤ 2 ^ 28 := by
  have hx : toInt x < 2 ^ 31 := by
    unfold toInt
    have := x.toNat_lt
    split <;> omega
  unfold bnNumBytes
  omega

theorem rsaKey_size (hl : LawfulSigSsl lib) {seed : Seed} {x : UInt32} {e : Nat} {r : RsaNumbers}
    (h : lib.rsaGenerate seed (toInt x) e = some r) (he : e < 2 ^ 32) :
    SigKey.size.rsaSize (SigKey.rsaKey r) < 2 ^ 31 - 1000 := by
  obtain ⟨h1, h2, -, -, -, hd, hp, hq, hdp, hdq, hcrt⟩ := hl.rsaGenerate _ _ _ _ h
  have hn := toInt_bits h2
  have g1 := bnNumBytes_mono (Nat.le_of_lt hd)
  have g2 := bnNumBytes_mono (Nat.le_of_lt hp)
  have g3 := bnNumBytes_mono (Nat.le_of_lt hq)
  have g4 := bnNumBytes_mono (Nat.le_of_lt hdp)
  have g5 := bnNumBytes_mono (Nat.le_of_lt hdq)
  have g6 := bnNumBytes_mono (Nat.le_of_lt hcrt)
  have g7 : bnNumBytes r.e ≤ 4 := by
    have : bitLength r.e ≤ 32 := bitLength_lt.2 (by rw [h1]; exact he)
    unfold bnNumBytes
    omega
  unfold SigKey.size.rsaSize SigKey.rsaKey
  simp only [bytesOf_length]
  omega

theorem rsa_bits (hl : LawfulSigSsl lib) {seed : Seed} {x : UInt32} {e : Nat} {r : RsaNumbers}
    (h : lib.rsaGenerate seed (toInt x) e = some r) (hn : 2048 ≤ bitLength r.n) : 2048 ≤ toInt x := by
  obtain ⟨-, h2, -⟩ := hl.rsaGenerate _ _ _ _ h
  omega

theorem rsaOk_bits {r : RsaNumbers} (h : RsaOk (SigKey.rsaKey r).n (SigKey.rsaKey r).e) :
    2048 ≤ bitLength r.n ∧ r.e < 2 ^ 32 := by
  obtain ⟨h1, -, -, h2⟩ := h
  exact ⟨by rwa [← fromBytesBE_bytesOf r.n], by rwa [← fromBytesBE_bytesOf r.e]⟩

/-- The key a format asks for has the right public part. -/
theorem asked_matches (hl : LawfulSigSsl lib) {seed : Seed} {url : PStr} {b : Bytes} {s : SigKey}
    (h : SigKey.AskedFor lib seed url b s) : s.Matches lib := by
  cases h with
  | @ecdsa b f g x y h1 h2 h3 =>
    obtain ⟨q1, q2⟩ := hl.generate seed g
    have q3 := hl.onCurve g _ q1
    rw [h3] at q3
    obtain ⟨q4, q5⟩ := hl.point _ _ _ q3
    unfold SigKey.Matches
    dsimp only
    rw [fromBytesBE_digits _ _ q2, fromBytesBE_digits _ _ q4, fromBytesBE_digits _ _ q5, h3]
  | ed25519 h1 => rfl
  | rsaPkcs1 h1 h2 => trivial
  | rsaPss h1 h2 => trivial

theorem asked_size (hl : LawfulSigSsl lib) {seed : Seed} {url : PStr} {b : Bytes} {s : SigKey}
    (h : SigKey.AskedFor lib seed url b s) (hp : s.publicPart.Ok lib) : s.size < 2 ^ 31 - 1000 := by
  cases h with
  | @ecdsa b f g x y h1 h2 h3 =>
    unfold SigKey.size
    simp only [digitsBE_length]
    cases g <;> decide
  | ed25519 h1 =>
    unfold SigKey.size
    dsimp only
    rw [hl.ed25519Public _ (hl.random _ _ _), hl.random]
    decide
  | rsaPkcs1 h1 h2 =>
    have h3 := rsaOk_bits hp.1
    have h4 := (hl.rsaGenerate _ _ _ _ h2).1
    exact rsaKey_size hl h2 (by rw [← h4]; exact h3.2)
  | rsaPss h1 h2 =>
    have h3 := rsaOk_bits hp.1
    have h4 := (hl.rsaGenerate _ _ _ _ h2).1
    exact rsaKey_size hl h2 (by rw [← h4]; exact h3.2)

/-- The key a format asks for signs everything, if the salt fits. -/
theorem asked_total (hl : LawfulSigSsl lib) {seed : Seed} {url : PStr} {b : Bytes} {s : SigKey}
    (h : SigKey.AskedFor lib seed url b s) (hp : s.publicPart.Ok lib) (hr : s.Roomy) (seed' : Seed)
    (data : Bytes) : ∃ sig, s.signature lib seed' data = some sig := by
  cases h with
  | @ecdsa b f g x y h1 h2 h3 =>
    obtain ⟨q1, q2⟩ := hl.generate seed g
    refine ecdsa_total hl ⟨hp, ?_⟩ seed' data
    dsimp only
    rw [fromBytesBE_digits _ _ q2]
    exact q1
  | ed25519 h1 => exact ⟨_, rfl⟩
  | rsaPkcs1 h1 h2 =>
    obtain ⟨n, hn⟩ := digest_of_safe hp.2
    unfold SigKey.signature
    dsimp only
    rw [numbers_rsaKey]
    exact hl.rsaSignTotal _ _ _ _ _ n _ h2 (rsa_bits hl h2 (rsaOk_bits hp.1).1) hp.2 hn (hl.digest _ _ _ hn)
  | @rsaPss b f k h1 h2 =>
    obtain ⟨hp1, hp2, hp3, hp4⟩ := hp
    obtain ⟨n, hn⟩ := digest_of_safe hp2
    obtain ⟨em, hem⟩ := (hl.pssTotal seed' k.n _ n _ (lib.digest f.getParams.sigHash data) hp2 hn
      (hl.digest _ _ _ hn) hp4).2 (by have := hr n hn; rwa [numbers_rsaKey] at this)
    unfold SigKey.signature
    dsimp only
    rw [numbers_rsaKey, hp3, hem]
    exact hl.rsaEncryptTotal _ _ _ _ _ _ _ _ _ h2 (rsa_bits hl h2 (rsaOk_bits hp1).1) hem

/-- The salt of an acceptable key fits. -/
theorem roomy_of_ok (hl : LawfulSigSsl lib) {s : SigKey} (h : s.Ok lib) : s.Roomy := by
  cases s with
  | rsaPss k h1 h2 salt =>
    intro n hn
    obtain ⟨⟨-, hs, e, h0⟩, -, -, sig, hsig⟩ := h
    cases e
    obtain ⟨em, hem, -⟩ := Option.bind_eq_some_iff.1 hsig
    exact (hl.pssTotal _ _ _ n _ _ hs hn (hl.digest _ _ _ hn) h0).1 ⟨em, hem⟩
  | _ => trivial

theorem asked_ok_iff (hl : LawfulSigSsl lib) {seed : Seed} {url : PStr} {b : Bytes} {s : SigKey}
    (h : SigKey.AskedFor lib seed url b s) (hp : s.publicPart.Ok lib) : s.Ok lib ↔ s.Roomy := by
  refine ⟨roomy_of_ok hl, fun hr => ⟨hp, ?_⟩⟩
  have ht := asked_total hl h hp hr lib.testSeed (by! "Wycheproof and Tink.")
  cases h with
  | @ecdsa b f g x y h1 h2 h3 =>
    obtain ⟨q1, q2⟩ := hl.generate seed g
    dsimp only
    rw [fromBytesBE_digits _ _ q2]
    exact q1
  | ed25519 h1 => exact hl.random _ _ _
  | rsaPkcs1 h1 h2 =>
    obtain ⟨-, -, -, g1, g2, -⟩ := hl.rsaGenerate _ _ _ _ h2
    dsimp only
    rw [numbers_rsaKey]
    exact ⟨g1, g2, ht⟩
  | rsaPss h1 h2 =>
    obtain ⟨-, -, -, g1, g2, -⟩ := hl.rsaGenerate _ _ _ _ h2
    dsimp only
    rw [numbers_rsaKey]
    exact ⟨g1, g2, ht⟩

/-- There is a key manager for the public keys. -/
theorem ccVerify_publicType {url pubUrl : PStr} (h : PublicType url pubUrl) :
    ∃ cc, ccVerify lib pubUrl = some cc := by
  cases h with
  | ecdsa => exact ⟨_, if_pos rfl⟩
  | rsaPss => exact ⟨_, (if_neg (by show ¬ (_ = ps! "type.googleapis.com/google.crypto.tink.EcdsaPublicKey"); decide)).trans
      (if_pos rfl)⟩
  | rsaPkcs1 => exact ⟨_, (if_neg (by show ¬ (_ = ps! "type.googleapis.com/google.crypto.tink.EcdsaPublicKey"); decide)).trans
      ((if_neg (by show ¬ (_ = ps! "type.googleapis.com/google.crypto.tink.RsaSsaPssPublicKey"); decide)).trans
      (if_pos rfl))⟩
  | ed25519 => exact ⟨_, (if_neg (by show ¬ (_ = ps! "type.googleapis.com/google.crypto.tink.EcdsaPublicKey"); decide)).trans
      ((if_neg (by show ¬ (_ = ps! "type.googleapis.com/google.crypto.tink.RsaSsaPssPublicKey"); decide)).trans
      ((if_neg (by show ¬ (_ = ps! "type.googleapis.com/google.crypto.tink.RsaSsaPkcs1PublicKey"); decide)).trans
      (if_pos rfl)))⟩

theorem publicType_unique {url p p' : PStr} (h : PublicType url p) (h' : PublicType url p') : p = p' := by
  generalize hu : url = u at h'
  cases h <;> cases h' <;> first | rfl | (exfalso; revert hu; decide)

end

end Tink.Cc
