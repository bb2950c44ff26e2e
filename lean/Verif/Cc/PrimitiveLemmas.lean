import Verif.Cc.CmacLemmas
import Verif.Cc.AesSiv
import Verif.Cc.AesEax
import Verif.Cc.Prf
import Verif.Spec.Hkdf

/-!
# Lemmas about the primitives
-/

namespace Tink.Cc
open Spec

theorem sbind_ok {α β : Type} {x : StatusOr α} {f : α → StatusOr β} {b : β} :
    (x >>= f) = .ok b ↔ ∃ a, x = .ok a ∧ f a = .ok b := by
  cases x <;> simp [bind, Except.bind]

theorem invalid_ne' {α : Type} {a : α} : (invalidArgument : StatusOr α) ≠ .ok a := by simp [invalidArgument]

theorem internal_ne {α : Type} {a : α} : (internalError : StatusOr α) ≠ .ok a := by simp [internalError]

/-! ## AEADs with one call -/

theorem nonceEncrypt_ok {lib : Ssl} {alg n key seed pt ad ct} :
    nonceEncrypt lib alg n key seed pt ad = .ok ct ↔
      ∃ c, lib.evpSeal alg key (lib.random seed 0 n) ad pt = some c ∧ ct = lib.random seed 0 n ++ c := by
  unfold nonceEncrypt oneShotEncrypt
  dsimp only
  cases h : lib.evpSeal alg key (lib.random seed 0 n) ad pt with
  | none => simp [bind, Except.bind, internalError]
  | some c => simp [bind, Except.bind, pure, Except.pure, eq_comm]

theorem nonceDecrypt_ok {lib : Ssl} {alg n key ct ad pt} :
    nonceDecrypt lib alg n key ct ad = .ok pt ↔
      n + 16 ≤ ct.length ∧ lib.evpOpen alg key (ct.take n) ad (ct.drop n) = some pt := by
  unfold nonceDecrypt oneShotDecrypt
  by_cases h : ct.length < n + 16
  · rw [if_pos h]; simp [invalidArgument]; omega
  · rw [if_neg h, if_neg (by simp; omega)]
    cases lib.evpOpen alg key (ct.take n) ad (ct.drop n) <;> simp [internalError] <;> omega

theorem nonce_exact {lib : Ssl} (hl : LawfulSsl lib) {alg : EvpAead} {n : Nat} {key : Bytes}
    (hs : ∀ nonce : Bytes, nonce.length = n → EvpSizes alg key nonce) :
    ExactAead { encrypt := nonceEncrypt lib alg n key, decrypt := nonceDecrypt lib alg n key } (n + 16) where
  exact ct ad pt := by
    show nonceDecrypt .. = _ ↔ ∃ seed, nonceEncrypt .. = _
    simp only [nonceDecrypt_ok, nonceEncrypt_ok]
    constructor
    · rintro ⟨h1, h2⟩
      obtain ⟨seed, hs⟩ := hl.random_any 0 (ct.take n)
      rw [List.length_take, Nat.min_eq_left (by omega)] at hs
      refine ⟨seed, ct.drop n, ?_, ?_⟩
      · rw [hs]; exact (hl.opens ..).1 h2
      · rw [hs, List.take_append_drop]
    · rintro ⟨seed, c, h1, rfl⟩
      have h2 := hl.overhead _ _ _ _ _ _ h1
      have h3 := hl.random_length seed 0 n
      refine ⟨by simp only [List.length_append]; omega, ?_⟩
      rw [List.take_left' h3, List.drop_left' h3]
      exact (hl.opens ..).2 h1
  length seed pt ad ct h := by
    obtain ⟨c, h1, rfl⟩ := nonceEncrypt_ok.1 h
    have h2 := hl.overhead _ _ _ _ _ _ h1
    have h3 := hl.random_length seed 0 n
    simp only [List.length_append]; omega
  total seed pt ad h1 h2 := by
    obtain ⟨c, h⟩ := hl.seals alg key (lib.random seed 0 n) ad pt (hs _ (hl.random_length ..)) h1 h2
    exact ⟨_, nonceEncrypt_ok.2 ⟨c, h, rfl⟩⟩

/-! ## AES-EAX -/

theorem eax_encrypt_eq {lib : Ssl} {key : Bytes} (hE : ∀ b, (lib.aes key b).length = 16) (n : Nat) (seed : Seed)
    (pt ad : Bytes) :
    AesEax.encrypt lib key n seed pt ad =
      .ok (lib.random seed 0 n ++ (Modes.eax (lib.aes key) (lib.random seed 0 n) ad pt).1 ++
        (Modes.eax (lib.aes key) (lib.random seed 0 n) ad pt).2) := by
  unfold AesEax.encrypt AesEax.ctrCrypt aesCtr128Crypt Modes.eax
  simp only [bind, Except.bind, pure, Except.pure, eax_omac hE, ctr128_eq hE, xor_eq]
  have e0 : (0 : UInt8).toNat = 0 := rfl
  have e1 : (1 : UInt8).toNat = 1 := rfl
  have e2 : (2 : UInt8).toNat = 2 := rfl
  rw [e0, e1, e2, xorBytes_comm (Modes.omac (lib.aes key) 0 _) (Modes.omac (lib.aes key) 1 ad),
    ← xorBytes_assoc]

theorem eax_decrypt_made {lib : Ssl} {key : Bytes} (hE : ∀ b, (lib.aes key b).length = 16) {n : Nat}
    {nonce c tag ad pt : Bytes} (hn : nonce.length = n) (hc : c.length = pt.length) (ht : tag.length = 16)
    (htag : xorBytes (Modes.omac (lib.aes key) 1 ad)
      (xorBytes (Modes.omac (lib.aes key) 0 nonce) (Modes.omac (lib.aes key) 2 c)) = tag)
    (hp : ctr128 (lib.aes key) (Modes.omac (lib.aes key) 0 nonce) c = pt) :
    AesEax.decrypt lib key n (nonce ++ c ++ tag) ad = .ok pt := by
  have e0 : (0 : UInt8).toNat = 0 := rfl
  have e1 : (1 : UInt8).toNat = 1 := rfl
  have e2 : (2 : UInt8).toNat = 2 := rfl
  unfold AesEax.decrypt AesEax.ctrCrypt aesCtr128Crypt
  simp only [eax_omac hE, e0, e1, e2]
  have hlen : (nonce ++ c ++ tag).length = n + pt.length + 16 := by simp; omega
  rw [hlen, if_neg (by omega)]
  have t1 : (nonce ++ c ++ tag).take n = nonce := by rw [List.append_assoc, List.take_left' hn]
  have t2 : ((nonce ++ c ++ tag).drop n).take (n + pt.length + 16 - 16 - n) = c := by
    rw [List.append_assoc, List.drop_left' hn, List.take_left' (by omega)]
  have t3 : ((nonce ++ c ++ tag).drop (n + pt.length + 16 - 16)).take 16 = tag := by
    rw [List.drop_left' (by simp; omega), List.take_of_length_le (by omega)]
  rw [t1, t2, t3, htag, if_neg (by simp), hp]

theorem eax_decrypt_ok {lib : Ssl} {key : Bytes} (hE : ∀ b, (lib.aes key b).length = 16) {n : Nat}
    {ct ad pt : Bytes} :
    AesEax.decrypt lib key n ct ad = .ok pt ↔
      ∃ nonce, nonce.length = n ∧ ct = nonce ++ (Modes.eax (lib.aes key) nonce ad pt).1 ++
        (Modes.eax (lib.aes key) nonce ad pt).2 := by
  have e0 : (0 : UInt8).toNat = 0 := rfl
  have e1 : (1 : UInt8).toNat = 1 := rfl
  have e2 : (2 : UInt8).toNat = 2 := rfl
  have eqmac : ∀ a b c : Bytes, xorBytes b (xorBytes a c) = xorBytes (xorBytes a b) c := by
    intro a b c
    rw [xorBytes_comm a b, ← xorBytes_assoc]
  constructor
  · intro h
    unfold AesEax.decrypt AesEax.ctrCrypt aesCtr128Crypt at h
    simp only [eax_omac hE, e0, e1, e2, eqmac] at h
    split at h
    · exact absurd h invalid_ne'
    rename_i hlen
    split at h
    · exact absurd h invalid_ne'
    rename_i htag
    cases h
    have htag := Decidable.not_not.1 htag
    refine ⟨ct.take n, by simp; omega, ?_⟩
    unfold Modes.eax
    simp only [← ctr128_eq hE, xor_eq, ctr128_ctr128 hE]
    rw [htag, List.append_assoc]
    have e : (ct.drop n).take (ct.length - 16 - n) ++ (ct.drop (ct.length - 16)).take 16 = ct.drop n := by
      have h1 : ct.drop (ct.length - 16) = (ct.drop n).drop (ct.length - 16 - n) := by
        rw [List.drop_drop]
        rw [show n + (ct.length - 16 - n) = ct.length - 16 by omega]
      rw [List.take_of_length_le (l := ct.drop (ct.length - 16)) (by simp; omega), h1, List.take_append_drop]
    rw [e, List.take_append_drop]
  · rintro ⟨nonce, hn, rfl⟩
    have hN := length_omac hE 0 nonce
    have hH := length_omac hE 1 ad
    have hc : (Modes.ctr (lib.aes key) (Modes.omac (lib.aes key) 0 nonce) pt).length = pt.length := by
      rw [← ctr128_eq hE, length_ctr128 hE]
    have hC := length_omac hE 2 (Modes.ctr (lib.aes key) (Modes.omac (lib.aes key) 0 nonce) pt)
    unfold Modes.eax
    dsimp only
    refine eax_decrypt_made hE hn hc ?_ (eqmac _ _ _) ?_
    · simp only [xor_eq, length_xorBytes]; omega
    · rw [← ctr128_eq hE, ctr128_ctr128 hE]

theorem eax_exact {lib : Ssl} (hl : LawfulSsl lib) {key : Bytes} (hk : IsAesKey key) (n : Nat) :
    ExactAead { encrypt := AesEax.encrypt lib key n, decrypt := AesEax.decrypt lib key n } (n + 16) where
  exact ct ad pt := by
    show AesEax.decrypt .. = _ ↔ ∃ seed, AesEax.encrypt .. = _
    rw [eax_decrypt_ok (hl.aes key hk)]
    simp only [eax_encrypt_eq (hl.aes key hk), Except.ok.injEq]
    constructor
    · rintro ⟨nonce, hn, rfl⟩
      obtain ⟨seed, hs⟩ := hl.random_any 0 nonce
      rw [hn] at hs
      exact ⟨seed, by rw [hs]⟩
    · rintro ⟨seed, rfl⟩
      exact ⟨_, hl.random_length seed 0 n, rfl⟩
  length seed pt ad ct h := by
    have hE := hl.aes key hk
    have h : AesEax.encrypt lib key n seed pt ad = .ok ct := h
    rw [eax_encrypt_eq hE] at h
    cases h
    have h3 := hl.random_length seed 0 n
    have hN := length_omac hE 0 (lib.random seed 0 n)
    have hH := length_omac hE 1 ad
    have hC := fun c => length_omac hE 2 c
    unfold Modes.eax
    simp only [← ctr128_eq hE, xor_eq, List.length_append, length_ctr128 hE, length_xorBytes, hN, hH, hC, h3]
    omega
  total seed pt ad _ _ := ⟨_, eax_encrypt_eq (hl.aes key hk) ..⟩

/-! ## AES-SIV -/

theorem siv_encrypt_eq {lib : Ssl} {k1 k2 : Bytes} (h1 : ∀ b, (lib.aes k1 b).length = 16)
    (h2 : ∀ b, (lib.aes k2 b).length = 16) (pt ad : Bytes) :
    AesSiv.encrypt lib k1 k2 pt ad = .ok (Modes.siv (lib.aes k1) (lib.aes k2) ad pt) := by
  unfold AesSiv.encrypt AesSiv.aesCtrCrypt aesCtr128Crypt Modes.siv
  simp only [bind, Except.bind, pure, Except.pure, siv_s2v h1, ctr128_eq h2, clear_bits (length_s2v h1 ad pt)]

theorem siv_decrypt_ok {lib : Ssl} {k1 k2 : Bytes} (h1 : ∀ b, (lib.aes k1 b).length = 16)
    (h2 : ∀ b, (lib.aes k2 b).length = 16) {ct pt ad : Bytes} :
    AesSiv.decrypt lib k1 k2 ct ad = .ok pt ↔ ct = Modes.siv (lib.aes k1) (lib.aes k2) ad pt := by
  unfold AesSiv.decrypt AesSiv.aesCtrCrypt aesCtr128Crypt Modes.siv
  simp only [bind, Except.bind, pure, Except.pure, siv_s2v h1]
  constructor
  · intro h
    split at h
    · exact absurd h invalid_ne'
    rename_i hlen
    split at h
    · exact absurd h invalid_ne'
    rename_i htag
    cases h
    have htag := Decidable.not_not.1 htag
    rw [← htag, ← clear_bits (by simp; omega), ← ctr128_eq h2, ctr128_ctr128 h2, List.take_append_drop]
  · intro h
    have hv := length_s2v h1 ad pt
    generalize hs : Modes.s2v (lib.aes k1) ad pt = v at *
    subst h
    rw [if_neg (by simp; omega), List.take_left' hv, List.drop_left' hv, ← clear_bits hv, ← ctr128_eq h2,
      ctr128_ctr128 h2, hs, if_neg (by simp)]

theorem siv_exact {lib : Ssl} {k1 k2 : Bytes} (h1 : ∀ b, (lib.aes k1 b).length = 16)
    (h2 : ∀ b, (lib.aes k2 b).length = 16) :
    ExactDaead { encryptDeterministically := AesSiv.encrypt lib k1 k2
                 decryptDeterministically := AesSiv.decrypt lib k1 k2 } 16 where
  exact ct ad pt := by
    show AesSiv.decrypt .. = _ ↔ AesSiv.encrypt .. = _
    rw [siv_decrypt_ok h1 h2, siv_encrypt_eq h1 h2, Except.ok.injEq, eq_comm]
  length pt ad ct h := by
    have h : AesSiv.encrypt lib k1 k2 pt ad = .ok ct := h
    rw [siv_encrypt_eq h1 h2] at h
    cases h
    unfold Modes.siv
    dsimp only
    rw [List.length_append, length_s2v h1, ← ctr128_eq h2, length_ctr128 h2, Nat.add_comm]
  total pt ad := ⟨_, siv_encrypt_eq h1 h2 ..⟩

/-! ## HMAC and CMAC -/

theorem mdSize_iff {hash : EnumVal} {n : Nat} : mdSize hash = some n ↔ Digest hash n := by
  constructor
  · intro h
    unfold mdSize at h
    split at h
    · rename_i g; cases h; rw [g]; exact .sha1
    split at h
    · rename_i g; cases h; rw [g]; exact .sha224
    split at h
    · rename_i g; cases h; rw [g]; exact .sha256
    split at h
    · rename_i g; cases h; rw [g]; exact .sha384
    split at h
    · rename_i g; cases h; rw [g]; exact .sha512
    cases h
  · intro h
    cases h <;> rfl

theorem digest_unique {hash : EnumVal} {n m : Nat} (h : Digest hash n) (h' : Digest hash m) : n = m := by
  rw [← mdSize_iff] at h h'
  rw [h] at h'
  exact Option.some.inj h'

theorem digest_le {hash : EnumVal} {n : Nat} (h : Digest hash n) : 20 ≤ n ∧ n ≤ 64 := by
  cases h <;> omega

theorem hmac_exact {lib : Ssl} (hl : LawfulSsl lib) {hash : EnumVal} {n t : Nat} (hd : Digest hash n) (ht : t ≤ n)
    (key : Bytes) :
    ExactMac { computeMac := hmacCompute lib hash t key, verifyMac := hmacVerify lib hash t key }
      (MacKey.tag lib (.hmac key hash t)) where
  compute data := by
    obtain ⟨b, hb, -⟩ := hl.hmac hash n hd key data
    show hmacCompute .. = _
    simp only [hmacCompute, MacKey.tag, hb, Option.getD_some]
  verify m data := by
    obtain ⟨b, hb, hlen⟩ := hl.hmac hash n hd key data
    show hmacVerify .. = _ ↔ _
    simp only [hmacVerify, MacKey.tag, hb, Option.getD_some]
    by_cases h : m.length = t
    · rw [if_neg (by simp [h]), List.take_of_length_le (l := m) (by omega)]
      by_cases g : b.take t = m
      · simp [g]
      · rw [if_pos g]
        simp [invalidArgument, Ne.symm g]
    · rw [if_pos h]
      simp only [invalidArgument, reduceCtorEq, false_iff]
      intro g
      rw [g, List.length_take] at h
      omega

theorem length_hmac_tag {lib : Ssl} (hl : LawfulSsl lib) {hash : EnumVal} {n t : Nat} (hd : Digest hash n)
    (ht : t ≤ n) (key data : Bytes) : (MacKey.tag lib (.hmac key hash t) data).length = t := by
  obtain ⟨b, hb, hlen⟩ := hl.hmac hash n hd key data
  simp only [MacKey.tag, hb, Option.getD_some, List.length_take]
  omega

theorem cmac_exact {lib : Ssl} (hl : LawfulSsl lib) {key : Bytes} (hk : IsAesKey key) {t : Nat} (ht : t ≤ 16) :
    ExactMac { computeMac := cmacCompute lib t key, verifyMac := cmacVerify lib t key }
      (MacKey.tag lib (.aesCmac key t)) := by
  have hc : ∀ data, cmacCompute lib t key data = .ok (MacKey.tag lib (.aesCmac key t) data) := by
    intro data
    unfold cmacCompute MacKey.tag
    rw [hl.cmac key hk]
  constructor
  · exact hc
  · intro m data
    have hlen := length_cmac (hl.aes key hk) data
    show cmacVerify .. = _ ↔ _
    unfold cmacVerify
    rw [hc]
    simp only [bind, Except.bind]
    unfold MacKey.tag
    by_cases h : m.length = t
    · rw [if_neg (by simp [h]), List.take_of_length_le (l := m) (by omega), List.take_take, Nat.min_self]
      by_cases g : (Modes.cmac (lib.aes key) data).take t = m
      · simp [g]
      · rw [if_pos g]
        simp [invalidArgument, Ne.symm g]
    · rw [if_pos h]
      simp only [invalidArgument, reduceCtorEq, false_iff]
      intro g
      rw [g, List.length_take] at h
      omega

/-! ## AES-CTR with HMAC -/

theorem ctr_encrypt_ok {lib : Ssl} {key : Bytes} {n : Nat} {seed : Seed} {pt p : Bytes} :
    aesCtrEncrypt lib key n seed pt = .ok p ↔ pt.length < 2 ^ 31 ∧
      p = lib.random seed 0 n ++
        ctr128 (lib.aes key) (lib.random seed 0 n ++ List.replicate (16 - n) 0) pt := by
  unfold aesCtrEncrypt evpCtr
  dsimp only
  by_cases h : pt.length < 2 ^ 31
  · rw [if_pos h]
    simp only [bind, Except.bind, pure, Except.pure, Except.ok.injEq, h, true_and]
    exact eq_comm
  · rw [if_neg h]
    simp [bind, Except.bind, internalError, h]

theorem ctr_decrypt_ok {lib : Ssl} {key : Bytes} (hE : ∀ b, (lib.aes key b).length = 16) {n : Nat}
    {pt p : Bytes} :
    aesCtrDecrypt lib key n p = .ok pt ↔ pt.length < 2 ^ 31 ∧ ∃ iv, iv.length = n ∧
      p = iv ++ ctr128 (lib.aes key) (iv ++ List.replicate (16 - n) 0) pt := by
  unfold aesCtrDecrypt evpCtr
  dsimp only
  constructor
  · intro h
    split at h
    · exact absurd h invalid_ne'
    split at h
    · rename_i h1 h2
      cases h
      refine ⟨by rwa [length_ctr128 hE], p.take n, by simp; omega, ?_⟩
      rw [ctr128_ctr128 hE, List.take_append_drop]
    · exact absurd h internal_ne
  · rintro ⟨h1, iv, h2, rfl⟩
    rw [if_neg (by simp; omega), List.take_left' h2, List.drop_left' h2, length_ctr128 hE, if_pos h1,
      ctr128_ctr128 hE]

section
variable {cipher : IndCpaCipher} {mac : Cpp.Mac} {t : Nat} {tag : Bytes → Bytes}

/-- The check of the length of the associated data. -/
def lengthOk (ad : Bytes) : Prop := UInt64.ofNat ad.length * 8 / 8 = UInt64.ofNat ad.length

/-- What the MAC is computed of. -/
def macInput (ad payload : Bytes) : Bytes :=
  ad ++ payload ++ longToBigEndianStr (UInt64.ofNat ad.length * 8)

theorem eta_encrypt_ok (hm : ExactMac mac tag) (ht : ∀ d, (tag d).length = t) {seed : Seed} {pt ad ct : Bytes} :
    etaEncrypt cipher mac t seed pt ad = .ok ct ↔ lengthOk ad ∧ ∃ p, cipher.encrypt seed pt = .ok p ∧
      ct = p ++ tag (macInput ad p) := by
  unfold etaEncrypt lengthOk macInput
  dsimp only
  by_cases h : UInt64.ofNat ad.length * 8 / 8 = UInt64.ofNat ad.length
  · rw [if_neg (by simp [h])]
    simp only [h, true_and]
    rw [sbind_ok]
    refine exists_congr fun p => and_congr_right fun _ => ?_
    rw [hm.compute]
    simp only [bind, Except.bind]
    rw [if_neg (by simp [ht])]
    simp only [pure, Except.pure, Except.ok.injEq]
    exact eq_comm
  · rw [if_pos h]
    simp [invalidArgument, h]

theorem eta_decrypt_ok (hm : ExactMac mac tag) (ht : ∀ d, (tag d).length = t) {ct ad pt : Bytes} :
    etaDecrypt cipher mac t ct ad = .ok pt ↔ lengthOk ad ∧ ∃ p, cipher.decrypt p = .ok pt ∧
      ct = p ++ tag (macInput ad p) := by
  unfold etaDecrypt lengthOk macInput
  dsimp only
  constructor
  · intro h
    split at h
    · exact absurd h invalid_ne'
    rename_i hlen
    split at h
    · exact absurd h invalid_ne'
    rename_i hok
    obtain ⟨u, hu, hp⟩ := sbind_ok.1 h
    have hv := (hm.verify _ _).1 hu
    refine ⟨Decidable.not_not.1 hok, _, hp, ?_⟩
    rw [← hv, List.take_of_length_le (l := ct.drop _) (by simp; omega), List.take_append_drop]
  · rintro ⟨hok, p, hp, rfl⟩
    have hl := ht (ad ++ p ++ longToBigEndianStr (UInt64.ofNat ad.length * 8))
    have e : (p ++ tag (ad ++ p ++ longToBigEndianStr (UInt64.ofNat ad.length * 8))).length - t
        = p.length := by rw [List.length_append]; omega
    rw [if_neg (by rw [List.length_append]; omega), if_neg (by simp [hok]), e, List.take_left' rfl, List.drop_left' rfl,
      List.take_of_length_le (by omega)]
    rw [sbind_ok]
    exact ⟨(), (hm.verify _ _).2 rfl, hp⟩

end

theorem lengthOk_small {ad : Bytes} (h : ad.length < 2 ^ 61) : lengthOk ad := by
  unfold lengthOk
  rw [← UInt64.toNat_inj, UInt64.toNat_div, UInt64.toNat_mul]
  simp
  omega

theorem eta_exact {lib : Ssl} (hl : LawfulSsl lib) {key : Bytes} (hk : IsAesKey key) {n t : Nat}
    {mac : Cpp.Mac} {tag : Bytes → Bytes} (hm : ExactMac mac tag) (ht : ∀ d, (tag d).length = t) :
    ExactAead
      { encrypt := etaEncrypt ⟨aesCtrEncrypt lib key n, aesCtrDecrypt lib key n⟩ mac t
        decrypt := etaDecrypt ⟨aesCtrEncrypt lib key n, aesCtrDecrypt lib key n⟩ mac t } (n + t) where
  exact ct ad pt := by
    show etaDecrypt .. = _ ↔ ∃ seed, etaEncrypt .. = _
    simp only [eta_decrypt_ok hm ht, eta_encrypt_ok hm ht]
    constructor
    · rintro ⟨h1, p, hp, rfl⟩
      obtain ⟨h2, iv, hiv, rfl⟩ := (ctr_decrypt_ok (hl.aes key hk)).1 hp
      obtain ⟨seed, hs⟩ := hl.random_any 0 iv
      rw [hiv] at hs
      exact ⟨seed, h1, _, ctr_encrypt_ok.2 ⟨h2, by rw [hs]⟩, rfl⟩
    · rintro ⟨seed, h1, p, hp, rfl⟩
      obtain ⟨h2, rfl⟩ := ctr_encrypt_ok.1 hp
      exact ⟨h1, _, (ctr_decrypt_ok (hl.aes key hk)).2 ⟨h2, _, hl.random_length .., rfl⟩, rfl⟩
  length seed pt ad ct h := by
    obtain ⟨h1, p, hp, rfl⟩ := (eta_encrypt_ok hm ht).1 h
    obtain ⟨h2, rfl⟩ := ctr_encrypt_ok.1 hp
    have h3 := hl.random_length seed 0 n
    simp only [List.length_append, ht, length_ctr128 (hl.aes key hk), h3]
    omega
  total seed pt ad h1 h2 :=
    ⟨_, (eta_encrypt_ok hm ht).2 ⟨lengthOk_small (by omega), _, ctr_encrypt_ok.2 ⟨h1, rfl⟩, rfl⟩⟩

/-! ## HKDF -/

section
variable {lib : Ssl} {hash : EnumVal} {size : Nat} {prk info : Bytes}

/-- HMAC, with its key first. -/
abbrev hmacOf (lib : Ssl) (hash : EnumVal) : Bytes → Bytes → Bytes := fun k d => (lib.hmac hash k d).getD []

theorem hmacOf_some (hl : LawfulSsl lib) (hd : Digest hash size) (k d : Bytes) :
    lib.hmac hash k d = some (hmacOf lib hash k d) ∧ (hmacOf lib hash k d).length = size := by
  obtain ⟨t, ht, hn⟩ := hl.hmac hash size hd k d
  simp [hmacOf, ht, hn]

theorem length_T (hl : LawfulSsl lib) (hd : Digest hash size) (i : Nat) :
    (Hkdf.T (hmacOf lib hash) prk info (i + 1)).length = size := (hmacOf_some hl hd _ _).2

theorem length_blocks (hl : LawfulSsl lib) (hd : Digest hash size) (n : Nat) :
    (Hkdf.blocks (hmacOf lib hash) prk info n).length = n * size := by
  induction n with
  | zero => simp [Hkdf.blocks]
  | succ n ih => rw [Hkdf.blocks, List.length_append, ih, length_T hl hd, Nat.succ_mul]

theorem blocks_prefix (H : Bytes → Bytes → Bytes) (i k : Nat) :
    ∃ rest, Hkdf.blocks H prk info (i + k) = Hkdf.blocks H prk info i ++ rest := by
  induction k with
  | zero => exact ⟨[], by simp⟩
  | succ k ih =>
    obtain ⟨rest, hr⟩ := ih
    refine ⟨rest ++ Hkdf.T H prk info (i + k + 1), ?_⟩
    rw [← Nat.add_assoc, Hkdf.blocks, hr, List.append_assoc]

theorem take_blocks (hl : LawfulSsl lib) (hd : Digest hash size) {i c : Nat} (hi : i < 255) (hc : c ≤ size) :
    (Hkdf.blocks (hmacOf lib hash) prk info 255).take (i * size + c) =
      Hkdf.blocks (hmacOf lib hash) prk info i ++ (Hkdf.T (hmacOf lib hash) prk info (i + 1)).take c := by
  obtain ⟨rest, hr⟩ := blocks_prefix (prk := prk) (info := info) (hmacOf lib hash) (i + 1) (254 - i)
  rw [show i + 1 + (254 - i) = 255 by omega] at hr
  have hb := length_blocks (prk := prk) (info := info) hl hd i
  have hT := length_T (prk := prk) (info := info) hl hd i
  rw [hr, Hkdf.blocks, List.append_assoc, List.take_append, hb]
  rw [List.take_of_length_le (by omega), Nat.add_sub_cancel_left, List.take_append_of_le_length (by omega)]

/-- The stream after `i` blocks, all of which have been read. -/
def after (i : Nat) (ti prk info : Bytes) (pos : Nat) : Hkdf.Stream :=
  { status := none, prk := prk, ti := ti, i := i, input := info, positionInTi := pos }

theorem updateTi_eq (hl : LawfulSsl lib) (hd : Digest hash size) {s : Hkdf.Stream} {i : Nat}
    (hp : s.prk = prk) (hin : s.input = info) (hi : s.i = i) (hst : s.status = none)
    (hti : i ≠ 0 → s.ti = Hkdf.T (hmacOf lib hash) prk info i) :
    Hkdf.updateTi lib hash s = .ok (after (i + 1) (Hkdf.T (hmacOf lib hash) prk info (i + 1)) prk info 0) := by
  have e : (if s.i ≠ 0 then s.ti else []) = Hkdf.T (hmacOf lib hash) prk info i := by
    rw [hi]
    by_cases h : i = 0
    · rw [if_neg (by simp [h]), h]; rfl
    · rw [if_pos h, hti h]
  unfold Hkdf.updateTi
  rw [e, hp, hin, hi, (hmacOf_some hl hd _ _).1]
  simp only [after, Hkdf.T]
  rw [hst]

theorem readLoop_eq (hl : LawfulSsl lib) (hd : Digest hash size) (n : Nat) {fuel i : Nat} (hi : i ≤ 255)
    (hf : 256 - i + 1 ≤ fuel) (hn : i * size ≤ n) :
    Hkdf.readLoop lib hash n fuel (after i (Hkdf.T (hmacOf lib hash) prk info i) prk info
      (Hkdf.T (hmacOf lib hash) prk info i).length) (Hkdf.blocks (hmacOf lib hash) prk info i) =
      if n ≤ 255 * size then .ok ((Hkdf.blocks (hmacOf lib hash) prk info 255).take n)
      else .error ⟨.outOfRange, false⟩ := by
  have hpos := (digest_le hd).1
  induction fuel generalizing i with
  | zero => omega
  | succ fuel ih =>
    unfold Hkdf.readLoop
    rw [length_blocks hl hd]
    by_cases hlt : i * size < n
    · rw [if_pos (by exact_mod_cast hlt)]
      by_cases h255 : i = 255
      · subst h255
        simp only [Hkdf.next, after]
        rw [if_neg (by omega), if_pos trivial, if_neg (by omega)]
      · have hT := length_T (prk := prk) (info := info) hl hd i
        have hnext : Hkdf.next lib hash (after i (Hkdf.T (hmacOf lib hash) prk info i) prk info
            (Hkdf.T (hmacOf lib hash) prk info i).length) =
            (after (i + 1) (Hkdf.T (hmacOf lib hash) prk info (i + 1)) prk info
              (Hkdf.T (hmacOf lib hash) prk info (i + 1)).length,
              .ok (Hkdf.T (hmacOf lib hash) prk info (i + 1))) := by
          unfold Hkdf.next
          rw [updateTi_eq (i := i) (prk := prk) (info := info) hl hd rfl rfl rfl rfl (fun _ => rfl)]
          simp [after, h255, Hkdf.returnDataFromPosition]
        rw [hnext]
        dsimp only
        rw [Int.toNat_natCast, hT]
        have hmul : (i + 1) * size = i * size + size := Nat.succ_mul ..
        by_cases hfull : (i + 1) * size ≤ n
        · have hcopy : min (n - i * size) size = size := by omega
          rw [hcopy, Nat.sub_self, List.take_of_length_le (by omega)]
          have hback : Hkdf.backUp (after (i + 1) (Hkdf.T (hmacOf lib hash) prk info (i + 1)) prk info size) 0
              = after (i + 1) (Hkdf.T (hmacOf lib hash) prk info (i + 1)) prk info
                (Hkdf.T (hmacOf lib hash) prk info (i + 1)).length := by
            simp [Hkdf.backUp, after, hT]
          rw [hback]
          exact ih (by omega) (by omega) hfull
        · have hcopy : min (n - i * size) size = n - i * size := by omega
          rw [hcopy]
          have hall : n ≤ 255 * size :=
            Nat.le_trans (by omega : n ≤ (i + 1) * size) (Nat.mul_le_mul_right _ (by omega))
          rw [if_pos hall]
          have htake := take_blocks (prk := prk) (info := info) hl hd (i := i) (c := n - i * size) (by omega)
            (by omega)
          rw [show i * size + (n - i * size) = n by omega] at htake
          rw [← htake]
          cases fuel with
          | zero => omega
          | succ fuel =>
            unfold Hkdf.readLoop
            have : ((Hkdf.blocks (hmacOf lib hash) prk info 255).take n).length = n := by
              rw [List.length_take, length_blocks hl hd]; omega
            rw [if_neg (by rw [this]; omega)]
    · have : n = i * size := by omega
      rw [if_neg (by omega)]
      have hall : n ≤ 255 * size := by rw [this]; exact Nat.mul_le_mul_right _ hi
      rw [if_pos hall]
      obtain ⟨rest, hr⟩ := blocks_prefix (prk := prk) (info := info) (hmacOf lib hash) i (255 - i)
      rw [show i + (255 - i) = 255 by omega] at hr
      rw [hr, List.take_left' (by rw [length_blocks hl hd, this])]

theorem hkdf_compute_eq (hl : LawfulSsl lib) (hd : Digest hash size) (secret salt input : Bytes) {n : Nat}
    (hn : n < 2 ^ 31) :
    hkdfCompute lib hash size secret salt input n =
      if n ≤ 255 * size then .ok ((Hkdf.output (hmacOf lib hash) salt secret input).take n)
      else .error ⟨.outOfRange, false⟩ := by
  have hpos := digest_le hd
  have hint : sizeToInt n = n := by
    unfold sizeToInt
    rw [Nat.mod_eq_of_lt (by omega), if_pos hn]
  generalize hprk : hmacOf lib hash salt secret = prk
  have hlen : prk.length = size := by rw [← hprk]; exact (hmacOf_some hl hd _ _).2
  have hinit : Hkdf.init lib hash size secret salt input =
      after 1 (Hkdf.T (hmacOf lib hash) prk input 1) prk input 0 := by
    unfold Hkdf.init
    rw [(hmacOf_some hl hd salt secret).1, hprk]
    dsimp only
    rw [if_neg (by simp [hlen]),
      updateTi_eq (i := 0) (prk := prk) (info := input) hl hd rfl rfl rfl rfl (fun h => absurd rfl h)]
  unfold hkdfCompute Hkdf.readBytesFromStream Hkdf.output
  rw [hint, hinit, hprk]
  have hT : (Hkdf.T (hmacOf lib hash) prk input 1).length = size := length_T hl hd 0
  unfold Hkdf.readLoop
  by_cases h0 : n = 0
  · subst h0
    rw [if_neg (by simp), if_pos (by omega)]
    rfl
  · rw [if_pos (by simp; omega)]
    have hnext : Hkdf.next lib hash (after 1 (Hkdf.T (hmacOf lib hash) prk input 1) prk input 0) =
        (after 1 (Hkdf.T (hmacOf lib hash) prk input 1) prk input (Hkdf.T (hmacOf lib hash) prk input 1).length,
          .ok (Hkdf.T (hmacOf lib hash) prk input 1)) := by
      have hlt : 0 < (Hkdf.T (hmacOf lib hash) prk input 1).length := by omega
      simp [Hkdf.next, after, hlt, Hkdf.returnDataFromPosition]
    rw [hnext]
    simp only [Int.toNat_natCast, List.length_nil, Nat.sub_zero, List.nil_append]
    rw [hT]
    by_cases hfull : size ≤ n
    · rw [Nat.min_eq_right hfull, Nat.sub_self, List.take_of_length_le (by omega)]
      have hback : Hkdf.backUp (after 1 (Hkdf.T (hmacOf lib hash) prk input 1) prk input size) 0
          = after 1 (Hkdf.T (hmacOf lib hash) prk input 1) prk input
            (Hkdf.T (hmacOf lib hash) prk input 1).length := by
        simp [Hkdf.backUp, after, hT]
      have := readLoop_eq (prk := prk) (info := input) hl hd n (fuel := 511) (i := 1) (by omega) (by omega)
        (by omega)
      rw [hback]
      exact this
    · rw [Nat.min_eq_left (by omega), if_pos (by omega)]
      have htake := take_blocks (prk := prk) (info := input) hl hd (i := 0) (c := n) (by omega) (by omega)
      have b0 : Hkdf.blocks (hmacOf lib hash) prk input 0 = [] := rfl
      rw [Nat.zero_mul, Nat.zero_add, b0, List.nil_append] at htake
      rw [← htake]
      unfold Hkdf.readLoop
      have : ((Hkdf.blocks (hmacOf lib hash) prk input 255).take n).length = n := by
        rw [List.length_take, length_blocks hl hd]; omega
      rw [if_neg (by rw [this]; omega)]

end

end Tink.Cc
