import Verif.Cc.HybridKeyManagers
import Verif.Cc.SigLemmas
import Verif.Props.SymmetricKeys
import Verif.Spec.HybridKeys

/-!
# Lemmas on the primitives for hybrid encryption
-/

namespace Tink.Cc
open Spec Cpp Props

/-! ## Computations that may stop -/

theorem rbind_ok {α β : Type} {x : Run α} {f : α → Run β} {b : β} :
    (x >>= f) = .ok b ↔ ∃ a, x = .ok a ∧ f a = .ok b := by
  cases x with
  | ok a => exact ⟨fun h => ⟨a, rfl, h⟩, fun ⟨_, h, h'⟩ => by cases h; exact h'⟩
  | error e => exact ⟨fun h => (by cases h), fun ⟨_, h, _⟩ => (by cases h)⟩

theorem run_ok {α : Type} {x : StatusOr α} {a : α} : run x = .ok a ↔ x = .ok a := by
  cases x with
  | ok b => simp [run]
  | error e => simp [run]

theorem runStatus_ok {α : Type} {x : Run α} {a : α} : runStatus x = .ok a ↔ x = .ok a := by
  cases x with
  | ok b => simp [runStatus]
  | error e => cases e <;> simp [runStatus, internalError]

/-! ## Data encapsulation -/

/-- What the parameters for data encapsulation stand for. -/
inductive DemIs : DemKeyParams → Dem → Prop
  | aesGcm (n : UInt32) : DemIs { keyType := .aesGcm, keySize := n } (.aesGcm n.toNat)
  | aesCtrHmac (n iv m : UInt32) (hash : EnumVal) (tag : UInt32) :
    DemIs { keyType := .aesCtrHmacAead, keySize := n + m, aesCtrKeySize := n, aesCtrIvSize := iv,
            hmacHash := hash, hmacTagSize := tag } (.aesCtrHmac n.toNat iv.toNat m.toNat hash tag.toNat)
  | xChaCha20Poly1305 : DemIs { keyType := .xChaCha20Poly1305, keySize := 32 } .xChaCha20Poly1305
  | aesSiv (n : UInt32) : DemIs { keyType := .aesSiv, keySize := n } (.aesSiv n.toNat)

theorem demParsed_ok {α : Type} {x : Py α} {a : α} : demParsed x = .ok a ↔ x = .ok a := by
  cases x with
  | ok b => simp [demParsed]
  | error e => simp [demParsed, invalidArgument]

theorem dem_sound {t : KeyTemplate} {p : DemKeyParams} (h : demGetKeyParams t = .ok p) :
    ∃ dem, Dem.AskedFor t.typeUrl t.value dem ∧ DemIs p dem := by
  unfold demGetKeyParams at h
  split at h
  · rename_i hu
    obtain ⟨f, hf, h⟩ := sbind_ok.1 h
    cases h
    rw [hu]
    exact ⟨_, .aesGcm (demParsed_ok.1 hf), .aesGcm _⟩
  split at h
  · rename_i hu
    obtain ⟨f, hf, h⟩ := sbind_ok.1 h
    cases h
    rw [hu]
    exact ⟨_, .aesCtrHmac (demParsed_ok.1 hf), .aesCtrHmac _ _ _ _ _⟩
  split at h
  · rename_i hu
    obtain ⟨f, hf, h⟩ := sbind_ok.1 h
    cases h
    rw [hu]
    exact ⟨_, .xChaCha20Poly1305 (demParsed_ok.1 hf), .xChaCha20Poly1305⟩
  split at h
  · rename_i hu
    obtain ⟨f, hf, h⟩ := sbind_ok.1 h
    cases h
    rw [hu]
    exact ⟨_, .aesSiv (demParsed_ok.1 hf), .aesSiv _⟩
  · exact absurd h invalid_ne'

theorem dem_complete {t : KeyTemplate} {dem : Dem} (h1 : Dem.AskedFor t.typeUrl t.value dem) :
    ∃ p, demGetKeyParams t = .ok p ∧ DemIs p dem := by
  unfold demGetKeyParams
  generalize t.typeUrl = u at h1 ⊢
  cases h1 with
  | aesGcm h => rw [if_pos rfl]; exact ⟨_, sbind_ok.2 ⟨_, demParsed_ok.2 h, rfl⟩, .aesGcm _⟩
  | aesCtrHmac h =>
    rw [if_neg (by decide), if_pos rfl]
    exact ⟨_, sbind_ok.2 ⟨_, demParsed_ok.2 h, rfl⟩, .aesCtrHmac _ _ _ _ _⟩
  | xChaCha20Poly1305 h =>
    rw [if_neg (by decide), if_neg (by decide), if_pos rfl]
    exact ⟨_, sbind_ok.2 ⟨_, demParsed_ok.2 h, rfl⟩, .xChaCha20Poly1305⟩
  | aesSiv h =>
    rw [if_neg (by decide), if_neg (by decide), if_neg (by decide), if_pos rfl]
    exact ⟨_, sbind_ok.2 ⟨_, demParsed_ok.2 h, rfl⟩, .aesSiv _⟩

theorem dem_unique {u : PStr} {b : Bytes} {dem dem' : Dem} (h : Dem.AskedFor u b dem) (h' : Dem.AskedFor u b dem') :
    dem = dem' := by
  cases h with
  | aesGcm g =>
    generalize hu : ps! "type.googleapis.com/google.crypto.tink.AesGcmKey" = u at h'
    cases h' with
    | aesGcm g' => rw [g] at g'; cases g'; rfl
    | _ => exact absurd hu (by decide)
  | aesCtrHmac g =>
    generalize hu : ps! "type.googleapis.com/google.crypto.tink.AesCtrHmacAeadKey" = u at h'
    cases h' with
    | aesCtrHmac g' => rw [g] at g'; cases g'; rfl
    | _ => exact absurd hu (by decide)
  | xChaCha20Poly1305 g =>
    generalize hu : ps! "type.googleapis.com/google.crypto.tink.XChaCha20Poly1305Key" = u at h'
    cases h' with
    | xChaCha20Poly1305 g' => rfl
    | _ => exact absurd hu (by decide)
  | aesSiv g =>
    generalize hu : ps! "type.googleapis.com/google.crypto.tink.AesSivKey" = u at h'
    cases h' with
    | aesSiv g' => rw [g] at g'; cases g'; rfl
    | _ => exact absurd hu (by decide)

/-- What the primitive for data encapsulation does. -/
structure DemDoes (lib : Ssl) (dem : Dem) (key : Bytes) (a : Cpp.Aead) : Prop where
  encrypt : ∀ seed pt ct, a.encrypt seed pt [] = .ok ct ↔
    dem.ciphertext lib key (lib.random seed 0 dem.nonceSize) pt = some ct
  decrypt : ∀ ct pt, a.decrypt ct [] = .ok pt ↔
    ∃ nonce, nonce.length = dem.nonceSize ∧ dem.ciphertext lib key nonce pt = some ct

theorem toInt_range {n : UInt32} (h1 : ¬ toInt n < 12) (h2 : ¬ toInt n > 16) : 12 ≤ n.toNat ∧ n.toNat ≤ 16 ∧
    (toInt n).toNat = n.toNat := by
  have := n.toNat_lt
  unfold toInt at *
  split at h1 <;> split at h2 <;> split <;> omega

theorem aesCtrHmac_create {lib : Ssl} {k : AesCtrHmacAeadKey} {a : Cpp.Aead}
    (hs : k.getAesCtrKey.keyValue.length < 2 ^ 32) :
    AesCtrHmacAeadKeyManager.create lib k = .ok a ↔
      (AeadKey.aesCtrHmac k.getAesCtrKey.keyValue k.getAesCtrKey.getParams.ivSize.toNat k.getHmacKey.keyValue
        k.getHmacKey.getParams.hash k.getHmacKey.getParams.tagSize.toNat).Ok ∧
      a = aeadPrim lib (.aesCtrHmac k.getAesCtrKey.keyValue k.getAesCtrKey.getParams.ivSize.toNat
        k.getHmacKey.keyValue k.getHmacKey.getParams.hash k.getHmacKey.getParams.tagSize.toNat) := by
  have key : (AeadKey.aesCtrHmac k.getAesCtrKey.keyValue k.getAesCtrKey.getParams.ivSize.toNat
      k.getHmacKey.keyValue k.getHmacKey.getParams.hash k.getHmacKey.getParams.tagSize.toNat).Ok →
      AesCtrHmacAeadKeyManager.create lib k = .ok (aeadPrim lib (.aesCtrHmac k.getAesCtrKey.keyValue
        k.getAesCtrKey.getParams.ivSize.toNat k.getHmacKey.keyValue k.getHmacKey.getParams.hash
        k.getHmacKey.getParams.tagSize.toNat)) := by
    rintro ⟨h1, h2, h3, h4⟩
    have hle := h4
    obtain ⟨-, h10, n, hd, ht⟩ := hle
    have hd64 := digest_le hd
    unfold AesCtrHmacAeadKeyManager.create aesCtrNew HmacKeyManager.create etaNew
    have c1 : ¬ ((UInt32.ofNat k.getAesCtrKey.keyValue.length ≠ 16 &&
        UInt32.ofNat k.getAesCtrKey.keyValue.length ≠ 32) = true) := by
      rcases h1 with h1 | h1 <;> rw [h1] <;> decide
    rw [if_neg c1, toInt_small (by omega), if_neg (by simp; omega), hmacNew_ok h4]
    have e8 : (k.getHmacKey.getParams.tagSize.toUInt8).toNat = k.getHmacKey.getParams.tagSize.toNat := by
      rw [UInt32.toNat_toUInt8]
      exact Nat.mod_eq_of_lt (by omega)
    simp only [bind, Except.bind]
    rw [if_neg (by rw [UInt8.lt_iff_toNat_lt, e8]; exact Nat.not_lt.2 h10), e8, Int.toNat_natCast]
    rfl
  constructor
  · intro h
    suffices hok : (AeadKey.aesCtrHmac k.getAesCtrKey.keyValue k.getAesCtrKey.getParams.ivSize.toNat
        k.getHmacKey.keyValue k.getHmacKey.getParams.hash k.getHmacKey.getParams.tagSize.toNat).Ok from
      ⟨hok, Except.ok.inj (h.symm.trans (key hok))⟩
    unfold AesCtrHmacAeadKeyManager.create at h
    obtain ⟨c, hc, h⟩ := sbind_ok.1 h
    obtain ⟨m, hm, h⟩ := sbind_ok.1 h
    unfold aesCtrNew at hc
    split at hc
    · exact absurd hc invalid_ne'
    rename_i c1
    split at hc
    · exact absurd hc invalid_ne'
    rename_i c2
    simp only [Bool.or_eq_true, decide_eq_true_eq, not_or] at c2
    obtain ⟨i1, i2, -⟩ := toInt_range c2.1 c2.2
    have hkey : IsAesKey k.getAesCtrKey.keyValue := by
      simp only [ne_eq, decide_not, Bool.and_eq_true, Bool.not_eq_true', decide_eq_false_iff_not, not_and,
        Decidable.not_not] at c1
      have hz : (UInt32.ofNat k.getAesCtrKey.keyValue.length).toNat = k.getAesCtrKey.keyValue.length := by
        rw [UInt32.toNat_ofNat']
        exact Nat.mod_eq_of_lt hs
      by_cases g : UInt32.ofNat k.getAesCtrKey.keyValue.length = 16
      · left; rw [← hz, g]; rfl
      · right; rw [← hz, c1 g]; rfl
    unfold HmacKeyManager.create hmacNew at hm
    split at hm
    · cases hm
    rename_i size hd
    split at hm
    · exact absurd hm invalid_ne'
    split at hm
    · exact absurd hm invalid_ne'
    rename_i h3 h4
    have hd := mdSize_iff.1 hd
    have hd64 := digest_le hd
    unfold etaNew at h
    split at h
    · exact absurd h invalid_ne'
    rename_i h5
    have e8 : (k.getHmacKey.getParams.tagSize.toUInt8).toNat = k.getHmacKey.getParams.tagSize.toNat := by
      rw [UInt32.toNat_toUInt8]
      exact Nat.mod_eq_of_lt (by omega)
    rw [UInt8.lt_iff_toNat_lt, e8] at h5
    exact ⟨hkey, i1, i2, by omega, Nat.not_lt.1 h5, size, hd, by omega⟩
  · rintro ⟨h1, rfl⟩
    exact key h1

theorem demGetAead_iff {lib : Ssl} (hl : LawfulSsl lib) {p : DemKeyParams} {dem : Dem} (hp : DemIs p dem)
    {key : Bytes} :
    (∀ a, demGetAead lib p key = .ok a → dem.Ok ∧ key.length = dem.keySize ∧
      p.keySize.toNat = dem.keySize ∧ DemDoes lib dem key a) ∧
    (dem.Ok → key.length = dem.keySize → key.length = p.keySize.toNat → ∃ a, demGetAead lib p key = .ok a) := by
  unfold demGetAead
  cases hp with
  | aesGcm n =>
    constructor
    · intro a h
      split at h
      · cases h
      rename_i hs
      have hs : key.length = n.toNat := Decidable.not_not.1 hs
      have h := run_ok.1 h
      unfold aesGcmNew at h
      obtain ⟨u, hu, h⟩ := sbind_ok.1 h
      have hk := aesOneShot_ok.1 hu
      cases h
      have hc := fun pt ct => aeadPrim_ciphertexts (lib := lib) hl (k := .aesGcm key) hk (ad := []) (by decide) pt ct
      exact ⟨by unfold IsAesKey at hk; rw [hs] at hk; exact hk, hs, rfl,
        fun seed pt ct => (hc pt ct).1 seed, fun ct pt => (hc pt ct).2⟩
    · intro h1 h2 h3
      rw [if_neg (by simpa using h3)]
      have hk : IsAesKey key := by unfold IsAesKey; rw [h3]; exact h1
      exact ⟨_, run_ok.2 (sbind_ok.2 ⟨(), aesOneShot_ok.2 hk, rfl⟩)⟩
  | xChaCha20Poly1305 =>
    constructor
    · intro a h
      split at h
      · cases h
      rename_i hs
      have hs : key.length = 32 := Decidable.not_not.1 hs
      have h := run_ok.1 h
      unfold xChaCha20Poly1305New at h
      obtain ⟨u, hu, h⟩ := sbind_ok.1 h
      cases h
      have hc := fun pt ct => aeadPrim_ciphertexts (lib := lib) hl (k := .xChaCha20Poly1305 key) hs (ad := [])
        (by decide) pt ct
      exact ⟨trivial, hs, rfl, fun seed pt ct => (hc pt ct).1 seed, fun ct pt => (hc pt ct).2⟩
    · intro h1 h2 h3
      have h3 : key.length = 32 := h3
      rw [if_neg (by show ¬ key.length ≠ 32; simpa using h3)]
      refine ⟨_, run_ok.2 (sbind_ok.2 ⟨(), ?_, rfl⟩)⟩
      unfold createXchacha20OneShotCrypter
      simp [h3]
  | aesSiv n =>
    constructor
    · intro a h
      split at h
      · cases h
      rename_i hs
      have hs : key.length = n.toNat := Decidable.not_not.1 hs
      have h := run_ok.1 h
      unfold AesSiv.new at h
      by_cases h64 : key.length = 64
      · rw [if_neg (by simpa using h64)] at h
        cases h
        have e : key.length / 2 = 32 := by omega
        obtain ⟨a1, a2⟩ := siv_aes hl (k := ⟨key⟩) h64
        refine ⟨hs ▸ h64, hs, rfl, fun seed pt ct => ?_, fun ct pt => ?_⟩
        · show AesSiv.encrypt lib _ _ pt [] = _ ↔ _
          rw [e, siv_encrypt_eq a1 a2, Except.ok.injEq]
          exact Option.some_inj.symm
        · show AesSiv.decrypt lib _ _ ct [] = _ ↔ _
          rw [e, siv_decrypt_ok a1 a2]
          constructor
          · rintro rfl; exact ⟨[], rfl, rfl⟩
          · rintro ⟨_, -, h⟩; exact (Option.some.inj h).symm
      · rw [if_pos h64] at h
        cases h
    · intro h1 h2 h3
      have h1 : n.toNat = 64 := h1
      rw [if_neg (by simpa using h3)]
      have e : ∃ d, AesSiv.new lib key = .ok d := by
        unfold AesSiv.new
        rw [if_neg (by show ¬ key.length ≠ 64; simp at h3; omega)]
        exact ⟨_, rfl⟩
      obtain ⟨d, hd⟩ := e
      exact ⟨ofDaead d, run_ok.2 (by show Except.map ofDaead (AesSiv.new lib key) = _; rw [hd]; rfl)⟩
  | aesCtrHmac n iv m hash tag =>
    have hn := n.toNat_lt
    have hm := m.toNat_lt
    have hsum : (n + m).toNat = (n.toNat + m.toNat) % 2 ^ 32 := UInt32.toNat_add n m
    constructor
    · intro a h
      split at h
      · cases h
      rename_i hs
      have hs : key.length = (n + m).toNat := Decidable.not_not.1 hs
      dsimp only at h
      split at h
      · cases h
      rename_i hlt
      have hno : n.toNat + m.toNat < 2 ^ 32 := by omega
      have hsz : key.length = n.toNat + m.toNat := by omega
      have ht : (key.take n.toNat).length = n.toNat := by rw [List.length_take]; omega
      have hd : (key.drop n.toNat).length = m.toNat := by rw [List.length_drop]; omega
      obtain ⟨hok, rfl⟩ := (aesCtrHmac_create (by
        show (key.take n.toNat).length < 2 ^ 32
        omega)).1 (run_ok.1 h)
      have hc := fun pt ct => aeadPrim_ciphertexts (lib := lib) hl hok (ad := []) (by decide) pt ct
      obtain ⟨o1, o2, o3, o4, o5, o6⟩ := hok
      refine ⟨⟨?_, o2, o3, ?_, o5, o6⟩, hsz, by show (n + m).toNat = n.toNat + m.toNat; omega,
        fun seed pt ct => (hc pt ct).1 seed, fun ct pt => (hc pt ct).2⟩
      · have o1 : IsAesKey (key.take n.toNat) := o1
        unfold IsAesKey at o1
        rwa [ht] at o1
      · have o4 : 16 ≤ (key.drop n.toNat).length := o4
        omega
    · rintro ⟨o1, o2, o3, o4, o5, o6⟩ h2 h3
      have h2 : key.length = n.toNat + m.toNat := h2
      have h3 : key.length = (n + m).toNat := h3
      have ht : (key.take n.toNat).length = n.toNat := by rw [List.length_take]; omega
      have hd : (key.drop n.toNat).length = m.toNat := by rw [List.length_drop]; omega
      rw [if_neg (by simpa using h3)]
      dsimp only
      rw [if_neg (by omega)]
      refine ⟨_, run_ok.2 ((aesCtrHmac_create (by
        show (key.take n.toNat).length < 2 ^ 32
        omega)).2 ⟨⟨?_, o2, o3, ?_, o5, o6⟩, rfl⟩)⟩
      · show IsAesKey (key.take n.toNat)
        unfold IsAesKey
        rwa [ht]
      · show 16 ≤ (key.drop n.toNat).length
        omega

end Tink.Cc
