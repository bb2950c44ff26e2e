import Verif.Cc.Descriptions

/-!
# The C++ registry for symmetric keys, in terms of the keys
-/

namespace Tink.Cc
open Spec Cpp Props

/-- What a key manager does for the key type `url`. -/
structure Manages {B S : Type} (cc : Cpp.KeyManager B) (url : PStr) (seed : Seed) (Ok : S → Prop) (size : S → Nat)
    (prim : S → B) (StoredIn AskedFor : PStr → Bytes → S → Prop) : Prop where
  getPrimitive : ∀ kd : KeyData, kd.typeUrl = url → (∀ k, StoredIn url kd.value k → size k < 2 ^ 31) → ∀ a,
    cc.getPrimitive kd = .ok a ↔ ∃ k, StoredIn url kd.value k ∧ Ok k ∧ a = prim k
  formats : ∀ b, (∃ kd, cc.newKeyData seed b = .ok kd) ↔ ∃ k, AskedFor url b k ∧ Ok k
  usable : ∀ b kd, cc.newKeyData seed b = .ok kd →
    ∃ k, AskedFor url b k ∧ Ok k ∧ kd.typeUrl = url ∧ kd.keyMaterialType = KeyMaterialType.SYMMETRIC ∧
      (size k < 2 ^ 31 - 1000 →
        Fits kd ∧ StoredIn url kd.value k ∧ cc.getPrimitive kd = .ok (prim k))

theorem Describes.manages {K F B S : Type} {m : KeyTypeManager K F B} {seed : Seed} {Ok : S → Prop} {size : S → Nat}
    {prim : S → B} {stored : K → S} {asked : F → S} {VK : K → Prop} {VF : F → Prop}
    {StoredIn AskedFor : PStr → Bytes → S → Prop}
    (D : Describes m seed Ok size prim stored asked VK VF)
    (hS : ∀ v s, StoredIn m.keyType v s ↔ ∃ k, m.parseKey v = .ok k ∧ VK k ∧ stored k = s)
    (hA : ∀ b s, AskedFor m.keyType b s ↔ ∃ f, m.parseKeyFormat b = .ok f ∧ VF f ∧ asked f = s)
    (hV : ∀ k, m.validateKey k = .ok () → VK k) :
    Manages m.toKeyManager m.keyType seed Ok size prim StoredIn AskedFor where
  getPrimitive kd hu hs a := by
    show m.getPrimitive kd = .ok a ↔ _
    rw [getPrimitive_iff]
    constructor
    · rintro ⟨-, k, h1, h2⟩
      have hVK := hV k h2.1
      obtain ⟨-, h3, h4⟩ := (D.key k (hs _ ((hS _ _).2 ⟨k, h1, hVK, rfl⟩)) a).1 h2
      exact ⟨stored k, (hS _ _).2 ⟨k, h1, hVK, rfl⟩, h3, h4⟩
    · rintro ⟨s, h1, h2, h3⟩
      obtain ⟨k, g1, g2, rfl⟩ := (hS _ _).1 h1
      exact ⟨hu, k, g1, (D.key k (hs _ h1) a).2 ⟨g2, h2, h3⟩⟩
  formats b := by
    show (∃ kd, m.newKeyData seed b = .ok kd) ↔ _
    rw [D.formats]
    constructor
    · rintro ⟨f, h1, h2, h3⟩; exact ⟨_, (hA _ _).2 ⟨f, h1, h2, rfl⟩, h3⟩
    · rintro ⟨s, h1, h2⟩
      obtain ⟨f, g1, g2, rfl⟩ := (hA _ _).1 h1
      exact ⟨f, g1, g2, h2⟩
  usable b kd h := by
    obtain ⟨f, h1, h2, h3, h4, h5, h6⟩ := D.usable h
    refine ⟨asked f, (hA _ _).2 ⟨f, h1, h2, rfl⟩, h3, h4, h5, fun hs => ?_⟩
    obtain ⟨g1, g2, k, g3, g4, g5⟩ := h6 hs
    exact ⟨g1, (hS _ _).2 ⟨k, g3, g4, g5⟩, g2⟩

/-- Closes the cases of another key type. -/
macro "other_type" h:ident : tactic => `(tactic| exact absurd $h (by decide))

section
variable {lib : Ssl} {seed : Seed} {url : PStr}

theorem aead_manages (hl : LawfulSsl lib) {cc : Cpp.KeyManager Cpp.Aead} (h : ccAead lib url = some cc) :
    Manages cc url seed AeadKey.Ok AeadKey.size (aeadPrim lib) AeadKey.StoredIn
      (AeadKey.AskedFor (lib.random seed)) := by
  unfold ccAead at h
  split at h
  · rename_i hu
    cases h
    subst hu
    refine (aesCtrHmac_describes hl seed).manages ?_ ?_ ?_
    · refine fun v s => ⟨fun h => ?_, fun ⟨k, h1, ⟨h2, h3, h4⟩, h5⟩ => h5 ▸ .aesCtrHmac h1 h2 h3 h4⟩
      generalize hu : (AesCtrHmacAeadKeyManager.keyTypeManager lib).keyType = u at h
      change ps! "type.googleapis.com/google.crypto.tink.AesCtrHmacAeadKey" = u at hu
      cases h with
      | aesCtrHmac h1 h2 h3 h4 => exact ⟨_, h1, ⟨h2, h3, h4⟩, rfl⟩
      | _ => other_type hu
    · refine fun v s => ⟨fun h => ?_, fun ⟨f, h1, _, h5⟩ => h5 ▸ .aesCtrHmac h1⟩
      generalize hu : (AesCtrHmacAeadKeyManager.keyTypeManager lib).keyType = u at h
      change ps! "type.googleapis.com/google.crypto.tink.AesCtrHmacAeadKey" = u at hu
      cases h with
      | aesCtrHmac h1 => exact ⟨_, h1, trivial, rfl⟩
      | _ => other_type hu
    · intro k hk
      have hk : AesCtrHmacAeadKeyManager.validateKey k = .ok () := hk
      unfold AesCtrHmacAeadKeyManager.validateKey at hk
      rw [then_invalid, then_invalid, then_invalid, version_iff, version_iff, iv_iff, hmacKey_iff] at hk
      exact ⟨hk.1, hk.2.1, hk.2.2.2.2.1⟩
  split at h
  · rename_i hu
    cases h
    subst hu
    refine (aesGcm_describes hl seed).manages ?_ ?_ ?_
    · refine fun v s => ⟨fun h => ?_, fun ⟨k, h1, h2, h5⟩ => h5 ▸ .aesGcm h1 h2⟩
      generalize hu : (AesGcmKeyManager.keyTypeManager lib).keyType = u at h
      change ps! "type.googleapis.com/google.crypto.tink.AesGcmKey" = u at hu
      cases h with
      | aesGcm h1 h2 => exact ⟨_, h1, h2, rfl⟩
      | _ => other_type hu
    · refine fun v s => ⟨fun h => ?_, fun ⟨f, h1, _, h5⟩ => h5 ▸ .aesGcm h1⟩
      generalize hu : (AesGcmKeyManager.keyTypeManager lib).keyType = u at h
      change ps! "type.googleapis.com/google.crypto.tink.AesGcmKey" = u at hu
      cases h with
      | aesGcm h1 => exact ⟨_, h1, trivial, rfl⟩
      | _ => other_type hu
    · exact fun k hk => version_iff.1 (then_invalid.1 hk).1
  split at h
  · rename_i hu
    cases h
    subst hu
    refine (aesGcmSiv_describes hl seed).manages ?_ ?_ ?_
    · refine fun v s => ⟨fun h => ?_, fun ⟨k, h1, h2, h5⟩ => h5 ▸ .aesGcmSiv h1 h2⟩
      generalize hu : (AesGcmSivKeyManager.keyTypeManager lib).keyType = u at h
      change ps! "type.googleapis.com/google.crypto.tink.AesGcmSivKey" = u at hu
      cases h with
      | aesGcmSiv h1 h2 => exact ⟨_, h1, h2, rfl⟩
      | _ => other_type hu
    · refine fun v s => ⟨fun h => ?_, fun ⟨f, h1, _, h5⟩ => h5 ▸ .aesGcmSiv h1⟩
      generalize hu : (AesGcmSivKeyManager.keyTypeManager lib).keyType = u at h
      change ps! "type.googleapis.com/google.crypto.tink.AesGcmSivKey" = u at hu
      cases h with
      | aesGcmSiv h1 => exact ⟨_, h1, trivial, rfl⟩
      | _ => other_type hu
    · exact fun k hk => version_iff.1 (then_invalid.1 hk).1
  split at h
  · rename_i hu
    cases h
    subst hu
    refine (aesEax_describes hl seed).manages ?_ ?_ ?_
    · refine fun v s => ⟨fun h => ?_, fun ⟨k, h1, h2, h5⟩ => h5 ▸ .aesEax h1 h2⟩
      generalize hu : (AesEaxKeyManager.keyTypeManager lib).keyType = u at h
      change ps! "type.googleapis.com/google.crypto.tink.AesEaxKey" = u at hu
      cases h with
      | aesEax h1 h2 => exact ⟨_, h1, h2, rfl⟩
      | _ => other_type hu
    · refine fun v s => ⟨fun h => ?_, fun ⟨f, h1, _, h5⟩ => h5 ▸ .aesEax h1⟩
      generalize hu : (AesEaxKeyManager.keyTypeManager lib).keyType = u at h
      change ps! "type.googleapis.com/google.crypto.tink.AesEaxKey" = u at hu
      cases h with
      | aesEax h1 => exact ⟨_, h1, trivial, rfl⟩
      | _ => other_type hu
    · exact fun k hk => version_iff.1 (then_invalid.1 hk).1
  split at h
  · rename_i hu
    cases h
    subst hu
    refine (xChaCha20Poly1305_describes hl seed).manages ?_ ?_ ?_
    · refine fun v s => ⟨fun h => ?_, fun ⟨k, h1, h2, h5⟩ => h5 ▸ .xChaCha20Poly1305 h1 h2⟩
      generalize hu : (XChaCha20Poly1305KeyManager.keyTypeManager lib).keyType = u at h
      change ps! "type.googleapis.com/google.crypto.tink.XChaCha20Poly1305Key" = u at hu
      cases h with
      | xChaCha20Poly1305 h1 h2 => exact ⟨_, h1, h2, rfl⟩
      | _ => other_type hu
    · refine fun v s => ⟨fun h => ?_, fun ⟨f, h1, _, h5⟩ => h5 ▸ .xChaCha20Poly1305 h1⟩
      generalize hu : (XChaCha20Poly1305KeyManager.keyTypeManager lib).keyType = u at h
      change ps! "type.googleapis.com/google.crypto.tink.XChaCha20Poly1305Key" = u at hu
      cases h with
      | xChaCha20Poly1305 h1 => exact ⟨_, h1, trivial, rfl⟩
      | _ => other_type hu
    · exact fun k hk => version_iff.1 (then_invalid.1 hk).1
  · cases h

theorem daead_manages (hl : LawfulSsl lib) {cc : Cpp.KeyManager Cpp.DeterministicAead} (h : ccDaead lib url = some cc) :
    Manages cc url seed SivKey.Ok SivKey.size (sivPrim lib) SivKey.StoredIn
      (SivKey.AskedFor (lib.random seed)) := by
  unfold ccDaead at h
  split at h
  · rename_i hu
    cases h
    subst hu
    refine (aesSiv_describes hl seed).manages ?_ ?_ ?_
    · refine fun v s => ⟨fun h => ?_, fun ⟨k, h1, h2, h5⟩ => h5 ▸ .aesSiv h1 h2⟩
      generalize hu : (AesSivKeyManager.keyTypeManager lib).keyType = u at h
      cases h with
      | aesSiv h1 h2 => exact ⟨_, h1, h2, rfl⟩
    · refine fun v s => ⟨fun h => ?_, fun ⟨f, h1, _, h5⟩ => h5 ▸ .aesSiv h1⟩
      generalize hu : (AesSivKeyManager.keyTypeManager lib).keyType = u at h
      cases h with
      | aesSiv h1 => exact ⟨_, h1, trivial, rfl⟩
    · exact fun k hk => version_iff.1 (then_invalid.1 hk).1
  · cases h

theorem mac_manages (hl : LawfulSsl lib) {cc : Cpp.KeyManager Cpp.Mac} (h : ccMac lib url = some cc) :
    Manages cc url seed MacKey.Ok MacKey.size (macPrim lib) MacKey.StoredIn
      (MacKey.AskedFor (lib.random seed)) := by
  unfold ccMac at h
  split at h
  · rename_i hu
    cases h
    subst hu
    refine (hmac_describes hl seed).manages ?_ ?_ ?_
    · refine fun v s => ⟨fun h => ?_, fun ⟨k, h1, h2, h5⟩ => h5 ▸ .hmac h1 h2⟩
      generalize hu : (HmacKeyManager.keyTypeManager lib).keyType = u at h
      change ps! "type.googleapis.com/google.crypto.tink.HmacKey" = u at hu
      cases h with
      | hmac h1 h2 => exact ⟨_, h1, h2, rfl⟩
      | _ => other_type hu
    · refine fun v s => ⟨fun h => ?_, fun ⟨f, h1, _, h5⟩ => h5 ▸ .hmac h1⟩
      generalize hu : (HmacKeyManager.keyTypeManager lib).keyType = u at h
      change ps! "type.googleapis.com/google.crypto.tink.HmacKey" = u at hu
      cases h with
      | hmac h1 => exact ⟨_, h1, trivial, rfl⟩
      | _ => other_type hu
    · exact fun k hk => version_iff.1 (then_invalid.1 hk).1
  split at h
  · rename_i hu
    cases h
    subst hu
    refine (aesCmac_describes hl seed).manages ?_ ?_ ?_
    · refine fun v s => ⟨fun h => ?_, fun ⟨k, h1, h2, h5⟩ => h5 ▸ .aesCmac h1 h2⟩
      generalize hu : (AesCmacKeyManager.keyTypeManager lib).keyType = u at h
      change ps! "type.googleapis.com/google.crypto.tink.AesCmacKey" = u at hu
      cases h with
      | aesCmac h1 h2 => exact ⟨_, h1, h2, rfl⟩
      | _ => other_type hu
    · refine fun v s => ⟨fun h => ?_, fun ⟨f, h1, _, h5⟩ => h5 ▸ .aesCmac h1⟩
      generalize hu : (AesCmacKeyManager.keyTypeManager lib).keyType = u at h
      change ps! "type.googleapis.com/google.crypto.tink.AesCmacKey" = u at hu
      cases h with
      | aesCmac h1 => exact ⟨_, h1, trivial, rfl⟩
      | _ => other_type hu
    · exact fun k hk => version_iff.1 (then_invalid.1 hk).1
  · cases h

theorem prf_manages (hl : LawfulSsl lib) {cc : Cpp.KeyManager Cpp.Prf} (h : ccPrf lib url = some cc) :
    Manages cc url seed PrfKey.Ok PrfKey.size (prfPrim lib) PrfKey.StoredIn
      (PrfKey.AskedFor (lib.random seed)) := by
  unfold ccPrf at h
  split at h
  · rename_i hu
    cases h
    subst hu
    refine (hmacPrf_describes hl seed).manages ?_ ?_ ?_
    · refine fun v s => ⟨fun h => ?_, fun ⟨k, h1, h2, h5⟩ => h5 ▸ .hmac h1 h2⟩
      generalize hu : (HmacPrfKeyManager.keyTypeManager lib).keyType = u at h
      change ps! "type.googleapis.com/google.crypto.tink.HmacPrfKey" = u at hu
      cases h with
      | hmac h1 h2 => exact ⟨_, h1, h2, rfl⟩
      | _ => other_type hu
    · refine fun v s => ⟨fun h => ?_, fun ⟨f, h1, h2, h5⟩ => h5 ▸ .hmac h1 h2⟩
      generalize hu : (HmacPrfKeyManager.keyTypeManager lib).keyType = u at h
      change ps! "type.googleapis.com/google.crypto.tink.HmacPrfKey" = u at hu
      cases h with
      | hmac h1 h2 => exact ⟨_, h1, h2, rfl⟩
      | _ => other_type hu
    · exact fun k hk => version_iff.1 (then_invalid.1 hk).1
  split at h
  · rename_i hu
    cases h
    subst hu
    refine (hkdfPrf_describes hl seed).manages ?_ ?_ ?_
    · refine fun v s => ⟨fun h => ?_, fun ⟨k, h1, h2, h5⟩ => h5 ▸ .hkdf h1 h2⟩
      generalize hu : (HkdfPrfKeyManager.keyTypeManager lib).keyType = u at h
      change ps! "type.googleapis.com/google.crypto.tink.HkdfPrfKey" = u at hu
      cases h with
      | hkdf h1 h2 => exact ⟨_, h1, h2, rfl⟩
      | _ => other_type hu
    · refine fun v s => ⟨fun h => ?_, fun ⟨f, h1, h2, h5⟩ => h5 ▸ .hkdf h1 h2⟩
      generalize hu : (HkdfPrfKeyManager.keyTypeManager lib).keyType = u at h
      change ps! "type.googleapis.com/google.crypto.tink.HkdfPrfKey" = u at hu
      cases h with
      | hkdf h1 h2 => exact ⟨_, h1, h2, rfl⟩
      | _ => other_type hu
    · exact fun k hk => version_iff.1 (then_invalid.1 hk).1
  split at h
  · rename_i hu
    cases h
    subst hu
    refine (aesCmacPrf_describes hl seed).manages ?_ ?_ ?_
    · refine fun v s => ⟨fun h => ?_, fun ⟨k, h1, h2, h5⟩ => h5 ▸ .aesCmac h1 h2⟩
      generalize hu : (AesCmacPrfKeyManager.keyTypeManager lib).keyType = u at h
      change ps! "type.googleapis.com/google.crypto.tink.AesCmacPrfKey" = u at hu
      cases h with
      | aesCmac h1 h2 => exact ⟨_, h1, h2, rfl⟩
      | _ => other_type hu
    · refine fun v s => ⟨fun h => ?_, fun ⟨f, h1, h2, h5⟩ => h5 ▸ .aesCmac h1 h2⟩
      generalize hu : (AesCmacPrfKeyManager.keyTypeManager lib).keyType = u at h
      change ps! "type.googleapis.com/google.crypto.tink.AesCmacPrfKey" = u at hu
      cases h with
      | aesCmac h1 h2 => exact ⟨_, h1, h2, rfl⟩
      | _ => other_type hu
    · exact fun k hk => version_iff.1 (then_invalid.1 hk).1
  · cases h

end

end Tink.Cc
