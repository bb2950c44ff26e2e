import Verif.Cc.HybridDescriptions

/-!
# The C++ registry for hybrid encryption keys, in terms of the keys
-/

namespace Tink.Cc
open Spec Cpp Props

/-- What a key manager does for the key type `url` of public keys. -/
structure ManagesEncrypt (lib : HybSsl) (cc : Cpp.KeyManager Cpp.HybridEncrypt) (url : PStr) : Prop where
  sound : ∀ kd a, cc.getPrimitive kd = .ok a →
    ∃ v, HybPub.StoredIn url kd.value v ∧ v.Ok lib ∧ EncryptsAs lib a v
  complete : ∀ (kd : KeyData) v, kd.typeUrl = url → HybPub.StoredIn url kd.value v → v.Ok lib →
    ∃ a, cc.getPrimitive kd = .ok a
  unique : ∀ b v v', HybPub.StoredIn url b v → HybPub.StoredIn url b v' → v = v'
  noKeys : ∀ seed b, cc.newKeyData seed b = unimplemented
  noPublic : cc.publicKeyData = none

/-- What a key manager does for the key type `url` of private keys. -/
structure ManagesDecrypt (lib : HybSsl) (seed : Seed) (cc : Cpp.KeyManager Cpp.HybridDecrypt) (url pubUrl : PStr) :
    Prop where
  sound : ∀ kd a, cc.getPrimitive kd = .ok a →
    ∃ s, HybPriv.StoredIn url kd.value s ∧ s.Ok ∧ DecryptsAs lib a s
  complete : ∀ (kd : KeyData) s, kd.typeUrl = url → HybPriv.StoredIn url kd.value s → s.Ok →
    ∃ a, cc.getPrimitive kd = .ok a
  unique : ∀ b s s', HybPriv.StoredIn url b s → HybPriv.StoredIn url b s' → s = s'
  formats : ∀ b, (∃ kd, cc.newKeyData seed b = .ok kd) ↔
    ∃ s, HybPriv.AskedFor lib seed url b s ∧ s.publicPart.Checked
  made : ∀ b kd, cc.newKeyData seed b = .ok kd →
    ∃ s, HybPriv.AskedFor lib seed url b s ∧ s.publicPart.Checked ∧ kd.typeUrl = url ∧
      kd.keyMaterialType = KeyMaterialType.ASYMMETRIC_PRIVATE ∧
      (s.size < 2 ^ 31 - 1000 → Fits kd ∧ HybPriv.StoredIn url kd.value s)
  publicKey : ∃ f, cc.publicKeyData = some f ∧ ∀ b,
    ((∃ kd, f b = .ok kd) ↔ ∃ s, HybPriv.StoredIn url b s ∧ s.publicPart.Checked) ∧
    ∀ kd, f b = .ok kd → kd.typeUrl = pubUrl ∧ kd.keyMaterialType = KeyMaterialType.ASYMMETRIC_PUBLIC ∧
      ∃ s, HybPriv.StoredIn url b s ∧ (s.size < 2 ^ 31 - 1000 →
        Fits kd ∧ HybPub.StoredIn pubUrl kd.value s.publicPart)

theorem DescribesEncrypt.manages {K : Type} {lib : HybSsl} {m : PublicKeyTypeManager K Cpp.HybridEncrypt}
    {R : K → HybPub → Prop} (D : DescribesEncrypt lib m R)
    (hS : ∀ b v, HybPub.StoredIn m.keyType b v ↔ ∃ k, m.parseKey b = .ok k ∧ R k v) :
    ManagesEncrypt lib m.toKeyManager m.keyType where
  sound kd a h := by
    obtain ⟨-, k, h1, h2, h3⟩ := publicGetPrimitive_iff.1 h
    obtain ⟨v, g1, g2, g3⟩ := D.sound k a h2 h3
    exact ⟨v, (hS _ _).2 ⟨k, h1, g1⟩, g2, g3⟩
  complete kd v hu h1 h2 := by
    obtain ⟨k, g1, g2⟩ := (hS _ _).1 h1
    obtain ⟨g3, a, g4⟩ := D.complete k v g2 h2
    exact ⟨a, publicGetPrimitive_iff.2 ⟨hu, k, g1, g3, g4⟩⟩
  unique b v v' h1 h2 := by
    obtain ⟨k, g1, g2⟩ := (hS _ _).1 h1
    obtain ⟨k', g3, g4⟩ := (hS _ _).1 h2
    rw [g1] at g3
    cases g3
    exact D.unique k v v' g2 g4
  noKeys _ _ := rfl
  noPublic := rfl

theorem DescribesDecrypt.manages {K F PK : Type} {lib : HybSsl} {seed : Seed}
    {m : KeyTypeManager K F Cpp.HybridDecrypt} {pub : PublicKeyTypeManager PK Cpp.HybridEncrypt}
    {R : K → HybPriv → Prop} {A : F → HybPriv → Prop} {RV : PK → HybPub → Prop} {getPub : K → PK}
    (D : DescribesDecrypt lib seed m R A) (V : DescribesEncrypt lib pub RV)
    (hP : ∀ k s, R k s → RV (getPub k) s.publicPart)
    (hS : ∀ b s, HybPriv.StoredIn m.keyType b s ↔ ∃ k, m.parseKey b = .ok k ∧ R k s)
    (hA : ∀ b s, HybPriv.AskedFor lib seed m.keyType b s ↔ ∃ f, m.parseKeyFormat b = .ok f ∧ A f s)
    (hV : ∀ b v, HybPub.StoredIn pub.keyType b v ↔ ∃ k, pub.parseKey b = .ok k ∧ RV k v) :
    ManagesDecrypt lib seed (toPrivateKeyManager m pub getPub) m.keyType pub.keyType where
  sound kd a h := by
    obtain ⟨-, k, h1, h2, h3⟩ := getPrimitive_iff.1 h
    obtain ⟨v, g1, g2, g3⟩ := D.sound k a h2 h3
    exact ⟨v, (hS _ _).2 ⟨k, h1, g1⟩, g2, g3⟩
  complete kd s hu h1 h2 := by
    obtain ⟨k, g1, g2⟩ := (hS _ _).1 h1
    obtain ⟨a, g4⟩ := D.complete k s g2 h2
    exact ⟨a, getPrimitive_iff.2 ⟨hu, k, g1, (D.checked k s g2).2 (hybChecked_of_ok h2), g4⟩⟩
  unique b v v' h1 h2 := by
    obtain ⟨k, g1, g2⟩ := (hS _ _).1 h1
    obtain ⟨k', g3, g4⟩ := (hS _ _).1 h2
    rw [g1] at g3
    cases g3
    exact D.unique k v v' g2 g4
  formats b := by
    constructor
    · rintro ⟨kd, h⟩
      obtain ⟨f, k, h1, h2, h3, -⟩ := newKeyData_iff'.1 h
      obtain ⟨s, g1, g2, -⟩ := D.made f k h2 h3
      exact ⟨s, (hA _ _).2 ⟨f, h1, g1⟩, g2⟩
    · rintro ⟨s, h1, h2⟩
      obtain ⟨f, g1, g2⟩ := (hA _ _).1 h1
      obtain ⟨g3, k, g4, -⟩ := D.makes f s g2 h2
      exact ⟨_, newKeyData_iff'.2 ⟨f, k, g1, g3, g4, rfl⟩⟩
  made b kd h := by
    obtain ⟨f, k, h1, h2, h3, rfl⟩ := newKeyData_iff'.1 h
    obtain ⟨s, g1, g2, g3⟩ := D.made f k h2 h3
    refine ⟨s, (hA _ _).2 ⟨f, h1, g1⟩, g2, rfl, D.material, fun hs => ?_⟩
    obtain ⟨v, hv, hlen⟩ := D.serialize k s g3 hs
    rw [hv]
    exact ⟨keyData_fits D.url (by simp only [KeyTypeManager.serialized]; omega),
      (hS _ _).2 ⟨k, D.parse k v hv, g3⟩⟩
  publicKey := by
    refine ⟨_, rfl, fun b => ⟨?_, fun kd h => ?_⟩⟩
    · constructor
      · rintro ⟨kd, h⟩
        obtain ⟨k, h1, h2, -⟩ := getPublicKeyData_iff.1 h
        obtain ⟨s, hs⟩ := D.relates k h2
        exact ⟨s, (hS _ _).2 ⟨k, h1, hs⟩, (D.checked k s hs).1 h2⟩
      · rintro ⟨s, h1, h2⟩
        obtain ⟨k, g1, g2⟩ := (hS _ _).1 h1
        exact ⟨_, getPublicKeyData_iff.2 ⟨k, g1, (D.checked k s g2).2 h2, rfl⟩⟩
    · obtain ⟨k, h1, h2, rfl⟩ := getPublicKeyData_iff.1 h
      obtain ⟨s, hs⟩ := D.relates k h2
      refine ⟨rfl, V.material, s, (hS _ _).2 ⟨k, h1, hs⟩, fun hsz => ?_⟩
      have := hybSize_publicPart s
      obtain ⟨v, hv, hlen⟩ := V.serialize _ _ (hP k s hs) (by omega)
      rw [hv]
      exact ⟨keyData_fits V.url (by simp only [KeyTypeManager.serialized]; omega),
        (hV _ _).2 ⟨_, V.parse _ v hv, hP k s hs⟩⟩

section
variable {lib : HybSsl}

theorem ecies_encryptStored (b : Bytes) (v : HybPub) :
    HybPub.StoredIn (EciesAeadHkdfPublicKeyManager.keyTypeManager lib).keyType b v ↔
      ∃ k, EciesAeadHkdfPublicKey.fromString b = .ok k ∧ HybPub.OfEcies k v := by
  refine ⟨fun h => ?_, fun ⟨k, h1, h2⟩ => .ecies h1 h2⟩
  generalize hu : (EciesAeadHkdfPublicKeyManager.keyTypeManager lib).keyType = u at h
  change ps! "type.googleapis.com/google.crypto.tink.EciesAeadHkdfPublicKey" = u at hu
  cases h with
  | ecies h1 h2 => exact ⟨_, h1, h2⟩
  | _ => other_type hu

theorem ecies_decryptStored (b : Bytes) (v : HybPriv) :
    HybPriv.StoredIn (EciesAeadHkdfPrivateKeyManager.keyTypeManager lib).keyType b v ↔
      ∃ k, EciesAeadHkdfPrivateKey.fromString b = .ok k ∧ HybPriv.OfEcies k v := by
  refine ⟨fun h => ?_, fun ⟨k, h1, h2⟩ => .ecies h1 h2⟩
  generalize hu : (EciesAeadHkdfPrivateKeyManager.keyTypeManager lib).keyType = u at h
  change ps! "type.googleapis.com/google.crypto.tink.EciesAeadHkdfPrivateKey" = u at hu
  cases h with
  | ecies h1 h2 => exact ⟨_, h1, h2⟩
  | _ => other_type hu

theorem ecies_asked (seed : Seed) (b : Bytes) (v : HybPriv) :
    HybPriv.AskedFor lib seed (EciesAeadHkdfPrivateKeyManager.keyTypeManager lib).keyType b v ↔
      ∃ f, EciesAeadHkdfKeyFormat.fromString b = .ok f ∧ AsksEcies lib seed f v := by
  refine ⟨fun h => ?_, ?_⟩
  · generalize hu : (EciesAeadHkdfPrivateKeyManager.keyTypeManager lib).keyType = u at h
    change ps! "type.googleapis.com/google.crypto.tink.EciesAeadHkdfPrivateKey" = u at hu
    cases h with
    | ecies h1 h2 h3 h4 => exact ⟨_, h1, .mk h2 h3 h4⟩
    | _ => other_type hu
  · rintro ⟨f, h1, h⟩
    cases h with
    | mk h2 h3 h4 => exact .ecies h1 h2 h3 h4

theorem ecies_publicPart {k : EciesAeadHkdfPrivateKey} {s : HybPriv} (h : HybPriv.OfEcies k s) :
    HybPub.OfEcies k.getPublicKey s.publicPart := by
  cases h with
  | mk hv hp hk =>
    rw [EciesAeadHkdfPrivateKey.getPublicKey, hp]
    exact hk

theorem hpke_encryptStored (b : Bytes) (v : HybPub) :
    HybPub.StoredIn (HpkePublicKeyManager.keyTypeManager lib).keyType b v ↔
      ∃ k, HpkePublicKey.fromString b = .ok k ∧ HybPub.OfHpke k v := by
  refine ⟨fun h => ?_, fun ⟨k, h1, h2⟩ => .hpke h1 h2⟩
  generalize hu : (HpkePublicKeyManager.keyTypeManager lib).keyType = u at h
  change ps! "type.googleapis.com/google.crypto.tink.HpkePublicKey" = u at hu
  cases h with
  | hpke h1 h2 => exact ⟨_, h1, h2⟩
  | _ => other_type hu

theorem hpke_decryptStored (b : Bytes) (v : HybPriv) :
    HybPriv.StoredIn (HpkePrivateKeyManager.keyTypeManager lib).keyType b v ↔
      ∃ k, HpkePrivateKey.fromString b = .ok k ∧ HybPriv.OfHpke k v := by
  refine ⟨fun h => ?_, fun ⟨k, h1, h2⟩ => .hpke h1 h2⟩
  generalize hu : (HpkePrivateKeyManager.keyTypeManager lib).keyType = u at h
  change ps! "type.googleapis.com/google.crypto.tink.HpkePrivateKey" = u at hu
  cases h with
  | hpke h1 h2 => exact ⟨_, h1, h2⟩
  | _ => other_type hu

theorem hpke_asked (seed : Seed) (b : Bytes) (v : HybPriv) :
    HybPriv.AskedFor lib seed (HpkePrivateKeyManager.keyTypeManager lib).keyType b v ↔
      ∃ f, HpkeKeyFormat.fromString b = .ok f ∧ AsksHpke lib seed f v := by
  refine ⟨fun h => ?_, ?_⟩
  · generalize hu : (HpkePrivateKeyManager.keyTypeManager lib).keyType = u at h
    change ps! "type.googleapis.com/google.crypto.tink.HpkePrivateKey" = u at hu
    cases h with
    | hpke h1 h2 h3 => exact ⟨_, h1, .mk h2 h3⟩
    | _ => other_type hu
  · rintro ⟨f, h1, h⟩
    cases h with
    | mk h2 h3 => exact .hpke h1 h2 h3

theorem hpke_publicPart {k : HpkePrivateKey} {s : HybPriv} (h : HybPriv.OfHpke k s) :
    HybPub.OfHpke k.getPublicKey s.publicPart := by
  cases h with
  | mk hv hp hk =>
    rw [HpkePrivateKey.getPublicKey, hp]
    exact hk

theorem encrypt_manages (hl : LawfulHyb lib) {url : PStr} {cc : Cpp.KeyManager Cpp.HybridEncrypt}
    (h : ccHybridEncrypt lib url = some cc) : ManagesEncrypt lib cc url := by
  unfold ccHybridEncrypt at h
  split at h
  · rename_i hu
    cases h
    subst hu
    exact (ecies_describesEncrypt hl).manages ecies_encryptStored
  split at h
  · rename_i hu
    cases h
    subst hu
    exact (hpke_describesEncrypt lib).manages hpke_encryptStored
  · cases h

theorem decrypt_manages (hl : LawfulHyb lib) (seed : Seed) {url : PStr} {cc : Cpp.KeyManager Cpp.HybridDecrypt}
    (h : ccHybridDecrypt lib url = some cc) : ∃ pubUrl, HybridType url pubUrl ∧ ManagesDecrypt lib seed cc url pubUrl := by
  unfold ccHybridDecrypt at h
  split at h
  · rename_i hu
    cases h
    subst hu
    exact ⟨_, .ecies, (ecies_describesDecrypt hl seed).manages (ecies_describesEncrypt hl)
      (fun _ _ => ecies_publicPart) ecies_decryptStored (ecies_asked seed) ecies_encryptStored⟩
  split at h
  · rename_i hu
    cases h
    subst hu
    exact ⟨_, .hpke, (hpke_describesDecrypt hl seed).manages (hpke_describesEncrypt lib)
      (fun _ _ => hpke_publicPart) hpke_decryptStored (hpke_asked seed) hpke_encryptStored⟩
  · cases h

end

end Tink.Cc
