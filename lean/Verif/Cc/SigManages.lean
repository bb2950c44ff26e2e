import Verif.Cc.SigDescriptions
import Verif.Cc.Manages

/-!
# The C++ registry for signature keys, in terms of the keys
-/

namespace Tink.Cc
open Spec Cpp Props

/-- What a key manager does for the key type `url` of public keys. -/
structure ManagesVerify (lib : SigSsl) (cc : Cpp.KeyManager Cpp.PublicKeyVerify) (url : PStr) : Prop where
  sound : ∀ kd a, cc.getPrimitive kd = .ok a →
    ∃ v, PubKey.StoredIn url kd.value v ∧ v.Ok lib ∧ VerifiesAs lib a v
  complete : ∀ (kd : KeyData) v, kd.typeUrl = url → PubKey.StoredIn url kd.value v → v.Ok lib →
    ∃ a, cc.getPrimitive kd = .ok a
  unique : ∀ b v v', PubKey.StoredIn url b v → PubKey.StoredIn url b v' → v = v'
  noKeys : ∀ seed b, cc.newKeyData seed b = unimplemented
  noPublic : cc.publicKeyData = none

/-- What a key manager does for the key type `url` of private keys. -/
structure ManagesSign (lib : SigSsl) (seed : Seed) (cc : Cpp.KeyManager Cpp.PublicKeySign) (url pubUrl : PStr) :
    Prop where
  sound : ∀ kd a, cc.getPrimitive kd = .ok a →
    ∃ s, SigKey.StoredIn url kd.value s ∧ s.Ok lib ∧ SignsAs lib a s
  complete : ∀ (kd : KeyData) s, kd.typeUrl = url → SigKey.StoredIn url kd.value s → s.Ok lib →
    ∃ a, cc.getPrimitive kd = .ok a
  unique : ∀ b s s', SigKey.StoredIn url b s → SigKey.StoredIn url b s' → s = s'
  formats : ∀ b, (∃ kd, cc.newKeyData seed b = .ok kd) ↔
    ∃ s, SigKey.AskedFor lib seed url b s ∧ s.publicPart.Ok lib
  made : ∀ b kd, cc.newKeyData seed b = .ok kd →
    ∃ s, SigKey.AskedFor lib seed url b s ∧ s.publicPart.Ok lib ∧ kd.typeUrl = url ∧
      kd.keyMaterialType = KeyMaterialType.ASYMMETRIC_PRIVATE ∧
      (s.size < 2 ^ 31 - 1000 → Fits kd ∧ SigKey.StoredIn url kd.value s)
  publicKey : ∃ f, cc.publicKeyData = some f ∧ ∀ b,
    ((∃ kd, f b = .ok kd) ↔ ∃ s, SigKey.StoredIn url b s ∧ s.Checked) ∧
    ∀ kd, f b = .ok kd → kd.typeUrl = pubUrl ∧ kd.keyMaterialType = KeyMaterialType.ASYMMETRIC_PUBLIC ∧
      ∃ s, SigKey.StoredIn url b s ∧ (s.size < 2 ^ 31 - 1000 →
        Fits kd ∧ PubKey.StoredIn pubUrl kd.value s.publicPart)

theorem newKeyData_iff' {K F B : Type} {m : KeyTypeManager K F B} {seed : Seed} {b : Bytes} {kd : KeyData} :
    m.newKeyData seed b = .ok kd ↔ ∃ f k, m.parseKeyFormat b = .ok f ∧ m.validateKeyFormat f = .ok () ∧
      m.createKey seed f = .ok k ∧
      kd = { typeUrl := m.keyType, value := KeyTypeManager.serialized (m.serializeKey k),
             keyMaterialType := m.keyMaterialType } := by
  unfold KeyTypeManager.newKeyData KeyTypeManager.newKeyFromString KeyTypeManager.newKey
  constructor
  · intro h
    obtain ⟨k, hk, h⟩ := sbind_ok.mp h
    obtain ⟨f, hf, hk⟩ := sbind_ok.mp hk
    obtain ⟨u, hu, hk⟩ := sbind_ok.mp hk
    obtain ⟨u', hu', hk⟩ := sbind_ok.mp hk
    cases h
    exact ⟨f, k, parsed_ok.1 hf, hu, hk, rfl⟩
  · rintro ⟨f, k, hf, hu, hk, rfl⟩
    exact sbind_ok.mpr ⟨k, sbind_ok.mpr ⟨f, parsed_ok.2 hf, sbind_ok.mpr ⟨(), hu,
      sbind_ok.mpr ⟨(), hu, hk⟩⟩⟩, rfl⟩

theorem publicGetPrimitive_iff {K B : Type} {m : PublicKeyTypeManager K B} {kd : KeyData} {p : B} :
    m.getPrimitive kd = .ok p ↔ kd.typeUrl = m.keyType ∧ ∃ k, m.parseKey kd.value = .ok k ∧
      m.validateKey k = .ok () ∧ m.create k = .ok p := by
  unfold PublicKeyTypeManager.getPrimitive
  by_cases h : kd.typeUrl = m.keyType
  · rw [if_neg (by simp [h])]
    constructor
    · intro g
      obtain ⟨k, hk, g⟩ := sbind_ok.mp g
      obtain ⟨_, hv, g⟩ := sbind_ok.mp g
      exact ⟨h, k, parsed_ok.1 hk, hv, g⟩
    · rintro ⟨-, k, hk, hv, g⟩
      exact sbind_ok.mpr ⟨k, parsed_ok.2 hk, sbind_ok.mpr ⟨(), hv, g⟩⟩
  · rw [if_pos h]
    simp [h]

theorem getPublicKeyData_iff {K F B PK PB : Type} {m : KeyTypeManager K F B} {pub : PublicKeyTypeManager PK PB}
    {getPub : K → PK} {b : Bytes} {kd : KeyData} :
    getPublicKeyData m pub getPub b = .ok kd ↔ ∃ k, m.parseKey b = .ok k ∧ m.validateKey k = .ok () ∧
      kd = { typeUrl := pub.keyType, value := KeyTypeManager.serialized (pub.serializeKey (getPub k)),
             keyMaterialType := pub.keyMaterialType } := by
  unfold getPublicKeyData
  constructor
  · intro g
    obtain ⟨k, hk, g⟩ := sbind_ok.mp g
    obtain ⟨_, hv, g⟩ := sbind_ok.mp g
    exact ⟨k, parsed_ok.1 hk, hv, (Except.ok.inj g).symm⟩
  · rintro ⟨k, hk, hv, rfl⟩
    exact sbind_ok.mpr ⟨k, parsed_ok.2 hk, sbind_ok.mpr ⟨(), hv, rfl⟩⟩

theorem DescribesVerify.manages {K : Type} {lib : SigSsl} {m : PublicKeyTypeManager K Cpp.PublicKeyVerify}
    {R : K → PubKey → Prop} (D : DescribesVerify lib m R)
    (hS : ∀ b v, PubKey.StoredIn m.keyType b v ↔ ∃ k, m.parseKey b = .ok k ∧ R k v) :
    ManagesVerify lib m.toKeyManager m.keyType where
  sound kd a h := by
    obtain ⟨-, k, h1, h2, h3⟩ := publicGetPrimitive_iff.1 h
    obtain ⟨v, g1, g2, g3⟩ := D.sound k a h2 h3
    exact ⟨v, (hS _ _).2 ⟨k, h1, g1⟩, g2, g3⟩
  complete kd v hu h1 h2 := by
    obtain ⟨k, g1, g2⟩ := (hS _ _).1 h1
    obtain ⟨g3, a, g4⟩ := D.complete k v g2 h2
    exact ⟨a, publicGetPrimitive_iff.2 ⟨hu, k, g1, g3, g4⟩⟩
  unique b v v' h1 h2 := by
    obtain ⟨k, g1, g2⟩ := (hS _ _).1 h1
    obtain ⟨k', g3, g4⟩ := (hS _ _).1 h2
    rw [g1] at g3
    cases g3
    exact D.unique k v v' g2 g4
  noKeys _ _ := rfl
  noPublic := rfl

theorem DescribesSign.manages {K F PK : Type} {lib : SigSsl} {seed : Seed}
    {m : KeyTypeManager K F Cpp.PublicKeySign} {pub : PublicKeyTypeManager PK Cpp.PublicKeyVerify}
    {R : K → SigKey → Prop} {A : F → SigKey → Prop} {RV : PK → PubKey → Prop} {getPub : K → PK}
    (D : DescribesSign lib seed m R A) (V : DescribesVerify lib pub RV)
    (hP : ∀ k s, R k s → RV (getPub k) s.publicPart)
    (hS : ∀ b s, SigKey.StoredIn m.keyType b s ↔ ∃ k, m.parseKey b = .ok k ∧ R k s)
    (hA : ∀ b s, SigKey.AskedFor lib seed m.keyType b s ↔ ∃ f, m.parseKeyFormat b = .ok f ∧ A f s)
    (hV : ∀ b v, PubKey.StoredIn pub.keyType b v ↔ ∃ k, pub.parseKey b = .ok k ∧ RV k v) :
    ManagesSign lib seed (toPrivateKeyManager m pub getPub) m.keyType pub.keyType where
  sound kd a h := by
    obtain ⟨-, k, h1, h2, h3⟩ := getPrimitive_iff.1 h
    obtain ⟨v, g1, g2, g3⟩ := D.sound k a h2 h3
    exact ⟨v, (hS _ _).2 ⟨k, h1, g1⟩, g2, g3⟩
  complete kd s hu h1 h2 := by
    obtain ⟨k, g1, g2⟩ := (hS _ _).1 h1
    obtain ⟨a, g4⟩ := D.complete k s g2 h2
    exact ⟨a, getPrimitive_iff.2 ⟨hu, k, g1, (D.checked k s g2).2 (checked_of_ok h2), g4⟩⟩
  unique b v v' h1 h2 := by
    obtain ⟨k, g1, g2⟩ := (hS _ _).1 h1
    obtain ⟨k', g3, g4⟩ := (hS _ _).1 h2
    rw [g1] at g3
    cases g3
    exact D.unique k v v' g2 g4
  formats b := by
    constructor
    · rintro ⟨kd, h⟩
      obtain ⟨f, k, h1, h2, h3, -⟩ := newKeyData_iff'.1 h
      obtain ⟨s, g1, g2, -⟩ := D.made f k h2 h3
      exact ⟨s, (hA _ _).2 ⟨f, h1, g1⟩, g2⟩
    · rintro ⟨s, h1, h2⟩
      obtain ⟨f, g1, g2⟩ := (hA _ _).1 h1
      obtain ⟨g3, k, g4, -⟩ := D.makes f s g2 h2
      exact ⟨_, newKeyData_iff'.2 ⟨f, k, g1, g3, g4, rfl⟩⟩
  made b kd h := by
    obtain ⟨f, k, h1, h2, h3, rfl⟩ := newKeyData_iff'.1 h
    obtain ⟨s, g1, g2, g3⟩ := D.made f k h2 h3
    refine ⟨s, (hA _ _).2 ⟨f, h1, g1⟩, g2, rfl, D.material, fun hs => ?_⟩
    obtain ⟨v, hv, hlen⟩ := D.serialize k s g3 hs
    rw [hv]
    exact ⟨keyData_fits D.url (by simp only [KeyTypeManager.serialized]; omega),
      (hS _ _).2 ⟨k, D.parse k v hv, g3⟩⟩
  publicKey := by
    refine ⟨_, rfl, fun b => ⟨?_, fun kd h => ?_⟩⟩
    · constructor
      · rintro ⟨kd, h⟩
        obtain ⟨k, h1, h2, -⟩ := getPublicKeyData_iff.1 h
        obtain ⟨s, hs⟩ := D.relates k h2
        exact ⟨s, (hS _ _).2 ⟨k, h1, hs⟩, (D.checked k s hs).1 h2⟩
      · rintro ⟨s, h1, h2⟩
        obtain ⟨k, g1, g2⟩ := (hS _ _).1 h1
        exact ⟨_, getPublicKeyData_iff.2 ⟨k, g1, (D.checked k s g2).2 h2, rfl⟩⟩
    · obtain ⟨k, h1, h2, rfl⟩ := getPublicKeyData_iff.1 h
      obtain ⟨s, hs⟩ := D.relates k h2
      refine ⟨rfl, V.material, s, (hS _ _).2 ⟨k, h1, hs⟩, fun hsz => ?_⟩
      have := size_publicPart s
      obtain ⟨v, hv, hlen⟩ := V.serialize _ _ (hP k s hs) (by omega)
      rw [hv]
      exact ⟨keyData_fits V.url (by simp only [KeyTypeManager.serialized]; omega),
        (hV _ _).2 ⟨_, V.parse _ v hv, hP k s hs⟩⟩

section
variable {lib : SigSsl}

theorem ecdsa_verifyStored (b : Bytes) (v : PubKey) :
    PubKey.StoredIn (EcdsaVerifyKeyManager.keyTypeManager lib).keyType b v ↔
      ∃ k, EcdsaPublicKey.fromString b = .ok k ∧ PubKey.OfEcdsa k v := by
  refine ⟨fun h => ?_, fun ⟨k, h1, h2⟩ => .ecdsa h1 h2⟩
  generalize hu : (EcdsaVerifyKeyManager.keyTypeManager lib).keyType = u at h
  change ps! "type.googleapis.com/google.crypto.tink.EcdsaPublicKey" = u at hu
  cases h with
  | ecdsa h1 h2 => exact ⟨_, h1, h2⟩
  | _ => other_type hu

theorem ecdsa_signStored (b : Bytes) (v : SigKey) :
    SigKey.StoredIn (EcdsaSignKeyManager.keyTypeManager lib).keyType b v ↔
      ∃ k, EcdsaPrivateKey.fromString b = .ok k ∧ SigKey.OfEcdsa k v := by
  refine ⟨fun h => ?_, fun ⟨k, h1, h2⟩ => .ecdsa h1 h2⟩
  generalize hu : (EcdsaSignKeyManager.keyTypeManager lib).keyType = u at h
  change ps! "type.googleapis.com/google.crypto.tink.EcdsaPrivateKey" = u at hu
  cases h with
  | ecdsa h1 h2 => exact ⟨_, h1, h2⟩
  | _ => other_type hu

theorem ecdsa_signAsked (seed : Seed) (b : Bytes) (v : SigKey) :
    SigKey.AskedFor lib seed (EcdsaSignKeyManager.keyTypeManager lib).keyType b v ↔
      ∃ f, EcdsaKeyFormat.fromString b = .ok f ∧ AsksEcdsa lib seed f v := by
  refine ⟨fun h => ?_, ?_⟩
  · generalize hu : (EcdsaSignKeyManager.keyTypeManager lib).keyType = u at h
    change ps! "type.googleapis.com/google.crypto.tink.EcdsaPrivateKey" = u at hu
    cases h with
    | ecdsa h1 h2 h3 => exact ⟨_, h1, .mk h2 h3⟩
    | _ => other_type hu
  · rintro ⟨f, h1, h⟩
    cases h with
    | mk h2 h3 => exact .ecdsa h1 h2 h3

theorem ecdsa_publicPart {k : EcdsaPrivateKey} {s : SigKey} (h : SigKey.OfEcdsa k s) :
    PubKey.OfEcdsa k.getPublicKey s.publicPart := by
  cases h with
  | mk hv hp => exact hp

theorem ed25519_verifyStored (b : Bytes) (v : PubKey) :
    PubKey.StoredIn (Ed25519VerifyKeyManager.keyTypeManager lib).keyType b v ↔
      ∃ k, Ed25519PublicKey.fromString b = .ok k ∧ PubKey.OfEd25519 k v := by
  refine ⟨fun h => ?_, fun ⟨k, h1, h2⟩ => .ed25519 h1 h2⟩
  generalize hu : (Ed25519VerifyKeyManager.keyTypeManager lib).keyType = u at h
  change ps! "type.googleapis.com/google.crypto.tink.Ed25519PublicKey" = u at hu
  cases h with
  | ed25519 h1 h2 => exact ⟨_, h1, h2⟩
  | _ => other_type hu

theorem ed25519_signStored (b : Bytes) (v : SigKey) :
    SigKey.StoredIn (Ed25519SignKeyManager.keyTypeManager lib).keyType b v ↔
      ∃ k, Ed25519PrivateKey.fromString b = .ok k ∧ SigKey.OfEd25519 k v := by
  refine ⟨fun h => ?_, fun ⟨k, h1, h2⟩ => .ed25519 h1 h2⟩
  generalize hu : (Ed25519SignKeyManager.keyTypeManager lib).keyType = u at h
  change ps! "type.googleapis.com/google.crypto.tink.Ed25519PrivateKey" = u at hu
  cases h with
  | ed25519 h1 h2 => exact ⟨_, h1, h2⟩
  | _ => other_type hu

theorem ed25519_signAsked (seed : Seed) (b : Bytes) (v : SigKey) :
    SigKey.AskedFor lib seed (Ed25519SignKeyManager.keyTypeManager lib).keyType b v ↔
      ∃ f, Ed25519KeyFormat.fromString b = .ok f ∧ AsksEd25519 lib seed f v := by
  refine ⟨fun h => ?_, ?_⟩
  · generalize hu : (Ed25519SignKeyManager.keyTypeManager lib).keyType = u at h
    change ps! "type.googleapis.com/google.crypto.tink.Ed25519PrivateKey" = u at hu
    cases h with
    | ed25519 h1 => exact ⟨_, h1, .mk⟩
    | _ => other_type hu
  · rintro ⟨f, h1, h⟩
    cases h with
    | mk => exact .ed25519 h1

theorem ed25519_publicPart {k : Ed25519PrivateKey} {s : SigKey} (h : SigKey.OfEd25519 k s) :
    PubKey.OfEd25519 k.getPublicKey s.publicPart := by
  cases h with
  | mk hv hp => exact hp

theorem pkcs1_verifyStored (b : Bytes) (v : PubKey) :
    PubKey.StoredIn (RsaSsaPkcs1VerifyKeyManager.keyTypeManager lib).keyType b v ↔
      ∃ k, RsaSsaPkcs1PublicKey.fromString b = .ok k ∧ PubKey.OfRsaPkcs1 k v := by
  refine ⟨fun h => ?_, fun ⟨k, h1, h2⟩ => .rsaPkcs1 h1 h2⟩
  generalize hu : (RsaSsaPkcs1VerifyKeyManager.keyTypeManager lib).keyType = u at h
  change ps! "type.googleapis.com/google.crypto.tink.RsaSsaPkcs1PublicKey" = u at hu
  cases h with
  | rsaPkcs1 h1 h2 => exact ⟨_, h1, h2⟩
  | _ => other_type hu

theorem pkcs1_signStored (b : Bytes) (v : SigKey) :
    SigKey.StoredIn (RsaSsaPkcs1SignKeyManager.keyTypeManager lib).keyType b v ↔
      ∃ k, RsaSsaPkcs1PrivateKey.fromString b = .ok k ∧ SigKey.OfRsaPkcs1 k v := by
  refine ⟨fun h => ?_, fun ⟨k, h1, h2⟩ => .rsaPkcs1 h1 h2⟩
  generalize hu : (RsaSsaPkcs1SignKeyManager.keyTypeManager lib).keyType = u at h
  change ps! "type.googleapis.com/google.crypto.tink.RsaSsaPkcs1PrivateKey" = u at hu
  cases h with
  | rsaPkcs1 h1 h2 => exact ⟨_, h1, h2⟩
  | _ => other_type hu

theorem pkcs1_signAsked (seed : Seed) (b : Bytes) (v : SigKey) :
    SigKey.AskedFor lib seed (RsaSsaPkcs1SignKeyManager.keyTypeManager lib).keyType b v ↔
      ∃ f, RsaSsaPkcs1KeyFormat.fromString b = .ok f ∧ AsksPkcs1 lib seed f v := by
  refine ⟨fun h => ?_, ?_⟩
  · generalize hu : (RsaSsaPkcs1SignKeyManager.keyTypeManager lib).keyType = u at h
    change ps! "type.googleapis.com/google.crypto.tink.RsaSsaPkcs1PrivateKey" = u at hu
    cases h with
    | rsaPkcs1 h1 h2 => exact ⟨_, h1, .mk h2⟩
    | _ => other_type hu
  · rintro ⟨f, h1, h⟩
    cases h with
    | mk h2 => exact .rsaPkcs1 h1 h2

theorem pkcs1_publicPart {k : RsaSsaPkcs1PrivateKey} {s : SigKey} (h : SigKey.OfRsaPkcs1 k s) :
    PubKey.OfRsaPkcs1 k.getPublicKey s.publicPart := by
  cases h with
  | mk hv hp => exact hp

theorem pss_verifyStored (b : Bytes) (v : PubKey) :
    PubKey.StoredIn (RsaSsaPssVerifyKeyManager.keyTypeManager lib).keyType b v ↔
      ∃ k, RsaSsaPssPublicKey.fromString b = .ok k ∧ PubKey.OfRsaPss k v := by
  refine ⟨fun h => ?_, fun ⟨k, h1, h2⟩ => .rsaPss h1 h2⟩
  generalize hu : (RsaSsaPssVerifyKeyManager.keyTypeManager lib).keyType = u at h
  change ps! "type.googleapis.com/google.crypto.tink.RsaSsaPssPublicKey" = u at hu
  cases h with
  | rsaPss h1 h2 => exact ⟨_, h1, h2⟩
  | _ => other_type hu

theorem pss_signStored (b : Bytes) (v : SigKey) :
    SigKey.StoredIn (RsaSsaPssSignKeyManager.keyTypeManager lib).keyType b v ↔
      ∃ k, RsaSsaPssPrivateKey.fromString b = .ok k ∧ SigKey.OfRsaPss k v := by
  refine ⟨fun h => ?_, fun ⟨k, h1, h2⟩ => .rsaPss h1 h2⟩
  generalize hu : (RsaSsaPssSignKeyManager.keyTypeManager lib).keyType = u at h
  change ps! "type.googleapis.com/google.crypto.tink.RsaSsaPssPrivateKey" = u at hu
  cases h with
  | rsaPss h1 h2 => exact ⟨_, h1, h2⟩
  | _ => other_type hu

theorem pss_signAsked (seed : Seed) (b : Bytes) (v : SigKey) :
    SigKey.AskedFor lib seed (RsaSsaPssSignKeyManager.keyTypeManager lib).keyType b v ↔
      ∃ f, RsaSsaPssKeyFormat.fromString b = .ok f ∧ AsksPss lib seed f v := by
  refine ⟨fun h => ?_, ?_⟩
  · generalize hu : (RsaSsaPssSignKeyManager.keyTypeManager lib).keyType = u at h
    change ps! "type.googleapis.com/google.crypto.tink.RsaSsaPssPrivateKey" = u at hu
    cases h with
    | rsaPss h1 h2 => exact ⟨_, h1, .mk h2⟩
    | _ => other_type hu
  · rintro ⟨f, h1, h⟩
    cases h with
    | mk h2 => exact .rsaPss h1 h2

theorem pss_publicPart {k : RsaSsaPssPrivateKey} {s : SigKey} (h : SigKey.OfRsaPss k s) :
    PubKey.OfRsaPss k.getPublicKey s.publicPart := by
  cases h with
  | mk hv hp => exact hp

theorem verify_manages (hl : LawfulSigSsl lib) {url : PStr} {cc : Cpp.KeyManager Cpp.PublicKeyVerify}
    (h : ccVerify lib url = some cc) : ManagesVerify lib cc url := by
  unfold ccVerify at h
  split at h
  · rename_i hu
    cases h
    subst hu
    exact (ecdsa_describesVerify hl).manages ecdsa_verifyStored
  split at h
  · rename_i hu
    cases h
    subst hu
    exact (pss_describesVerify hl).manages pss_verifyStored
  split at h
  · rename_i hu
    cases h
    subst hu
    exact (pkcs1_describesVerify lib).manages pkcs1_verifyStored
  split at h
  · rename_i hu
    cases h
    subst hu
    exact (ed25519_describesVerify lib).manages ed25519_verifyStored
  · cases h

theorem sign_manages (hl : LawfulSigSsl lib) (seed : Seed) {url : PStr} {cc : Cpp.KeyManager Cpp.PublicKeySign}
    (h : ccSign lib url = some cc) : ∃ pubUrl, PublicType url pubUrl ∧ ManagesSign lib seed cc url pubUrl := by
  unfold ccSign at h
  split at h
  · rename_i hu
    cases h
    subst hu
    exact ⟨_, .ecdsa, (ecdsa_describesSign hl seed).manages (ecdsa_describesVerify hl) (fun _ _ => ecdsa_publicPart) ecdsa_signStored
      (ecdsa_signAsked seed) ecdsa_verifyStored⟩
  split at h
  · rename_i hu
    cases h
    subst hu
    exact ⟨_, .rsaPss, (pss_describesSign hl seed).manages (pss_describesVerify hl) (fun _ _ => pss_publicPart) pss_signStored
      (pss_signAsked seed) pss_verifyStored⟩
  split at h
  · rename_i hu
    cases h
    subst hu
    exact ⟨_, .rsaPkcs1, (pkcs1_describesSign hl seed).manages (pkcs1_describesVerify lib) (fun _ _ => pkcs1_publicPart) pkcs1_signStored
      (pkcs1_signAsked seed) pkcs1_verifyStored⟩
  split at h
  · rename_i hu
    cases h
    subst hu
    exact ⟨_, .ed25519, (ed25519_describesSign hl seed).manages (ed25519_describesVerify lib) (fun _ _ => ed25519_publicPart) ed25519_signStored
      (ed25519_signAsked seed) ed25519_verifyStored⟩
  · cases h

end

end Tink.Cc
