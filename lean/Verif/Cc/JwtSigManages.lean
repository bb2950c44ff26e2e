import Verif.Cc.JwtSigDescriptions

/-!
# The C++ registry for JWT signature keys, in terms of the keys
-/

namespace Tink.Cc
open Spec Cpp Props

/-- What a key manager does for the key type `url` of public keys. -/
structure ManagesJwtVerify (lib : SigSsl) (cc : Cpp.KeyManager Cpp.PublicKeyVerify) (url : PStr) : Prop where
  sound : ∀ kd a, cc.getPrimitive kd = .ok a →
    ∃ i v, PubKey.JwsStoredIn url kd.value i v ∧ v.Ok lib ∧ VerifiesAs lib a v
  complete : ∀ (kd : KeyData) i v, kd.typeUrl = url → PubKey.JwsStoredIn url kd.value i v → v.Ok lib →
    ∃ a, cc.getPrimitive kd = .ok a
  unique : ∀ b i v i' v', PubKey.JwsStoredIn url b i v → PubKey.JwsStoredIn url b i' v' → i = i' ∧ v = v'
  noKeys : ∀ seed b, cc.newKeyData seed b = unimplemented
  noPublic : cc.publicKeyData = none
  keyType : cc.keyType = url

/-- What a key manager does for the key type `url` of private keys. -/
structure ManagesJwtSign (lib : SigSsl) (seed : Seed) (cc : Cpp.KeyManager Cpp.PublicKeySign) (url pubUrl : PStr) :
    Prop where
  sound : ∀ kd a, cc.getPrimitive kd = .ok a →
    ∃ i s, SigKey.JwsStoredIn url kd.value i s ∧ s.Ok lib ∧ SignsAs lib a s
  complete : ∀ (kd : KeyData) i s, kd.typeUrl = url → SigKey.JwsStoredIn url kd.value i s → s.Ok lib →
    ∃ a, cc.getPrimitive kd = .ok a
  unique : ∀ b i s i' s', SigKey.JwsStoredIn url b i s → SigKey.JwsStoredIn url b i' s' → i = i' ∧ s = s'
  formats : ∀ b, (∃ kd, cc.newKeyData seed b = .ok kd) ↔
    ∃ alg s, SigKey.JwsAskedFor lib seed url b alg s ∧ s.publicPart.Ok lib
  made : ∀ b kd, cc.newKeyData seed b = .ok kd →
    ∃ alg s, SigKey.JwsAskedFor lib seed url b alg s ∧ s.publicPart.Ok lib ∧ kd.typeUrl = url ∧
      kd.keyMaterialType = KeyMaterialType.ASYMMETRIC_PRIVATE ∧
      (s.size < 2 ^ 31 - 1000 → Fits kd ∧ SigKey.JwsStoredIn url kd.value ⟨alg, none⟩ s)
  publicKey : ∃ f, cc.publicKeyData = some f ∧ ∀ b,
    ((∃ kd, f b = .ok kd) ↔ ∃ i s, SigKey.JwsStoredIn url b i s ∧ s.Checked) ∧
    ∀ kd, f b = .ok kd → kd.typeUrl = pubUrl ∧ kd.keyMaterialType = KeyMaterialType.ASYMMETRIC_PUBLIC ∧
      ∃ i s, SigKey.JwsStoredIn url b i s ∧ (s.size + i.kidSize < 2 ^ 31 - 1000 →
        Fits kd ∧ PubKey.JwsStoredIn pubUrl kd.value i s.publicPart)
  keyType : cc.keyType = url

theorem DescribesJwtVerify.manages {K : Type} {lib : SigSsl} {m : PublicKeyTypeManager K Cpp.PublicKeyVerify}
    {R : K → JwsInfo → PubKey → Prop} (D : DescribesJwtVerify lib m R)
    (hS : ∀ b i v, PubKey.JwsStoredIn m.keyType b i v ↔ ∃ k, m.parseKey b = .ok k ∧ R k i v) :
    ManagesJwtVerify lib m.toKeyManager m.keyType where
  sound kd a h := by
    obtain ⟨-, k, h1, h2, h3⟩ := publicGetPrimitive_iff.1 h
    obtain ⟨i, v, g1, g2, g3⟩ := D.sound k a h2 h3
    exact ⟨i, v, (hS _ _ _).2 ⟨k, h1, g1⟩, g2, g3⟩
  complete kd i v hu h1 h2 := by
    obtain ⟨k, g1, g2⟩ := (hS _ _ _).1 h1
    obtain ⟨g3, a, g4⟩ := D.complete k i v g2 h2
    exact ⟨a, publicGetPrimitive_iff.2 ⟨hu, k, g1, g3, g4⟩⟩
  unique b i v i' v' h1 h2 := by
    obtain ⟨k, g1, g2⟩ := (hS _ _ _).1 h1
    obtain ⟨k', g3, g4⟩ := (hS _ _ _).1 h2
    rw [g1] at g3
    cases g3
    exact D.unique k _ _ _ _ g2 g4
  noKeys _ _ := rfl
  noPublic := rfl
  keyType := rfl

theorem DescribesJwtSign.manages {K F PK : Type} {lib : SigSsl} {seed : Seed}
    {m : KeyTypeManager K F Cpp.PublicKeySign} {pub : PublicKeyTypeManager PK Cpp.PublicKeyVerify}
    {R : K → JwsInfo → SigKey → Prop} {A : F → PyStr → SigKey → Prop} {RV : PK → JwsInfo → PubKey → Prop}
    {getPub : K → PK}
    (D : DescribesJwtSign lib seed m R A) (V : DescribesJwtVerify lib pub RV)
    (hP : ∀ k i s, R k i s → RV (getPub k) i s.publicPart)
    (hS : ∀ b i s, SigKey.JwsStoredIn m.keyType b i s ↔ ∃ k, m.parseKey b = .ok k ∧ R k i s)
    (hA : ∀ b alg s, SigKey.JwsAskedFor lib seed m.keyType b alg s ↔ ∃ f, m.parseKeyFormat b = .ok f ∧ A f alg s)
    (hV : ∀ b i v, PubKey.JwsStoredIn pub.keyType b i v ↔ ∃ k, pub.parseKey b = .ok k ∧ RV k i v) :
    ManagesJwtSign lib seed (toPrivateKeyManager m pub getPub) m.keyType pub.keyType where
  sound kd a h := by
    obtain ⟨-, k, h1, h2, h3⟩ := getPrimitive_iff.1 h
    obtain ⟨i, v, g1, g2, g3⟩ := D.sound k a h2 h3
    exact ⟨i, v, (hS _ _ _).2 ⟨k, h1, g1⟩, g2, g3⟩
  complete kd i s hu h1 h2 := by
    obtain ⟨k, g1, g2⟩ := (hS _ _ _).1 h1
    obtain ⟨a, g4⟩ := D.complete k i s g2 h2
    exact ⟨a, getPrimitive_iff.2 ⟨hu, k, g1, (D.checked k i s g2).2 (checked_of_ok h2), g4⟩⟩
  unique b i v i' v' h1 h2 := by
    obtain ⟨k, g1, g2⟩ := (hS _ _ _).1 h1
    obtain ⟨k', g3, g4⟩ := (hS _ _ _).1 h2
    rw [g1] at g3
    cases g3
    exact D.unique k _ _ _ _ g2 g4
  formats b := by
    constructor
    · rintro ⟨kd, h⟩
      obtain ⟨f, k, h1, h2, h3, -⟩ := newKeyData_iff'.1 h
      obtain ⟨alg, s, g1, g2, -⟩ := D.made f k h2 h3
      exact ⟨alg, s, (hA _ _ _).2 ⟨f, h1, g1⟩, g2⟩
    · rintro ⟨alg, s, h1, h2⟩
      obtain ⟨f, g1, g2⟩ := (hA _ _ _).1 h1
      obtain ⟨g3, k, g4, -⟩ := D.makes f alg s g2 h2
      exact ⟨_, newKeyData_iff'.2 ⟨f, k, g1, g3, g4, rfl⟩⟩
  made b kd h := by
    obtain ⟨f, k, h1, h2, h3, rfl⟩ := newKeyData_iff'.1 h
    obtain ⟨alg, s, g1, g2, g3⟩ := D.made f k h2 h3
    refine ⟨alg, s, (hA _ _ _).2 ⟨f, h1, g1⟩, g2, rfl, D.material, fun hs => ?_⟩
    have hz : JwsInfo.kidSize ⟨alg, none⟩ = 0 := rfl
    obtain ⟨v, hv, hlen⟩ := D.serialize k _ s g3 (by omega)
    rw [hv]
    exact ⟨keyData_fits D.url (by simp only [KeyTypeManager.serialized]; omega),
      (hS _ _ _).2 ⟨k, D.parse k v hv, g3⟩⟩
  publicKey := by
    refine ⟨_, rfl, fun b => ⟨?_, fun kd h => ?_⟩⟩
    · constructor
      · rintro ⟨kd, h⟩
        obtain ⟨k, h1, h2, -⟩ := getPublicKeyData_iff.1 h
        obtain ⟨i, s, hs⟩ := D.relates k h2
        exact ⟨i, s, (hS _ _ _).2 ⟨k, h1, hs⟩, (D.checked k i s hs).1 h2⟩
      · rintro ⟨i, s, h1, h2⟩
        obtain ⟨k, g1, g2⟩ := (hS _ _ _).1 h1
        exact ⟨_, getPublicKeyData_iff.2 ⟨k, g1, (D.checked k i s g2).2 h2, rfl⟩⟩
    · obtain ⟨k, h1, h2, rfl⟩ := getPublicKeyData_iff.1 h
      obtain ⟨i, s, hs⟩ := D.relates k h2
      refine ⟨rfl, V.material, i, s, (hS _ _ _).2 ⟨k, h1, hs⟩, fun hsz => ?_⟩
      have := size_publicPart s
      obtain ⟨v, hv, hlen⟩ := V.serialize _ _ _ (hP k i s hs) (by omega)
      rw [hv]
      exact ⟨keyData_fits V.url (by simp only [KeyTypeManager.serialized]; omega),
        (hV _ _ _).2 ⟨_, V.parse _ v hv, hP k i s hs⟩⟩
  keyType := rfl

section
variable {lib : SigSsl}

theorem jwtEcdsa_verifyStored (b : Bytes) (i : JwsInfo) (v : PubKey) :
    PubKey.JwsStoredIn (RawJwtEcdsaVerifyKeyManager.keyTypeManager lib).keyType b i v ↔
      ∃ k, JwtEcdsaPublicKey.fromString b = .ok k ∧ PubKey.OfJwtEcdsa k i v := by
  refine ⟨fun h => ?_, fun ⟨k, h1, h2⟩ => .ecdsa h1 h2⟩
  generalize hu : (RawJwtEcdsaVerifyKeyManager.keyTypeManager lib).keyType = u at h
  change ps! "type.googleapis.com/google.crypto.tink.JwtEcdsaPublicKey" = u at hu
  cases h with
  | ecdsa h1 h2 => exact ⟨_, h1, h2⟩
  | _ => other_type hu

theorem jwtEcdsa_signStored (b : Bytes) (i : JwsInfo) (v : SigKey) :
    SigKey.JwsStoredIn (RawJwtEcdsaSignKeyManager.keyTypeManager lib).keyType b i v ↔
      ∃ k, JwtEcdsaPrivateKey.fromString b = .ok k ∧ SigKey.OfJwtEcdsa k i v := by
  refine ⟨fun h => ?_, fun ⟨k, h1, h2⟩ => .ecdsa h1 h2⟩
  generalize hu : (RawJwtEcdsaSignKeyManager.keyTypeManager lib).keyType = u at h
  change ps! "type.googleapis.com/google.crypto.tink.JwtEcdsaPrivateKey" = u at hu
  cases h with
  | ecdsa h1 h2 => exact ⟨_, h1, h2⟩
  | _ => other_type hu

theorem jwtEcdsa_signAsked (seed : Seed) (b : Bytes) (alg : PyStr) (v : SigKey) :
    SigKey.JwsAskedFor lib seed (RawJwtEcdsaSignKeyManager.keyTypeManager lib).keyType b alg v ↔
      ∃ f, JwtEcdsaKeyFormat.fromString b = .ok f ∧ AsksJwtEcdsa lib seed f alg v := by
  refine ⟨fun h => ?_, ?_⟩
  · generalize hu : (RawJwtEcdsaSignKeyManager.keyTypeManager lib).keyType = u at h
    change ps! "type.googleapis.com/google.crypto.tink.JwtEcdsaPrivateKey" = u at hu
    cases h with
    | ecdsa h1 h2 h3 => exact ⟨_, h1, .mk h2 h3⟩
    | _ => other_type hu
  · rintro ⟨f, h1, h⟩
    cases h with
    | mk h2 h3 => exact .ecdsa h1 h2 h3

theorem jwtEcdsa_publicPart {k : JwtEcdsaPrivateKey} {i : JwsInfo} {s : SigKey} (h : SigKey.OfJwtEcdsa k i s) :
    PubKey.OfJwtEcdsa k.getPublicKey i s.publicPart := by
  cases h with
  | mk hv hp => exact hp

theorem jwtPkcs1_verifyStored (b : Bytes) (i : JwsInfo) (v : PubKey) :
    PubKey.JwsStoredIn (RawJwtRsaSsaPkcs1VerifyKeyManager.keyTypeManager lib).keyType b i v ↔
      ∃ k, JwtRsaSsaPkcs1PublicKey.fromString b = .ok k ∧ PubKey.OfJwtPkcs1 k i v := by
  refine ⟨fun h => ?_, fun ⟨k, h1, h2⟩ => .rsaPkcs1 h1 h2⟩
  generalize hu : (RawJwtRsaSsaPkcs1VerifyKeyManager.keyTypeManager lib).keyType = u at h
  change ps! "type.googleapis.com/google.crypto.tink.JwtRsaSsaPkcs1PublicKey" = u at hu
  cases h with
  | rsaPkcs1 h1 h2 => exact ⟨_, h1, h2⟩
  | _ => other_type hu

theorem jwtPkcs1_signStored (b : Bytes) (i : JwsInfo) (v : SigKey) :
    SigKey.JwsStoredIn (RawJwtRsaSsaPkcs1SignKeyManager.keyTypeManager lib).keyType b i v ↔
      ∃ k, JwtRsaSsaPkcs1PrivateKey.fromString b = .ok k ∧ SigKey.OfJwtPkcs1 k i v := by
  refine ⟨fun h => ?_, fun ⟨k, h1, h2⟩ => .rsaPkcs1 h1 h2⟩
  generalize hu : (RawJwtRsaSsaPkcs1SignKeyManager.keyTypeManager lib).keyType = u at h
  change ps! "type.googleapis.com/google.crypto.tink.JwtRsaSsaPkcs1PrivateKey" = u at hu
  cases h with
  | rsaPkcs1 h1 h2 => exact ⟨_, h1, h2⟩
  | _ => other_type hu

theorem jwtPkcs1_signAsked (seed : Seed) (b : Bytes) (alg : PyStr) (v : SigKey) :
    SigKey.JwsAskedFor lib seed (RawJwtRsaSsaPkcs1SignKeyManager.keyTypeManager lib).keyType b alg v ↔
      ∃ f, JwtRsaSsaPkcs1KeyFormat.fromString b = .ok f ∧ AsksJwtPkcs1 lib seed f alg v := by
  refine ⟨fun h => ?_, ?_⟩
  · generalize hu : (RawJwtRsaSsaPkcs1SignKeyManager.keyTypeManager lib).keyType = u at h
    change ps! "type.googleapis.com/google.crypto.tink.JwtRsaSsaPkcs1PrivateKey" = u at hu
    cases h with
    | rsaPkcs1 h1 h2 h3 => exact ⟨_, h1, .mk h2 h3⟩
    | _ => other_type hu
  · rintro ⟨f, h1, h⟩
    cases h with
    | mk h2 h3 => exact .rsaPkcs1 h1 h2 h3

theorem jwtPkcs1_publicPart {k : JwtRsaSsaPkcs1PrivateKey} {i : JwsInfo} {s : SigKey} (h : SigKey.OfJwtPkcs1 k i s) :
    PubKey.OfJwtPkcs1 k.getPublicKey i s.publicPart := by
  cases h with
  | mk hv hp => exact hp

theorem jwtPss_verifyStored (b : Bytes) (i : JwsInfo) (v : PubKey) :
    PubKey.JwsStoredIn (RawJwtRsaSsaPssVerifyKeyManager.keyTypeManager lib).keyType b i v ↔
      ∃ k, JwtRsaSsaPssPublicKey.fromString b = .ok k ∧ PubKey.OfJwtPss k i v := by
  refine ⟨fun h => ?_, fun ⟨k, h1, h2⟩ => .rsaPss h1 h2⟩
  generalize hu : (RawJwtRsaSsaPssVerifyKeyManager.keyTypeManager lib).keyType = u at h
  change ps! "type.googleapis.com/google.crypto.tink.JwtRsaSsaPssPublicKey" = u at hu
  cases h with
  | rsaPss h1 h2 => exact ⟨_, h1, h2⟩
  | _ => other_type hu

theorem jwtPss_signStored (b : Bytes) (i : JwsInfo) (v : SigKey) :
    SigKey.JwsStoredIn (RawJwtRsaSsaPssSignKeyManager.keyTypeManager lib).keyType b i v ↔
      ∃ k, JwtRsaSsaPssPrivateKey.fromString b = .ok k ∧ SigKey.OfJwtPss k i v := by
  refine ⟨fun h => ?_, fun ⟨k, h1, h2⟩ => .rsaPss h1 h2⟩
  generalize hu : (RawJwtRsaSsaPssSignKeyManager.keyTypeManager lib).keyType = u at h
  change ps! "type.googleapis.com/google.crypto.tink.JwtRsaSsaPssPrivateKey" = u at hu
  cases h with
  | rsaPss h1 h2 => exact ⟨_, h1, h2⟩
  | _ => other_type hu

theorem jwtPss_signAsked (seed : Seed) (b : Bytes) (alg : PyStr) (v : SigKey) :
    SigKey.JwsAskedFor lib seed (RawJwtRsaSsaPssSignKeyManager.keyTypeManager lib).keyType b alg v ↔
      ∃ f, JwtRsaSsaPssKeyFormat.fromString b = .ok f ∧ AsksJwtPss lib seed f alg v := by
  refine ⟨fun h => ?_, ?_⟩
  · generalize hu : (RawJwtRsaSsaPssSignKeyManager.keyTypeManager lib).keyType = u at h
    change ps! "type.googleapis.com/google.crypto.tink.JwtRsaSsaPssPrivateKey" = u at hu
    cases h with
    | rsaPss h1 h2 h3 => exact ⟨_, h1, .mk h2 h3⟩
    | _ => other_type hu
  · rintro ⟨f, h1, h⟩
    cases h with
    | mk h2 h3 => exact .rsaPss h1 h2 h3

theorem jwtPss_publicPart {k : JwtRsaSsaPssPrivateKey} {i : JwsInfo} {s : SigKey} (h : SigKey.OfJwtPss k i s) :
    PubKey.OfJwtPss k.getPublicKey i s.publicPart := by
  cases h with
  | mk hv hp => exact hp

theorem jwtVerify_manages (hl : LawfulSigSsl lib) {url : PStr} {cc : Cpp.KeyManager Cpp.PublicKeyVerify}
    (h : ccJwtVerify lib url = some cc) : ManagesJwtVerify lib cc url := by
  unfold ccJwtVerify at h
  split at h
  · rename_i hu
    cases h
    subst hu
    exact (jwtEcdsa_describesVerify hl).manages jwtEcdsa_verifyStored
  split at h
  · rename_i hu
    cases h
    subst hu
    exact jwtPkcs1_describesVerify.manages jwtPkcs1_verifyStored
  split at h
  · rename_i hu
    cases h
    subst hu
    exact (jwtPss_describesVerify hl).manages jwtPss_verifyStored
  · cases h

theorem jwtSign_manages (hl : LawfulSigSsl lib) (seed : Seed) {url : PStr} {cc : Cpp.KeyManager Cpp.PublicKeySign}
    (h : ccJwtSign lib url = some cc) : ∃ pubUrl, JwsPublicType url pubUrl ∧ ManagesJwtSign lib seed cc url pubUrl := by
  unfold ccJwtSign at h
  split at h
  · rename_i hu
    cases h
    subst hu
    exact ⟨_, .ecdsa, (jwtEcdsa_describesSign hl seed).manages (jwtEcdsa_describesVerify hl)
      (fun _ _ _ => jwtEcdsa_publicPart) jwtEcdsa_signStored (jwtEcdsa_signAsked seed) jwtEcdsa_verifyStored⟩
  split at h
  · rename_i hu
    cases h
    subst hu
    exact ⟨_, .rsaPkcs1, (jwtPkcs1_describesSign hl seed).manages jwtPkcs1_describesVerify
      (fun _ _ _ => jwtPkcs1_publicPart) jwtPkcs1_signStored (jwtPkcs1_signAsked seed) jwtPkcs1_verifyStored⟩
  split at h
  · rename_i hu
    cases h
    subst hu
    exact ⟨_, .rsaPss, (jwtPss_describesSign hl seed).manages (jwtPss_describesVerify hl)
      (fun _ _ _ => jwtPss_publicPart) jwtPss_signStored (jwtPss_signAsked seed) jwtPss_verifyStored⟩
  · cases h

/-- For key data with such a type URL there is a key manager. -/
theorem jwtSign_exists {url : PStr} {b : Bytes} {i : JwsInfo} {s : SigKey} (h : SigKey.JwsStoredIn url b i s) :
    ∃ cc, ccJwtSign lib url = some cc := by
  cases h
  · exact ⟨_, rfl⟩
  · exact ⟨_, rfl⟩
  · exact ⟨_, rfl⟩

theorem jwtVerify_exists {url : PStr} {b : Bytes} {i : JwsInfo} {s : PubKey} (h : PubKey.JwsStoredIn url b i s) :
    ∃ cc, ccJwtVerify lib url = some cc := by
  cases h
  · exact ⟨_, rfl⟩
  · exact ⟨_, rfl⟩
  · exact ⟨_, rfl⟩

end

end Tink.Cc
