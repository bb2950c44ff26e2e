import Verif.Cli.Basic
import Verif.Cli.Steps
import Verif.Props.HybridTemplates
import Verif.Props.SignatureTemplates
import Verif.Props.SymmetricTemplates
import Verif.Spec.Curves

/-!
# Lemmas about the keysets of the introductory example programs (for C103)
-/

namespace Tink.Props
open Spec Config Cc Cli

section
variable {σ δ ε τ S P C F : Type} [DecidableEq C] {L : Library σ δ ε τ S P C} {isInst : P → C → Bool}
  {E : JsonFormatEnv F}

theorem registering_ok (hi : LawfulConfig L isInst) (pkg : Package) :
    Basic.registering isInst (registerPackage L pkg) = .ok (registryOf isInst (registerPackage L pkg)) := by
  have := (C64_never_fails hi (ops := []) ⟨by simp, by simp⟩).1 pkg
  change (execAll isInst (registerPackage L pkg) {}).2 = .ok () at this
  unfold Basic.registering registryOf
  cases h : execAll isInst (registerPackage L pkg) {} with
  | mk r o =>
    rw [h] at this
    cases this
    rfl

/-! ## Keysets with one key -/

/-- A key with a prefix. -/
def soleKey (id : UInt32) (kd : KeyData) : Key := ⟨some kd, KeyStatusType.ENABLED, id, OutputPrefixType.TINK⟩

/-- The keyset with just this key. -/
def soleKeyset (id : UInt32) (kd : KeyData) : Keyset := ⟨id, [soleKey id kd]⟩

theorem mem_sole {id : UInt32} {kd : KeyData} {k : Key} : k ∈ (soleKeyset id kd).key ↔ k = soleKey id kd :=
  List.mem_singleton

theorem sole_valid (id : UInt32) (kd : KeyData) : Valid (soleKeyset id kd) where
  nonempty := ⟨_, mem_sole.2 rfl, show KeyStatusType.ENABLED ≠ KeyStatusType.DESTROYED by decide⟩
  complete k hk _ := by
    rw [mem_sole.1 hk]
    exact ⟨(by intro h; cases h), show OutputPrefixType.TINK ≠ OutputPrefixType.UNKNOWN_PREFIX by decide,
      show KeyStatusType.ENABLED ≠ KeyStatusType.UNKNOWN_STATUS by decide⟩
  one_primary pre k₁ mid k₂ post h := by
    have := congrArg List.length h
    simp [soleKeyset] at this
    omega
  primary := .inl ⟨_, mem_sole.2 rfl, rfl, rfl⟩

theorem sole_primary (id : UInt32) (kd : KeyData) : IsPrimaryKey (soleKeyset id kd) (soleKey id kd) := ⟨rfl, rfl⟩

theorem sole_prefixKnown (id : UInt32) (kd : KeyData) : PrefixKnown (soleKey id kd) := by
  show OutputPrefixType.TINK ∈
    [OutputPrefixType.TINK, OutputPrefixType.LEGACY, OutputPrefixType.RAW, OutputPrefixType.CRUNCHY]
  decide

theorem sole_keysOf {id : UInt32} {kd : KeyData} {types : List PStr} (h1 : kd.typeUrl ∈ types)
    (h2 : Fits kd) : KeysOf types (soleKeyset id kd) := by
  intro k hk _
  rw [mem_sole.1 hk]
  exact ⟨h1, h2⟩

theorem sole_firstDoes {id : UInt32} {kd : KeyData} {α : Type} {does : Key → α → Prop} {a : α}
    (h : does (soleKey id kd) a) : FirstDoes does (soleKeyset id kd) a :=
  ⟨[], soleKey id kd, [], rfl, h, by simp⟩

/-! ## The keysets in the programs -/

/-- The key of `aead_basic.py`. -/
def basicAead : KeyData :=
  ⟨ps! "type.googleapis.com/google.crypto.tink.AesGcmKey",
   [26, 32, 86, 201, 71, 198, 129, 137, 55, 69, 52, 97, 143, 242, 200, 83, 52, 174, 116, 133, 165, 202, 48, 159,
    180, 35, 178, 165, 58, 244, 140, 35, 82, 46], KeyMaterialType.SYMMETRIC⟩

/-- The key of `mac_basic.py`. -/
def basicMac : KeyData :=
  ⟨ps! "type.googleapis.com/google.crypto.tink.HmacKey",
   [18, 4, 8, 3, 16, 16, 26, 32, 52, 45, 8, 232, 189, 204, 157, 90, 21, 80, 87, 121, 60, 91, 214, 82, 70, 71,
    123, 18, 46, 24, 253, 52, 86, 2, 145, 60, 130, 236, 21, 225], KeyMaterialType.SYMMETRIC⟩

/-- The key of `deterministic_aead_basic.py`. -/
def basicDaead : KeyData :=
  ⟨ps! "type.googleapis.com/google.crypto.tink.AesSivKey",
   [18, 64, 37, 244, 112, 140, 152, 164, 205, 214, 157, 213, 215, 206, 174, 133, 154, 73, 67, 235, 98, 191,
    39, 56, 32, 172, 132, 250, 138, 96, 233, 43, 4, 109, 100, 63, 89, 235, 22, 31, 60, 2, 70, 185, 96, 70,
    236, 93, 106, 8, 47, 128, 204, 240, 90, 24, 207, 158, 73, 61, 130, 155, 65, 156, 98, 202], KeyMaterialType.SYMMETRIC⟩

/-- The private key of `signature_basic.py`. -/
def basicSign : KeyData :=
  ⟨ps! "type.googleapis.com/google.crypto.tink.EcdsaPrivateKey",
   [18, 76, 18, 6, 8, 3, 16, 2, 24, 2, 26, 32, 18, 36, 153, 246, 237, 167, 14, 219, 217, 184, 56, 22, 128,
    107, 21, 76, 134, 121, 253, 93, 60, 55, 140, 156, 82, 202, 83, 95, 68, 88, 70, 185, 34, 32, 122, 68, 192,
    124, 80, 119, 86, 200, 154, 76, 140, 189, 93, 155, 170, 213, 27, 128, 200, 121, 184, 244, 147, 118, 117,
    4, 26, 179, 215, 118, 222, 122, 26, 33, 0, 222, 37, 34, 248, 36, 77, 239, 90, 178, 209, 243, 130, 43,
    174, 177, 1, 111, 200, 188, 92, 163, 56, 107, 113, 142, 154, 81, 133, 33, 84, 157, 234], KeyMaterialType.ASYMMETRIC_PRIVATE⟩

/-- The public key of `signature_basic.py`. -/
def basicVerify : KeyData :=
  ⟨ps! "type.googleapis.com/google.crypto.tink.EcdsaPublicKey",
   [18, 6, 8, 3, 16, 2, 24, 2, 26, 32, 18, 36, 153, 246, 237, 167, 14, 219, 217, 184, 56, 22, 128, 107, 21,
    76, 134, 121, 253, 93, 60, 55, 140, 156, 82, 202, 83, 95, 68, 88, 70, 185, 34, 32, 122, 68, 192, 124, 80,
    119, 86, 200, 154, 76, 140, 189, 93, 155, 170, 213, 27, 128, 200, 121, 184, 244, 147, 118, 117, 4, 26,
    179, 215, 118, 222, 122], KeyMaterialType.ASYMMETRIC_PUBLIC⟩

/-- The private key of `hybrid_basic.py`. -/
def basicHybridPrivate : KeyData :=
  ⟨ps! "type.googleapis.com/google.crypto.tink.HpkePrivateKey",
   [18, 42, 18, 6, 8, 1, 16, 1, 24, 2, 26, 32, 85, 100, 41, 153, 10, 51, 239, 136, 220, 2, 158, 86, 56, 61,
    250, 42, 32, 80, 239, 83, 21, 10, 153, 246, 137, 103, 206, 205, 98, 237, 41, 94, 26, 32, 215, 231, 242,
    169, 76, 111, 40, 163, 52, 151, 2, 206, 182, 159, 142, 200, 9, 227, 221, 217, 100, 99, 118, 231, 162,
    147, 124, 172, 52, 88, 223, 169], KeyMaterialType.ASYMMETRIC_PRIVATE⟩

/-- The public key of `hybrid_basic.py`. -/
def basicHybridPublic : KeyData :=
  ⟨ps! "type.googleapis.com/google.crypto.tink.HpkePublicKey",
   [18, 6, 8, 1, 16, 1, 24, 2, 26, 32, 85, 100, 41, 153, 10, 51, 239, 136, 220, 2, 158, 86, 56, 61, 250, 42,
    32, 80, 239, 83, 21, 10, 153, 246, 137, 103, 206, 205, 98, 237, 41, 94], KeyMaterialType.ASYMMETRIC_PUBLIC⟩

/-- The limits of the parser, written as sums. -/
theorem room_cases (h : RoomForKeysets E) : ∃ d, E.json.depth = d + 5 ∧
    (E.json.maxDigits = none ∨ ∃ m, E.json.maxDigits = some (m + 10)) := by
  obtain ⟨h1, h2⟩ := h
  refine ⟨E.json.depth - 5, by omega, ?_⟩
  cases hm : E.json.maxDigits with
  | none => exact .inl rfl
  | some m => exact .inr ⟨m - 10, by have := h2 m hm; congr 1; omega⟩

set_option maxRecDepth 100000 in
theorem basicAead_read (h : RoomForKeysets E) :
    JsonProtoKeysetFormat.parse E Basic.aeadKeyset .secretKeyAccess = .ok ⟨soleKeyset 294406504 basicAead⟩ := by
  obtain ⟨d, h1, h2⟩ := room_cases h
  obtain ⟨⟨fl, depth, digits⟩, i, ii, t, w⟩ := E
  cases h1
  rcases h2 with h2 | ⟨m, h2⟩ <;> cases h2 <;> rfl

set_option maxRecDepth 100000 in
theorem basicMac_read (h : RoomForKeysets E) :
    JsonProtoKeysetFormat.parse E Basic.macKeyset .secretKeyAccess = .ok ⟨soleKeyset 1892702217 basicMac⟩ := by
  obtain ⟨d, h1, h2⟩ := room_cases h
  obtain ⟨⟨fl, depth, digits⟩, i, ii, t, w⟩ := E
  cases h1
  rcases h2 with h2 | ⟨m, h2⟩ <;> cases h2 <;> rfl

set_option maxRecDepth 100000 in
theorem basicDaead_read (h : RoomForKeysets E) :
    JsonProtoKeysetFormat.parse E Basic.daeadKeyset .secretKeyAccess = .ok ⟨soleKeyset 1919301694 basicDaead⟩ := by
  obtain ⟨d, h1, h2⟩ := room_cases h
  obtain ⟨⟨fl, depth, digits⟩, i, ii, t, w⟩ := E
  cases h1
  rcases h2 with h2 | ⟨m, h2⟩ <;> cases h2 <;> rfl

set_option maxRecDepth 100000 in
theorem basicSign_read (h : RoomForKeysets E) :
    JsonProtoKeysetFormat.parse E Basic.signPrivate .secretKeyAccess = .ok ⟨soleKeyset 611814836 basicSign⟩ := by
  obtain ⟨d, h1, h2⟩ := room_cases h
  obtain ⟨⟨fl, depth, digits⟩, i, ii, t, w⟩ := E
  cases h1
  rcases h2 with h2 | ⟨m, h2⟩ <;> cases h2 <;> rfl

set_option maxRecDepth 100000 in
theorem basicVerify_read (h : RoomForKeysets E) :
    JsonProtoKeysetFormat.parseWithoutSecret E Basic.signPublic = .ok ⟨soleKeyset 611814836 basicVerify⟩ := by
  obtain ⟨d, h1, h2⟩ := room_cases h
  obtain ⟨⟨fl, depth, digits⟩, i, ii, t, w⟩ := E
  cases h1
  rcases h2 with h2 | ⟨m, h2⟩ <;> cases h2 <;> rfl

set_option maxRecDepth 100000 in
theorem basicHybridPrivate_read (h : RoomForKeysets E) :
    JsonProtoKeysetFormat.parse E Basic.hybridPrivate .secretKeyAccess = .ok ⟨soleKeyset 958452012 basicHybridPrivate⟩ := by
  obtain ⟨d, h1, h2⟩ := room_cases h
  obtain ⟨⟨fl, depth, digits⟩, i, ii, t, w⟩ := E
  cases h1
  rcases h2 with h2 | ⟨m, h2⟩ <;> cases h2 <;> rfl

set_option maxRecDepth 100000 in
theorem basicHybridPublic_read (h : RoomForKeysets E) :
    JsonProtoKeysetFormat.parseWithoutSecret E Basic.hybridPublic = .ok ⟨soleKeyset 958452012 basicHybridPublic⟩ := by
  obtain ⟨d, h1, h2⟩ := room_cases h
  obtain ⟨⟨fl, depth, digits⟩, i, ii, t, w⟩ := E
  cases h1
  rcases h2 with h2 | ⟨m, h2⟩ <;> cases h2 <;> rfl


theorem fits_of_ok {kd : KeyData} (h : Except.isOk kd.serializeToString = true) : Fits kd := by
  cases hx : kd.serializeToString with
  | ok b => exact ⟨b, hx⟩
  | error e => rw [hx] at h; cases h

/-! ## The keys that are stored -/

theorem basicAead_stored : AeadKey.StoredIn basicAead.typeUrl basicAead.value
    (.aesGcm (basicAead.value.drop 2)) := by
  have h : AesGcmKey.fromString basicAead.value = .ok ⟨0, basicAead.value.drop 2⟩ := by decide +kernel
  exact .aesGcm h rfl

theorem basicDaead_stored : SivKey.StoredIn basicDaead.typeUrl basicDaead.value ⟨basicDaead.value.drop 2⟩ := by
  have h : AesSivKey.fromString basicDaead.value = .ok ⟨0, basicDaead.value.drop 2⟩ := by decide +kernel
  exact .aesSiv h rfl

theorem basicMac_stored : MacKey.StoredIn basicMac.typeUrl basicMac.value
    (.hmac (basicMac.value.drop 8) HashType.SHA256 16) := by
  have h : HmacKey.fromString basicMac.value =
      .ok { keyValue := basicMac.value.drop 8, params := some ⟨HashType.SHA256, 16⟩ } := by decide +kernel
  exact .hmac h rfl

/-- The public key of `signature_basic.py`. -/
def basicVerifyKey : EcdsaPublicKey :=
  { params := some ⟨HashType.SHA256, EllipticCurveType.NIST_P256, EcdsaSignatureEncoding.DER⟩
    x := (basicVerify.value.drop 10).take 32, y := basicVerify.value.drop 44 }

theorem basicVerify_stored : PubKey.StoredIn basicVerify.typeUrl basicVerify.value
    (.ecdsa .p256 basicVerifyKey.x basicVerifyKey.y HashType.SHA256 EcdsaSignatureEncoding.DER) := by
  have h : EcdsaPublicKey.fromString basicVerify.value = .ok basicVerifyKey := by decide +kernel
  exact .ecdsa h (.mk (k := basicVerifyKey) rfl .p256)

theorem basicSign_stored : SigKey.StoredIn basicSign.typeUrl basicSign.value
    (.ecdsa .p256 basicVerifyKey.x basicVerifyKey.y (basicSign.value.drop 80) HashType.SHA256
      EcdsaSignatureEncoding.DER) := by
  have h : EcdsaPrivateKey.fromString basicSign.value =
      .ok { publicKey := some basicVerifyKey, keyValue := basicSign.value.drop 80 } := by decide +kernel
  exact .ecdsa h (.mk (k := { publicKey := some basicVerifyKey, keyValue := basicSign.value.drop 80 }) rfl
    (.mk (k := basicVerifyKey) rfl .p256))

theorem basicSign_scalar : IsScalar .p256 (fromBytesBE (basicSign.value.drop 80)) := by
  unfold IsScalar; decide +kernel

/-- The point is the multiple of the base point. -/
theorem basicSign_point : P256.times (fromBytesBE (basicSign.value.drop 80)) =
    some (fromBytesBE basicVerifyKey.x, fromBytesBE basicVerifyKey.y) := by decide +kernel

/-- The public key of `hybrid_basic.py`. -/
def basicHpkeKey : HpkePublicKey :=
  { params := some ⟨HpkeKem.DHKEM_X25519_HKDF_SHA256, HpkeKdf.HKDF_SHA256, HpkeAead.AES_256_GCM⟩
    publicKey := basicHybridPublic.value.drop 10 }

theorem basicHybridPublic_stored : HybPub.StoredIn basicHybridPublic.typeUrl basicHybridPublic.value
    (.hpke HpkeKem.DHKEM_X25519_HKDF_SHA256 HpkeKdf.HKDF_SHA256 HpkeAead.AES_256_GCM basicHpkeKey.publicKey) := by
  have h : HpkePublicKey.fromString basicHybridPublic.value = .ok basicHpkeKey := by decide +kernel
  exact .hpke h (.mk (k := basicHpkeKey) rfl rfl)

theorem basicHybridPrivate_stored : HybPriv.StoredIn basicHybridPrivate.typeUrl basicHybridPrivate.value
    (.hpke HpkeKem.DHKEM_X25519_HKDF_SHA256 HpkeKdf.HKDF_SHA256 HpkeAead.AES_256_GCM basicHpkeKey.publicKey
      (basicHybridPrivate.value.drop 46)) := by
  have h : HpkePrivateKey.fromString basicHybridPrivate.value =
      .ok { publicKey := some basicHpkeKey, privateKey := basicHybridPrivate.value.drop 46 } := by decide +kernel
  exact .hpke h (.mk (k := { publicKey := some basicHpkeKey, privateKey := basicHybridPrivate.value.drop 46 }) rfl rfl
    (.mk (k := basicHpkeKey) rfl rfl))

/-- The public key belongs to the private key. -/
theorem basicHybrid_public : X25519.publicKey (basicHybridPrivate.value.drop 46) = basicHpkeKey.publicKey := by
  decide +kernel

end

end Tink.Props
