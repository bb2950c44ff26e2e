import Verif.Props.TemplateCreators
import Verif.Props.KmsKeys
import Verif.Keyset.FormatLemmas
import Verif.Spec.KeyFormats

/-!
# C75: the bytes of key templates and keys
-/

namespace Tink.Props
open Templates Spec.KeyFormats
open Spec.KeysetFormat (signed onWire Payload)
open OutputPrefixType (TINK RAW)

/-! ## Fields -/

theorem enc_uint32 {n : Int} (h : InU32 n) (f : Nat) :
    encodeFields (uint32Field f (UInt32.ofNat n.toNat)) = number f n := by
  have h1 := InU32.toNat h
  by_cases h0 : n = 0
  · subst h0; rfl
  · have : UInt32.ofNat n.toNat ≠ 0 := by
      intro h2; rw [h2] at h1; exact h0 h1.symm
    rw [uint32Field, if_neg this, number, if_neg h0, onWire_eq]
    simp only [encodeFields, List.flatMap_cons, List.flatMap_nil, List.append_nil, Payload.val]
    have : (n % 2 ^ 64).toNat = (UInt32.ofNat n.toNat).toNat := by
      obtain ⟨_, _⟩ := h
      omega
    rw [this]

theorem enc_uint32' (f : Nat) (v : UInt32) : encodeFields (uint32Field f v) = number f v.toNat := by
  have hv := v.toNat_lt
  have h := enc_uint32 (n := v.toNat) ⟨by omega, by omega⟩ f
  rw [Int.toNat_natCast, UInt32.ofNat_toNat] at h
  exact h

theorem enc_zero (f : Nat) : encodeFields (uint32Field f 0) = [] := rfl

theorem enc_enum (f : Nat) (v : EnumVal) : encodeFields (enumField f v) = number f (signed v) := by
  have hv := v.toNat_lt
  by_cases h0 : v = 0
  · subst h0; rfl
  · have h1 : v.toNat ≠ 0 := fun h => h0 (UInt32.toNat_inj.1 h)
    have h2 : signed v ≠ 0 := by
      unfold signed; split <;> omega
    rw [enumField, if_neg h0, number, if_neg h2, onWire_eq]
    simp only [encodeFields, List.flatMap_cons, List.flatMap_nil, List.append_nil, Payload.val]
    have : (signed v % 2 ^ 64).toNat = enumToVarint v := by
      unfold signed enumToVarint
      split <;> omega
    rw [this]

theorem enc_int32 {n : Int} {u : UInt32} (h : setInt32 n = .ok u) (f : Nat) :
    encodeFields (enumField f u) = number f n := by
  rw [enc_enum]
  unfold setInt32 at h
  split at h
  · cases h
    congr 1
    unfold signed
    rw [UInt32.toNat_ofNat']
    split <;> omega
  · cases h

theorem enc_bytes (f : Nat) (b : Bytes) : encodeFields (bytesField f b) = data f b := by
  by_cases h : b = []
  · rw [bytesField, if_pos h, data, if_pos h]; rfl
  · rw [bytesField, if_neg h, data, if_neg h, onWire_eq]
    simp [encodeFields, Payload.val]

theorem enc_noBytes (f : Nat) : data f [] = [] := rfl

theorem enc_text (f : Nat) (s : PStr) : encodeFields (strField f s) = text f s := by
  by_cases h : s = []
  · subst h; rfl
  · have h1 : Spec.KeysetFormat.utf8 s ≠ [] := by
      obtain ⟨c, s, rfl⟩ := List.exists_cons_of_ne_nil h
      simp only [Spec.KeysetFormat.utf8, List.flatMap_cons, ne_eq, List.append_eq_nil_iff, not_and]
      intro h2
      exact absurd h2 (String.utf8EncodeChar_ne_nil)
    rw [strField, if_neg h, text, data, if_neg h1, onWire_eq, utf8_eq]
    simp [encodeFields, Payload.val]

theorem enc_message (f : Nat) (fs : List Field) :
    encodeFields (msgField f (some fs)) = message f (encodeFields fs) := by
  rw [message, onWire_eq]
  simp [msgField, encodeFields, Payload.val]

theorem enc_noMessage (f : Nat) : encodeFields (msgField f none) = [] := rfl

theorem numToBytes_F4 : numToBytes F4 = .ok [1, 0, 1] := by decide +kernel

/-! ## Functions that create key templates -/

/-- C75.  `createAesEax`. -/
theorem C75_create_aes_eax (keySize : Int) (ivSize : Int) (output : EnumVal) {t : KeyTemplate}
    (h : createAesEax keySize ivSize output = .ok t) :
    t = template (ps! "AesEaxKey") output
      (aesEaxKeyFormat ivSize keySize) := by
  unfold createAesEax at h
  obtain ⟨u, hu, h⟩ := bind_ok_iff.mp h
  obtain ⟨h_ivSize, rfl⟩ := setUInt32_ok hu
  obtain ⟨u, hu, h⟩ := bind_ok_iff.mp h
  obtain ⟨h_keySize, rfl⟩ := setUInt32_ok hu
  obtain ⟨w, hw, h⟩ := bind_ok_iff.mp h
  cases h
  rw [(serializeFields_ok hw).1]
  simp only [Templates.mk, typePrefix, template, aesEaxKeyFormat, AesEaxKeyFormat.fields, AesEaxParams.fields, Option.map_some,
    encodeFields_append, enc_uint32 h_ivSize, enc_uint32 h_keySize, enc_zero, enc_enum, enc_bytes, enc_noBytes, enc_text, enc_message, enc_noMessage,
    List.append_nil, List.nil_append]

/-- C75.  `createAesGcm`. -/
theorem C75_create_aes_gcm (keySize : Int) (output : EnumVal) {t : KeyTemplate}
    (h : createAesGcm keySize output = .ok t) :
    t = template (ps! "AesGcmKey") output
      (aesGcmKeyFormat keySize) := by
  unfold createAesGcm at h
  obtain ⟨u, hu, h⟩ := bind_ok_iff.mp h
  obtain ⟨h_keySize, rfl⟩ := setUInt32_ok hu
  obtain ⟨w, hw, h⟩ := bind_ok_iff.mp h
  cases h
  rw [(serializeFields_ok hw).1]
  simp only [Templates.mk, typePrefix, template, aesGcmKeyFormat, AesGcmKeyFormat.fields, Option.map_some,
    encodeFields_append, enc_uint32 h_keySize, enc_zero, enc_enum, enc_bytes, enc_noBytes, enc_text, enc_message, enc_noMessage,
    List.append_nil, List.nil_append]

/-- C75.  `createAesGcmSiv`. -/
theorem C75_create_aes_gcm_siv (keySize : Int) (output : EnumVal) {t : KeyTemplate}
    (h : createAesGcmSiv keySize output = .ok t) :
    t = template (ps! "AesGcmSivKey") output
      (aesGcmSivKeyFormat keySize) := by
  unfold createAesGcmSiv at h
  obtain ⟨u, hu, h⟩ := bind_ok_iff.mp h
  obtain ⟨h_keySize, rfl⟩ := setUInt32_ok hu
  obtain ⟨w, hw, h⟩ := bind_ok_iff.mp h
  cases h
  rw [(serializeFields_ok hw).1]
  simp only [Templates.mk, typePrefix, template, aesGcmSivKeyFormat, AesGcmSivKeyFormat.fields, Option.map_some,
    encodeFields_append, enc_uint32 h_keySize, enc_zero, enc_enum, enc_bytes, enc_noBytes, enc_text, enc_message, enc_noMessage,
    List.append_nil, List.nil_append]

/-- C75.  `createAesCtrHmacAead`. -/
theorem C75_create_aes_ctr_hmac_aead (aesKeySize : Int) (ivSize : Int) (hmacKeySize : Int) (tagSize : Int) (hash : EnumVal) (output : EnumVal) {t : KeyTemplate}
    (h : createAesCtrHmacAead aesKeySize ivSize hmacKeySize tagSize hash output = .ok t) :
    t = template (ps! "AesCtrHmacAeadKey") output
      (aesCtrHmacAeadKeyFormat (aesCtrKeyFormat ivSize aesKeySize)
        (hmacKeyFormat (hmacParams (signed hash) tagSize) hmacKeySize)) := by
  unfold createAesCtrHmacAead at h
  obtain ⟨u, hu, h⟩ := bind_ok_iff.mp h
  obtain ⟨h_ivSize, rfl⟩ := setUInt32_ok hu
  obtain ⟨u, hu, h⟩ := bind_ok_iff.mp h
  obtain ⟨h_aesKeySize, rfl⟩ := setUInt32_ok hu
  obtain ⟨u, hu, h⟩ := bind_ok_iff.mp h
  obtain ⟨h_tagSize, rfl⟩ := setUInt32_ok hu
  obtain ⟨u, hu, h⟩ := bind_ok_iff.mp h
  obtain ⟨h_hmacKeySize, rfl⟩ := setUInt32_ok hu
  obtain ⟨w, hw, h⟩ := bind_ok_iff.mp h
  cases h
  rw [(serializeFields_ok hw).1]
  simp only [Templates.mk, typePrefix, template, aesCtrHmacAeadKeyFormat, aesCtrKeyFormat, hmacKeyFormat, hmacParams, AesCtrHmacAeadKeyFormat.fields, AesCtrKeyFormat.fields, AesCtrParams.fields, HmacKeyFormat.fields, HmacParams.fields, Option.map_some,
    encodeFields_append, enc_uint32 h_ivSize, enc_uint32 h_aesKeySize, enc_uint32 h_tagSize, enc_uint32 h_hmacKeySize, enc_zero, enc_enum, enc_bytes, enc_noBytes, enc_text, enc_message, enc_noMessage,
    List.append_nil, List.nil_append]

/-- C75.  `Mac.createHmac`. -/
theorem C75_create_mac_hmac (keySize : Int) (tagSize : Int) (hash : EnumVal) {t : KeyTemplate}
    (h : Mac.createHmac keySize tagSize hash = .ok t) :
    t = template (ps! "HmacKey") TINK
      (hmacKeyFormat (hmacParams (signed hash) tagSize) keySize) := by
  unfold Mac.createHmac at h
  obtain ⟨u, hu, h⟩ := bind_ok_iff.mp h
  obtain ⟨h_tagSize, rfl⟩ := setUInt32_ok hu
  obtain ⟨u, hu, h⟩ := bind_ok_iff.mp h
  obtain ⟨h_keySize, rfl⟩ := setUInt32_ok hu
  obtain ⟨w, hw, h⟩ := bind_ok_iff.mp h
  cases h
  rw [(serializeFields_ok hw).1]
  simp only [Templates.mk, typePrefix, template, hmacKeyFormat, hmacParams, HmacKeyFormat.fields, HmacParams.fields, Option.map_some,
    encodeFields_append, enc_uint32 h_tagSize, enc_uint32 h_keySize, enc_zero, enc_enum, enc_bytes, enc_noBytes, enc_text, enc_message, enc_noMessage,
    List.append_nil, List.nil_append]

/-- C75.  `Mac.createAesCmac`. -/
theorem C75_create_mac_aes_cmac (keySize : Int) (tagSize : Int) {t : KeyTemplate}
    (h : Mac.createAesCmac keySize tagSize = .ok t) :
    t = template (ps! "AesCmacKey") TINK
      (aesCmacKeyFormat keySize tagSize) := by
  unfold Mac.createAesCmac at h
  obtain ⟨u, hu, h⟩ := bind_ok_iff.mp h
  obtain ⟨h_keySize, rfl⟩ := setUInt32_ok hu
  obtain ⟨u, hu, h⟩ := bind_ok_iff.mp h
  obtain ⟨h_tagSize, rfl⟩ := setUInt32_ok hu
  obtain ⟨w, hw, h⟩ := bind_ok_iff.mp h
  cases h
  rw [(serializeFields_ok hw).1]
  simp only [Templates.mk, typePrefix, template, aesCmacKeyFormat, AesCmacKeyFormat.fields, AesCmacParams.fields, Option.map_some,
    encodeFields_append, enc_uint32 h_keySize, enc_uint32 h_tagSize, enc_zero, enc_enum, enc_bytes, enc_noBytes, enc_text, enc_message, enc_noMessage,
    List.append_nil, List.nil_append]

/-- C75.  `createAesSiv`. -/
theorem C75_create_aes_siv (keySize : Int) {t : KeyTemplate}
    (h : createAesSiv keySize = .ok t) :
    t = template (ps! "AesSivKey") TINK
      (aesSivKeyFormat keySize) := by
  unfold createAesSiv at h
  obtain ⟨u, hu, h⟩ := bind_ok_iff.mp h
  obtain ⟨h_keySize, rfl⟩ := setUInt32_ok hu
  obtain ⟨w, hw, h⟩ := bind_ok_iff.mp h
  cases h
  rw [(serializeFields_ok hw).1]
  simp only [Templates.mk, typePrefix, template, aesSivKeyFormat, AesSivKeyFormat.fields, Option.map_some,
    encodeFields_append, enc_uint32 h_keySize, enc_zero, enc_enum, enc_bytes, enc_noBytes, enc_text, enc_message, enc_noMessage,
    List.append_nil, List.nil_append]

/-- C75.  `Prf.createAesCmac`. -/
theorem C75_create_prf_aes_cmac (keySize : Int) {t : KeyTemplate}
    (h : Prf.createAesCmac keySize = .ok t) :
    t = template (ps! "AesCmacPrfKey") RAW
      (aesCmacPrfKeyFormat keySize) := by
  unfold Prf.createAesCmac at h
  obtain ⟨u, hu, h⟩ := bind_ok_iff.mp h
  obtain ⟨h_keySize, rfl⟩ := setUInt32_ok hu
  obtain ⟨w, hw, h⟩ := bind_ok_iff.mp h
  cases h
  rw [(serializeFields_ok hw).1]
  simp only [Templates.mk, typePrefix, template, aesCmacPrfKeyFormat, AesCmacPrfKeyFormat.fields, Option.map_some,
    encodeFields_append, enc_uint32 h_keySize, enc_zero, enc_enum, enc_bytes, enc_noBytes, enc_text, enc_message, enc_noMessage,
    List.append_nil, List.nil_append]

/-- C75.  `Prf.createHmac`. -/
theorem C75_create_prf_hmac (keySize : Int) (hash : EnumVal) {t : KeyTemplate}
    (h : Prf.createHmac keySize hash = .ok t) :
    t = template (ps! "HmacPrfKey") RAW
      (hmacPrfKeyFormat (signed hash) keySize) := by
  unfold Prf.createHmac at h
  obtain ⟨u, hu, h⟩ := bind_ok_iff.mp h
  obtain ⟨h_keySize, rfl⟩ := setUInt32_ok hu
  obtain ⟨w, hw, h⟩ := bind_ok_iff.mp h
  cases h
  rw [(serializeFields_ok hw).1]
  simp only [Templates.mk, typePrefix, template, hmacPrfKeyFormat, HmacPrfKeyFormat.fields, HmacPrfParams.fields, Option.map_some,
    encodeFields_append, enc_uint32 h_keySize, enc_zero, enc_enum, enc_bytes, enc_noBytes, enc_text, enc_message, enc_noMessage,
    List.append_nil, List.nil_append]

/-- C75.  `Prf.createHkdf`. -/
theorem C75_create_prf_hkdf (keySize : Int) (hash : EnumVal) {t : KeyTemplate}
    (h : Prf.createHkdf keySize hash = .ok t) :
    t = template (ps! "HkdfPrfKey") RAW
      (hkdfPrfKeyFormat (signed hash) keySize) := by
  unfold Prf.createHkdf at h
  obtain ⟨u, hu, h⟩ := bind_ok_iff.mp h
  obtain ⟨h_keySize, rfl⟩ := setUInt32_ok hu
  obtain ⟨w, hw, h⟩ := bind_ok_iff.mp h
  cases h
  rw [(serializeFields_ok hw).1]
  simp only [Templates.mk, typePrefix, template, hkdfPrfKeyFormat, HkdfPrfKeyFormat.fields, HkdfPrfParams.fields, Option.map_some,
    encodeFields_append, enc_uint32 h_keySize, enc_zero, enc_enum, enc_bytes, enc_noBytes, enc_text, enc_message, enc_noMessage,
    List.append_nil, List.nil_append]

/-- C75.  `Streaming.createAesGcmHkdf`. -/
theorem C75_create_streaming_aes_gcm_hkdf (aesKeySize : Int) (hash : EnumVal) (derivedKeySize : Int) (segmentSize : Int) {t : KeyTemplate}
    (h : Streaming.createAesGcmHkdf aesKeySize hash derivedKeySize segmentSize = .ok t) :
    t = template (ps! "AesGcmHkdfStreamingKey") RAW
      (aesGcmHkdfStreamingKeyFormat
        (aesGcmHkdfStreamingParams segmentSize derivedKeySize (signed hash)) aesKeySize) := by
  unfold Streaming.createAesGcmHkdf at h
  obtain ⟨u, hu, h⟩ := bind_ok_iff.mp h
  obtain ⟨h_aesKeySize, rfl⟩ := setUInt32_ok hu
  obtain ⟨u, hu, h⟩ := bind_ok_iff.mp h
  obtain ⟨h_derivedKeySize, rfl⟩ := setUInt32_ok hu
  obtain ⟨u, hu, h⟩ := bind_ok_iff.mp h
  obtain ⟨h_segmentSize, rfl⟩ := setUInt32_ok hu
  obtain ⟨w, hw, h⟩ := bind_ok_iff.mp h
  cases h
  rw [(serializeFields_ok hw).1]
  simp only [Templates.mk, typePrefix, template, aesGcmHkdfStreamingKeyFormat, aesGcmHkdfStreamingParams, AesGcmHkdfStreamingKeyFormat.fields, AesGcmHkdfStreamingParams.fields, Option.map_some,
    encodeFields_append, enc_uint32 h_aesKeySize, enc_uint32 h_derivedKeySize, enc_uint32 h_segmentSize, enc_zero, enc_enum, enc_bytes, enc_noBytes, enc_text, enc_message, enc_noMessage,
    List.append_nil, List.nil_append]

/-- C75.  `Streaming.createAesCtrHmac`. -/
theorem C75_create_streaming_aes_ctr_hmac (aesKeySize : Int) (hkdfHash : EnumVal) (derivedKeySize : Int) (macHash : EnumVal) (tagSize : Int) (segmentSize : Int) {t : KeyTemplate}
    (h : Streaming.createAesCtrHmac aesKeySize hkdfHash derivedKeySize macHash tagSize segmentSize = .ok t) :
    t = template (ps! "AesCtrHmacStreamingKey") RAW
      (aesCtrHmacStreamingKeyFormat
        (aesCtrHmacStreamingParams segmentSize derivedKeySize (signed hkdfHash)
          (hmacParams (signed macHash) tagSize)) aesKeySize) := by
  unfold Streaming.createAesCtrHmac at h
  obtain ⟨u, hu, h⟩ := bind_ok_iff.mp h
  obtain ⟨h_aesKeySize, rfl⟩ := setUInt32_ok hu
  obtain ⟨u, hu, h⟩ := bind_ok_iff.mp h
  obtain ⟨h_segmentSize, rfl⟩ := setUInt32_ok hu
  obtain ⟨u, hu, h⟩ := bind_ok_iff.mp h
  obtain ⟨h_derivedKeySize, rfl⟩ := setUInt32_ok hu
  obtain ⟨u, hu, h⟩ := bind_ok_iff.mp h
  obtain ⟨h_tagSize, rfl⟩ := setUInt32_ok hu
  obtain ⟨w, hw, h⟩ := bind_ok_iff.mp h
  cases h
  rw [(serializeFields_ok hw).1]
  simp only [Templates.mk, typePrefix, template, aesCtrHmacStreamingKeyFormat, aesCtrHmacStreamingParams, hmacParams, AesCtrHmacStreamingKeyFormat.fields, AesCtrHmacStreamingParams.fields, HmacParams.fields, Option.map_some,
    encodeFields_append, enc_uint32 h_aesKeySize, enc_uint32 h_segmentSize, enc_uint32 h_derivedKeySize, enc_uint32 h_tagSize, enc_zero, enc_enum, enc_bytes, enc_noBytes, enc_text, enc_message, enc_noMessage,
    List.append_nil, List.nil_append]

/-- C75.  `createEciesAeadHkdf`. -/
theorem C75_create_ecies (curve : EnumVal) (pointFormat : EnumVal) (hash : EnumVal) (dem : KeyTemplate) {t : KeyTemplate}
    (h : createEciesAeadHkdf curve pointFormat hash dem = .ok t) :
    t = template (ps! "EciesAeadHkdfPrivateKey") TINK
      (eciesAeadHkdfKeyFormat (signed curve) (signed hash)
        (keyTemplate dem.typeUrl dem.value (signed dem.outputPrefixType)) (signed pointFormat)) := by
  unfold createEciesAeadHkdf at h
  obtain ⟨w, hw, h⟩ := bind_ok_iff.mp h
  cases h
  rw [(serializeFields_ok hw).1]
  simp only [Templates.mk, typePrefix, template, eciesAeadHkdfKeyFormat, keyTemplate, EciesAeadHkdfKeyFormat.fields, EciesAeadHkdfParams.fields, EciesHkdfKemParams.fields, EciesAeadDemParams.fields, KeyTemplate.fields, Option.map_some,
    encodeFields_append, enc_zero, enc_enum, enc_bytes, enc_noBytes, enc_text, enc_message, enc_noMessage,
    List.append_nil, List.nil_append]

/-- C75.  `createHpke`. -/
theorem C75_create_hpke (kem : EnumVal) (kdf : EnumVal) (aead : EnumVal) (output : EnumVal) {t : KeyTemplate}
    (h : createHpke kem kdf aead output = .ok t) :
    t = template (ps! "HpkePrivateKey") output
      (hpkeKeyFormat (signed kem) (signed kdf) (signed aead)) := by
  unfold createHpke at h
  obtain ⟨w, hw, h⟩ := bind_ok_iff.mp h
  cases h
  rw [(serializeFields_ok hw).1]
  simp only [Templates.mk, typePrefix, template, hpkeKeyFormat, HpkeKeyFormat.fields, HpkeParams.fields, Option.map_some,
    encodeFields_append, enc_zero, enc_enum, enc_bytes, enc_noBytes, enc_text, enc_message, enc_noMessage,
    List.append_nil, List.nil_append]

/-- C75.  `createEcdsa`. -/
theorem C75_create_ecdsa (hash : EnumVal) (curve : EnumVal) (encoding : EnumVal) (output : EnumVal) {t : KeyTemplate}
    (h : createEcdsa hash curve encoding output = .ok t) :
    t = template (ps! "EcdsaPrivateKey") output
      (ecdsaKeyFormat (signed hash) (signed curve) (signed encoding)) := by
  unfold createEcdsa at h
  obtain ⟨w, hw, h⟩ := bind_ok_iff.mp h
  cases h
  rw [(serializeFields_ok hw).1]
  simp only [Templates.mk, typePrefix, template, ecdsaKeyFormat, EcdsaKeyFormat.fields, EcdsaParams.fields, Option.map_some,
    encodeFields_append, enc_zero, enc_enum, enc_bytes, enc_noBytes, enc_text, enc_message, enc_noMessage,
    List.append_nil, List.nil_append]

/-- C75.  `createRsaSsaPkcs1`. -/
theorem C75_create_rsa_ssa_pkcs1 (hash : EnumVal) (modulusSize : Int) (publicExponent : Int) {t : KeyTemplate}
    (h : createRsaSsaPkcs1 hash modulusSize publicExponent = .ok t) :
    ∃ e, (fromBytesBE e : Int) = publicExponent ∧ (e.head? = some 0 → e = [0]) ∧
    t = template (ps! "RsaSsaPkcs1PrivateKey") TINK
      (rsaSsaPkcs1KeyFormat (signed hash) modulusSize e) := by
  unfold createRsaSsaPkcs1 at h
  obtain ⟨e, he, h⟩ := bind_ok_iff.mp h
  obtain ⟨u, hu, h⟩ := bind_ok_iff.mp h
  obtain ⟨h_modulusSize, rfl⟩ := setUInt32_ok hu
  obtain ⟨w, hw, h⟩ := bind_ok_iff.mp h
  cases h
  rw [(serializeFields_ok hw).1]
  refine ⟨e, numToBytes_value he, numToBytes_head he, ?_⟩
  simp only [Templates.mk, typePrefix, template, rsaSsaPkcs1KeyFormat, RsaSsaPkcs1KeyFormat.fields, RsaSsaPkcs1Params.fields, Option.map_some,
    encodeFields_append, enc_uint32 h_modulusSize, enc_zero, enc_enum, enc_bytes, enc_noBytes, enc_text, enc_message, enc_noMessage,
    List.append_nil, List.nil_append]

/-- C75.  `createRsaSsaPss`. -/
theorem C75_create_rsa_ssa_pss (sigHash : EnumVal) (mgf1Hash : EnumVal) (saltLength : Int) (modulusSize : Int) (publicExponent : Int) {t : KeyTemplate}
    (h : createRsaSsaPss sigHash mgf1Hash saltLength modulusSize publicExponent = .ok t) :
    ∃ e, (fromBytesBE e : Int) = publicExponent ∧ (e.head? = some 0 → e = [0]) ∧
    t = template (ps! "RsaSsaPssPrivateKey") TINK
      (rsaSsaPssKeyFormat (signed sigHash) (signed mgf1Hash) saltLength modulusSize e) := by
  unfold createRsaSsaPss at h
  obtain ⟨salt, hsalt, h⟩ := bind_ok_iff.mp h
  obtain ⟨e, he, h⟩ := bind_ok_iff.mp h
  obtain ⟨u, hu, h⟩ := bind_ok_iff.mp h
  obtain ⟨h_modulusSize, rfl⟩ := setUInt32_ok hu
  obtain ⟨w, hw, h⟩ := bind_ok_iff.mp h
  cases h
  rw [(serializeFields_ok hw).1]
  refine ⟨e, numToBytes_value he, numToBytes_head he, ?_⟩
  simp only [Templates.mk, typePrefix, template, rsaSsaPssKeyFormat, RsaSsaPssKeyFormat.fields, RsaSsaPssParams.fields, Option.map_some,
    encodeFields_append, enc_uint32 h_modulusSize, enc_int32 hsalt, enc_zero, enc_enum, enc_bytes, enc_noBytes, enc_text, enc_message, enc_noMessage,
    List.append_nil, List.nil_append]

/-- C75.  `createJwtHmac`. -/
theorem C75_create_jwt_hmac (algorithm : EnumVal) (keySize : Int) (output : EnumVal) {t : KeyTemplate}
    (h : createJwtHmac algorithm keySize output = .ok t) :
    t = template (ps! "JwtHmacKey") output
      (jwtHmacKeyFormat (signed algorithm) keySize) := by
  unfold createJwtHmac at h
  obtain ⟨u, hu, h⟩ := bind_ok_iff.mp h
  obtain ⟨h_keySize, rfl⟩ := setUInt32_ok hu
  obtain ⟨w, hw, h⟩ := bind_ok_iff.mp h
  cases h
  rw [(serializeFields_ok hw).1]
  simp only [Templates.mk, typePrefix, template, jwtHmacKeyFormat, JwtHmacKeyFormat.fields, Option.map_some,
    encodeFields_append, enc_uint32 h_keySize, enc_zero, enc_enum, enc_bytes, enc_noBytes, enc_text, enc_message, enc_noMessage,
    List.append_nil, List.nil_append]

/-- C75.  `createJwtEcdsa`. -/
theorem C75_create_jwt_ecdsa (algorithm : EnumVal) (output : EnumVal) {t : KeyTemplate}
    (h : createJwtEcdsa algorithm output = .ok t) :
    t = template (ps! "JwtEcdsaPrivateKey") output
      (jwtEcdsaKeyFormat (signed algorithm)) := by
  unfold createJwtEcdsa at h
  obtain ⟨w, hw, h⟩ := bind_ok_iff.mp h
  cases h
  rw [(serializeFields_ok hw).1]
  simp only [Templates.mk, typePrefix, template, jwtEcdsaKeyFormat, JwtEcdsaKeyFormat.fields, Option.map_some,
    encodeFields_append, enc_zero, enc_enum, enc_bytes, enc_noBytes, enc_text, enc_message, enc_noMessage,
    List.append_nil, List.nil_append]

/-- C75.  `createJwtRsaSsaPkcs1`. -/
theorem C75_create_jwt_rsa_ssa_pkcs1 (algorithm : EnumVal) (modulusSize : Int) (output : EnumVal) {t : KeyTemplate}
    (h : createJwtRsaSsaPkcs1 algorithm modulusSize output = .ok t) :
    t = template (ps! "JwtRsaSsaPkcs1PrivateKey") output
      (jwtRsaKeyFormat (signed algorithm) modulusSize [1, 0, 1]) := by
  unfold createJwtRsaSsaPkcs1 at h
  obtain ⟨e, he, h⟩ := bind_ok_iff.mp h
  cases he.symm.trans numToBytes_F4
  obtain ⟨u, hu, h⟩ := bind_ok_iff.mp h
  obtain ⟨h_modulusSize, rfl⟩ := setUInt32_ok hu
  obtain ⟨w, hw, h⟩ := bind_ok_iff.mp h
  cases h
  rw [(serializeFields_ok hw).1]
  simp only [Templates.mk, typePrefix, template, jwtRsaKeyFormat, JwtRsaSsaPkcs1KeyFormat.fields, Option.map_some,
    encodeFields_append, enc_uint32 h_modulusSize, enc_zero, enc_enum, enc_bytes, enc_noBytes, enc_text, enc_message, enc_noMessage,
    List.append_nil, List.nil_append]

/-- C75.  `createJwtRsaSsaPss`. -/
theorem C75_create_jwt_rsa_ssa_pss (algorithm : EnumVal) (modulusSize : Int) (output : EnumVal) {t : KeyTemplate}
    (h : createJwtRsaSsaPss algorithm modulusSize output = .ok t) :
    t = template (ps! "JwtRsaSsaPssPrivateKey") output
      (jwtRsaKeyFormat (signed algorithm) modulusSize [1, 0, 1]) := by
  unfold createJwtRsaSsaPss at h
  obtain ⟨e, he, h⟩ := bind_ok_iff.mp h
  cases he.symm.trans numToBytes_F4
  obtain ⟨u, hu, h⟩ := bind_ok_iff.mp h
  obtain ⟨h_modulusSize, rfl⟩ := setUInt32_ok hu
  obtain ⟨w, hw, h⟩ := bind_ok_iff.mp h
  cases h
  rw [(serializeFields_ok hw).1]
  simp only [Templates.mk, typePrefix, template, jwtRsaKeyFormat, JwtRsaSsaPssKeyFormat.fields, Option.map_some,
    encodeFields_append, enc_uint32 h_modulusSize, enc_zero, enc_enum, enc_bytes, enc_noBytes, enc_text, enc_message, enc_noMessage,
    List.append_nil, List.nil_append]
/-! ## Enums -/

/-- C75.  The numbers of the enum values that templates are made of. -/
theorem C75_enums :
    [HashType.SHA1, HashType.SHA384, HashType.SHA256, HashType.SHA512, HashType.SHA224] = [1, 2, 3, 4, 5] ∧
    [EllipticCurveType.NIST_P256, EllipticCurveType.NIST_P384, EllipticCurveType.NIST_P521,
      EllipticCurveType.CURVE25519] = [2, 3, 4, 5] ∧
    [EcPointFormat.UNCOMPRESSED, EcPointFormat.COMPRESSED,
      EcPointFormat.DO_NOT_USE_CRUNCHY_UNCOMPRESSED] = [1, 2, 3] ∧
    [EcdsaSignatureEncoding.IEEE_P1363, EcdsaSignatureEncoding.DER] = [1, 2] ∧
    [HpkeKem.DHKEM_X25519_HKDF_SHA256, HpkeKem.DHKEM_P256_HKDF_SHA256, HpkeKem.DHKEM_P384_HKDF_SHA384,
      HpkeKem.DHKEM_P521_HKDF_SHA512] = [1, 2, 3, 4] ∧
    [HpkeKdf.HKDF_SHA256, HpkeKdf.HKDF_SHA384, HpkeKdf.HKDF_SHA512] = [1, 2, 3] ∧
    [HpkeAead.AES_128_GCM, HpkeAead.AES_256_GCM, HpkeAead.CHACHA20_POLY1305] = [1, 2, 3] ∧
    [JwtHmacAlgorithm.HS256, JwtHmacAlgorithm.HS384, JwtHmacAlgorithm.HS512] = [1, 2, 3] ∧
    [JwtEcdsaAlgorithm.ES256, JwtEcdsaAlgorithm.ES384, JwtEcdsaAlgorithm.ES512] = [1, 2, 3] ∧
    [JwtRsaSsaPkcs1Algorithm.RS256, JwtRsaSsaPkcs1Algorithm.RS384, JwtRsaSsaPkcs1Algorithm.RS512] =
      [1, 2, 3] ∧
    [JwtRsaSsaPssAlgorithm.PS256, JwtRsaSsaPssAlgorithm.PS384, JwtRsaSsaPssAlgorithm.PS512] = [1, 2, 3] := by
  decide +kernel

/-! ## Predefined key templates

The numbers of enums are those of the `.proto` files: hash functions SHA384 2, SHA256 3, SHA512 4
(`common.proto:43-51`), curves P-256 2, P-384 3, P-521 4 (`common.proto:26-32`). -/

/-- C75.  The predefined templates: aead. -/
theorem C75_predefined_aead :
    AES128_EAX = .ok (template (ps! "AesEaxKey") TINK
      (aesEaxKeyFormat 16 16)) ∧
    AES128_EAX_RAW = .ok (template (ps! "AesEaxKey") RAW
      (aesEaxKeyFormat 16 16)) ∧
    AES256_EAX = .ok (template (ps! "AesEaxKey") TINK
      (aesEaxKeyFormat 16 32)) ∧
    AES256_EAX_RAW = .ok (template (ps! "AesEaxKey") RAW
      (aesEaxKeyFormat 16 32)) ∧
    AES128_GCM = .ok (template (ps! "AesGcmKey") TINK
      (aesGcmKeyFormat 16)) ∧
    AES128_GCM_RAW = .ok (template (ps! "AesGcmKey") RAW
      (aesGcmKeyFormat 16)) ∧
    AES256_GCM = .ok (template (ps! "AesGcmKey") TINK
      (aesGcmKeyFormat 32)) ∧
    AES256_GCM_RAW = .ok (template (ps! "AesGcmKey") RAW
      (aesGcmKeyFormat 32)) ∧
    AES128_GCM_SIV = .ok (template (ps! "AesGcmSivKey") TINK
      (aesGcmSivKeyFormat 16)) ∧
    AES128_GCM_SIV_RAW = .ok (template (ps! "AesGcmSivKey") RAW
      (aesGcmSivKeyFormat 16)) ∧
    AES256_GCM_SIV = .ok (template (ps! "AesGcmSivKey") TINK
      (aesGcmSivKeyFormat 32)) ∧
    AES256_GCM_SIV_RAW = .ok (template (ps! "AesGcmSivKey") RAW
      (aesGcmSivKeyFormat 32)) ∧
    AES128_CTR_HMAC_SHA256 = .ok (template (ps! "AesCtrHmacAeadKey") TINK
      (aesCtrHmacAeadKeyFormat (aesCtrKeyFormat 16 16) (hmacKeyFormat (hmacParams 3 16) 32))) ∧
    AES128_CTR_HMAC_SHA256_RAW = .ok (template (ps! "AesCtrHmacAeadKey") RAW
      (aesCtrHmacAeadKeyFormat (aesCtrKeyFormat 16 16) (hmacKeyFormat (hmacParams 3 16) 32))) ∧
    AES256_CTR_HMAC_SHA256 = .ok (template (ps! "AesCtrHmacAeadKey") TINK
      (aesCtrHmacAeadKeyFormat (aesCtrKeyFormat 16 32) (hmacKeyFormat (hmacParams 3 32) 32))) ∧
    AES256_CTR_HMAC_SHA256_RAW = .ok (template (ps! "AesCtrHmacAeadKey") RAW
      (aesCtrHmacAeadKeyFormat (aesCtrKeyFormat 16 32) (hmacKeyFormat (hmacParams 3 32) 32))) ∧
    XCHACHA20_POLY1305 = .ok (template (ps! "XChaCha20Poly1305Key") TINK
      ([])) ∧
    XCHACHA20_POLY1305_RAW = .ok (template (ps! "XChaCha20Poly1305Key") RAW
      ([])) := by
  decide +kernel

/-- C75.  The predefined templates: mac. -/
theorem C75_predefined_mac :
    Mac.AES_CMAC = .ok (template (ps! "AesCmacKey") TINK
      (aesCmacKeyFormat 32 16)) ∧
    Mac.HMAC_SHA256_128BITTAG = .ok (template (ps! "HmacKey") TINK
      (hmacKeyFormat (hmacParams 3 16) 32)) ∧
    Mac.HMAC_SHA256_256BITTAG = .ok (template (ps! "HmacKey") TINK
      (hmacKeyFormat (hmacParams 3 32) 32)) ∧
    Mac.HMAC_SHA512_256BITTAG = .ok (template (ps! "HmacKey") TINK
      (hmacKeyFormat (hmacParams 4 32) 64)) ∧
    Mac.HMAC_SHA512_512BITTAG = .ok (template (ps! "HmacKey") TINK
      (hmacKeyFormat (hmacParams 4 64) 64)) ∧
    AES256_SIV = .ok (template (ps! "AesSivKey") TINK
      (aesSivKeyFormat 64)) := by
  decide +kernel

/-- C75.  The predefined templates: prf. -/
theorem C75_predefined_prf :
    Prf.AES_CMAC = .ok (template (ps! "AesCmacPrfKey") RAW
      (aesCmacPrfKeyFormat 32)) ∧
    Prf.HMAC_SHA256 = .ok (template (ps! "HmacPrfKey") RAW
      (hmacPrfKeyFormat 3 32)) ∧
    Prf.HMAC_SHA512 = .ok (template (ps! "HmacPrfKey") RAW
      (hmacPrfKeyFormat 4 64)) ∧
    Prf.HKDF_SHA256 = .ok (template (ps! "HkdfPrfKey") RAW
      (hkdfPrfKeyFormat 3 32)) := by
  decide +kernel

/-- C75.  The predefined templates: streaming. -/
theorem C75_predefined_streaming :
    Streaming.AES128_GCM_HKDF_4KB = .ok (template (ps! "AesGcmHkdfStreamingKey") RAW
      (aesGcmHkdfStreamingKeyFormat (aesGcmHkdfStreamingParams 4096 16 3) 16)) ∧
    Streaming.AES128_GCM_HKDF_1MB = .ok (template (ps! "AesGcmHkdfStreamingKey") RAW
      (aesGcmHkdfStreamingKeyFormat (aesGcmHkdfStreamingParams 1048576 16 3) 16)) ∧
    Streaming.AES256_GCM_HKDF_4KB = .ok (template (ps! "AesGcmHkdfStreamingKey") RAW
      (aesGcmHkdfStreamingKeyFormat (aesGcmHkdfStreamingParams 4096 32 3) 32)) ∧
    Streaming.AES256_GCM_HKDF_1MB = .ok (template (ps! "AesGcmHkdfStreamingKey") RAW
      (aesGcmHkdfStreamingKeyFormat (aesGcmHkdfStreamingParams 1048576 32 3) 32)) ∧
    Streaming.AES128_CTR_HMAC_SHA256_4KB = .ok (template (ps! "AesCtrHmacStreamingKey") RAW
      (aesCtrHmacStreamingKeyFormat (aesCtrHmacStreamingParams 4096 16 3 (hmacParams 3 32)) 16)) ∧
    Streaming.AES128_CTR_HMAC_SHA256_1MB = .ok (template (ps! "AesCtrHmacStreamingKey") RAW
      (aesCtrHmacStreamingKeyFormat (aesCtrHmacStreamingParams 1048576 16 3 (hmacParams 3 32)) 16)) ∧
    Streaming.AES256_CTR_HMAC_SHA256_4KB = .ok (template (ps! "AesCtrHmacStreamingKey") RAW
      (aesCtrHmacStreamingKeyFormat (aesCtrHmacStreamingParams 4096 32 3 (hmacParams 3 32)) 32)) ∧
    Streaming.AES256_CTR_HMAC_SHA256_1MB = .ok (template (ps! "AesCtrHmacStreamingKey") RAW
      (aesCtrHmacStreamingKeyFormat (aesCtrHmacStreamingParams 1048576 32 3 (hmacParams 3 32)) 32)) := by
  decide +kernel

/-- C75.  The predefined templates: hybrid. -/
theorem C75_predefined_hybrid :
    ECIES_P256_HKDF_HMAC_SHA256_AES128_GCM = .ok (template (ps! "EciesAeadHkdfPrivateKey") TINK
      (eciesAeadHkdfKeyFormat 2 3 (keyTemplate (ps! "type.googleapis.com/google.crypto.tink.AesGcmKey") (aesGcmKeyFormat 16) 1) 1)) ∧
    ECIES_P256_COMPRESSED_HKDF_HMAC_SHA256_AES128_GCM = .ok (template (ps! "EciesAeadHkdfPrivateKey") TINK
      (eciesAeadHkdfKeyFormat 2 3 (keyTemplate (ps! "type.googleapis.com/google.crypto.tink.AesGcmKey") (aesGcmKeyFormat 16) 1) 2)) ∧
    ECIES_P256_HKDF_HMAC_SHA256_AES128_CTR_HMAC_SHA256 = .ok (template (ps! "EciesAeadHkdfPrivateKey") TINK
      (eciesAeadHkdfKeyFormat 2 3 (keyTemplate (ps! "type.googleapis.com/google.crypto.tink.AesCtrHmacAeadKey")
        (aesCtrHmacAeadKeyFormat (aesCtrKeyFormat 16 16) (hmacKeyFormat (hmacParams 3 16) 32)) 1) 1)) ∧
    ECIES_P256_COMPRESSED_HKDF_HMAC_SHA256_AES128_CTR_HMAC_SHA256 = .ok (template (ps! "EciesAeadHkdfPrivateKey") TINK
      (eciesAeadHkdfKeyFormat 2 3 (keyTemplate (ps! "type.googleapis.com/google.crypto.tink.AesCtrHmacAeadKey")
        (aesCtrHmacAeadKeyFormat (aesCtrKeyFormat 16 16) (hmacKeyFormat (hmacParams 3 16) 32)) 1) 2)) ∧
    DHKEM_X25519_HKDF_SHA256_HKDF_SHA256_AES_128_GCM = .ok (template (ps! "HpkePrivateKey") TINK
      (hpkeKeyFormat 1 1 1)) ∧
    DHKEM_X25519_HKDF_SHA256_HKDF_SHA256_AES_128_GCM_RAW = .ok (template (ps! "HpkePrivateKey") RAW
      (hpkeKeyFormat 1 1 1)) ∧
    DHKEM_X25519_HKDF_SHA256_HKDF_SHA256_AES_256_GCM = .ok (template (ps! "HpkePrivateKey") TINK
      (hpkeKeyFormat 1 1 2)) ∧
    DHKEM_X25519_HKDF_SHA256_HKDF_SHA256_AES_256_GCM_RAW = .ok (template (ps! "HpkePrivateKey") RAW
      (hpkeKeyFormat 1 1 2)) ∧
    DHKEM_X25519_HKDF_SHA256_HKDF_SHA256_CHACHA20_POLY1305 = .ok (template (ps! "HpkePrivateKey") TINK
      (hpkeKeyFormat 1 1 3)) ∧
    DHKEM_X25519_HKDF_SHA256_HKDF_SHA256_CHACHA20_POLY1305_RAW = .ok (template (ps! "HpkePrivateKey") RAW
      (hpkeKeyFormat 1 1 3)) := by
  decide +kernel

/-- C75.  The predefined templates: signature. -/
theorem C75_predefined_signature :
    ECDSA_P256 = .ok (template (ps! "EcdsaPrivateKey") TINK
      (ecdsaKeyFormat 3 2 2)) ∧
    ECDSA_P256_RAW = .ok (template (ps! "EcdsaPrivateKey") RAW
      (ecdsaKeyFormat 3 2 1)) ∧
    ECDSA_P384 = .ok (template (ps! "EcdsaPrivateKey") TINK
      (ecdsaKeyFormat 4 3 2)) ∧
    ECDSA_P384_SHA384 = .ok (template (ps! "EcdsaPrivateKey") TINK
      (ecdsaKeyFormat 2 3 2)) ∧
    ECDSA_P384_SHA512 = .ok (template (ps! "EcdsaPrivateKey") TINK
      (ecdsaKeyFormat 4 3 2)) ∧
    ECDSA_P521 = .ok (template (ps! "EcdsaPrivateKey") TINK
      (ecdsaKeyFormat 4 4 2)) ∧
    ECDSA_P256_IEEE_P1363 = .ok (template (ps! "EcdsaPrivateKey") TINK
      (ecdsaKeyFormat 3 2 1)) ∧
    ECDSA_P384_IEEE_P1363 = .ok (template (ps! "EcdsaPrivateKey") TINK
      (ecdsaKeyFormat 4 3 1)) ∧
    ECDSA_P384_SHA384_IEEE_P1363 = .ok (template (ps! "EcdsaPrivateKey") TINK
      (ecdsaKeyFormat 2 3 1)) ∧
    ECDSA_P521_IEEE_P1363 = .ok (template (ps! "EcdsaPrivateKey") TINK
      (ecdsaKeyFormat 4 4 1)) ∧
    ED25519 = .ok (template (ps! "Ed25519PrivateKey") TINK
      ([])) ∧
    RSA_SSA_PKCS1_3072_SHA256_F4 = .ok (template (ps! "RsaSsaPkcs1PrivateKey") TINK
      (rsaSsaPkcs1KeyFormat 3 3072 [1, 0, 1])) ∧
    RSA_SSA_PKCS1_4096_SHA512_F4 = .ok (template (ps! "RsaSsaPkcs1PrivateKey") TINK
      (rsaSsaPkcs1KeyFormat 4 4096 [1, 0, 1])) ∧
    RSA_SSA_PSS_3072_SHA256_SHA256_32_F4 = .ok (template (ps! "RsaSsaPssPrivateKey") TINK
      (rsaSsaPssKeyFormat 3 3 32 3072 [1, 0, 1])) ∧
    RSA_SSA_PSS_4096_SHA512_SHA512_64_F4 = .ok (template (ps! "RsaSsaPssPrivateKey") TINK
      (rsaSsaPssKeyFormat 4 4 64 4096 [1, 0, 1])) := by
  decide +kernel

/-- C75.  The predefined templates: jwt. -/
theorem C75_predefined_jwt :
    jwt_hs256_template = .ok (template (ps! "JwtHmacKey") TINK
      (jwtHmacKeyFormat 1 32)) ∧
    raw_jwt_hs256_template = .ok (template (ps! "JwtHmacKey") RAW
      (jwtHmacKeyFormat 1 32)) ∧
    jwt_hs384_template = .ok (template (ps! "JwtHmacKey") TINK
      (jwtHmacKeyFormat 2 48)) ∧
    raw_jwt_hs384_template = .ok (template (ps! "JwtHmacKey") RAW
      (jwtHmacKeyFormat 2 48)) ∧
    jwt_hs512_template = .ok (template (ps! "JwtHmacKey") TINK
      (jwtHmacKeyFormat 3 64)) ∧
    raw_jwt_hs512_template = .ok (template (ps! "JwtHmacKey") RAW
      (jwtHmacKeyFormat 3 64)) ∧
    jwt_es256_template = .ok (template (ps! "JwtEcdsaPrivateKey") TINK
      (jwtEcdsaKeyFormat 1)) ∧
    raw_jwt_es256_template = .ok (template (ps! "JwtEcdsaPrivateKey") RAW
      (jwtEcdsaKeyFormat 1)) ∧
    jwt_es384_template = .ok (template (ps! "JwtEcdsaPrivateKey") TINK
      (jwtEcdsaKeyFormat 2)) ∧
    raw_jwt_es384_template = .ok (template (ps! "JwtEcdsaPrivateKey") RAW
      (jwtEcdsaKeyFormat 2)) ∧
    jwt_es512_template = .ok (template (ps! "JwtEcdsaPrivateKey") TINK
      (jwtEcdsaKeyFormat 3)) ∧
    raw_jwt_es512_template = .ok (template (ps! "JwtEcdsaPrivateKey") RAW
      (jwtEcdsaKeyFormat 3)) ∧
    jwt_rs256_2048_f4_template = .ok (template (ps! "JwtRsaSsaPkcs1PrivateKey") TINK
      (jwtRsaKeyFormat 1 2048 [1, 0, 1])) ∧
    raw_jwt_rs256_2048_f4_template = .ok (template (ps! "JwtRsaSsaPkcs1PrivateKey") RAW
      (jwtRsaKeyFormat 1 2048 [1, 0, 1])) ∧
    jwt_rs256_3072_f4_template = .ok (template (ps! "JwtRsaSsaPkcs1PrivateKey") TINK
      (jwtRsaKeyFormat 1 3072 [1, 0, 1])) ∧
    raw_jwt_rs256_3072_f4_template = .ok (template (ps! "JwtRsaSsaPkcs1PrivateKey") RAW
      (jwtRsaKeyFormat 1 3072 [1, 0, 1])) ∧
    jwt_rs384_3072_f4_template = .ok (template (ps! "JwtRsaSsaPkcs1PrivateKey") TINK
      (jwtRsaKeyFormat 2 3072 [1, 0, 1])) ∧
    raw_jwt_rs384_3072_f4_template = .ok (template (ps! "JwtRsaSsaPkcs1PrivateKey") RAW
      (jwtRsaKeyFormat 2 3072 [1, 0, 1])) ∧
    jwt_rs512_4096_f4_template = .ok (template (ps! "JwtRsaSsaPkcs1PrivateKey") TINK
      (jwtRsaKeyFormat 3 4096 [1, 0, 1])) ∧
    raw_jwt_rs512_4096_f4_template = .ok (template (ps! "JwtRsaSsaPkcs1PrivateKey") RAW
      (jwtRsaKeyFormat 3 4096 [1, 0, 1])) ∧
    jwt_ps256_2048_f4_template = .ok (template (ps! "JwtRsaSsaPssPrivateKey") TINK
      (jwtRsaKeyFormat 1 2048 [1, 0, 1])) ∧
    raw_jwt_ps256_2048_f4_template = .ok (template (ps! "JwtRsaSsaPssPrivateKey") RAW
      (jwtRsaKeyFormat 1 2048 [1, 0, 1])) ∧
    jwt_ps256_3072_f4_template = .ok (template (ps! "JwtRsaSsaPssPrivateKey") TINK
      (jwtRsaKeyFormat 1 3072 [1, 0, 1])) ∧
    raw_jwt_ps256_3072_f4_template = .ok (template (ps! "JwtRsaSsaPssPrivateKey") RAW
      (jwtRsaKeyFormat 1 3072 [1, 0, 1])) ∧
    jwt_ps384_3072_f4_template = .ok (template (ps! "JwtRsaSsaPssPrivateKey") TINK
      (jwtRsaKeyFormat 2 3072 [1, 0, 1])) ∧
    raw_jwt_ps384_3072_f4_template = .ok (template (ps! "JwtRsaSsaPssPrivateKey") RAW
      (jwtRsaKeyFormat 2 3072 [1, 0, 1])) ∧
    jwt_ps512_4096_f4_template = .ok (template (ps! "JwtRsaSsaPssPrivateKey") TINK
      (jwtRsaKeyFormat 3 4096 [1, 0, 1])) ∧
    raw_jwt_ps512_4096_f4_template = .ok (template (ps! "JwtRsaSsaPssPrivateKey") RAW
      (jwtRsaKeyFormat 3 4096 [1, 0, 1])) := by
  decide +kernel

/-! ## Keys -/

theorem carries {K : Type} {write : K → Py Bytes} {read : Bytes → Py K} {k : K} {b : Bytes}
    (h : ∀ {w}, write k = .ok w → read w = .ok k) (h1 : write k = serialized b) : Carries write read k b :=
  ⟨h1, fun hl => h (h1.trans (if_pos hl))⟩

theorem serialized_eq (fs : List Field) : serializeFields fs = serialized (encodeFields fs) := rfl

theorem enc_kid {α : Type} (f : Nat) (value : α → PStr) (k : Option α) :
    encodeFields (msgField f (k.map fun c => strField 1 (value c))) = customKid f (k.map value) := by
  cases k with
  | none => rfl
  | some c => exact (enc_message f _).trans (by rw [enc_text]; rfl)

/-- C75.  `JwtHmacKey`. -/
theorem C75_jwt_hmac (k : JwtHmacKey) :
    Carries JwtHmacKey.serializeToString JwtHmacKey.fromString k
      (jwtHmacKey k.version.toNat (signed k.algorithm) k.keyValue (k.customKid.map (·.value))) := by
  refine carries (fun h => JwtHmacKey.fromString_serializeToString h) ?_
  unfold JwtHmacKey.serializeToString
  rw [serialized_eq]
  have e : JwtHmacKey.CustomKid.fields = fun c => strField 1 c.value := rfl
  simp only [JwtHmacKey.fields, jwtHmacKey, e, Option.map_some, encodeFields_append,
    enc_uint32', enc_enum, enc_bytes, enc_text, enc_message, enc_kid]

/-- C75.  `JwtEcdsaPublicKey`. -/
theorem C75_jwt_ecdsa_public (k : JwtEcdsaPublicKey) :
    Carries JwtEcdsaPublicKey.serializeToString JwtEcdsaPublicKey.fromString k
      (jwtEcdsaPublicKey k.version.toNat (signed k.algorithm) k.x k.y
      (k.customKid.map (·.value))) := by
  refine carries (fun h => JwtEcdsaPublicKey.fromString_serializeToString h) ?_
  unfold JwtEcdsaPublicKey.serializeToString
  rw [serialized_eq]
  have e : JwtEcdsaPublicKey.CustomKid.fields = fun c => strField 1 c.value := rfl
  simp only [JwtEcdsaPublicKey.fields, jwtEcdsaPublicKey, e, Option.map_some, encodeFields_append,
    enc_uint32', enc_enum, enc_bytes, enc_text, enc_message, enc_kid]

/-- C75.  `JwtEcdsaPrivateKey`. -/
theorem C75_jwt_ecdsa_private (version : UInt32) (k : JwtEcdsaPublicKey) (d : Bytes) :
    Carries JwtEcdsaPrivateKey.serializeToString JwtEcdsaPrivateKey.fromString 
      { version := version, publicKey := some k, keyValue := d }
      (jwtEcdsaPrivateKey version.toNat
      (jwtEcdsaPublicKey k.version.toNat (signed k.algorithm) k.x k.y (k.customKid.map (·.value))) d) := by
  refine carries (fun h => JwtEcdsaPrivateKey.fromString_serializeToString h) ?_
  unfold JwtEcdsaPrivateKey.serializeToString
  rw [serialized_eq]
  have e : JwtEcdsaPublicKey.CustomKid.fields = fun c => strField 1 c.value := rfl
  simp only [JwtEcdsaPrivateKey.fields, jwtEcdsaPrivateKey, JwtEcdsaPublicKey.fields, jwtEcdsaPublicKey, e, Option.map_some, encodeFields_append,
    enc_uint32', enc_enum, enc_bytes, enc_text, enc_message, enc_kid]

/-- C75.  `JwtRsaSsaPkcs1PublicKey`. -/
theorem C75_jwt_rsa_ssa_pkcs1_public (k : JwtRsaSsaPkcs1PublicKey) :
    Carries JwtRsaSsaPkcs1PublicKey.serializeToString JwtRsaSsaPkcs1PublicKey.fromString k
      (jwtRsaPublicKey k.version.toNat (signed k.algorithm) k.n k.e (k.customKid.map (·.value))) := by
  refine carries (fun h => JwtRsaSsaPkcs1PublicKey.fromString_serializeToString h) ?_
  unfold JwtRsaSsaPkcs1PublicKey.serializeToString
  rw [serialized_eq]
  have e : JwtRsaSsaPkcs1PublicKey.CustomKid.fields = fun c => strField 1 c.value := rfl
  simp only [JwtRsaSsaPkcs1PublicKey.fields, jwtRsaPublicKey, e, Option.map_some, encodeFields_append,
    enc_uint32', enc_enum, enc_bytes, enc_text, enc_message, enc_kid]

/-- C75.  `JwtRsaSsaPkcs1PrivateKey`. -/
theorem C75_jwt_rsa_ssa_pkcs1_private (version : UInt32) (k : JwtRsaSsaPkcs1PublicKey) (d p q dp dq crt : Bytes) :
    Carries JwtRsaSsaPkcs1PrivateKey.serializeToString JwtRsaSsaPkcs1PrivateKey.fromString 
      { version := version, publicKey := some k, d := d, p := p, q := q, dp := dp, dq := dq, crt := crt }
      (jwtRsaPrivateKey version.toNat
      (jwtRsaPublicKey k.version.toNat (signed k.algorithm) k.n k.e (k.customKid.map (·.value))) d p q dp dq crt) := by
  refine carries (fun h => JwtRsaSsaPkcs1PrivateKey.fromString_serializeToString h) ?_
  unfold JwtRsaSsaPkcs1PrivateKey.serializeToString
  rw [serialized_eq]
  have e : JwtRsaSsaPkcs1PublicKey.CustomKid.fields = fun c => strField 1 c.value := rfl
  simp only [JwtRsaSsaPkcs1PrivateKey.fields, jwtRsaPrivateKey, JwtRsaSsaPkcs1PublicKey.fields, jwtRsaPublicKey, e, Option.map_some, encodeFields_append,
    enc_uint32', enc_enum, enc_bytes, enc_text, enc_message, enc_kid]

/-- C75.  `JwtRsaSsaPssPublicKey`. -/
theorem C75_jwt_rsa_ssa_pss_public (k : JwtRsaSsaPssPublicKey) :
    Carries JwtRsaSsaPssPublicKey.serializeToString JwtRsaSsaPssPublicKey.fromString k
      (jwtRsaPublicKey k.version.toNat (signed k.algorithm) k.n k.e (k.customKid.map (·.value))) := by
  refine carries (fun h => JwtRsaSsaPssPublicKey.fromString_serializeToString h) ?_
  unfold JwtRsaSsaPssPublicKey.serializeToString
  rw [serialized_eq]
  have e : JwtRsaSsaPssPublicKey.CustomKid.fields = fun c => strField 1 c.value := rfl
  simp only [JwtRsaSsaPssPublicKey.fields, jwtRsaPublicKey, e, Option.map_some, encodeFields_append,
    enc_uint32', enc_enum, enc_bytes, enc_text, enc_message, enc_kid]

/-- C75.  `JwtRsaSsaPssPrivateKey`. -/
theorem C75_jwt_rsa_ssa_pss_private (version : UInt32) (k : JwtRsaSsaPssPublicKey) (d p q dp dq crt : Bytes) :
    Carries JwtRsaSsaPssPrivateKey.serializeToString JwtRsaSsaPssPrivateKey.fromString 
      { version := version, publicKey := some k, d := d, p := p, q := q, dp := dp, dq := dq, crt := crt }
      (jwtRsaPrivateKey version.toNat
      (jwtRsaPublicKey k.version.toNat (signed k.algorithm) k.n k.e (k.customKid.map (·.value))) d p q dp dq crt) := by
  refine carries (fun h => JwtRsaSsaPssPrivateKey.fromString_serializeToString h) ?_
  unfold JwtRsaSsaPssPrivateKey.serializeToString
  rw [serialized_eq]
  have e : JwtRsaSsaPssPublicKey.CustomKid.fields = fun c => strField 1 c.value := rfl
  simp only [JwtRsaSsaPssPrivateKey.fields, jwtRsaPrivateKey, JwtRsaSsaPssPublicKey.fields, jwtRsaPublicKey, e, Option.map_some, encodeFields_append,
    enc_uint32', enc_enum, enc_bytes, enc_text, enc_message, enc_kid]

/-- C75.  `KmsAeadKey`. -/
theorem C75_kms_aead_key (version : UInt32) (uri : PStr) :
    Carries KmsAeadKey.serializeToString KmsAeadKey.fromString 
      { version := version, params := some { keyUri := uri } }
      (kmsKey version.toNat (kmsAeadKeyFormat uri)) := by
  refine carries (fun h => KmsAeadKey.fromString_serializeToString h) ?_
  unfold KmsAeadKey.serializeToString
  rw [serialized_eq]
  simp only [KmsAeadKey.fields, kmsKey, KmsAeadKeyFormat.fields, kmsAeadKeyFormat, Option.map_some, encodeFields_append,
    enc_uint32', enc_enum, enc_bytes, enc_text, enc_message]

/-- C75.  `KmsEnvelopeAeadKey`. -/
theorem C75_kms_envelope_aead_key (version : UInt32) (uri : PStr) (dek : KeyTemplate) :
    Carries KmsEnvelopeAeadKey.serializeToString KmsEnvelopeAeadKey.fromString 
      { version := version, params := some { kekUri := uri, dekTemplate := some dek } }
      (kmsKey version.toNat
      (kmsEnvelopeAeadKeyFormat uri (keyTemplate dek.typeUrl dek.value (signed dek.outputPrefixType)))) := by
  refine carries (fun h => KmsEnvelopeAeadKey.fromString_serializeToString h) ?_
  unfold KmsEnvelopeAeadKey.serializeToString
  rw [serialized_eq]
  simp only [KmsEnvelopeAeadKey.fields, kmsKey, KmsEnvelopeAeadKeyFormat.fields, kmsEnvelopeAeadKeyFormat, KeyTemplate.fields, keyTemplate, Option.map_some, encodeFields_append,
    enc_uint32', enc_enum, enc_bytes, enc_text, enc_message]

/-- C75.  `AesGcmHkdfStreamingKey`. -/
theorem C75_streaming_aes_gcm_hkdf_key (version segment derived : UInt32) (hash : EnumVal) (value : Bytes) :
    Carries AesGcmHkdfStreamingKey.serializeToString AesGcmHkdfStreamingKey.fromString 
      { version := version, keyValue := value
        params := some { ciphertextSegmentSize := segment, derivedKeySize := derived, hkdfHashType := hash } }
      (aesGcmHkdfStreamingKey version.toNat
      (aesGcmHkdfStreamingParams segment.toNat derived.toNat (signed hash)) value) := by
  refine carries (fun h => AesGcmHkdfStreamingKey.fromString_serializeToString h) ?_
  unfold AesGcmHkdfStreamingKey.serializeToString
  rw [serialized_eq]
  simp only [AesGcmHkdfStreamingKey.fields, aesGcmHkdfStreamingKey, AesGcmHkdfStreamingParams.fields, aesGcmHkdfStreamingParams, Option.map_some, encodeFields_append,
    enc_uint32', enc_enum, enc_bytes, enc_text, enc_message]

/-- C75.  `AesCtrHmacStreamingKey`. -/
theorem C75_streaming_aes_ctr_hmac_key (version segment derived tag : UInt32) (hash macHash : EnumVal) (value : Bytes) :
    Carries AesCtrHmacStreamingKey.serializeToString AesCtrHmacStreamingKey.fromString 
      { version := version, keyValue := value
        params := some {
          ciphertextSegmentSize := segment, derivedKeySize := derived, hkdfHashType := hash
          hmacParams := some { hash := macHash, tagSize := tag } } }
      (aesCtrHmacStreamingKey version.toNat
      (aesCtrHmacStreamingParams segment.toNat derived.toNat (signed hash)
        (hmacParams (signed macHash) tag.toNat)) value) := by
  refine carries (fun h => AesCtrHmacStreamingKey.fromString_serializeToString h) ?_
  unfold AesCtrHmacStreamingKey.serializeToString
  rw [serialized_eq]
  simp only [AesCtrHmacStreamingKey.fields, aesCtrHmacStreamingKey, AesCtrHmacStreamingParams.fields, aesCtrHmacStreamingParams, HmacParams.fields, hmacParams, Option.map_some, encodeFields_append,
    enc_uint32', enc_enum, enc_bytes, enc_text, enc_message]

/-! ## Templates for keys in a KMS -/

/-- C75.  `create_kms_aead_key_template`. -/
theorem C75_create_kms_aead {uri : PyStr} {t : KeyTemplate} (h : createKmsAeadKeyTemplate uri = .ok t) :
    ∃ u : PStr, u.toPy = uri ∧ t = template (ps! "KmsAeadKey") RAW (kmsAeadKeyFormat u) := by
  obtain ⟨u, hu, h⟩ := bind_ok_iff.1 h
  obtain ⟨w, hw, h⟩ := bind_ok_iff.1 h
  cases h
  refine ⟨u, toPy_toProto _ _ hu, ?_⟩
  rw [(serializeFields_ok hw).1]
  simp only [KmsAeadKeyFormat.fields, kmsAeadKeyFormat, enc_text]
  rfl

/-- C75.  `create_kms_envelope_aead_key_template`. -/
theorem C75_create_kms_envelope_aead {uri : PyStr} {dek t : KeyTemplate}
    (h : createKmsEnvelopeAeadKeyTemplate uri dek = .ok t) :
    ∃ u : PStr, u.toPy = uri ∧
    t = template (ps! "KmsEnvelopeAeadKey") RAW
      (kmsEnvelopeAeadKeyFormat u (keyTemplate dek.typeUrl dek.value (signed dek.outputPrefixType))) := by
  obtain ⟨u, hu, h⟩ := bind_ok_iff.1 h
  obtain ⟨w, hw, h⟩ := bind_ok_iff.1 h
  cases h
  refine ⟨u, toPy_toProto _ _ hu, ?_⟩
  rw [(serializeFields_ok hw).1]
  simp only [KmsEnvelopeAeadKeyFormat.fields, KeyTemplate.fields, kmsEnvelopeAeadKeyFormat, keyTemplate,
    Option.map_some, encodeFields_append, enc_text, enc_message, enc_bytes, enc_enum]
  rfl

/-! ## Examples

The predefined templates above are cases of the theorems about the functions that create templates.
Further ones: -/

example : createAesGcm 16 TINK = .ok (template (ps! "AesGcmKey") TINK [0x10, 0x10]) := by decide +kernel

/-- A negative salt length is accepted and takes ten bytes. -/
example : createRsaSsaPss HashType.SHA256 HashType.SHA256 (-1) 3072 3 =
    .ok (template (ps! "RsaSsaPssPrivateKey") TINK
      [0x0a, 0x0f, 0x08, 3, 0x10, 3, 0x18, 0xff, 0xff, 0xff, 0xff, 0xff, 0xff, 0xff, 0xff, 0xff, 0x01,
       0x10, 0x80, 0x18, 0x1a, 1, 3]) := by decide +kernel

/-- A negative key size is not. -/
example : ∃ e, createAesGcm (-1) TINK = .error e := ⟨.valueError, by decide +kernel⟩

example : createKmsAeadKeyTemplate (py! "k://é") =
    .ok (template (ps! "KmsAeadKey") RAW [0x0a, 6, 0x6b, 0x3a, 0x2f, 0x2f, 0xc3, 0xa9]) := by decide +kernel

example : createKmsEnvelopeAeadKeyTemplate (py! "k") ⟨ps! "t", [7], RAW⟩ =
    .ok (template (ps! "KmsEnvelopeAeadKey") RAW
      [0x0a, 1, 0x6b, 0x12, 8, 0x0a, 1, 0x74, 0x12, 1, 7, 0x18, 3]) := by decide +kernel

example : jwtHmacKey 0 1 [1, 2] (some (ps! "a")) = [0x10, 1, 0x1a, 2, 1, 2, 0x22, 3, 0x0a, 1, 0x61] ∧
    (jwtHmacKey 0 1 [1, 2] (some (ps! "a"))).length < 2 ^ 31 := by decide +kernel

end Tink.Props
