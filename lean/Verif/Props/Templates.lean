import Verif.Templates.Templates
import Verif.Proto.GenLemmas
import Verif.Py.BigIntLemmas
import Verif.Keyset.HandleLemmas
import Verif.Props.BigInt

/-!
# C60: key templates

For every predefined template, what its name promises and what its value decodes to.  A hash or
tag size given in the name in bits is in bytes here; `[1, 0, 1]` is the exponent 65537 (F4).
-/

namespace Tink.Props
open Templates
open OutputPrefixType (TINK RAW)

/-- The template exists, has this type (after the common prefix) and output prefix type, and its
value decodes to this key format. -/
def Decodes {F : Type} (parse : Bytes → Py F) (t : Py KeyTemplate) (type : PStr) (output : EnumVal)
    (format : F) : Prop :=
  ∃ k, t = .ok k ∧ k.typeUrl = ps! "type.googleapis.com/google.crypto.tink." ++ type ∧
    k.outputPrefixType = output ∧ parse k.value = .ok format

/-- The same for key types without parameters. -/
def DecodesEmpty (t : Py KeyTemplate) (type : PStr) (output : EnumVal) : Prop :=
  ∃ k, t = .ok k ∧ k.typeUrl = ps! "type.googleapis.com/google.crypto.tink." ++ type ∧
    k.outputPrefixType = output ∧ k.value = []

/-- Decides `Decodes`. -/
def decodesCheck {F : Type} [DecidableEq F] (parse : Bytes → Py F) (t : Py KeyTemplate) (type : PStr)
    (output : EnumVal) (format : F) : Bool :=
  match t with
  | .error _ => false
  | .ok k =>
    decide (k.typeUrl = ps! "type.googleapis.com/google.crypto.tink." ++ type) &&
    decide (k.outputPrefixType = output) &&
    match parse k.value with
    | .ok f => decide (f = format)
    | .error _ => false

theorem decodes_of_check {F : Type} [DecidableEq F] {parse : Bytes → Py F} {t : Py KeyTemplate}
    {type : PStr} {output : EnumVal} {format : F}
    (h : decodesCheck parse t type output format = true) : Decodes parse t type output format := by
  unfold decodesCheck at h
  cases t with
  | error e => cases h
  | ok k =>
    simp only [Bool.and_eq_true, decide_eq_true_eq] at h
    refine ⟨k, rfl, h.1.1, h.1.2, ?_⟩
    cases hp : parse k.value with
    | error e => rw [hp] at h; cases h.2
    | ok f => rw [hp] at h; rw [of_decide_eq_true h.2]

/-- C60.  The predefined templates: aead. -/
theorem C60_aead :
    Decodes AesEaxKeyFormat.fromString AES128_EAX (ps! "AesEaxKey") TINK
      { params := some { ivSize := 16 }, keySize := 16 } ∧
    Decodes AesEaxKeyFormat.fromString AES128_EAX_RAW (ps! "AesEaxKey") RAW
      { params := some { ivSize := 16 }, keySize := 16 } ∧
    Decodes AesEaxKeyFormat.fromString AES256_EAX (ps! "AesEaxKey") TINK
      { params := some { ivSize := 16 }, keySize := 32 } ∧
    Decodes AesEaxKeyFormat.fromString AES256_EAX_RAW (ps! "AesEaxKey") RAW
      { params := some { ivSize := 16 }, keySize := 32 } ∧
    Decodes AesGcmKeyFormat.fromString AES128_GCM (ps! "AesGcmKey") TINK
      { keySize := 16 } ∧
    Decodes AesGcmKeyFormat.fromString AES128_GCM_RAW (ps! "AesGcmKey") RAW
      { keySize := 16 } ∧
    Decodes AesGcmKeyFormat.fromString AES256_GCM (ps! "AesGcmKey") TINK
      { keySize := 32 } ∧
    Decodes AesGcmKeyFormat.fromString AES256_GCM_RAW (ps! "AesGcmKey") RAW
      { keySize := 32 } ∧
    Decodes AesGcmSivKeyFormat.fromString AES128_GCM_SIV (ps! "AesGcmSivKey") TINK
      { keySize := 16 } ∧
    Decodes AesGcmSivKeyFormat.fromString AES128_GCM_SIV_RAW (ps! "AesGcmSivKey") RAW
      { keySize := 16 } ∧
    Decodes AesGcmSivKeyFormat.fromString AES256_GCM_SIV (ps! "AesGcmSivKey") TINK
      { keySize := 32 } ∧
    Decodes AesGcmSivKeyFormat.fromString AES256_GCM_SIV_RAW (ps! "AesGcmSivKey") RAW
      { keySize := 32 } ∧
    Decodes AesCtrHmacAeadKeyFormat.fromString AES128_CTR_HMAC_SHA256 (ps! "AesCtrHmacAeadKey") TINK
      { aesCtrKeyFormat := some { params := some { ivSize := 16 }, keySize := 16 },
        hmacKeyFormat := some { params := some { hash := HashType.SHA256, tagSize := 16 },
                                keySize := 32 } } ∧
    Decodes AesCtrHmacAeadKeyFormat.fromString AES128_CTR_HMAC_SHA256_RAW
      (ps! "AesCtrHmacAeadKey") RAW
      { aesCtrKeyFormat := some { params := some { ivSize := 16 }, keySize := 16 },
        hmacKeyFormat := some { params := some { hash := HashType.SHA256, tagSize := 16 },
                                keySize := 32 } } ∧
    Decodes AesCtrHmacAeadKeyFormat.fromString AES256_CTR_HMAC_SHA256 (ps! "AesCtrHmacAeadKey") TINK
      { aesCtrKeyFormat := some { params := some { ivSize := 16 }, keySize := 32 },
        hmacKeyFormat := some { params := some { hash := HashType.SHA256, tagSize := 32 },
                                keySize := 32 } } ∧
    Decodes AesCtrHmacAeadKeyFormat.fromString AES256_CTR_HMAC_SHA256_RAW
      (ps! "AesCtrHmacAeadKey") RAW
      { aesCtrKeyFormat := some { params := some { ivSize := 16 }, keySize := 32 },
        hmacKeyFormat := some { params := some { hash := HashType.SHA256, tagSize := 32 },
                                keySize := 32 } } ∧
    DecodesEmpty XCHACHA20_POLY1305 (ps! "XChaCha20Poly1305Key") TINK ∧
    DecodesEmpty XCHACHA20_POLY1305_RAW (ps! "XChaCha20Poly1305Key") RAW := by
  refine ⟨?_, ?_, ?_, ?_, ?_, ?_, ?_, ?_, ?_, ?_, ?_, ?_, ?_, ?_, ?_, ?_, ?_, ?_⟩
  · exact decodes_of_check (by decide +kernel)
  · exact decodes_of_check (by decide +kernel)
  · exact decodes_of_check (by decide +kernel)
  · exact decodes_of_check (by decide +kernel)
  · exact decodes_of_check (by decide +kernel)
  · exact decodes_of_check (by decide +kernel)
  · exact decodes_of_check (by decide +kernel)
  · exact decodes_of_check (by decide +kernel)
  · exact decodes_of_check (by decide +kernel)
  · exact decodes_of_check (by decide +kernel)
  · exact decodes_of_check (by decide +kernel)
  · exact decodes_of_check (by decide +kernel)
  · exact decodes_of_check (by decide +kernel)
  · exact decodes_of_check (by decide +kernel)
  · exact decodes_of_check (by decide +kernel)
  · exact decodes_of_check (by decide +kernel)
  · exact ⟨_, rfl, rfl, rfl, rfl⟩
  · exact ⟨_, rfl, rfl, rfl, rfl⟩

/-- C60.  The predefined templates: mac. -/
theorem C60_mac :
    Decodes AesCmacKeyFormat.fromString Mac.AES_CMAC (ps! "AesCmacKey") TINK
      { keySize := 32, params := some { tagSize := 16 } } ∧
    Decodes HmacKeyFormat.fromString Mac.HMAC_SHA256_128BITTAG (ps! "HmacKey") TINK
      { params := some { hash := HashType.SHA256, tagSize := 16 }, keySize := 32 } ∧
    Decodes HmacKeyFormat.fromString Mac.HMAC_SHA256_256BITTAG (ps! "HmacKey") TINK
      { params := some { hash := HashType.SHA256, tagSize := 32 }, keySize := 32 } ∧
    Decodes HmacKeyFormat.fromString Mac.HMAC_SHA512_256BITTAG (ps! "HmacKey") TINK
      { params := some { hash := HashType.SHA512, tagSize := 32 }, keySize := 64 } ∧
    Decodes HmacKeyFormat.fromString Mac.HMAC_SHA512_512BITTAG (ps! "HmacKey") TINK
      { params := some { hash := HashType.SHA512, tagSize := 64 }, keySize := 64 } := by
  refine ⟨?_, ?_, ?_, ?_, ?_⟩
  · exact decodes_of_check (by decide +kernel)
  · exact decodes_of_check (by decide +kernel)
  · exact decodes_of_check (by decide +kernel)
  · exact decodes_of_check (by decide +kernel)
  · exact decodes_of_check (by decide +kernel)

/-- C60.  The predefined templates: deterministic. -/
theorem C60_deterministic :
    Decodes AesSivKeyFormat.fromString AES256_SIV (ps! "AesSivKey") TINK
      { keySize := 64 } := by
  exact decodes_of_check (by decide +kernel)

/-- C60.  The predefined templates: prf. -/
theorem C60_prf :
    Decodes AesCmacPrfKeyFormat.fromString Prf.AES_CMAC (ps! "AesCmacPrfKey") RAW
      { keySize := 32 } ∧
    Decodes HmacPrfKeyFormat.fromString Prf.HMAC_SHA256 (ps! "HmacPrfKey") RAW
      { params := some { hash := HashType.SHA256 }, keySize := 32 } ∧
    Decodes HmacPrfKeyFormat.fromString Prf.HMAC_SHA512 (ps! "HmacPrfKey") RAW
      { params := some { hash := HashType.SHA512 }, keySize := 64 } ∧
    Decodes HkdfPrfKeyFormat.fromString Prf.HKDF_SHA256 (ps! "HkdfPrfKey") RAW
      { params := some { hash := HashType.SHA256 }, keySize := 32 } := by
  refine ⟨?_, ?_, ?_, ?_⟩
  · exact decodes_of_check (by decide +kernel)
  · exact decodes_of_check (by decide +kernel)
  · exact decodes_of_check (by decide +kernel)
  · exact decodes_of_check (by decide +kernel)

/-- C60.  The predefined templates: streaming. -/
theorem C60_streaming :
    Decodes AesGcmHkdfStreamingKeyFormat.fromString Streaming.AES128_GCM_HKDF_4KB
      (ps! "AesGcmHkdfStreamingKey") RAW
      { params := some { ciphertextSegmentSize := 4096,
                         derivedKeySize := 16,
                         hkdfHashType := HashType.SHA256 },
        keySize := 16 } ∧
    Decodes AesGcmHkdfStreamingKeyFormat.fromString Streaming.AES128_GCM_HKDF_1MB
      (ps! "AesGcmHkdfStreamingKey") RAW
      { params := some { ciphertextSegmentSize := 1048576,
                         derivedKeySize := 16,
                         hkdfHashType := HashType.SHA256 },
        keySize := 16 } ∧
    Decodes AesGcmHkdfStreamingKeyFormat.fromString Streaming.AES256_GCM_HKDF_4KB
      (ps! "AesGcmHkdfStreamingKey") RAW
      { params := some { ciphertextSegmentSize := 4096,
                         derivedKeySize := 32,
                         hkdfHashType := HashType.SHA256 },
        keySize := 32 } ∧
    Decodes AesGcmHkdfStreamingKeyFormat.fromString Streaming.AES256_GCM_HKDF_1MB
      (ps! "AesGcmHkdfStreamingKey") RAW
      { params := some { ciphertextSegmentSize := 1048576,
                         derivedKeySize := 32,
                         hkdfHashType := HashType.SHA256 },
        keySize := 32 } ∧
    Decodes AesCtrHmacStreamingKeyFormat.fromString Streaming.AES128_CTR_HMAC_SHA256_4KB
      (ps! "AesCtrHmacStreamingKey") RAW
      { params := some { ciphertextSegmentSize := 4096,
                         derivedKeySize := 16,
                         hkdfHashType := HashType.SHA256,
                         hmacParams := some { hash := HashType.SHA256, tagSize := 32 } },
        keySize := 16 } ∧
    Decodes AesCtrHmacStreamingKeyFormat.fromString Streaming.AES128_CTR_HMAC_SHA256_1MB
      (ps! "AesCtrHmacStreamingKey") RAW
      { params := some { ciphertextSegmentSize := 1048576,
                         derivedKeySize := 16,
                         hkdfHashType := HashType.SHA256,
                         hmacParams := some { hash := HashType.SHA256, tagSize := 32 } },
        keySize := 16 } ∧
    Decodes AesCtrHmacStreamingKeyFormat.fromString Streaming.AES256_CTR_HMAC_SHA256_4KB
      (ps! "AesCtrHmacStreamingKey") RAW
      { params := some { ciphertextSegmentSize := 4096,
                         derivedKeySize := 32,
                         hkdfHashType := HashType.SHA256,
                         hmacParams := some { hash := HashType.SHA256, tagSize := 32 } },
        keySize := 32 } ∧
    Decodes AesCtrHmacStreamingKeyFormat.fromString Streaming.AES256_CTR_HMAC_SHA256_1MB
      (ps! "AesCtrHmacStreamingKey") RAW
      { params := some { ciphertextSegmentSize := 1048576,
                         derivedKeySize := 32,
                         hkdfHashType := HashType.SHA256,
                         hmacParams := some { hash := HashType.SHA256, tagSize := 32 } },
        keySize := 32 } := by
  refine ⟨?_, ?_, ?_, ?_, ?_, ?_, ?_, ?_⟩
  · exact decodes_of_check (by decide +kernel)
  · exact decodes_of_check (by decide +kernel)
  · exact decodes_of_check (by decide +kernel)
  · exact decodes_of_check (by decide +kernel)
  · exact decodes_of_check (by decide +kernel)
  · exact decodes_of_check (by decide +kernel)
  · exact decodes_of_check (by decide +kernel)
  · exact decodes_of_check (by decide +kernel)

/-- C60.  The predefined templates: hybrid ecies. -/
theorem C60_hybrid_ecies :
    (∃ dem, Templates.AES128_GCM = .ok dem ∧
      Decodes EciesAeadHkdfKeyFormat.fromString ECIES_P256_HKDF_HMAC_SHA256_AES128_GCM
        (ps! "EciesAeadHkdfPrivateKey") TINK
      { params := some { kemParams := some { curveType := EllipticCurveType.NIST_P256,
                                             hkdfHashType := HashType.SHA256 },
                         demParams := some { aeadDem := some dem },
                         ecPointFormat := EcPointFormat.UNCOMPRESSED } }) ∧
    (∃ dem, Templates.AES128_GCM = .ok dem ∧
      Decodes EciesAeadHkdfKeyFormat.fromString ECIES_P256_COMPRESSED_HKDF_HMAC_SHA256_AES128_GCM
        (ps! "EciesAeadHkdfPrivateKey") TINK
      { params := some { kemParams := some { curveType := EllipticCurveType.NIST_P256,
                                             hkdfHashType := HashType.SHA256 },
                         demParams := some { aeadDem := some dem },
                         ecPointFormat := EcPointFormat.COMPRESSED } }) ∧
    (∃ dem, Templates.AES128_CTR_HMAC_SHA256 = .ok dem ∧
      Decodes EciesAeadHkdfKeyFormat.fromString ECIES_P256_HKDF_HMAC_SHA256_AES128_CTR_HMAC_SHA256
        (ps! "EciesAeadHkdfPrivateKey") TINK
      { params := some { kemParams := some { curveType := EllipticCurveType.NIST_P256,
                                             hkdfHashType := HashType.SHA256 },
                         demParams := some { aeadDem := some dem },
                         ecPointFormat := EcPointFormat.UNCOMPRESSED } }) ∧
    (∃ dem, Templates.AES128_CTR_HMAC_SHA256 = .ok dem ∧
      Decodes EciesAeadHkdfKeyFormat.fromString ECIES_P256_COMPRESSED_HKDF_HMAC_SHA256_AES128_CTR_HMAC_SHA256
        (ps! "EciesAeadHkdfPrivateKey") TINK
      { params := some { kemParams := some { curveType := EllipticCurveType.NIST_P256,
                                             hkdfHashType := HashType.SHA256 },
                         demParams := some { aeadDem := some dem },
                         ecPointFormat := EcPointFormat.COMPRESSED } }) := by
  refine ⟨?_, ?_, ?_, ?_⟩
  · exact ⟨mk (ps! "AesGcmKey") TINK [16, 16], by decide +kernel,
      decodes_of_check (by decide +kernel)⟩
  · exact ⟨mk (ps! "AesGcmKey") TINK [16, 16], by decide +kernel,
      decodes_of_check (by decide +kernel)⟩
  · exact ⟨mk (ps! "AesCtrHmacAeadKey") TINK
      [10, 6, 10, 2, 8, 16, 16, 16, 18, 8, 10, 4, 8, 3, 16, 16, 16, 32], by decide +kernel,
      decodes_of_check (by decide +kernel)⟩
  · exact ⟨mk (ps! "AesCtrHmacAeadKey") TINK
      [10, 6, 10, 2, 8, 16, 16, 16, 18, 8, 10, 4, 8, 3, 16, 16, 16, 32], by decide +kernel,
      decodes_of_check (by decide +kernel)⟩

/-- C60.  The predefined templates: hybrid hpke. -/
theorem C60_hybrid_hpke :
    Decodes HpkeKeyFormat.fromString DHKEM_X25519_HKDF_SHA256_HKDF_SHA256_AES_128_GCM
      (ps! "HpkePrivateKey") TINK
      { params := some { kem := HpkeKem.DHKEM_X25519_HKDF_SHA256,
                         kdf := HpkeKdf.HKDF_SHA256,
                         aead := HpkeAead.AES_128_GCM } } ∧
    Decodes HpkeKeyFormat.fromString DHKEM_X25519_HKDF_SHA256_HKDF_SHA256_AES_128_GCM_RAW
      (ps! "HpkePrivateKey") RAW
      { params := some { kem := HpkeKem.DHKEM_X25519_HKDF_SHA256,
                         kdf := HpkeKdf.HKDF_SHA256,
                         aead := HpkeAead.AES_128_GCM } } ∧
    Decodes HpkeKeyFormat.fromString DHKEM_X25519_HKDF_SHA256_HKDF_SHA256_AES_256_GCM
      (ps! "HpkePrivateKey") TINK
      { params := some { kem := HpkeKem.DHKEM_X25519_HKDF_SHA256,
                         kdf := HpkeKdf.HKDF_SHA256,
                         aead := HpkeAead.AES_256_GCM } } ∧
    Decodes HpkeKeyFormat.fromString DHKEM_X25519_HKDF_SHA256_HKDF_SHA256_AES_256_GCM_RAW
      (ps! "HpkePrivateKey") RAW
      { params := some { kem := HpkeKem.DHKEM_X25519_HKDF_SHA256,
                         kdf := HpkeKdf.HKDF_SHA256,
                         aead := HpkeAead.AES_256_GCM } } ∧
    Decodes HpkeKeyFormat.fromString DHKEM_X25519_HKDF_SHA256_HKDF_SHA256_CHACHA20_POLY1305
      (ps! "HpkePrivateKey") TINK
      { params := some { kem := HpkeKem.DHKEM_X25519_HKDF_SHA256,
                         kdf := HpkeKdf.HKDF_SHA256,
                         aead := HpkeAead.CHACHA20_POLY1305 } } ∧
    Decodes HpkeKeyFormat.fromString DHKEM_X25519_HKDF_SHA256_HKDF_SHA256_CHACHA20_POLY1305_RAW
      (ps! "HpkePrivateKey") RAW
      { params := some { kem := HpkeKem.DHKEM_X25519_HKDF_SHA256,
                         kdf := HpkeKdf.HKDF_SHA256,
                         aead := HpkeAead.CHACHA20_POLY1305 } } := by
  refine ⟨?_, ?_, ?_, ?_, ?_, ?_⟩
  · exact decodes_of_check (by decide +kernel)
  · exact decodes_of_check (by decide +kernel)
  · exact decodes_of_check (by decide +kernel)
  · exact decodes_of_check (by decide +kernel)
  · exact decodes_of_check (by decide +kernel)
  · exact decodes_of_check (by decide +kernel)

/-- C60.  The predefined templates: signature. -/
theorem C60_signature :
    Decodes EcdsaKeyFormat.fromString ECDSA_P256 (ps! "EcdsaPrivateKey") TINK
      { params := some { hashType := HashType.SHA256,
                         curve := EllipticCurveType.NIST_P256,
                         encoding := EcdsaSignatureEncoding.DER } } ∧
    Decodes EcdsaKeyFormat.fromString ECDSA_P256_RAW (ps! "EcdsaPrivateKey") RAW
      { params := some { hashType := HashType.SHA256,
                         curve := EllipticCurveType.NIST_P256,
                         encoding := EcdsaSignatureEncoding.IEEE_P1363 } } ∧
    Decodes EcdsaKeyFormat.fromString ECDSA_P384 (ps! "EcdsaPrivateKey") TINK
      { params := some { hashType := HashType.SHA512,
                         curve := EllipticCurveType.NIST_P384,
                         encoding := EcdsaSignatureEncoding.DER } } ∧
    Decodes EcdsaKeyFormat.fromString ECDSA_P384_SHA384 (ps! "EcdsaPrivateKey") TINK
      { params := some { hashType := HashType.SHA384,
                         curve := EllipticCurveType.NIST_P384,
                         encoding := EcdsaSignatureEncoding.DER } } ∧
    Decodes EcdsaKeyFormat.fromString ECDSA_P384_SHA512 (ps! "EcdsaPrivateKey") TINK
      { params := some { hashType := HashType.SHA512,
                         curve := EllipticCurveType.NIST_P384,
                         encoding := EcdsaSignatureEncoding.DER } } ∧
    Decodes EcdsaKeyFormat.fromString ECDSA_P521 (ps! "EcdsaPrivateKey") TINK
      { params := some { hashType := HashType.SHA512,
                         curve := EllipticCurveType.NIST_P521,
                         encoding := EcdsaSignatureEncoding.DER } } ∧
    Decodes EcdsaKeyFormat.fromString ECDSA_P256_IEEE_P1363 (ps! "EcdsaPrivateKey") TINK
      { params := some { hashType := HashType.SHA256,
                         curve := EllipticCurveType.NIST_P256,
                         encoding := EcdsaSignatureEncoding.IEEE_P1363 } } ∧
    Decodes EcdsaKeyFormat.fromString ECDSA_P384_IEEE_P1363 (ps! "EcdsaPrivateKey") TINK
      { params := some { hashType := HashType.SHA512,
                         curve := EllipticCurveType.NIST_P384,
                         encoding := EcdsaSignatureEncoding.IEEE_P1363 } } ∧
    Decodes EcdsaKeyFormat.fromString ECDSA_P384_SHA384_IEEE_P1363 (ps! "EcdsaPrivateKey") TINK
      { params := some { hashType := HashType.SHA384,
                         curve := EllipticCurveType.NIST_P384,
                         encoding := EcdsaSignatureEncoding.IEEE_P1363 } } ∧
    Decodes EcdsaKeyFormat.fromString ECDSA_P521_IEEE_P1363 (ps! "EcdsaPrivateKey") TINK
      { params := some { hashType := HashType.SHA512,
                         curve := EllipticCurveType.NIST_P521,
                         encoding := EcdsaSignatureEncoding.IEEE_P1363 } } ∧
    DecodesEmpty ED25519 (ps! "Ed25519PrivateKey") TINK ∧
    Decodes RsaSsaPkcs1KeyFormat.fromString RSA_SSA_PKCS1_3072_SHA256_F4
      (ps! "RsaSsaPkcs1PrivateKey") TINK
      { params := some { hashType := HashType.SHA256 },
        modulusSizeInBits := 3072,
        publicExponent := [1, 0, 1] } ∧
    Decodes RsaSsaPkcs1KeyFormat.fromString RSA_SSA_PKCS1_4096_SHA512_F4
      (ps! "RsaSsaPkcs1PrivateKey") TINK
      { params := some { hashType := HashType.SHA512 },
        modulusSizeInBits := 4096,
        publicExponent := [1, 0, 1] } ∧
    Decodes RsaSsaPssKeyFormat.fromString RSA_SSA_PSS_3072_SHA256_SHA256_32_F4
      (ps! "RsaSsaPssPrivateKey") TINK
      { params := some { sigHash := HashType.SHA256,
                         mgf1Hash := HashType.SHA256,
                         saltLength := 32 },
        modulusSizeInBits := 3072,
        publicExponent := [1, 0, 1] } ∧
    Decodes RsaSsaPssKeyFormat.fromString RSA_SSA_PSS_4096_SHA512_SHA512_64_F4
      (ps! "RsaSsaPssPrivateKey") TINK
      { params := some { sigHash := HashType.SHA512,
                         mgf1Hash := HashType.SHA512,
                         saltLength := 64 },
        modulusSizeInBits := 4096,
        publicExponent := [1, 0, 1] } := by
  refine ⟨?_, ?_, ?_, ?_, ?_, ?_, ?_, ?_, ?_, ?_, ?_, ?_, ?_, ?_, ?_⟩
  · exact decodes_of_check (by decide +kernel)
  · exact decodes_of_check (by decide +kernel)
  · exact decodes_of_check (by decide +kernel)
  · exact decodes_of_check (by decide +kernel)
  · exact decodes_of_check (by decide +kernel)
  · exact decodes_of_check (by decide +kernel)
  · exact decodes_of_check (by decide +kernel)
  · exact decodes_of_check (by decide +kernel)
  · exact decodes_of_check (by decide +kernel)
  · exact decodes_of_check (by decide +kernel)
  · exact ⟨_, rfl, rfl, rfl, rfl⟩
  · exact decodes_of_check (by decide +kernel)
  · exact decodes_of_check (by decide +kernel)
  · exact decodes_of_check (by decide +kernel)
  · exact decodes_of_check (by decide +kernel)

/-- C60.  The predefined templates: jwt. -/
theorem C60_jwt :
    Decodes JwtHmacKeyFormat.fromString jwt_hs256_template (ps! "JwtHmacKey") TINK
      { algorithm := JwtHmacAlgorithm.HS256, keySize := 32 } ∧
    Decodes JwtHmacKeyFormat.fromString raw_jwt_hs256_template (ps! "JwtHmacKey") RAW
      { algorithm := JwtHmacAlgorithm.HS256, keySize := 32 } ∧
    Decodes JwtHmacKeyFormat.fromString jwt_hs384_template (ps! "JwtHmacKey") TINK
      { algorithm := JwtHmacAlgorithm.HS384, keySize := 48 } ∧
    Decodes JwtHmacKeyFormat.fromString raw_jwt_hs384_template (ps! "JwtHmacKey") RAW
      { algorithm := JwtHmacAlgorithm.HS384, keySize := 48 } ∧
    Decodes JwtHmacKeyFormat.fromString jwt_hs512_template (ps! "JwtHmacKey") TINK
      { algorithm := JwtHmacAlgorithm.HS512, keySize := 64 } ∧
    Decodes JwtHmacKeyFormat.fromString raw_jwt_hs512_template (ps! "JwtHmacKey") RAW
      { algorithm := JwtHmacAlgorithm.HS512, keySize := 64 } ∧
    Decodes JwtEcdsaKeyFormat.fromString jwt_es256_template (ps! "JwtEcdsaPrivateKey") TINK
      { algorithm := JwtEcdsaAlgorithm.ES256 } ∧
    Decodes JwtEcdsaKeyFormat.fromString raw_jwt_es256_template (ps! "JwtEcdsaPrivateKey") RAW
      { algorithm := JwtEcdsaAlgorithm.ES256 } ∧
    Decodes JwtEcdsaKeyFormat.fromString jwt_es384_template (ps! "JwtEcdsaPrivateKey") TINK
      { algorithm := JwtEcdsaAlgorithm.ES384 } ∧
    Decodes JwtEcdsaKeyFormat.fromString raw_jwt_es384_template (ps! "JwtEcdsaPrivateKey") RAW
      { algorithm := JwtEcdsaAlgorithm.ES384 } ∧
    Decodes JwtEcdsaKeyFormat.fromString jwt_es512_template (ps! "JwtEcdsaPrivateKey") TINK
      { algorithm := JwtEcdsaAlgorithm.ES512 } ∧
    Decodes JwtEcdsaKeyFormat.fromString raw_jwt_es512_template (ps! "JwtEcdsaPrivateKey") RAW
      { algorithm := JwtEcdsaAlgorithm.ES512 } ∧
    Decodes JwtRsaSsaPkcs1KeyFormat.fromString jwt_rs256_2048_f4_template
      (ps! "JwtRsaSsaPkcs1PrivateKey") TINK
      { algorithm := JwtRsaSsaPkcs1Algorithm.RS256,
        modulusSizeInBits := 2048,
        publicExponent := [1, 0, 1] } ∧
    Decodes JwtRsaSsaPkcs1KeyFormat.fromString raw_jwt_rs256_2048_f4_template
      (ps! "JwtRsaSsaPkcs1PrivateKey") RAW
      { algorithm := JwtRsaSsaPkcs1Algorithm.RS256,
        modulusSizeInBits := 2048,
        publicExponent := [1, 0, 1] } ∧
    Decodes JwtRsaSsaPkcs1KeyFormat.fromString jwt_rs256_3072_f4_template
      (ps! "JwtRsaSsaPkcs1PrivateKey") TINK
      { algorithm := JwtRsaSsaPkcs1Algorithm.RS256,
        modulusSizeInBits := 3072,
        publicExponent := [1, 0, 1] } ∧
    Decodes JwtRsaSsaPkcs1KeyFormat.fromString raw_jwt_rs256_3072_f4_template
      (ps! "JwtRsaSsaPkcs1PrivateKey") RAW
      { algorithm := JwtRsaSsaPkcs1Algorithm.RS256,
        modulusSizeInBits := 3072,
        publicExponent := [1, 0, 1] } ∧
    Decodes JwtRsaSsaPkcs1KeyFormat.fromString jwt_rs384_3072_f4_template
      (ps! "JwtRsaSsaPkcs1PrivateKey") TINK
      { algorithm := JwtRsaSsaPkcs1Algorithm.RS384,
        modulusSizeInBits := 3072,
        publicExponent := [1, 0, 1] } ∧
    Decodes JwtRsaSsaPkcs1KeyFormat.fromString raw_jwt_rs384_3072_f4_template
      (ps! "JwtRsaSsaPkcs1PrivateKey") RAW
      { algorithm := JwtRsaSsaPkcs1Algorithm.RS384,
        modulusSizeInBits := 3072,
        publicExponent := [1, 0, 1] } ∧
    Decodes JwtRsaSsaPkcs1KeyFormat.fromString jwt_rs512_4096_f4_template
      (ps! "JwtRsaSsaPkcs1PrivateKey") TINK
      { algorithm := JwtRsaSsaPkcs1Algorithm.RS512,
        modulusSizeInBits := 4096,
        publicExponent := [1, 0, 1] } ∧
    Decodes JwtRsaSsaPkcs1KeyFormat.fromString raw_jwt_rs512_4096_f4_template
      (ps! "JwtRsaSsaPkcs1PrivateKey") RAW
      { algorithm := JwtRsaSsaPkcs1Algorithm.RS512,
        modulusSizeInBits := 4096,
        publicExponent := [1, 0, 1] } ∧
    Decodes JwtRsaSsaPssKeyFormat.fromString jwt_ps256_2048_f4_template
      (ps! "JwtRsaSsaPssPrivateKey") TINK
      { algorithm := JwtRsaSsaPssAlgorithm.PS256,
        modulusSizeInBits := 2048,
        publicExponent := [1, 0, 1] } ∧
    Decodes JwtRsaSsaPssKeyFormat.fromString raw_jwt_ps256_2048_f4_template
      (ps! "JwtRsaSsaPssPrivateKey") RAW
      { algorithm := JwtRsaSsaPssAlgorithm.PS256,
        modulusSizeInBits := 2048,
        publicExponent := [1, 0, 1] } ∧
    Decodes JwtRsaSsaPssKeyFormat.fromString jwt_ps256_3072_f4_template
      (ps! "JwtRsaSsaPssPrivateKey") TINK
      { algorithm := JwtRsaSsaPssAlgorithm.PS256,
        modulusSizeInBits := 3072,
        publicExponent := [1, 0, 1] } ∧
    Decodes JwtRsaSsaPssKeyFormat.fromString raw_jwt_ps256_3072_f4_template
      (ps! "JwtRsaSsaPssPrivateKey") RAW
      { algorithm := JwtRsaSsaPssAlgorithm.PS256,
        modulusSizeInBits := 3072,
        publicExponent := [1, 0, 1] } ∧
    Decodes JwtRsaSsaPssKeyFormat.fromString jwt_ps384_3072_f4_template
      (ps! "JwtRsaSsaPssPrivateKey") TINK
      { algorithm := JwtRsaSsaPssAlgorithm.PS384,
        modulusSizeInBits := 3072,
        publicExponent := [1, 0, 1] } ∧
    Decodes JwtRsaSsaPssKeyFormat.fromString raw_jwt_ps384_3072_f4_template
      (ps! "JwtRsaSsaPssPrivateKey") RAW
      { algorithm := JwtRsaSsaPssAlgorithm.PS384,
        modulusSizeInBits := 3072,
        publicExponent := [1, 0, 1] } ∧
    Decodes JwtRsaSsaPssKeyFormat.fromString jwt_ps512_4096_f4_template
      (ps! "JwtRsaSsaPssPrivateKey") TINK
      { algorithm := JwtRsaSsaPssAlgorithm.PS512,
        modulusSizeInBits := 4096,
        publicExponent := [1, 0, 1] } ∧
    Decodes JwtRsaSsaPssKeyFormat.fromString raw_jwt_ps512_4096_f4_template
      (ps! "JwtRsaSsaPssPrivateKey") RAW
      { algorithm := JwtRsaSsaPssAlgorithm.PS512,
        modulusSizeInBits := 4096,
        publicExponent := [1, 0, 1] } := by
  refine ⟨?_, ?_, ?_, ?_, ?_, ?_, ?_, ?_, ?_, ?_, ?_, ?_, ?_, ?_, ?_, ?_, ?_, ?_, ?_, ?_, ?_, ?_, ?_, ?_, ?_, ?_, ?_, ?_⟩
  · exact decodes_of_check (by decide +kernel)
  · exact decodes_of_check (by decide +kernel)
  · exact decodes_of_check (by decide +kernel)
  · exact decodes_of_check (by decide +kernel)
  · exact decodes_of_check (by decide +kernel)
  · exact decodes_of_check (by decide +kernel)
  · exact decodes_of_check (by decide +kernel)
  · exact decodes_of_check (by decide +kernel)
  · exact decodes_of_check (by decide +kernel)
  · exact decodes_of_check (by decide +kernel)
  · exact decodes_of_check (by decide +kernel)
  · exact decodes_of_check (by decide +kernel)
  · exact decodes_of_check (by decide +kernel)
  · exact decodes_of_check (by decide +kernel)
  · exact decodes_of_check (by decide +kernel)
  · exact decodes_of_check (by decide +kernel)
  · exact decodes_of_check (by decide +kernel)
  · exact decodes_of_check (by decide +kernel)
  · exact decodes_of_check (by decide +kernel)
  · exact decodes_of_check (by decide +kernel)
  · exact decodes_of_check (by decide +kernel)
  · exact decodes_of_check (by decide +kernel)
  · exact decodes_of_check (by decide +kernel)
  · exact decodes_of_check (by decide +kernel)
  · exact decodes_of_check (by decide +kernel)
  · exact decodes_of_check (by decide +kernel)
  · exact decodes_of_check (by decide +kernel)
  · exact decodes_of_check (by decide +kernel)

end Tink.Props
