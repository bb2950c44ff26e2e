import Verif.Kms.KeyManagers
import Verif.Py.BigInt

/-!
# Key templates

All predefined key templates and the functions that create them.  Enum arguments are the 32-bit
pattern of the integer given (proto enums are open); `int` arguments may be out of range of the
field.  The constants are computed when the Python modules are imported, an exception there would
make the import fail.
-/

namespace Tink.Templates

/-- The common prefix of the type URLs. -/
def typePrefix : PStr := ps! "type.googleapis.com/google.crypto.tink."

/-- `tink_pb2.KeyTemplate(value=…, type_url=…, output_prefix_type=…)`. -/
def mk (name : PStr) (output : EnumVal) (value : Bytes) : KeyTemplate :=
  { typeUrl := typePrefix ++ name, value := value, outputPrefixType := output }

open OutputPrefixType (TINK RAW)

/-! ## AEAD: `/repo/python/tink/aead/_aead_key_templates.py` -/

/-- `_create_aes_eax_key_template`, lines 48-62. -/
def createAesEax (keySize ivSize : Int) (output : EnumVal) : Py KeyTemplate := do
  let iv ← setUInt32 ivSize
  let k ← setUInt32 keySize
  let v ← AesEaxKeyFormat.serializeToString { params := some { ivSize := iv }, keySize := k }
  return mk (ps! "AesEaxKey") output v

/-- `_create_aes_gcm_key_template`, lines 65-76. -/
def createAesGcm (keySize : Int) (output : EnumVal) : Py KeyTemplate := do
  let k ← setUInt32 keySize
  let v ← AesGcmKeyFormat.serializeToString { keySize := k }
  return mk (ps! "AesGcmKey") output v

/-- `_create_aes_gcm_siv_key_template`, lines 79-92. -/
def createAesGcmSiv (keySize : Int) (output : EnumVal) : Py KeyTemplate := do
  let k ← setUInt32 keySize
  let v ← AesGcmSivKeyFormat.serializeToString { keySize := k }
  return mk (ps! "AesGcmSivKey") output v

/-- `_create_aes_ctr_hmac_aead_key_template`, lines 95-115. -/
def createAesCtrHmacAead (aesKeySize ivSize hmacKeySize tagSize : Int) (hash output : EnumVal) :
    Py KeyTemplate := do
  let iv ← setUInt32 ivSize
  let ak ← setUInt32 aesKeySize
  let tag ← setUInt32 tagSize
  let hk ← setUInt32 hmacKeySize
  let v ← AesCtrHmacAeadKeyFormat.serializeToString {
    aesCtrKeyFormat := some { params := some { ivSize := iv }, keySize := ak }
    hmacKeyFormat := some { params := some { hash := hash, tagSize := tag }, keySize := hk } }
  return mk (ps! "AesCtrHmacAeadKey") output v

/-- Lines 36-41 and 236-240. -/
def xchacha20Poly1305 (output : EnumVal) : KeyTemplate := mk (ps! "XChaCha20Poly1305Key") output []

/-- Line 192. -/
def AES128_EAX : Py KeyTemplate := createAesEax 16 16 TINK
/-- Line 193. -/
def AES128_EAX_RAW : Py KeyTemplate := createAesEax 16 16 RAW
/-- Line 195. -/
def AES256_EAX : Py KeyTemplate := createAesEax 32 16 TINK
/-- Line 196. -/
def AES256_EAX_RAW : Py KeyTemplate := createAesEax 32 16 RAW
/-- Line 198. -/
def AES128_GCM : Py KeyTemplate := createAesGcm 16 TINK
/-- Line 199. -/
def AES128_GCM_RAW : Py KeyTemplate := createAesGcm 16 RAW
/-- Line 201. -/
def AES256_GCM : Py KeyTemplate := createAesGcm 32 TINK
/-- Line 202. -/
def AES256_GCM_RAW : Py KeyTemplate := createAesGcm 32 RAW
/-- Line 204. -/
def AES128_GCM_SIV : Py KeyTemplate := createAesGcmSiv 16 TINK
/-- Line 205. -/
def AES128_GCM_SIV_RAW : Py KeyTemplate := createAesGcmSiv 16 RAW
/-- Line 207. -/
def AES256_GCM_SIV : Py KeyTemplate := createAesGcmSiv 32 TINK
/-- Line 208. -/
def AES256_GCM_SIV_RAW : Py KeyTemplate := createAesGcmSiv 32 RAW
/-- Line 210. -/
def AES128_CTR_HMAC_SHA256 : Py KeyTemplate := createAesCtrHmacAead 16 16 32 16 HashType.SHA256 TINK
/-- Line 216. -/
def AES128_CTR_HMAC_SHA256_RAW : Py KeyTemplate := createAesCtrHmacAead 16 16 32 16 HashType.SHA256 RAW
/-- Line 223. -/
def AES256_CTR_HMAC_SHA256 : Py KeyTemplate := createAesCtrHmacAead 32 16 32 32 HashType.SHA256 TINK
/-- Line 229. -/
def AES256_CTR_HMAC_SHA256_RAW : Py KeyTemplate := createAesCtrHmacAead 32 16 32 32 HashType.SHA256 RAW
/-- Line 236. -/
def XCHACHA20_POLY1305 : Py KeyTemplate := .ok (xchacha20Poly1305 TINK)
/-- Line 239. -/
def XCHACHA20_POLY1305_RAW : Py KeyTemplate := .ok (xchacha20Poly1305 RAW)

/-! ## MAC: `/repo/python/tink/mac/_mac_key_templates.py` -/

namespace Mac

/-- `_create_hmac_key_template`, lines 30-43. -/
def createHmac (keySize tagSize : Int) (hash : EnumVal) : Py KeyTemplate := do
  let tag ← setUInt32 tagSize
  let k ← setUInt32 keySize
  let v ← HmacKeyFormat.serializeToString
    { params := some { hash := hash, tagSize := tag }, keySize := k }
  return mk (ps! "HmacKey") TINK v

/-- `_create_aes_cmac_key_template`, lines 46-56. -/
def createAesCmac (keySize tagSize : Int) : Py KeyTemplate := do
  let k ← setUInt32 keySize
  let tag ← setUInt32 tagSize
  let v ← AesCmacKeyFormat.serializeToString { keySize := k, params := some { tagSize := tag } }
  return mk (ps! "AesCmacKey") TINK v

/-- Line 59. -/
def AES_CMAC : Py KeyTemplate := createAesCmac 32 16
/-- Line 60. -/
def HMAC_SHA256_128BITTAG : Py KeyTemplate := createHmac 32 16 HashType.SHA256
/-- Line 62. -/
def HMAC_SHA256_256BITTAG : Py KeyTemplate := createHmac 32 32 HashType.SHA256
/-- Line 64. -/
def HMAC_SHA512_256BITTAG : Py KeyTemplate := createHmac 64 32 HashType.SHA512
/-- Line 66. -/
def HMAC_SHA512_512BITTAG : Py KeyTemplate := createHmac 64 64 HashType.SHA512

end Mac

/-! ## Deterministic AEAD: `/repo/python/tink/daead/_deterministic_aead_key_templates.py` -/

/-- `_create_aes_siv_key_template`, lines 32-42. -/
def createAesSiv (keySize : Int) : Py KeyTemplate := do
  let k ← setUInt32 keySize
  let v ← AesSivKeyFormat.serializeToString { keySize := k }
  return mk (ps! "AesSivKey") TINK v

/-- Line 45. -/
def AES256_SIV : Py KeyTemplate := createAesSiv 64

/-! ## PRF: `/repo/python/tink/prf/_prf_key_templates.py` -/

namespace Prf

/-- `_create_aes_cmac_key_template`, lines 35-45. -/
def createAesCmac (keySize : Int) : Py KeyTemplate := do
  let k ← setUInt32 keySize
  let v ← AesCmacPrfKeyFormat.serializeToString { keySize := k, version := 0 }
  return mk (ps! "AesCmacPrfKey") RAW v

/-- `_create_hmac_key_template`, lines 48-60. -/
def createHmac (keySize : Int) (hash : EnumVal) : Py KeyTemplate := do
  let k ← setUInt32 keySize
  let v ← HmacPrfKeyFormat.serializeToString { params := some { hash := hash }, keySize := k, version := 0 }
  return mk (ps! "HmacPrfKey") RAW v

/-- `_create_hkdf_key_template`, lines 63-74. -/
def createHkdf (keySize : Int) (hash : EnumVal) : Py KeyTemplate := do
  let k ← setUInt32 keySize
  let v ← HkdfPrfKeyFormat.serializeToString { params := some { hash := hash }, keySize := k, version := 0 }
  return mk (ps! "HkdfPrfKey") RAW v

/-- Line 77. -/
def AES_CMAC : Py KeyTemplate := createAesCmac 32
/-- Line 78. -/
def HMAC_SHA256 : Py KeyTemplate := createHmac 32 HashType.SHA256
/-- Line 80. -/
def HMAC_SHA512 : Py KeyTemplate := createHmac 64 HashType.SHA512
/-- Line 82. -/
def HKDF_SHA256 : Py KeyTemplate := createHkdf 32 HashType.SHA256

end Prf

/-! ## Streaming AEAD: `/repo/python/tink/streaming_aead/_streaming_aead_key_templates.py` -/

namespace Streaming

/-- Line 37. -/
def SEGMENT_SIZE_1MB : Int := 1024 * 1024
/-- Line 38. -/
def SEGMENT_SIZE_4KB : Int := 4 * 1024

/-- `_create_aes_gcm_hkdf_streaming_key_template`, lines 41-56. -/
def createAesGcmHkdf (aesKeySize : Int) (hash : EnumVal) (derivedKeySize segmentSize : Int) :
    Py KeyTemplate := do
  let k ← setUInt32 aesKeySize
  let d ← setUInt32 derivedKeySize
  let s ← setUInt32 segmentSize
  let v ← AesGcmHkdfStreamingKeyFormat.serializeToString {
    params := some { ciphertextSegmentSize := s, derivedKeySize := d, hkdfHashType := hash }
    keySize := k }
  return mk (ps! "AesGcmHkdfStreamingKey") RAW v

/-- `_create_aes_ctr_hmac_streaming_key_template`, lines 59-79. -/
def createAesCtrHmac (aesKeySize : Int) (hkdfHash : EnumVal) (derivedKeySize : Int)
    (macHash : EnumVal) (tagSize segmentSize : Int) : Py KeyTemplate := do
  let k ← setUInt32 aesKeySize
  let s ← setUInt32 segmentSize
  let d ← setUInt32 derivedKeySize
  let tag ← setUInt32 tagSize
  let v ← AesCtrHmacStreamingKeyFormat.serializeToString {
    params := some { ciphertextSegmentSize := s, derivedKeySize := d, hkdfHashType := hkdfHash,
                     hmacParams := some { hash := macHash, tagSize := tag } }
    keySize := k }
  return mk (ps! "AesCtrHmacStreamingKey") RAW v

/-- Line 82. -/
def AES128_GCM_HKDF_4KB : Py KeyTemplate := createAesGcmHkdf 16 HashType.SHA256 16 SEGMENT_SIZE_4KB
/-- Line 88. -/
def AES128_GCM_HKDF_1MB : Py KeyTemplate := createAesGcmHkdf 16 HashType.SHA256 16 SEGMENT_SIZE_1MB
/-- Line 94. -/
def AES256_GCM_HKDF_4KB : Py KeyTemplate := createAesGcmHkdf 32 HashType.SHA256 32 SEGMENT_SIZE_4KB
/-- Line 100. -/
def AES256_GCM_HKDF_1MB : Py KeyTemplate := createAesGcmHkdf 32 HashType.SHA256 32 SEGMENT_SIZE_1MB
/-- Line 106. -/
def AES128_CTR_HMAC_SHA256_4KB : Py KeyTemplate := 
  createAesCtrHmac 16 HashType.SHA256 16 HashType.SHA256 32 SEGMENT_SIZE_4KB
/-- Line 114. -/
def AES128_CTR_HMAC_SHA256_1MB : Py KeyTemplate := 
  createAesCtrHmac 16 HashType.SHA256 16 HashType.SHA256 32 SEGMENT_SIZE_1MB
/-- Line 122. -/
def AES256_CTR_HMAC_SHA256_4KB : Py KeyTemplate := 
  createAesCtrHmac 32 HashType.SHA256 32 HashType.SHA256 32 SEGMENT_SIZE_4KB
/-- Line 130. -/
def AES256_CTR_HMAC_SHA256_1MB : Py KeyTemplate := 
  createAesCtrHmac 32 HashType.SHA256 32 HashType.SHA256 32 SEGMENT_SIZE_1MB

end Streaming

/-! ## Hybrid: `/repo/python/tink/hybrid/_hybrid_key_templates.py` -/

/-- `_create_ecies_aead_hkdf_key_template`, lines 32-48. -/
def createEciesAeadHkdf (curve pointFormat hash : EnumVal) (dem : KeyTemplate) : Py KeyTemplate := do
  let v ← EciesAeadHkdfKeyFormat.serializeToString {
    params := some {
      kemParams := some { curveType := curve, hkdfHashType := hash }
      demParams := some { aeadDem := some dem }
      ecPointFormat := pointFormat } }
  return mk (ps! "EciesAeadHkdfPrivateKey") TINK v

/-- `_create_hpke_key_template`, lines 51-66. -/
def createHpke (kem kdf aead output : EnumVal) : Py KeyTemplate := do
  let v ← HpkeKeyFormat.serializeToString { params := some { kem := kem, kdf := kdf, aead := aead } }
  return mk (ps! "HpkePrivateKey") output v

/-- Line 69. -/
def ECIES_P256_HKDF_HMAC_SHA256_AES128_GCM : Py KeyTemplate := do
  createEciesAeadHkdf EllipticCurveType.NIST_P256 EcPointFormat.UNCOMPRESSED HashType.SHA256 (← AES128_GCM)
/-- Line 75. -/
def ECIES_P256_COMPRESSED_HKDF_HMAC_SHA256_AES128_GCM : Py KeyTemplate := do
  createEciesAeadHkdf EllipticCurveType.NIST_P256 EcPointFormat.COMPRESSED HashType.SHA256 (← AES128_GCM)
/-- Line 81. -/
def ECIES_P256_HKDF_HMAC_SHA256_AES128_CTR_HMAC_SHA256 : Py KeyTemplate := do
  createEciesAeadHkdf EllipticCurveType.NIST_P256 EcPointFormat.UNCOMPRESSED HashType.SHA256 (← AES128_CTR_HMAC_SHA256)
/-- Line 88. -/
def ECIES_P256_COMPRESSED_HKDF_HMAC_SHA256_AES128_CTR_HMAC_SHA256 : Py KeyTemplate := do
  createEciesAeadHkdf EllipticCurveType.NIST_P256 EcPointFormat.COMPRESSED HashType.SHA256 (← AES128_CTR_HMAC_SHA256)
/-- Line 95. -/
def DHKEM_X25519_HKDF_SHA256_HKDF_SHA256_AES_128_GCM : Py KeyTemplate := 
  createHpke HpkeKem.DHKEM_X25519_HKDF_SHA256 HpkeKdf.HKDF_SHA256 HpkeAead.AES_128_GCM TINK
/-- Line 102. -/
def DHKEM_X25519_HKDF_SHA256_HKDF_SHA256_AES_128_GCM_RAW : Py KeyTemplate := 
  createHpke HpkeKem.DHKEM_X25519_HKDF_SHA256 HpkeKdf.HKDF_SHA256 HpkeAead.AES_128_GCM RAW
/-- Line 109. -/
def DHKEM_X25519_HKDF_SHA256_HKDF_SHA256_AES_256_GCM : Py KeyTemplate := 
  createHpke HpkeKem.DHKEM_X25519_HKDF_SHA256 HpkeKdf.HKDF_SHA256 HpkeAead.AES_256_GCM TINK
/-- Line 116. -/
def DHKEM_X25519_HKDF_SHA256_HKDF_SHA256_AES_256_GCM_RAW : Py KeyTemplate := 
  createHpke HpkeKem.DHKEM_X25519_HKDF_SHA256 HpkeKdf.HKDF_SHA256 HpkeAead.AES_256_GCM RAW
/-- Line 123. -/
def DHKEM_X25519_HKDF_SHA256_HKDF_SHA256_CHACHA20_POLY1305 : Py KeyTemplate := 
  createHpke HpkeKem.DHKEM_X25519_HKDF_SHA256 HpkeKdf.HKDF_SHA256 HpkeAead.CHACHA20_POLY1305 TINK
/-- Line 130. -/
def DHKEM_X25519_HKDF_SHA256_HKDF_SHA256_CHACHA20_POLY1305_RAW : Py KeyTemplate := 
  createHpke HpkeKem.DHKEM_X25519_HKDF_SHA256 HpkeKdf.HKDF_SHA256 HpkeAead.CHACHA20_POLY1305 RAW

/-! ## Signatures: `/repo/python/tink/signature/_signature_key_templates.py` -/

/-- `_RSA_F4`, line 39. -/
def RSA_F4 : Int := 65537

/-- `_create_ecdsa_key_template`, lines 42-57. -/
def createEcdsa (hash curve encoding output : EnumVal) : Py KeyTemplate := do
  let v ← EcdsaKeyFormat.serializeToString
    { params := some { hashType := hash, curve := curve, encoding := encoding } }
  return mk (ps! "EcdsaPrivateKey") output v

/-- `_create_rsa_ssa_pkcs1_key_template`, lines 60-74. -/
def createRsaSsaPkcs1 (hash : EnumVal) (modulusSize publicExponent : Int) : Py KeyTemplate := do
  let e ← numToBytes publicExponent
  let m ← setUInt32 modulusSize
  let v ← RsaSsaPkcs1KeyFormat.serializeToString
    { params := some { hashType := hash }, modulusSizeInBits := m, publicExponent := e }
  return mk (ps! "RsaSsaPkcs1PrivateKey") TINK v

/-- `_create_rsa_ssa_pss_key_template`, lines 77-93. -/
def createRsaSsaPss (sigHash mgf1Hash : EnumVal) (saltLength modulusSize publicExponent : Int) :
    Py KeyTemplate := do
  let salt ← setInt32 saltLength
  let e ← numToBytes publicExponent
  let m ← setUInt32 modulusSize
  let v ← RsaSsaPssKeyFormat.serializeToString
    { params := some { sigHash := sigHash, mgf1Hash := mgf1Hash, saltLength := salt }
      modulusSizeInBits := m, publicExponent := e }
  return mk (ps! "RsaSsaPssPrivateKey") TINK v

/-- Line 96. -/
def ECDSA_P256 : Py KeyTemplate := 
  createEcdsa HashType.SHA256 EllipticCurveType.NIST_P256 EcdsaSignatureEncoding.DER TINK
/-- Line 98. -/
def ECDSA_P256_RAW : Py KeyTemplate := 
  createEcdsa HashType.SHA256 EllipticCurveType.NIST_P256 EcdsaSignatureEncoding.IEEE_P1363 RAW
/-- Line 103. -/
def ECDSA_P384 : Py KeyTemplate := 
  createEcdsa HashType.SHA512 EllipticCurveType.NIST_P384 EcdsaSignatureEncoding.DER TINK
/-- Line 105. -/
def ECDSA_P384_SHA384 : Py KeyTemplate := 
  createEcdsa HashType.SHA384 EllipticCurveType.NIST_P384 EcdsaSignatureEncoding.DER TINK
/-- Line 108. -/
def ECDSA_P384_SHA512 : Py KeyTemplate := 
  createEcdsa HashType.SHA512 EllipticCurveType.NIST_P384 EcdsaSignatureEncoding.DER TINK
/-- Line 111. -/
def ECDSA_P521 : Py KeyTemplate := 
  createEcdsa HashType.SHA512 EllipticCurveType.NIST_P521 EcdsaSignatureEncoding.DER TINK
/-- Line 116. -/
def ECDSA_P256_IEEE_P1363 : Py KeyTemplate := 
  createEcdsa HashType.SHA256 EllipticCurveType.NIST_P256 EcdsaSignatureEncoding.IEEE_P1363 TINK
/-- Line 121. -/
def ECDSA_P384_IEEE_P1363 : Py KeyTemplate := 
  createEcdsa HashType.SHA512 EllipticCurveType.NIST_P384 EcdsaSignatureEncoding.IEEE_P1363 TINK
/-- Line 126. -/
def ECDSA_P384_SHA384_IEEE_P1363 : Py KeyTemplate := 
  createEcdsa HashType.SHA384 EllipticCurveType.NIST_P384 EcdsaSignatureEncoding.IEEE_P1363 TINK
/-- Line 130. -/
def ECDSA_P521_IEEE_P1363 : Py KeyTemplate := 
  createEcdsa HashType.SHA512 EllipticCurveType.NIST_P521 EcdsaSignatureEncoding.IEEE_P1363 TINK
/-- Line 134. -/
def ED25519 : Py KeyTemplate := .ok (mk (ps! "Ed25519PrivateKey") TINK [])
/-- Line 137. -/
def RSA_SSA_PKCS1_3072_SHA256_F4 : Py KeyTemplate := createRsaSsaPkcs1 HashType.SHA256 3072 RSA_F4
/-- Line 139. -/
def RSA_SSA_PKCS1_4096_SHA512_F4 : Py KeyTemplate := createRsaSsaPkcs1 HashType.SHA512 4096 RSA_F4
/-- Line 142. -/
def RSA_SSA_PSS_3072_SHA256_SHA256_32_F4 : Py KeyTemplate := 
  createRsaSsaPss HashType.SHA256 HashType.SHA256 32 3072 RSA_F4
/-- Line 144. -/
def RSA_SSA_PSS_4096_SHA512_SHA512_64_F4 : Py KeyTemplate := 
  createRsaSsaPss HashType.SHA512 HashType.SHA512 64 4096 RSA_F4

/-! ## JWT: `/repo/python/tink/jwt/_jwt_key_templates.py` -/

/-- `_F4`, line 23. -/
def F4 : Int := 65537

/-- `_create_jwt_hmac_template`, lines 26-34. -/
def createJwtHmac (algorithm : EnumVal) (keySize : Int) (output : EnumVal) : Py KeyTemplate := do
  let k ← setUInt32 keySize
  let v ← JwtHmacKeyFormat.serializeToString { algorithm := algorithm, keySize := k }
  return mk (ps! "JwtHmacKey") output v

/-- `_create_jwt_ecdsa_template`, lines 37-45. -/
def createJwtEcdsa (algorithm output : EnumVal) : Py KeyTemplate := do
  let v ← JwtEcdsaKeyFormat.serializeToString { algorithm := algorithm }
  return mk (ps! "JwtEcdsaPrivateKey") output v

/-- `_create_jwt_rsa_ssa_pkcs1_template`, lines 48-58. -/
def createJwtRsaSsaPkcs1 (algorithm : EnumVal) (modulusSize : Int) (output : EnumVal) :
    Py KeyTemplate := do
  let e ← numToBytes F4
  let m ← setUInt32 modulusSize
  let v ← JwtRsaSsaPkcs1KeyFormat.serializeToString
    { algorithm := algorithm, modulusSizeInBits := m, publicExponent := e }
  return mk (ps! "JwtRsaSsaPkcs1PrivateKey") output v

/-- `_create_jwt_rsa_ssa_pss_template`, lines 61-71. -/
def createJwtRsaSsaPss (algorithm : EnumVal) (modulusSize : Int) (output : EnumVal) :
    Py KeyTemplate := do
  let e ← numToBytes F4
  let m ← setUInt32 modulusSize
  let v ← JwtRsaSsaPssKeyFormat.serializeToString
    { algorithm := algorithm, modulusSizeInBits := m, publicExponent := e }
  return mk (ps! "JwtRsaSsaPssPrivateKey") output v

/-- Line 75-76. -/
def jwt_hs256_template : Py KeyTemplate := createJwtHmac JwtHmacAlgorithm.HS256 32 TINK
/-- Line 79-80. -/
def raw_jwt_hs256_template : Py KeyTemplate := createJwtHmac JwtHmacAlgorithm.HS256 32 RAW
/-- Line 83-84. -/
def jwt_hs384_template : Py KeyTemplate := createJwtHmac JwtHmacAlgorithm.HS384 48 TINK
/-- Line 87-88. -/
def raw_jwt_hs384_template : Py KeyTemplate := createJwtHmac JwtHmacAlgorithm.HS384 48 RAW
/-- Line 91-92. -/
def jwt_hs512_template : Py KeyTemplate := createJwtHmac JwtHmacAlgorithm.HS512 64 TINK
/-- Line 95-96. -/
def raw_jwt_hs512_template : Py KeyTemplate := createJwtHmac JwtHmacAlgorithm.HS512 64 RAW
/-- Line 100-101. -/
def jwt_es256_template : Py KeyTemplate := createJwtEcdsa JwtEcdsaAlgorithm.ES256 TINK
/-- Line 104-105. -/
def raw_jwt_es256_template : Py KeyTemplate := createJwtEcdsa JwtEcdsaAlgorithm.ES256 RAW
/-- Line 108-109. -/
def jwt_es384_template : Py KeyTemplate := createJwtEcdsa JwtEcdsaAlgorithm.ES384 TINK
/-- Line 112-113. -/
def raw_jwt_es384_template : Py KeyTemplate := createJwtEcdsa JwtEcdsaAlgorithm.ES384 RAW
/-- Line 116-117. -/
def jwt_es512_template : Py KeyTemplate := createJwtEcdsa JwtEcdsaAlgorithm.ES512 TINK
/-- Line 120-121. -/
def raw_jwt_es512_template : Py KeyTemplate := createJwtEcdsa JwtEcdsaAlgorithm.ES512 RAW
/-- Line 125-127. -/
def jwt_rs256_2048_f4_template : Py KeyTemplate := 
  createJwtRsaSsaPkcs1 JwtRsaSsaPkcs1Algorithm.RS256 2048 TINK
/-- Line 130-132. -/
def raw_jwt_rs256_2048_f4_template : Py KeyTemplate := 
  createJwtRsaSsaPkcs1 JwtRsaSsaPkcs1Algorithm.RS256 2048 RAW
/-- Line 135-137. -/
def jwt_rs256_3072_f4_template : Py KeyTemplate := 
  createJwtRsaSsaPkcs1 JwtRsaSsaPkcs1Algorithm.RS256 3072 TINK
/-- Line 140-142. -/
def raw_jwt_rs256_3072_f4_template : Py KeyTemplate := 
  createJwtRsaSsaPkcs1 JwtRsaSsaPkcs1Algorithm.RS256 3072 RAW
/-- Line 145-147. -/
def jwt_rs384_3072_f4_template : Py KeyTemplate := 
  createJwtRsaSsaPkcs1 JwtRsaSsaPkcs1Algorithm.RS384 3072 TINK
/-- Line 150-152. -/
def raw_jwt_rs384_3072_f4_template : Py KeyTemplate := 
  createJwtRsaSsaPkcs1 JwtRsaSsaPkcs1Algorithm.RS384 3072 RAW
/-- Line 155-157. -/
def jwt_rs512_4096_f4_template : Py KeyTemplate := 
  createJwtRsaSsaPkcs1 JwtRsaSsaPkcs1Algorithm.RS512 4096 TINK
/-- Line 160-162. -/
def raw_jwt_rs512_4096_f4_template : Py KeyTemplate := 
  createJwtRsaSsaPkcs1 JwtRsaSsaPkcs1Algorithm.RS512 4096 RAW
/-- Line 166-168. -/
def jwt_ps256_2048_f4_template : Py KeyTemplate := 
  createJwtRsaSsaPss JwtRsaSsaPssAlgorithm.PS256 2048 TINK
/-- Line 171-173. -/
def raw_jwt_ps256_2048_f4_template : Py KeyTemplate := 
  createJwtRsaSsaPss JwtRsaSsaPssAlgorithm.PS256 2048 RAW
/-- Line 176-178. -/
def jwt_ps256_3072_f4_template : Py KeyTemplate := 
  createJwtRsaSsaPss JwtRsaSsaPssAlgorithm.PS256 3072 TINK
/-- Line 181-183. -/
def raw_jwt_ps256_3072_f4_template : Py KeyTemplate := 
  createJwtRsaSsaPss JwtRsaSsaPssAlgorithm.PS256 3072 RAW
/-- Line 186-188. -/
def jwt_ps384_3072_f4_template : Py KeyTemplate := 
  createJwtRsaSsaPss JwtRsaSsaPssAlgorithm.PS384 3072 TINK
/-- Line 191-193. -/
def raw_jwt_ps384_3072_f4_template : Py KeyTemplate := 
  createJwtRsaSsaPss JwtRsaSsaPssAlgorithm.PS384 3072 RAW
/-- Line 196-198. -/
def jwt_ps512_4096_f4_template : Py KeyTemplate := 
  createJwtRsaSsaPss JwtRsaSsaPssAlgorithm.PS512 4096 TINK
/-- Line 201-203. -/
def raw_jwt_ps512_4096_f4_template : Py KeyTemplate := 
  createJwtRsaSsaPss JwtRsaSsaPssAlgorithm.PS512 4096 RAW

end Tink.Templates
