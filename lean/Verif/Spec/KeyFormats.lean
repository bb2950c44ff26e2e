import Verif.Spec.KeysetFormat

/-!
# The bytes of key formats and keys

The messages of `/repo/proto/*.proto` that key templates and JWT, KMS and streaming keys consist of, as
bytes, with the field numbers of these files.  Parameters are named after the fields, enums are given by
their numbers.
-/

namespace Tink.Spec.KeyFormats
open Spec.KeysetFormat (onWire utf8 Payload)

/-- A field that is a number; negative numbers in 64 bits, two's complement. -/
def number (field : Nat) (v : Int) : Bytes :=
  if v = 0 then [] else onWire field (.number (v % 2 ^ 64).toNat)

/-- A field of type `bytes`. -/
def data (field : Nat) (b : Bytes) : Bytes := if b = [] then [] else onWire field (.bytes b)

/-- A field of type `string`. -/
def text (field : Nat) (s : PStr) : Bytes := data field (utf8 s)

/-- A field that is a message. -/
def message (field : Nat) (b : Bytes) : Bytes := onWire field (.bytes b)

/-- `message KeyTemplate`, `tink.proto:52-65`. -/
def keyTemplate (type_url : PStr) (value : Bytes) (output_prefix_type : Int) : Bytes :=
  text 1 type_url ++ data 2 value ++ number 3 output_prefix_type

/-- `aes_eax.proto:26-34`. -/
def aesEaxKeyFormat (iv_size key_size : Int) : Bytes := message 1 (number 1 iv_size) ++ number 2 key_size

/-- `aes_gcm.proto:26-29`. -/
def aesGcmKeyFormat (key_size : Int) : Bytes := number 2 key_size

/-- `aes_gcm_siv.proto:27-30`. -/
def aesGcmSivKeyFormat (key_size : Int) : Bytes := number 2 key_size

/-- `aes_ctr.proto:25-32`. -/
def aesCtrKeyFormat (iv_size key_size : Int) : Bytes := message 1 (number 1 iv_size) ++ number 2 key_size

/-- `hmac.proto:27-30`. -/
def hmacParams (hash tag_size : Int) : Bytes := number 1 hash ++ number 2 tag_size

/-- `hmac.proto:39-43`. -/
def hmacKeyFormat (params : Bytes) (key_size : Int) : Bytes := message 1 params ++ number 2 key_size

/-- `aes_ctr_hmac_aead.proto:28-31`. -/
def aesCtrHmacAeadKeyFormat (aes_ctr_key_format hmac_key_format : Bytes) : Bytes :=
  message 1 aes_ctr_key_format ++ message 2 hmac_key_format

/-- `aes_siv.proto:33-37`. -/
def aesSivKeyFormat (key_size : Int) : Bytes := number 1 key_size

/-- `aes_cmac.proto:25-39`. -/
def aesCmacKeyFormat (key_size tag_size : Int) : Bytes := number 1 key_size ++ message 2 (number 1 tag_size)

/-- `aes_cmac_prf.proto:31-34`. -/
def aesCmacPrfKeyFormat (key_size : Int) : Bytes := number 1 key_size

/-- `hmac_prf.proto:27-42`. -/
def hmacPrfKeyFormat (hash key_size : Int) : Bytes := message 1 (number 1 hash) ++ number 2 key_size

/-- `hkdf_prf.proto:27-48`. -/
def hkdfPrfKeyFormat (hash key_size : Int) : Bytes := message 1 (number 1 hash) ++ number 2 key_size

/-- `aes_gcm_hkdf_streaming.proto:29-33`. -/
def aesGcmHkdfStreamingParams (ciphertext_segment_size derived_key_size hkdf_hash_type : Int) : Bytes :=
  number 1 ciphertext_segment_size ++ number 2 derived_key_size ++ number 3 hkdf_hash_type

/-- `aes_gcm_hkdf_streaming.proto:35-39`. -/
def aesGcmHkdfStreamingKeyFormat (params : Bytes) (key_size : Int) : Bytes :=
  message 1 params ++ number 2 key_size

/-- `aes_gcm_hkdf_streaming.proto:42-46`. -/
def aesGcmHkdfStreamingKey (version : Int) (params key_value : Bytes) : Bytes :=
  number 1 version ++ message 2 params ++ data 3 key_value

/-- `aes_ctr_hmac_streaming.proto:28-33`. -/
def aesCtrHmacStreamingParams (ciphertext_segment_size derived_key_size hkdf_hash_type : Int)
    (hmac_params : Bytes) : Bytes :=
  number 1 ciphertext_segment_size ++ number 2 derived_key_size ++ number 3 hkdf_hash_type ++
  message 4 hmac_params

/-- `aes_ctr_hmac_streaming.proto:35-39`. -/
def aesCtrHmacStreamingKeyFormat (params : Bytes) (key_size : Int) : Bytes :=
  message 1 params ++ number 2 key_size

/-- `aes_ctr_hmac_streaming.proto:42-46`. -/
def aesCtrHmacStreamingKey (version : Int) (params key_value : Bytes) : Bytes :=
  number 1 version ++ message 2 params ++ data 3 key_value

/-- `ecies_aead_hkdf.proto:48-114`, without `hkdf_salt`. -/
def eciesAeadHkdfKeyFormat (curve_type hkdf_hash_type : Int) (aead_dem : Bytes) (ec_point_format : Int) :
    Bytes :=
  message 1 (
    message 1 (number 1 curve_type ++ number 2 hkdf_hash_type) ++
    message 2 (message 2 aead_dem) ++
    number 3 ec_point_format)

/-- `hpke.proto:47-71`. -/
def hpkeKeyFormat (kem kdf aead : Int) : Bytes := message 1 (number 1 kem ++ number 2 kdf ++ number 3 aead)

/-- `ecdsa.proto:44-84`. -/
def ecdsaKeyFormat (hash_type curve encoding : Int) : Bytes :=
  message 2 (number 1 hash_type ++ number 2 curve ++ number 3 encoding)

/-- `rsa_ssa_pkcs1.proto:29-91`. -/
def rsaSsaPkcs1KeyFormat (hash_type modulus_size_in_bits : Int) (public_exponent : Bytes) : Bytes :=
  message 1 (number 1 hash_type) ++ number 2 modulus_size_in_bits ++ data 3 public_exponent

/-- `rsa_ssa_pss.proto:30-99`. -/
def rsaSsaPssKeyFormat (sig_hash mgf1_hash salt_length modulus_size_in_bits : Int)
    (public_exponent : Bytes) : Bytes :=
  message 1 (number 1 sig_hash ++ number 2 mgf1_hash ++ number 3 salt_length) ++
  number 2 modulus_size_in_bits ++ data 3 public_exponent

/-- `jwt_hmac.proto:47-51`. -/
def jwtHmacKeyFormat (algorithm key_size : Int) : Bytes := number 2 algorithm ++ number 3 key_size

/-- `jwt_ecdsa.proto:58-61`. -/
def jwtEcdsaKeyFormat (algorithm : Int) : Bytes := number 2 algorithm

/-- `jwt_rsa_ssa_pkcs1.proto:78-83` and `jwt_rsa_ssa_pss.proto:78-83`. -/
def jwtRsaKeyFormat (algorithm modulus_size_in_bits : Int) (public_exponent : Bytes) : Bytes :=
  number 2 algorithm ++ number 3 modulus_size_in_bits ++ data 4 public_exponent

/-- `message CustomKid`, which may be absent. -/
def customKid (field : Nat) : Option PStr → Bytes
  | none => []
  | some value => message field (text 1 value)

/-- `jwt_hmac.proto:34-45`. -/
def jwtHmacKey (version algorithm : Int) (key_value : Bytes) (custom_kid : Option PStr) : Bytes :=
  number 1 version ++ number 2 algorithm ++ data 3 key_value ++ customKid 4 custom_kid

/-- `jwt_ecdsa.proto:34-48`. -/
def jwtEcdsaPublicKey (version algorithm : Int) (x y : Bytes) (custom_kid : Option PStr) : Bytes :=
  number 1 version ++ number 2 algorithm ++ data 3 x ++ data 4 y ++ customKid 5 custom_kid

/-- `jwt_ecdsa.proto:51-56`. -/
def jwtEcdsaPrivateKey (version : Int) (public_key key_value : Bytes) : Bytes :=
  number 1 version ++ message 2 public_key ++ data 3 key_value

/-- `jwt_rsa_ssa_pkcs1.proto:34-50` and `jwt_rsa_ssa_pss.proto:34-50`. -/
def jwtRsaPublicKey (version algorithm : Int) (n e : Bytes) (custom_kid : Option PStr) : Bytes :=
  number 1 version ++ number 2 algorithm ++ data 3 n ++ data 4 e ++ customKid 5 custom_kid

/-- `jwt_rsa_ssa_pkcs1.proto:53-76` and `jwt_rsa_ssa_pss.proto:53-76`. -/
def jwtRsaPrivateKey (version : Int) (public_key d p q dp dq crt : Bytes) : Bytes :=
  number 1 version ++ message 2 public_key ++ data 3 d ++ data 4 p ++ data 5 q ++ data 6 dp ++
  data 7 dq ++ data 8 crt

/-- `kms_aead.proto:25-33`. -/
def kmsAeadKeyFormat (key_uri : PStr) : Bytes := text 1 key_uri

/-- `kms_envelope.proto:27-38`. -/
def kmsEnvelopeAeadKeyFormat (kek_uri : PStr) (dek_template : Bytes) : Bytes :=
  text 1 kek_uri ++ message 2 dek_template

/-- `kms_aead.proto:36-40` and `kms_envelope.proto:41-45`. -/
def kmsKey (version : Int) (params : Bytes) : Bytes := number 1 version ++ message 2 params

/-- What `SerializeToString` does with a message of these bytes. -/
def serialized (b : Bytes) : Py Bytes := if b.length < 2 ^ 31 then .ok b else .error .encodeError

/-- The key `k` is written as `b`, and `b` is read as `k`. -/
def Carries {K : Type} (write : K → Py Bytes) (read : Bytes → Py K) (k : K) (b : Bytes) : Prop :=
  write k = serialized b ∧ (b.length < 2 ^ 31 → read b = .ok k)

/-- A key template for a key type of Tink. -/
def template (type : PStr) (output : EnumVal) (value : Bytes) : KeyTemplate :=
  { typeUrl := ps! "type.googleapis.com/google.crypto.tink." ++ type, value := value
    outputPrefixType := output }

end Tink.Spec.KeyFormats
