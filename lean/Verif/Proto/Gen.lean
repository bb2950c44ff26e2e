import Verif.Keyset.Wire

/-!
# Key format and key messages

Generated by `/verif/tools/protogen.py` from the `.proto` files in `/repo/python/tink/proto`; each
definition cites the lines it comes from.  The conventions are those of `Keyset/Wire.lean`.
-/

namespace Tink

/-! `enum HashType`, `common.proto:43-51`. -/
namespace HashType
def UNKNOWN_HASH : EnumVal := 0
def SHA1 : EnumVal := 1
def SHA384 : EnumVal := 2
def SHA256 : EnumVal := 3
def SHA512 : EnumVal := 4
def SHA224 : EnumVal := 5
end HashType

/-! `enum EllipticCurveType`, `common.proto:26-32`. -/
namespace EllipticCurveType
def UNKNOWN_CURVE : EnumVal := 0
def NIST_P256 : EnumVal := 2
def NIST_P384 : EnumVal := 3
def NIST_P521 : EnumVal := 4
def CURVE25519 : EnumVal := 5
end EllipticCurveType

/-! `enum EcPointFormat`, `common.proto:34-41`. -/
namespace EcPointFormat
def UNKNOWN_FORMAT : EnumVal := 0
def UNCOMPRESSED : EnumVal := 1
def COMPRESSED : EnumVal := 2
def DO_NOT_USE_CRUNCHY_UNCOMPRESSED : EnumVal := 3
end EcPointFormat

/-! `enum HpkeKem`, `hpke.proto:25-31`. -/
namespace HpkeKem
def KEM_UNKNOWN : EnumVal := 0
def DHKEM_X25519_HKDF_SHA256 : EnumVal := 1
def DHKEM_P256_HKDF_SHA256 : EnumVal := 2
def DHKEM_P384_HKDF_SHA384 : EnumVal := 3
def DHKEM_P521_HKDF_SHA512 : EnumVal := 4
end HpkeKem

/-! `enum HpkeKdf`, `hpke.proto:33-38`. -/
namespace HpkeKdf
def KDF_UNKNOWN : EnumVal := 0
def HKDF_SHA256 : EnumVal := 1
def HKDF_SHA384 : EnumVal := 2
def HKDF_SHA512 : EnumVal := 3
end HpkeKdf

/-! `enum HpkeAead`, `hpke.proto:40-45`. -/
namespace HpkeAead
def AEAD_UNKNOWN : EnumVal := 0
def AES_128_GCM : EnumVal := 1
def AES_256_GCM : EnumVal := 2
def CHACHA20_POLY1305 : EnumVal := 3
end HpkeAead

/-! `enum EcdsaSignatureEncoding`, `ecdsa.proto:28-41`. -/
namespace EcdsaSignatureEncoding
def UNKNOWN_ENCODING : EnumVal := 0
def IEEE_P1363 : EnumVal := 1
def DER : EnumVal := 2
end EcdsaSignatureEncoding

/-! `enum JwtHmacAlgorithm`, `jwt_hmac.proto:26-31`. -/
namespace JwtHmacAlgorithm
def HS_UNKNOWN : EnumVal := 0
def HS256 : EnumVal := 1
def HS384 : EnumVal := 2
def HS512 : EnumVal := 3
end JwtHmacAlgorithm

/-! `enum JwtEcdsaAlgorithm`, `jwt_ecdsa.proto:26-31`. -/
namespace JwtEcdsaAlgorithm
def ES_UNKNOWN : EnumVal := 0
def ES256 : EnumVal := 1
def ES384 : EnumVal := 2
def ES512 : EnumVal := 3
end JwtEcdsaAlgorithm

/-! `enum JwtRsaSsaPkcs1Algorithm`, `jwt_rsa_ssa_pkcs1.proto:26-31`. -/
namespace JwtRsaSsaPkcs1Algorithm
def RS_UNKNOWN : EnumVal := 0
def RS256 : EnumVal := 1
def RS384 : EnumVal := 2
def RS512 : EnumVal := 3
end JwtRsaSsaPkcs1Algorithm

/-! `enum JwtRsaSsaPssAlgorithm`, `jwt_rsa_ssa_pss.proto:26-31`. -/
namespace JwtRsaSsaPssAlgorithm
def PS_UNKNOWN : EnumVal := 0
def PS256 : EnumVal := 1
def PS384 : EnumVal := 2
def PS512 : EnumVal := 3
end JwtRsaSsaPssAlgorithm

/-- `message KmsAeadKeyFormat`, `kms_aead.proto:25-33`. -/
structure KmsAeadKeyFormat where
  keyUri : PStr := []
  deriving DecidableEq, Repr, Inhabited

/-- Fields of `KmsAeadKeyFormat` in wire order. -/
def KmsAeadKeyFormat.fields (m : KmsAeadKeyFormat) : List Field :=
  strField 1 m.keyUri

/-- Merging one field into a `KmsAeadKeyFormat`. -/
def KmsAeadKeyFormat.mergeField (m : KmsAeadKeyFormat) (f : Field) : Option KmsAeadKeyFormat :=
  match f.num, f.val with
  | 1, .len b => (pstrDecode? b).map fun x => { m with keyUri := x }
  | _, _ => some m

/-- Merging serialized bytes into a `KmsAeadKeyFormat`. -/
def KmsAeadKeyFormat.merge (m : KmsAeadKeyFormat) (b : Bytes) : Option KmsAeadKeyFormat :=
  match parseFields b with
  | none => none
  | some fs => fs.foldlM KmsAeadKeyFormat.mergeField m

def KmsAeadKeyFormat.serializeToString (m : KmsAeadKeyFormat) : Py Bytes := serializeFields m.fields
def KmsAeadKeyFormat.fromString (b : Bytes) : Py KmsAeadKeyFormat := ofMerge (KmsAeadKeyFormat.merge {} b)

/-- `message KmsAeadKey`, `kms_aead.proto:36-40`. -/
structure KmsAeadKey where
  version : UInt32 := 0
  params : Option KmsAeadKeyFormat := none
  deriving DecidableEq, Repr, Inhabited

/-- Reading `params` when it is absent yields the default message. -/
def KmsAeadKey.getParams (m : KmsAeadKey) : KmsAeadKeyFormat := m.params.getD {}

/-- Fields of `KmsAeadKey` in wire order. -/
def KmsAeadKey.fields (m : KmsAeadKey) : List Field :=
  uint32Field 1 m.version ++
  msgField 2 (m.params.map KmsAeadKeyFormat.fields)

/-- Merging one field into a `KmsAeadKey`. -/
def KmsAeadKey.mergeField (m : KmsAeadKey) (f : Field) : Option KmsAeadKey :=
  match f.num, f.val with
  | 1, .varint v => some { m with version := UInt32.ofNat v }
  | 2, .len b => (KmsAeadKeyFormat.merge m.getParams b).map fun x => { m with params := some x }
  | _, _ => some m

/-- Merging serialized bytes into a `KmsAeadKey`. -/
def KmsAeadKey.merge (m : KmsAeadKey) (b : Bytes) : Option KmsAeadKey :=
  match parseFields b with
  | none => none
  | some fs => fs.foldlM KmsAeadKey.mergeField m

def KmsAeadKey.serializeToString (m : KmsAeadKey) : Py Bytes := serializeFields m.fields
def KmsAeadKey.fromString (b : Bytes) : Py KmsAeadKey := ofMerge (KmsAeadKey.merge {} b)

/-- `message KmsEnvelopeAeadKeyFormat`, `kms_envelope.proto:27-38`. -/
structure KmsEnvelopeAeadKeyFormat where
  kekUri : PStr := []
  dekTemplate : Option KeyTemplate := none
  deriving DecidableEq, Repr, Inhabited

/-- Reading `dekTemplate` when it is absent yields the default message. -/
def KmsEnvelopeAeadKeyFormat.getDekTemplate (m : KmsEnvelopeAeadKeyFormat) : KeyTemplate := m.dekTemplate.getD {}

/-- Fields of `KmsEnvelopeAeadKeyFormat` in wire order. -/
def KmsEnvelopeAeadKeyFormat.fields (m : KmsEnvelopeAeadKeyFormat) : List Field :=
  strField 1 m.kekUri ++
  msgField 2 (m.dekTemplate.map KeyTemplate.fields)

/-- Merging one field into a `KmsEnvelopeAeadKeyFormat`. -/
def KmsEnvelopeAeadKeyFormat.mergeField (m : KmsEnvelopeAeadKeyFormat) (f : Field) : Option KmsEnvelopeAeadKeyFormat :=
  match f.num, f.val with
  | 1, .len b => (pstrDecode? b).map fun x => { m with kekUri := x }
  | 2, .len b => (KeyTemplate.merge m.getDekTemplate b).map fun x => { m with dekTemplate := some x }
  | _, _ => some m

/-- Merging serialized bytes into a `KmsEnvelopeAeadKeyFormat`. -/
def KmsEnvelopeAeadKeyFormat.merge (m : KmsEnvelopeAeadKeyFormat) (b : Bytes) : Option KmsEnvelopeAeadKeyFormat :=
  match parseFields b with
  | none => none
  | some fs => fs.foldlM KmsEnvelopeAeadKeyFormat.mergeField m

def KmsEnvelopeAeadKeyFormat.serializeToString (m : KmsEnvelopeAeadKeyFormat) : Py Bytes := serializeFields m.fields
def KmsEnvelopeAeadKeyFormat.fromString (b : Bytes) : Py KmsEnvelopeAeadKeyFormat := ofMerge (KmsEnvelopeAeadKeyFormat.merge {} b)

/-- `message KmsEnvelopeAeadKey`, `kms_envelope.proto:41-45`. -/
structure KmsEnvelopeAeadKey where
  version : UInt32 := 0
  params : Option KmsEnvelopeAeadKeyFormat := none
  deriving DecidableEq, Repr, Inhabited

/-- Reading `params` when it is absent yields the default message. -/
def KmsEnvelopeAeadKey.getParams (m : KmsEnvelopeAeadKey) : KmsEnvelopeAeadKeyFormat := m.params.getD {}

/-- Fields of `KmsEnvelopeAeadKey` in wire order. -/
def KmsEnvelopeAeadKey.fields (m : KmsEnvelopeAeadKey) : List Field :=
  uint32Field 1 m.version ++
  msgField 2 (m.params.map KmsEnvelopeAeadKeyFormat.fields)

/-- Merging one field into a `KmsEnvelopeAeadKey`. -/
def KmsEnvelopeAeadKey.mergeField (m : KmsEnvelopeAeadKey) (f : Field) : Option KmsEnvelopeAeadKey :=
  match f.num, f.val with
  | 1, .varint v => some { m with version := UInt32.ofNat v }
  | 2, .len b => (KmsEnvelopeAeadKeyFormat.merge m.getParams b).map fun x => { m with params := some x }
  | _, _ => some m

/-- Merging serialized bytes into a `KmsEnvelopeAeadKey`. -/
def KmsEnvelopeAeadKey.merge (m : KmsEnvelopeAeadKey) (b : Bytes) : Option KmsEnvelopeAeadKey :=
  match parseFields b with
  | none => none
  | some fs => fs.foldlM KmsEnvelopeAeadKey.mergeField m

def KmsEnvelopeAeadKey.serializeToString (m : KmsEnvelopeAeadKey) : Py Bytes := serializeFields m.fields
def KmsEnvelopeAeadKey.fromString (b : Bytes) : Py KmsEnvelopeAeadKey := ofMerge (KmsEnvelopeAeadKey.merge {} b)

/-- `message AesEaxParams`, `aes_eax.proto:26-29`. -/
structure AesEaxParams where
  ivSize : UInt32 := 0
  deriving DecidableEq, Repr, Inhabited

/-- Fields of `AesEaxParams` in wire order. -/
def AesEaxParams.fields (m : AesEaxParams) : List Field :=
  uint32Field 1 m.ivSize

/-- Merging one field into a `AesEaxParams`. -/
def AesEaxParams.mergeField (m : AesEaxParams) (f : Field) : Option AesEaxParams :=
  match f.num, f.val with
  | 1, .varint v => some { m with ivSize := UInt32.ofNat v }
  | _, _ => some m

/-- Merging serialized bytes into a `AesEaxParams`. -/
def AesEaxParams.merge (m : AesEaxParams) (b : Bytes) : Option AesEaxParams :=
  match parseFields b with
  | none => none
  | some fs => fs.foldlM AesEaxParams.mergeField m

def AesEaxParams.serializeToString (m : AesEaxParams) : Py Bytes := serializeFields m.fields
def AesEaxParams.fromString (b : Bytes) : Py AesEaxParams := ofMerge (AesEaxParams.merge {} b)

/-- `message AesEaxKeyFormat`, `aes_eax.proto:31-34`. -/
structure AesEaxKeyFormat where
  params : Option AesEaxParams := none
  keySize : UInt32 := 0
  deriving DecidableEq, Repr, Inhabited

/-- Reading `params` when it is absent yields the default message. -/
def AesEaxKeyFormat.getParams (m : AesEaxKeyFormat) : AesEaxParams := m.params.getD {}

/-- Fields of `AesEaxKeyFormat` in wire order. -/
def AesEaxKeyFormat.fields (m : AesEaxKeyFormat) : List Field :=
  msgField 1 (m.params.map AesEaxParams.fields) ++
  uint32Field 2 m.keySize

/-- Merging one field into a `AesEaxKeyFormat`. -/
def AesEaxKeyFormat.mergeField (m : AesEaxKeyFormat) (f : Field) : Option AesEaxKeyFormat :=
  match f.num, f.val with
  | 1, .len b => (AesEaxParams.merge m.getParams b).map fun x => { m with params := some x }
  | 2, .varint v => some { m with keySize := UInt32.ofNat v }
  | _, _ => some m

/-- Merging serialized bytes into a `AesEaxKeyFormat`. -/
def AesEaxKeyFormat.merge (m : AesEaxKeyFormat) (b : Bytes) : Option AesEaxKeyFormat :=
  match parseFields b with
  | none => none
  | some fs => fs.foldlM AesEaxKeyFormat.mergeField m

def AesEaxKeyFormat.serializeToString (m : AesEaxKeyFormat) : Py Bytes := serializeFields m.fields
def AesEaxKeyFormat.fromString (b : Bytes) : Py AesEaxKeyFormat := ofMerge (AesEaxKeyFormat.merge {} b)

/-- `message AesGcmKeyFormat`, `aes_gcm.proto:26-29`. -/
structure AesGcmKeyFormat where
  keySize : UInt32 := 0
  version : UInt32 := 0
  deriving DecidableEq, Repr, Inhabited

/-- Fields of `AesGcmKeyFormat` in wire order. -/
def AesGcmKeyFormat.fields (m : AesGcmKeyFormat) : List Field :=
  uint32Field 2 m.keySize ++
  uint32Field 3 m.version

/-- Merging one field into a `AesGcmKeyFormat`. -/
def AesGcmKeyFormat.mergeField (m : AesGcmKeyFormat) (f : Field) : Option AesGcmKeyFormat :=
  match f.num, f.val with
  | 2, .varint v => some { m with keySize := UInt32.ofNat v }
  | 3, .varint v => some { m with version := UInt32.ofNat v }
  | _, _ => some m

/-- Merging serialized bytes into a `AesGcmKeyFormat`. -/
def AesGcmKeyFormat.merge (m : AesGcmKeyFormat) (b : Bytes) : Option AesGcmKeyFormat :=
  match parseFields b with
  | none => none
  | some fs => fs.foldlM AesGcmKeyFormat.mergeField m

def AesGcmKeyFormat.serializeToString (m : AesGcmKeyFormat) : Py Bytes := serializeFields m.fields
def AesGcmKeyFormat.fromString (b : Bytes) : Py AesGcmKeyFormat := ofMerge (AesGcmKeyFormat.merge {} b)

/-- `message AesGcmSivKeyFormat`, `aes_gcm_siv.proto:27-30`. -/
structure AesGcmSivKeyFormat where
  version : UInt32 := 0
  keySize : UInt32 := 0
  deriving DecidableEq, Repr, Inhabited

/-- Fields of `AesGcmSivKeyFormat` in wire order. -/
def AesGcmSivKeyFormat.fields (m : AesGcmSivKeyFormat) : List Field :=
  uint32Field 1 m.version ++
  uint32Field 2 m.keySize

/-- Merging one field into a `AesGcmSivKeyFormat`. -/
def AesGcmSivKeyFormat.mergeField (m : AesGcmSivKeyFormat) (f : Field) : Option AesGcmSivKeyFormat :=
  match f.num, f.val with
  | 1, .varint v => some { m with version := UInt32.ofNat v }
  | 2, .varint v => some { m with keySize := UInt32.ofNat v }
  | _, _ => some m

/-- Merging serialized bytes into a `AesGcmSivKeyFormat`. -/
def AesGcmSivKeyFormat.merge (m : AesGcmSivKeyFormat) (b : Bytes) : Option AesGcmSivKeyFormat :=
  match parseFields b with
  | none => none
  | some fs => fs.foldlM AesGcmSivKeyFormat.mergeField m

def AesGcmSivKeyFormat.serializeToString (m : AesGcmSivKeyFormat) : Py Bytes := serializeFields m.fields
def AesGcmSivKeyFormat.fromString (b : Bytes) : Py AesGcmSivKeyFormat := ofMerge (AesGcmSivKeyFormat.merge {} b)

/-- `message AesCtrParams`, `aes_ctr.proto:25-27`. -/
structure AesCtrParams where
  ivSize : UInt32 := 0
  deriving DecidableEq, Repr, Inhabited

/-- Fields of `AesCtrParams` in wire order. -/
def AesCtrParams.fields (m : AesCtrParams) : List Field :=
  uint32Field 1 m.ivSize

/-- Merging one field into a `AesCtrParams`. -/
def AesCtrParams.mergeField (m : AesCtrParams) (f : Field) : Option AesCtrParams :=
  match f.num, f.val with
  | 1, .varint v => some { m with ivSize := UInt32.ofNat v }
  | _, _ => some m

/-- Merging serialized bytes into a `AesCtrParams`. -/
def AesCtrParams.merge (m : AesCtrParams) (b : Bytes) : Option AesCtrParams :=
  match parseFields b with
  | none => none
  | some fs => fs.foldlM AesCtrParams.mergeField m

def AesCtrParams.serializeToString (m : AesCtrParams) : Py Bytes := serializeFields m.fields
def AesCtrParams.fromString (b : Bytes) : Py AesCtrParams := ofMerge (AesCtrParams.merge {} b)

/-- `message AesCtrKeyFormat`, `aes_ctr.proto:29-32`. -/
structure AesCtrKeyFormat where
  params : Option AesCtrParams := none
  keySize : UInt32 := 0
  deriving DecidableEq, Repr, Inhabited

/-- Reading `params` when it is absent yields the default message. -/
def AesCtrKeyFormat.getParams (m : AesCtrKeyFormat) : AesCtrParams := m.params.getD {}

/-- Fields of `AesCtrKeyFormat` in wire order. -/
def AesCtrKeyFormat.fields (m : AesCtrKeyFormat) : List Field :=
  msgField 1 (m.params.map AesCtrParams.fields) ++
  uint32Field 2 m.keySize

/-- Merging one field into a `AesCtrKeyFormat`. -/
def AesCtrKeyFormat.mergeField (m : AesCtrKeyFormat) (f : Field) : Option AesCtrKeyFormat :=
  match f.num, f.val with
  | 1, .len b => (AesCtrParams.merge m.getParams b).map fun x => { m with params := some x }
  | 2, .varint v => some { m with keySize := UInt32.ofNat v }
  | _, _ => some m

/-- Merging serialized bytes into a `AesCtrKeyFormat`. -/
def AesCtrKeyFormat.merge (m : AesCtrKeyFormat) (b : Bytes) : Option AesCtrKeyFormat :=
  match parseFields b with
  | none => none
  | some fs => fs.foldlM AesCtrKeyFormat.mergeField m

def AesCtrKeyFormat.serializeToString (m : AesCtrKeyFormat) : Py Bytes := serializeFields m.fields
def AesCtrKeyFormat.fromString (b : Bytes) : Py AesCtrKeyFormat := ofMerge (AesCtrKeyFormat.merge {} b)

/-- `message HmacParams`, `hmac.proto:27-30`. -/
structure HmacParams where
  hash : EnumVal := 0
  tagSize : UInt32 := 0
  deriving DecidableEq, Repr, Inhabited

/-- Fields of `HmacParams` in wire order. -/
def HmacParams.fields (m : HmacParams) : List Field :=
  enumField 1 m.hash ++
  uint32Field 2 m.tagSize

/-- Merging one field into a `HmacParams`. -/
def HmacParams.mergeField (m : HmacParams) (f : Field) : Option HmacParams :=
  match f.num, f.val with
  | 1, .varint v => some { m with hash := UInt32.ofNat v }
  | 2, .varint v => some { m with tagSize := UInt32.ofNat v }
  | _, _ => some m

/-- Merging serialized bytes into a `HmacParams`. -/
def HmacParams.merge (m : HmacParams) (b : Bytes) : Option HmacParams :=
  match parseFields b with
  | none => none
  | some fs => fs.foldlM HmacParams.mergeField m

def HmacParams.serializeToString (m : HmacParams) : Py Bytes := serializeFields m.fields
def HmacParams.fromString (b : Bytes) : Py HmacParams := ofMerge (HmacParams.merge {} b)

/-- `message HmacKeyFormat`, `hmac.proto:39-43`. -/
structure HmacKeyFormat where
  params : Option HmacParams := none
  keySize : UInt32 := 0
  version : UInt32 := 0
  deriving DecidableEq, Repr, Inhabited

/-- Reading `params` when it is absent yields the default message. -/
def HmacKeyFormat.getParams (m : HmacKeyFormat) : HmacParams := m.params.getD {}

/-- Fields of `HmacKeyFormat` in wire order. -/
def HmacKeyFormat.fields (m : HmacKeyFormat) : List Field :=
  msgField 1 (m.params.map HmacParams.fields) ++
  uint32Field 2 m.keySize ++
  uint32Field 3 m.version

/-- Merging one field into a `HmacKeyFormat`. -/
def HmacKeyFormat.mergeField (m : HmacKeyFormat) (f : Field) : Option HmacKeyFormat :=
  match f.num, f.val with
  | 1, .len b => (HmacParams.merge m.getParams b).map fun x => { m with params := some x }
  | 2, .varint v => some { m with keySize := UInt32.ofNat v }
  | 3, .varint v => some { m with version := UInt32.ofNat v }
  | _, _ => some m

/-- Merging serialized bytes into a `HmacKeyFormat`. -/
def HmacKeyFormat.merge (m : HmacKeyFormat) (b : Bytes) : Option HmacKeyFormat :=
  match parseFields b with
  | none => none
  | some fs => fs.foldlM HmacKeyFormat.mergeField m

def HmacKeyFormat.serializeToString (m : HmacKeyFormat) : Py Bytes := serializeFields m.fields
def HmacKeyFormat.fromString (b : Bytes) : Py HmacKeyFormat := ofMerge (HmacKeyFormat.merge {} b)

/-- `message AesCtrHmacAeadKeyFormat`, `aes_ctr_hmac_aead.proto:28-31`. -/
structure AesCtrHmacAeadKeyFormat where
  aesCtrKeyFormat : Option AesCtrKeyFormat := none
  hmacKeyFormat : Option HmacKeyFormat := none
  deriving DecidableEq, Repr, Inhabited

/-- Reading `aesCtrKeyFormat` when it is absent yields the default message. -/
def AesCtrHmacAeadKeyFormat.getAesCtrKeyFormat (m : AesCtrHmacAeadKeyFormat) : AesCtrKeyFormat := m.aesCtrKeyFormat.getD {}

/-- Reading `hmacKeyFormat` when it is absent yields the default message. -/
def AesCtrHmacAeadKeyFormat.getHmacKeyFormat (m : AesCtrHmacAeadKeyFormat) : HmacKeyFormat := m.hmacKeyFormat.getD {}

/-- Fields of `AesCtrHmacAeadKeyFormat` in wire order. -/
def AesCtrHmacAeadKeyFormat.fields (m : AesCtrHmacAeadKeyFormat) : List Field :=
  msgField 1 (m.aesCtrKeyFormat.map AesCtrKeyFormat.fields) ++
  msgField 2 (m.hmacKeyFormat.map HmacKeyFormat.fields)

/-- Merging one field into a `AesCtrHmacAeadKeyFormat`. -/
def AesCtrHmacAeadKeyFormat.mergeField (m : AesCtrHmacAeadKeyFormat) (f : Field) : Option AesCtrHmacAeadKeyFormat :=
  match f.num, f.val with
  | 1, .len b => (AesCtrKeyFormat.merge m.getAesCtrKeyFormat b).map fun x => { m with aesCtrKeyFormat := some x }
  | 2, .len b => (HmacKeyFormat.merge m.getHmacKeyFormat b).map fun x => { m with hmacKeyFormat := some x }
  | _, _ => some m

/-- Merging serialized bytes into a `AesCtrHmacAeadKeyFormat`. -/
def AesCtrHmacAeadKeyFormat.merge (m : AesCtrHmacAeadKeyFormat) (b : Bytes) : Option AesCtrHmacAeadKeyFormat :=
  match parseFields b with
  | none => none
  | some fs => fs.foldlM AesCtrHmacAeadKeyFormat.mergeField m

def AesCtrHmacAeadKeyFormat.serializeToString (m : AesCtrHmacAeadKeyFormat) : Py Bytes := serializeFields m.fields
def AesCtrHmacAeadKeyFormat.fromString (b : Bytes) : Py AesCtrHmacAeadKeyFormat := ofMerge (AesCtrHmacAeadKeyFormat.merge {} b)

/-- `message AesSivKeyFormat`, `aes_siv.proto:33-37`. -/
structure AesSivKeyFormat where
  keySize : UInt32 := 0
  version : UInt32 := 0
  deriving DecidableEq, Repr, Inhabited

/-- Fields of `AesSivKeyFormat` in wire order. -/
def AesSivKeyFormat.fields (m : AesSivKeyFormat) : List Field :=
  uint32Field 1 m.keySize ++
  uint32Field 2 m.version

/-- Merging one field into a `AesSivKeyFormat`. -/
def AesSivKeyFormat.mergeField (m : AesSivKeyFormat) (f : Field) : Option AesSivKeyFormat :=
  match f.num, f.val with
  | 1, .varint v => some { m with keySize := UInt32.ofNat v }
  | 2, .varint v => some { m with version := UInt32.ofNat v }
  | _, _ => some m

/-- Merging serialized bytes into a `AesSivKeyFormat`. -/
def AesSivKeyFormat.merge (m : AesSivKeyFormat) (b : Bytes) : Option AesSivKeyFormat :=
  match parseFields b with
  | none => none
  | some fs => fs.foldlM AesSivKeyFormat.mergeField m

def AesSivKeyFormat.serializeToString (m : AesSivKeyFormat) : Py Bytes := serializeFields m.fields
def AesSivKeyFormat.fromString (b : Bytes) : Py AesSivKeyFormat := ofMerge (AesSivKeyFormat.merge {} b)

/-- `message AesCmacParams`, `aes_cmac.proto:25-27`. -/
structure AesCmacParams where
  tagSize : UInt32 := 0
  deriving DecidableEq, Repr, Inhabited

/-- Fields of `AesCmacParams` in wire order. -/
def AesCmacParams.fields (m : AesCmacParams) : List Field :=
  uint32Field 1 m.tagSize

/-- Merging one field into a `AesCmacParams`. -/
def AesCmacParams.mergeField (m : AesCmacParams) (f : Field) : Option AesCmacParams :=
  match f.num, f.val with
  | 1, .varint v => some { m with tagSize := UInt32.ofNat v }
  | _, _ => some m

/-- Merging serialized bytes into a `AesCmacParams`. -/
def AesCmacParams.merge (m : AesCmacParams) (b : Bytes) : Option AesCmacParams :=
  match parseFields b with
  | none => none
  | some fs => fs.foldlM AesCmacParams.mergeField m

def AesCmacParams.serializeToString (m : AesCmacParams) : Py Bytes := serializeFields m.fields
def AesCmacParams.fromString (b : Bytes) : Py AesCmacParams := ofMerge (AesCmacParams.merge {} b)

/-- `message AesCmacKeyFormat`, `aes_cmac.proto:36-39`. -/
structure AesCmacKeyFormat where
  keySize : UInt32 := 0
  params : Option AesCmacParams := none
  deriving DecidableEq, Repr, Inhabited

/-- Reading `params` when it is absent yields the default message. -/
def AesCmacKeyFormat.getParams (m : AesCmacKeyFormat) : AesCmacParams := m.params.getD {}

/-- Fields of `AesCmacKeyFormat` in wire order. -/
def AesCmacKeyFormat.fields (m : AesCmacKeyFormat) : List Field :=
  uint32Field 1 m.keySize ++
  msgField 2 (m.params.map AesCmacParams.fields)

/-- Merging one field into a `AesCmacKeyFormat`. -/
def AesCmacKeyFormat.mergeField (m : AesCmacKeyFormat) (f : Field) : Option AesCmacKeyFormat :=
  match f.num, f.val with
  | 1, .varint v => some { m with keySize := UInt32.ofNat v }
  | 2, .len b => (AesCmacParams.merge m.getParams b).map fun x => { m with params := some x }
  | _, _ => some m

/-- Merging serialized bytes into a `AesCmacKeyFormat`. -/
def AesCmacKeyFormat.merge (m : AesCmacKeyFormat) (b : Bytes) : Option AesCmacKeyFormat :=
  match parseFields b with
  | none => none
  | some fs => fs.foldlM AesCmacKeyFormat.mergeField m

def AesCmacKeyFormat.serializeToString (m : AesCmacKeyFormat) : Py Bytes := serializeFields m.fields
def AesCmacKeyFormat.fromString (b : Bytes) : Py AesCmacKeyFormat := ofMerge (AesCmacKeyFormat.merge {} b)

/-- `message EciesHkdfKemParams`, `ecies_aead_hkdf.proto:48-57`. -/
structure EciesHkdfKemParams where
  curveType : EnumVal := 0
  hkdfHashType : EnumVal := 0
  hkdfSalt : Bytes := []
  deriving DecidableEq, Repr, Inhabited

/-- Fields of `EciesHkdfKemParams` in wire order. -/
def EciesHkdfKemParams.fields (m : EciesHkdfKemParams) : List Field :=
  enumField 1 m.curveType ++
  enumField 2 m.hkdfHashType ++
  bytesField 11 m.hkdfSalt

/-- Merging one field into a `EciesHkdfKemParams`. -/
def EciesHkdfKemParams.mergeField (m : EciesHkdfKemParams) (f : Field) : Option EciesHkdfKemParams :=
  match f.num, f.val with
  | 1, .varint v => some { m with curveType := UInt32.ofNat v }
  | 2, .varint v => some { m with hkdfHashType := UInt32.ofNat v }
  | 11, .len b => some { m with hkdfSalt := b }
  | _, _ => some m

/-- Merging serialized bytes into a `EciesHkdfKemParams`. -/
def EciesHkdfKemParams.merge (m : EciesHkdfKemParams) (b : Bytes) : Option EciesHkdfKemParams :=
  match parseFields b with
  | none => none
  | some fs => fs.foldlM EciesHkdfKemParams.mergeField m

def EciesHkdfKemParams.serializeToString (m : EciesHkdfKemParams) : Py Bytes := serializeFields m.fields
def EciesHkdfKemParams.fromString (b : Bytes) : Py EciesHkdfKemParams := ofMerge (EciesHkdfKemParams.merge {} b)

/-- `message EciesAeadDemParams`, `ecies_aead_hkdf.proto:60-66`. -/
structure EciesAeadDemParams where
  aeadDem : Option KeyTemplate := none
  deriving DecidableEq, Repr, Inhabited

/-- Reading `aeadDem` when it is absent yields the default message. -/
def EciesAeadDemParams.getAeadDem (m : EciesAeadDemParams) : KeyTemplate := m.aeadDem.getD {}

/-- Fields of `EciesAeadDemParams` in wire order. -/
def EciesAeadDemParams.fields (m : EciesAeadDemParams) : List Field :=
  msgField 2 (m.aeadDem.map KeyTemplate.fields)

/-- Merging one field into a `EciesAeadDemParams`. -/
def EciesAeadDemParams.mergeField (m : EciesAeadDemParams) (f : Field) : Option EciesAeadDemParams :=
  match f.num, f.val with
  | 2, .len b => (KeyTemplate.merge m.getAeadDem b).map fun x => { m with aeadDem := some x }
  | _, _ => some m

/-- Merging serialized bytes into a `EciesAeadDemParams`. -/
def EciesAeadDemParams.merge (m : EciesAeadDemParams) (b : Bytes) : Option EciesAeadDemParams :=
  match parseFields b with
  | none => none
  | some fs => fs.foldlM EciesAeadDemParams.mergeField m

def EciesAeadDemParams.serializeToString (m : EciesAeadDemParams) : Py Bytes := serializeFields m.fields
def EciesAeadDemParams.fromString (b : Bytes) : Py EciesAeadDemParams := ofMerge (EciesAeadDemParams.merge {} b)

/-- `message EciesAeadHkdfParams`, `ecies_aead_hkdf.proto:68-80`. -/
structure EciesAeadHkdfParams where
  kemParams : Option EciesHkdfKemParams := none
  demParams : Option EciesAeadDemParams := none
  ecPointFormat : EnumVal := 0
  deriving DecidableEq, Repr, Inhabited

/-- Reading `kemParams` when it is absent yields the default message. -/
def EciesAeadHkdfParams.getKemParams (m : EciesAeadHkdfParams) : EciesHkdfKemParams := m.kemParams.getD {}

/-- Reading `demParams` when it is absent yields the default message. -/
def EciesAeadHkdfParams.getDemParams (m : EciesAeadHkdfParams) : EciesAeadDemParams := m.demParams.getD {}

/-- Fields of `EciesAeadHkdfParams` in wire order. -/
def EciesAeadHkdfParams.fields (m : EciesAeadHkdfParams) : List Field :=
  msgField 1 (m.kemParams.map EciesHkdfKemParams.fields) ++
  msgField 2 (m.demParams.map EciesAeadDemParams.fields) ++
  enumField 3 m.ecPointFormat

/-- Merging one field into a `EciesAeadHkdfParams`. -/
def EciesAeadHkdfParams.mergeField (m : EciesAeadHkdfParams) (f : Field) : Option EciesAeadHkdfParams :=
  match f.num, f.val with
  | 1, .len b => (EciesHkdfKemParams.merge m.getKemParams b).map fun x => { m with kemParams := some x }
  | 2, .len b => (EciesAeadDemParams.merge m.getDemParams b).map fun x => { m with demParams := some x }
  | 3, .varint v => some { m with ecPointFormat := UInt32.ofNat v }
  | _, _ => some m

/-- Merging serialized bytes into a `EciesAeadHkdfParams`. -/
def EciesAeadHkdfParams.merge (m : EciesAeadHkdfParams) (b : Bytes) : Option EciesAeadHkdfParams :=
  match parseFields b with
  | none => none
  | some fs => fs.foldlM EciesAeadHkdfParams.mergeField m

def EciesAeadHkdfParams.serializeToString (m : EciesAeadHkdfParams) : Py Bytes := serializeFields m.fields
def EciesAeadHkdfParams.fromString (b : Bytes) : Py EciesAeadHkdfParams := ofMerge (EciesAeadHkdfParams.merge {} b)

/-- `message EciesAeadHkdfKeyFormat`, `ecies_aead_hkdf.proto:111-114`. -/
structure EciesAeadHkdfKeyFormat where
  params : Option EciesAeadHkdfParams := none
  deriving DecidableEq, Repr, Inhabited

/-- Reading `params` when it is absent yields the default message. -/
def EciesAeadHkdfKeyFormat.getParams (m : EciesAeadHkdfKeyFormat) : EciesAeadHkdfParams := m.params.getD {}

/-- Fields of `EciesAeadHkdfKeyFormat` in wire order. -/
def EciesAeadHkdfKeyFormat.fields (m : EciesAeadHkdfKeyFormat) : List Field :=
  msgField 1 (m.params.map EciesAeadHkdfParams.fields)

/-- Merging one field into a `EciesAeadHkdfKeyFormat`. -/
def EciesAeadHkdfKeyFormat.mergeField (m : EciesAeadHkdfKeyFormat) (f : Field) : Option EciesAeadHkdfKeyFormat :=
  match f.num, f.val with
  | 1, .len b => (EciesAeadHkdfParams.merge m.getParams b).map fun x => { m with params := some x }
  | _, _ => some m

/-- Merging serialized bytes into a `EciesAeadHkdfKeyFormat`. -/
def EciesAeadHkdfKeyFormat.merge (m : EciesAeadHkdfKeyFormat) (b : Bytes) : Option EciesAeadHkdfKeyFormat :=
  match parseFields b with
  | none => none
  | some fs => fs.foldlM EciesAeadHkdfKeyFormat.mergeField m

def EciesAeadHkdfKeyFormat.serializeToString (m : EciesAeadHkdfKeyFormat) : Py Bytes := serializeFields m.fields
def EciesAeadHkdfKeyFormat.fromString (b : Bytes) : Py EciesAeadHkdfKeyFormat := ofMerge (EciesAeadHkdfKeyFormat.merge {} b)

/-- `message HpkeParams`, `hpke.proto:47-51`. -/
structure HpkeParams where
  kem : EnumVal := 0
  kdf : EnumVal := 0
  aead : EnumVal := 0
  deriving DecidableEq, Repr, Inhabited

/-- Fields of `HpkeParams` in wire order. -/
def HpkeParams.fields (m : HpkeParams) : List Field :=
  enumField 1 m.kem ++
  enumField 2 m.kdf ++
  enumField 3 m.aead

/-- Merging one field into a `HpkeParams`. -/
def HpkeParams.mergeField (m : HpkeParams) (f : Field) : Option HpkeParams :=
  match f.num, f.val with
  | 1, .varint v => some { m with kem := UInt32.ofNat v }
  | 2, .varint v => some { m with kdf := UInt32.ofNat v }
  | 3, .varint v => some { m with aead := UInt32.ofNat v }
  | _, _ => some m

/-- Merging serialized bytes into a `HpkeParams`. -/
def HpkeParams.merge (m : HpkeParams) (b : Bytes) : Option HpkeParams :=
  match parseFields b with
  | none => none
  | some fs => fs.foldlM HpkeParams.mergeField m

def HpkeParams.serializeToString (m : HpkeParams) : Py Bytes := serializeFields m.fields
def HpkeParams.fromString (b : Bytes) : Py HpkeParams := ofMerge (HpkeParams.merge {} b)

/-- `message HpkeKeyFormat`, `hpke.proto:69-71`. -/
structure HpkeKeyFormat where
  params : Option HpkeParams := none
  deriving DecidableEq, Repr, Inhabited

/-- Reading `params` when it is absent yields the default message. -/
def HpkeKeyFormat.getParams (m : HpkeKeyFormat) : HpkeParams := m.params.getD {}

/-- Fields of `HpkeKeyFormat` in wire order. -/
def HpkeKeyFormat.fields (m : HpkeKeyFormat) : List Field :=
  msgField 1 (m.params.map HpkeParams.fields)

/-- Merging one field into a `HpkeKeyFormat`. -/
def HpkeKeyFormat.mergeField (m : HpkeKeyFormat) (f : Field) : Option HpkeKeyFormat :=
  match f.num, f.val with
  | 1, .len b => (HpkeParams.merge m.getParams b).map fun x => { m with params := some x }
  | _, _ => some m

/-- Merging serialized bytes into a `HpkeKeyFormat`. -/
def HpkeKeyFormat.merge (m : HpkeKeyFormat) (b : Bytes) : Option HpkeKeyFormat :=
  match parseFields b with
  | none => none
  | some fs => fs.foldlM HpkeKeyFormat.mergeField m

def HpkeKeyFormat.serializeToString (m : HpkeKeyFormat) : Py Bytes := serializeFields m.fields
def HpkeKeyFormat.fromString (b : Bytes) : Py HpkeKeyFormat := ofMerge (HpkeKeyFormat.merge {} b)

/-- `message EcdsaParams`, `ecdsa.proto:44-51`. -/
structure EcdsaParams where
  hashType : EnumVal := 0
  curve : EnumVal := 0
  encoding : EnumVal := 0
  deriving DecidableEq, Repr, Inhabited

/-- Fields of `EcdsaParams` in wire order. -/
def EcdsaParams.fields (m : EcdsaParams) : List Field :=
  enumField 1 m.hashType ++
  enumField 2 m.curve ++
  enumField 3 m.encoding

/-- Merging one field into a `EcdsaParams`. -/
def EcdsaParams.mergeField (m : EcdsaParams) (f : Field) : Option EcdsaParams :=
  match f.num, f.val with
  | 1, .varint v => some { m with hashType := UInt32.ofNat v }
  | 2, .varint v => some { m with curve := UInt32.ofNat v }
  | 3, .varint v => some { m with encoding := UInt32.ofNat v }
  | _, _ => some m

/-- Merging serialized bytes into a `EcdsaParams`. -/
def EcdsaParams.merge (m : EcdsaParams) (b : Bytes) : Option EcdsaParams :=
  match parseFields b with
  | none => none
  | some fs => fs.foldlM EcdsaParams.mergeField m

def EcdsaParams.serializeToString (m : EcdsaParams) : Py Bytes := serializeFields m.fields
def EcdsaParams.fromString (b : Bytes) : Py EcdsaParams := ofMerge (EcdsaParams.merge {} b)

/-- `message EcdsaKeyFormat`, `ecdsa.proto:80-84`. -/
structure EcdsaKeyFormat where
  params : Option EcdsaParams := none
  version : UInt32 := 0
  deriving DecidableEq, Repr, Inhabited

/-- Reading `params` when it is absent yields the default message. -/
def EcdsaKeyFormat.getParams (m : EcdsaKeyFormat) : EcdsaParams := m.params.getD {}

/-- Fields of `EcdsaKeyFormat` in wire order. -/
def EcdsaKeyFormat.fields (m : EcdsaKeyFormat) : List Field :=
  msgField 2 (m.params.map EcdsaParams.fields) ++
  uint32Field 3 m.version

/-- Merging one field into a `EcdsaKeyFormat`. -/
def EcdsaKeyFormat.mergeField (m : EcdsaKeyFormat) (f : Field) : Option EcdsaKeyFormat :=
  match f.num, f.val with
  | 2, .len b => (EcdsaParams.merge m.getParams b).map fun x => { m with params := some x }
  | 3, .varint v => some { m with version := UInt32.ofNat v }
  | _, _ => some m

/-- Merging serialized bytes into a `EcdsaKeyFormat`. -/
def EcdsaKeyFormat.merge (m : EcdsaKeyFormat) (b : Bytes) : Option EcdsaKeyFormat :=
  match parseFields b with
  | none => none
  | some fs => fs.foldlM EcdsaKeyFormat.mergeField m

def EcdsaKeyFormat.serializeToString (m : EcdsaKeyFormat) : Py Bytes := serializeFields m.fields
def EcdsaKeyFormat.fromString (b : Bytes) : Py EcdsaKeyFormat := ofMerge (EcdsaKeyFormat.merge {} b)

/-- `message RsaSsaPkcs1Params`, `rsa_ssa_pkcs1.proto:29-34`. -/
structure RsaSsaPkcs1Params where
  hashType : EnumVal := 0
  deriving DecidableEq, Repr, Inhabited

/-- Fields of `RsaSsaPkcs1Params` in wire order. -/
def RsaSsaPkcs1Params.fields (m : RsaSsaPkcs1Params) : List Field :=
  enumField 1 m.hashType

/-- Merging one field into a `RsaSsaPkcs1Params`. -/
def RsaSsaPkcs1Params.mergeField (m : RsaSsaPkcs1Params) (f : Field) : Option RsaSsaPkcs1Params :=
  match f.num, f.val with
  | 1, .varint v => some { m with hashType := UInt32.ofNat v }
  | _, _ => some m

/-- Merging serialized bytes into a `RsaSsaPkcs1Params`. -/
def RsaSsaPkcs1Params.merge (m : RsaSsaPkcs1Params) (b : Bytes) : Option RsaSsaPkcs1Params :=
  match parseFields b with
  | none => none
  | some fs => fs.foldlM RsaSsaPkcs1Params.mergeField m

def RsaSsaPkcs1Params.serializeToString (m : RsaSsaPkcs1Params) : Py Bytes := serializeFields m.fields
def RsaSsaPkcs1Params.fromString (b : Bytes) : Py RsaSsaPkcs1Params := ofMerge (RsaSsaPkcs1Params.merge {} b)

/-- `message RsaSsaPkcs1KeyFormat`, `rsa_ssa_pkcs1.proto:84-91`. -/
structure RsaSsaPkcs1KeyFormat where
  params : Option RsaSsaPkcs1Params := none
  modulusSizeInBits : UInt32 := 0
  publicExponent : Bytes := []
  deriving DecidableEq, Repr, Inhabited

/-- Reading `params` when it is absent yields the default message. -/
def RsaSsaPkcs1KeyFormat.getParams (m : RsaSsaPkcs1KeyFormat) : RsaSsaPkcs1Params := m.params.getD {}

/-- Fields of `RsaSsaPkcs1KeyFormat` in wire order. -/
def RsaSsaPkcs1KeyFormat.fields (m : RsaSsaPkcs1KeyFormat) : List Field :=
  msgField 1 (m.params.map RsaSsaPkcs1Params.fields) ++
  uint32Field 2 m.modulusSizeInBits ++
  bytesField 3 m.publicExponent

/-- Merging one field into a `RsaSsaPkcs1KeyFormat`. -/
def RsaSsaPkcs1KeyFormat.mergeField (m : RsaSsaPkcs1KeyFormat) (f : Field) : Option RsaSsaPkcs1KeyFormat :=
  match f.num, f.val with
  | 1, .len b => (RsaSsaPkcs1Params.merge m.getParams b).map fun x => { m with params := some x }
  | 2, .varint v => some { m with modulusSizeInBits := UInt32.ofNat v }
  | 3, .len b => some { m with publicExponent := b }
  | _, _ => some m

/-- Merging serialized bytes into a `RsaSsaPkcs1KeyFormat`. -/
def RsaSsaPkcs1KeyFormat.merge (m : RsaSsaPkcs1KeyFormat) (b : Bytes) : Option RsaSsaPkcs1KeyFormat :=
  match parseFields b with
  | none => none
  | some fs => fs.foldlM RsaSsaPkcs1KeyFormat.mergeField m

def RsaSsaPkcs1KeyFormat.serializeToString (m : RsaSsaPkcs1KeyFormat) : Py Bytes := serializeFields m.fields
def RsaSsaPkcs1KeyFormat.fromString (b : Bytes) : Py RsaSsaPkcs1KeyFormat := ofMerge (RsaSsaPkcs1KeyFormat.merge {} b)

/-- `message RsaSsaPssParams`, `rsa_ssa_pss.proto:30-42`. -/
structure RsaSsaPssParams where
  sigHash : EnumVal := 0
  mgf1Hash : EnumVal := 0
  saltLength : EnumVal := 0
  deriving DecidableEq, Repr, Inhabited

/-- Fields of `RsaSsaPssParams` in wire order. -/
def RsaSsaPssParams.fields (m : RsaSsaPssParams) : List Field :=
  enumField 1 m.sigHash ++
  enumField 2 m.mgf1Hash ++
  enumField 3 m.saltLength

/-- Merging one field into a `RsaSsaPssParams`. -/
def RsaSsaPssParams.mergeField (m : RsaSsaPssParams) (f : Field) : Option RsaSsaPssParams :=
  match f.num, f.val with
  | 1, .varint v => some { m with sigHash := UInt32.ofNat v }
  | 2, .varint v => some { m with mgf1Hash := UInt32.ofNat v }
  | 3, .varint v => some { m with saltLength := UInt32.ofNat v }
  | _, _ => some m

/-- Merging serialized bytes into a `RsaSsaPssParams`. -/
def RsaSsaPssParams.merge (m : RsaSsaPssParams) (b : Bytes) : Option RsaSsaPssParams :=
  match parseFields b with
  | none => none
  | some fs => fs.foldlM RsaSsaPssParams.mergeField m

def RsaSsaPssParams.serializeToString (m : RsaSsaPssParams) : Py Bytes := serializeFields m.fields
def RsaSsaPssParams.fromString (b : Bytes) : Py RsaSsaPssParams := ofMerge (RsaSsaPssParams.merge {} b)

/-- `message RsaSsaPssKeyFormat`, `rsa_ssa_pss.proto:92-99`. -/
structure RsaSsaPssKeyFormat where
  params : Option RsaSsaPssParams := none
  modulusSizeInBits : UInt32 := 0
  publicExponent : Bytes := []
  deriving DecidableEq, Repr, Inhabited

/-- Reading `params` when it is absent yields the default message. -/
def RsaSsaPssKeyFormat.getParams (m : RsaSsaPssKeyFormat) : RsaSsaPssParams := m.params.getD {}

/-- Fields of `RsaSsaPssKeyFormat` in wire order. -/
def RsaSsaPssKeyFormat.fields (m : RsaSsaPssKeyFormat) : List Field :=
  msgField 1 (m.params.map RsaSsaPssParams.fields) ++
  uint32Field 2 m.modulusSizeInBits ++
  bytesField 3 m.publicExponent

/-- Merging one field into a `RsaSsaPssKeyFormat`. -/
def RsaSsaPssKeyFormat.mergeField (m : RsaSsaPssKeyFormat) (f : Field) : Option RsaSsaPssKeyFormat :=
  match f.num, f.val with
  | 1, .len b => (RsaSsaPssParams.merge m.getParams b).map fun x => { m with params := some x }
  | 2, .varint v => some { m with modulusSizeInBits := UInt32.ofNat v }
  | 3, .len b => some { m with publicExponent := b }
  | _, _ => some m

/-- Merging serialized bytes into a `RsaSsaPssKeyFormat`. -/
def RsaSsaPssKeyFormat.merge (m : RsaSsaPssKeyFormat) (b : Bytes) : Option RsaSsaPssKeyFormat :=
  match parseFields b with
  | none => none
  | some fs => fs.foldlM RsaSsaPssKeyFormat.mergeField m

def RsaSsaPssKeyFormat.serializeToString (m : RsaSsaPssKeyFormat) : Py Bytes := serializeFields m.fields
def RsaSsaPssKeyFormat.fromString (b : Bytes) : Py RsaSsaPssKeyFormat := ofMerge (RsaSsaPssKeyFormat.merge {} b)

/-- `message AesCmacPrfKeyFormat`, `aes_cmac_prf.proto:31-34`. -/
structure AesCmacPrfKeyFormat where
  keySize : UInt32 := 0
  version : UInt32 := 0
  deriving DecidableEq, Repr, Inhabited

/-- Fields of `AesCmacPrfKeyFormat` in wire order. -/
def AesCmacPrfKeyFormat.fields (m : AesCmacPrfKeyFormat) : List Field :=
  uint32Field 1 m.keySize ++
  uint32Field 2 m.version

/-- Merging one field into a `AesCmacPrfKeyFormat`. -/
def AesCmacPrfKeyFormat.mergeField (m : AesCmacPrfKeyFormat) (f : Field) : Option AesCmacPrfKeyFormat :=
  match f.num, f.val with
  | 1, .varint v => some { m with keySize := UInt32.ofNat v }
  | 2, .varint v => some { m with version := UInt32.ofNat v }
  | _, _ => some m

/-- Merging serialized bytes into a `AesCmacPrfKeyFormat`. -/
def AesCmacPrfKeyFormat.merge (m : AesCmacPrfKeyFormat) (b : Bytes) : Option AesCmacPrfKeyFormat :=
  match parseFields b with
  | none => none
  | some fs => fs.foldlM AesCmacPrfKeyFormat.mergeField m

def AesCmacPrfKeyFormat.serializeToString (m : AesCmacPrfKeyFormat) : Py Bytes := serializeFields m.fields
def AesCmacPrfKeyFormat.fromString (b : Bytes) : Py AesCmacPrfKeyFormat := ofMerge (AesCmacPrfKeyFormat.merge {} b)

/-- `message HmacPrfParams`, `hmac_prf.proto:27-29`. -/
structure HmacPrfParams where
  hash : EnumVal := 0
  deriving DecidableEq, Repr, Inhabited

/-- Fields of `HmacPrfParams` in wire order. -/
def HmacPrfParams.fields (m : HmacPrfParams) : List Field :=
  enumField 1 m.hash

/-- Merging one field into a `HmacPrfParams`. -/
def HmacPrfParams.mergeField (m : HmacPrfParams) (f : Field) : Option HmacPrfParams :=
  match f.num, f.val with
  | 1, .varint v => some { m with hash := UInt32.ofNat v }
  | _, _ => some m

/-- Merging serialized bytes into a `HmacPrfParams`. -/
def HmacPrfParams.merge (m : HmacPrfParams) (b : Bytes) : Option HmacPrfParams :=
  match parseFields b with
  | none => none
  | some fs => fs.foldlM HmacPrfParams.mergeField m

def HmacPrfParams.serializeToString (m : HmacPrfParams) : Py Bytes := serializeFields m.fields
def HmacPrfParams.fromString (b : Bytes) : Py HmacPrfParams := ofMerge (HmacPrfParams.merge {} b)

/-- `message HmacPrfKeyFormat`, `hmac_prf.proto:38-42`. -/
structure HmacPrfKeyFormat where
  params : Option HmacPrfParams := none
  keySize : UInt32 := 0
  version : UInt32 := 0
  deriving DecidableEq, Repr, Inhabited

/-- Reading `params` when it is absent yields the default message. -/
def HmacPrfKeyFormat.getParams (m : HmacPrfKeyFormat) : HmacPrfParams := m.params.getD {}

/-- Fields of `HmacPrfKeyFormat` in wire order. -/
def HmacPrfKeyFormat.fields (m : HmacPrfKeyFormat) : List Field :=
  msgField 1 (m.params.map HmacPrfParams.fields) ++
  uint32Field 2 m.keySize ++
  uint32Field 3 m.version

/-- Merging one field into a `HmacPrfKeyFormat`. -/
def HmacPrfKeyFormat.mergeField (m : HmacPrfKeyFormat) (f : Field) : Option HmacPrfKeyFormat :=
  match f.num, f.val with
  | 1, .len b => (HmacPrfParams.merge m.getParams b).map fun x => { m with params := some x }
  | 2, .varint v => some { m with keySize := UInt32.ofNat v }
  | 3, .varint v => some { m with version := UInt32.ofNat v }
  | _, _ => some m

/-- Merging serialized bytes into a `HmacPrfKeyFormat`. -/
def HmacPrfKeyFormat.merge (m : HmacPrfKeyFormat) (b : Bytes) : Option HmacPrfKeyFormat :=
  match parseFields b with
  | none => none
  | some fs => fs.foldlM HmacPrfKeyFormat.mergeField m

def HmacPrfKeyFormat.serializeToString (m : HmacPrfKeyFormat) : Py Bytes := serializeFields m.fields
def HmacPrfKeyFormat.fromString (b : Bytes) : Py HmacPrfKeyFormat := ofMerge (HmacPrfKeyFormat.merge {} b)

/-- `message HkdfPrfParams`, `hkdf_prf.proto:27-36`. -/
structure HkdfPrfParams where
  hash : EnumVal := 0
  salt : Bytes := []
  deriving DecidableEq, Repr, Inhabited

/-- Fields of `HkdfPrfParams` in wire order. -/
def HkdfPrfParams.fields (m : HkdfPrfParams) : List Field :=
  enumField 1 m.hash ++
  bytesField 2 m.salt

/-- Merging one field into a `HkdfPrfParams`. -/
def HkdfPrfParams.mergeField (m : HkdfPrfParams) (f : Field) : Option HkdfPrfParams :=
  match f.num, f.val with
  | 1, .varint v => some { m with hash := UInt32.ofNat v }
  | 2, .len b => some { m with salt := b }
  | _, _ => some m

/-- Merging serialized bytes into a `HkdfPrfParams`. -/
def HkdfPrfParams.merge (m : HkdfPrfParams) (b : Bytes) : Option HkdfPrfParams :=
  match parseFields b with
  | none => none
  | some fs => fs.foldlM HkdfPrfParams.mergeField m

def HkdfPrfParams.serializeToString (m : HkdfPrfParams) : Py Bytes := serializeFields m.fields
def HkdfPrfParams.fromString (b : Bytes) : Py HkdfPrfParams := ofMerge (HkdfPrfParams.merge {} b)

/-- `message HkdfPrfKeyFormat`, `hkdf_prf.proto:44-48`. -/
structure HkdfPrfKeyFormat where
  params : Option HkdfPrfParams := none
  keySize : UInt32 := 0
  version : UInt32 := 0
  deriving DecidableEq, Repr, Inhabited

/-- Reading `params` when it is absent yields the default message. -/
def HkdfPrfKeyFormat.getParams (m : HkdfPrfKeyFormat) : HkdfPrfParams := m.params.getD {}

/-- Fields of `HkdfPrfKeyFormat` in wire order. -/
def HkdfPrfKeyFormat.fields (m : HkdfPrfKeyFormat) : List Field :=
  msgField 1 (m.params.map HkdfPrfParams.fields) ++
  uint32Field 2 m.keySize ++
  uint32Field 3 m.version

/-- Merging one field into a `HkdfPrfKeyFormat`. -/
def HkdfPrfKeyFormat.mergeField (m : HkdfPrfKeyFormat) (f : Field) : Option HkdfPrfKeyFormat :=
  match f.num, f.val with
  | 1, .len b => (HkdfPrfParams.merge m.getParams b).map fun x => { m with params := some x }
  | 2, .varint v => some { m with keySize := UInt32.ofNat v }
  | 3, .varint v => some { m with version := UInt32.ofNat v }
  | _, _ => some m

/-- Merging serialized bytes into a `HkdfPrfKeyFormat`. -/
def HkdfPrfKeyFormat.merge (m : HkdfPrfKeyFormat) (b : Bytes) : Option HkdfPrfKeyFormat :=
  match parseFields b with
  | none => none
  | some fs => fs.foldlM HkdfPrfKeyFormat.mergeField m

def HkdfPrfKeyFormat.serializeToString (m : HkdfPrfKeyFormat) : Py Bytes := serializeFields m.fields
def HkdfPrfKeyFormat.fromString (b : Bytes) : Py HkdfPrfKeyFormat := ofMerge (HkdfPrfKeyFormat.merge {} b)

/-- `message AesGcmHkdfStreamingParams`, `aes_gcm_hkdf_streaming.proto:29-33`. -/
structure AesGcmHkdfStreamingParams where
  ciphertextSegmentSize : UInt32 := 0
  derivedKeySize : UInt32 := 0
  hkdfHashType : EnumVal := 0
  deriving DecidableEq, Repr, Inhabited

/-- Fields of `AesGcmHkdfStreamingParams` in wire order. -/
def AesGcmHkdfStreamingParams.fields (m : AesGcmHkdfStreamingParams) : List Field :=
  uint32Field 1 m.ciphertextSegmentSize ++
  uint32Field 2 m.derivedKeySize ++
  enumField 3 m.hkdfHashType

/-- Merging one field into a `AesGcmHkdfStreamingParams`. -/
def AesGcmHkdfStreamingParams.mergeField (m : AesGcmHkdfStreamingParams) (f : Field) : Option AesGcmHkdfStreamingParams :=
  match f.num, f.val with
  | 1, .varint v => some { m with ciphertextSegmentSize := UInt32.ofNat v }
  | 2, .varint v => some { m with derivedKeySize := UInt32.ofNat v }
  | 3, .varint v => some { m with hkdfHashType := UInt32.ofNat v }
  | _, _ => some m

/-- Merging serialized bytes into a `AesGcmHkdfStreamingParams`. -/
def AesGcmHkdfStreamingParams.merge (m : AesGcmHkdfStreamingParams) (b : Bytes) : Option AesGcmHkdfStreamingParams :=
  match parseFields b with
  | none => none
  | some fs => fs.foldlM AesGcmHkdfStreamingParams.mergeField m

def AesGcmHkdfStreamingParams.serializeToString (m : AesGcmHkdfStreamingParams) : Py Bytes := serializeFields m.fields
def AesGcmHkdfStreamingParams.fromString (b : Bytes) : Py AesGcmHkdfStreamingParams := ofMerge (AesGcmHkdfStreamingParams.merge {} b)

/-- `message AesGcmHkdfStreamingKeyFormat`, `aes_gcm_hkdf_streaming.proto:35-39`. -/
structure AesGcmHkdfStreamingKeyFormat where
  params : Option AesGcmHkdfStreamingParams := none
  keySize : UInt32 := 0
  version : UInt32 := 0
  deriving DecidableEq, Repr, Inhabited

/-- Reading `params` when it is absent yields the default message. -/
def AesGcmHkdfStreamingKeyFormat.getParams (m : AesGcmHkdfStreamingKeyFormat) : AesGcmHkdfStreamingParams := m.params.getD {}

/-- Fields of `AesGcmHkdfStreamingKeyFormat` in wire order. -/
def AesGcmHkdfStreamingKeyFormat.fields (m : AesGcmHkdfStreamingKeyFormat) : List Field :=
  msgField 1 (m.params.map AesGcmHkdfStreamingParams.fields) ++
  uint32Field 2 m.keySize ++
  uint32Field 3 m.version

/-- Merging one field into a `AesGcmHkdfStreamingKeyFormat`. -/
def AesGcmHkdfStreamingKeyFormat.mergeField (m : AesGcmHkdfStreamingKeyFormat) (f : Field) : Option AesGcmHkdfStreamingKeyFormat :=
  match f.num, f.val with
  | 1, .len b => (AesGcmHkdfStreamingParams.merge m.getParams b).map fun x => { m with params := some x }
  | 2, .varint v => some { m with keySize := UInt32.ofNat v }
  | 3, .varint v => some { m with version := UInt32.ofNat v }
  | _, _ => some m

/-- Merging serialized bytes into a `AesGcmHkdfStreamingKeyFormat`. -/
def AesGcmHkdfStreamingKeyFormat.merge (m : AesGcmHkdfStreamingKeyFormat) (b : Bytes) : Option AesGcmHkdfStreamingKeyFormat :=
  match parseFields b with
  | none => none
  | some fs => fs.foldlM AesGcmHkdfStreamingKeyFormat.mergeField m

def AesGcmHkdfStreamingKeyFormat.serializeToString (m : AesGcmHkdfStreamingKeyFormat) : Py Bytes := serializeFields m.fields
def AesGcmHkdfStreamingKeyFormat.fromString (b : Bytes) : Py AesGcmHkdfStreamingKeyFormat := ofMerge (AesGcmHkdfStreamingKeyFormat.merge {} b)

/-- `message AesGcmHkdfStreamingKey`, `aes_gcm_hkdf_streaming.proto:42-46`. -/
structure AesGcmHkdfStreamingKey where
  version : UInt32 := 0
  params : Option AesGcmHkdfStreamingParams := none
  keyValue : Bytes := []
  deriving DecidableEq, Repr, Inhabited

/-- Reading `params` when it is absent yields the default message. -/
def AesGcmHkdfStreamingKey.getParams (m : AesGcmHkdfStreamingKey) : AesGcmHkdfStreamingParams := m.params.getD {}

/-- Fields of `AesGcmHkdfStreamingKey` in wire order. -/
def AesGcmHkdfStreamingKey.fields (m : AesGcmHkdfStreamingKey) : List Field :=
  uint32Field 1 m.version ++
  msgField 2 (m.params.map AesGcmHkdfStreamingParams.fields) ++
  bytesField 3 m.keyValue

/-- Merging one field into a `AesGcmHkdfStreamingKey`. -/
def AesGcmHkdfStreamingKey.mergeField (m : AesGcmHkdfStreamingKey) (f : Field) : Option AesGcmHkdfStreamingKey :=
  match f.num, f.val with
  | 1, .varint v => some { m with version := UInt32.ofNat v }
  | 2, .len b => (AesGcmHkdfStreamingParams.merge m.getParams b).map fun x => { m with params := some x }
  | 3, .len b => some { m with keyValue := b }
  | _, _ => some m

/-- Merging serialized bytes into a `AesGcmHkdfStreamingKey`. -/
def AesGcmHkdfStreamingKey.merge (m : AesGcmHkdfStreamingKey) (b : Bytes) : Option AesGcmHkdfStreamingKey :=
  match parseFields b with
  | none => none
  | some fs => fs.foldlM AesGcmHkdfStreamingKey.mergeField m

def AesGcmHkdfStreamingKey.serializeToString (m : AesGcmHkdfStreamingKey) : Py Bytes := serializeFields m.fields
def AesGcmHkdfStreamingKey.fromString (b : Bytes) : Py AesGcmHkdfStreamingKey := ofMerge (AesGcmHkdfStreamingKey.merge {} b)

/-- `message AesCtrHmacStreamingParams`, `aes_ctr_hmac_streaming.proto:28-33`. -/
structure AesCtrHmacStreamingParams where
  ciphertextSegmentSize : UInt32 := 0
  derivedKeySize : UInt32 := 0
  hkdfHashType : EnumVal := 0
  hmacParams : Option HmacParams := none
  deriving DecidableEq, Repr, Inhabited

/-- Reading `hmacParams` when it is absent yields the default message. -/
def AesCtrHmacStreamingParams.getHmacParams (m : AesCtrHmacStreamingParams) : HmacParams := m.hmacParams.getD {}

/-- Fields of `AesCtrHmacStreamingParams` in wire order. -/
def AesCtrHmacStreamingParams.fields (m : AesCtrHmacStreamingParams) : List Field :=
  uint32Field 1 m.ciphertextSegmentSize ++
  uint32Field 2 m.derivedKeySize ++
  enumField 3 m.hkdfHashType ++
  msgField 4 (m.hmacParams.map HmacParams.fields)

/-- Merging one field into a `AesCtrHmacStreamingParams`. -/
def AesCtrHmacStreamingParams.mergeField (m : AesCtrHmacStreamingParams) (f : Field) : Option AesCtrHmacStreamingParams :=
  match f.num, f.val with
  | 1, .varint v => some { m with ciphertextSegmentSize := UInt32.ofNat v }
  | 2, .varint v => some { m with derivedKeySize := UInt32.ofNat v }
  | 3, .varint v => some { m with hkdfHashType := UInt32.ofNat v }
  | 4, .len b => (HmacParams.merge m.getHmacParams b).map fun x => { m with hmacParams := some x }
  | _, _ => some m

/-- Merging serialized bytes into a `AesCtrHmacStreamingParams`. -/
def AesCtrHmacStreamingParams.merge (m : AesCtrHmacStreamingParams) (b : Bytes) : Option AesCtrHmacStreamingParams :=
  match parseFields b with
  | none => none
  | some fs => fs.foldlM AesCtrHmacStreamingParams.mergeField m

def AesCtrHmacStreamingParams.serializeToString (m : AesCtrHmacStreamingParams) : Py Bytes := serializeFields m.fields
def AesCtrHmacStreamingParams.fromString (b : Bytes) : Py AesCtrHmacStreamingParams := ofMerge (AesCtrHmacStreamingParams.merge {} b)

/-- `message AesCtrHmacStreamingKeyFormat`, `aes_ctr_hmac_streaming.proto:35-39`. -/
structure AesCtrHmacStreamingKeyFormat where
  params : Option AesCtrHmacStreamingParams := none
  keySize : UInt32 := 0
  version : UInt32 := 0
  deriving DecidableEq, Repr, Inhabited

/-- Reading `params` when it is absent yields the default message. -/
def AesCtrHmacStreamingKeyFormat.getParams (m : AesCtrHmacStreamingKeyFormat) : AesCtrHmacStreamingParams := m.params.getD {}

/-- Fields of `AesCtrHmacStreamingKeyFormat` in wire order. -/
def AesCtrHmacStreamingKeyFormat.fields (m : AesCtrHmacStreamingKeyFormat) : List Field :=
  msgField 1 (m.params.map AesCtrHmacStreamingParams.fields) ++
  uint32Field 2 m.keySize ++
  uint32Field 3 m.version

/-- Merging one field into a `AesCtrHmacStreamingKeyFormat`. -/
def AesCtrHmacStreamingKeyFormat.mergeField (m : AesCtrHmacStreamingKeyFormat) (f : Field) : Option AesCtrHmacStreamingKeyFormat :=
  match f.num, f.val with
  | 1, .len b => (AesCtrHmacStreamingParams.merge m.getParams b).map fun x => { m with params := some x }
  | 2, .varint v => some { m with keySize := UInt32.ofNat v }
  | 3, .varint v => some { m with version := UInt32.ofNat v }
  | _, _ => some m

/-- Merging serialized bytes into a `AesCtrHmacStreamingKeyFormat`. -/
def AesCtrHmacStreamingKeyFormat.merge (m : AesCtrHmacStreamingKeyFormat) (b : Bytes) : Option AesCtrHmacStreamingKeyFormat :=
  match parseFields b with
  | none => none
  | some fs => fs.foldlM AesCtrHmacStreamingKeyFormat.mergeField m

def AesCtrHmacStreamingKeyFormat.serializeToString (m : AesCtrHmacStreamingKeyFormat) : Py Bytes := serializeFields m.fields
def AesCtrHmacStreamingKeyFormat.fromString (b : Bytes) : Py AesCtrHmacStreamingKeyFormat := ofMerge (AesCtrHmacStreamingKeyFormat.merge {} b)

/-- `message AesCtrHmacStreamingKey`, `aes_ctr_hmac_streaming.proto:42-46`. -/
structure AesCtrHmacStreamingKey where
  version : UInt32 := 0
  params : Option AesCtrHmacStreamingParams := none
  keyValue : Bytes := []
  deriving DecidableEq, Repr, Inhabited

/-- Reading `params` when it is absent yields the default message. -/
def AesCtrHmacStreamingKey.getParams (m : AesCtrHmacStreamingKey) : AesCtrHmacStreamingParams := m.params.getD {}

/-- Fields of `AesCtrHmacStreamingKey` in wire order. -/
def AesCtrHmacStreamingKey.fields (m : AesCtrHmacStreamingKey) : List Field :=
  uint32Field 1 m.version ++
  msgField 2 (m.params.map AesCtrHmacStreamingParams.fields) ++
  bytesField 3 m.keyValue

/-- Merging one field into a `AesCtrHmacStreamingKey`. -/
def AesCtrHmacStreamingKey.mergeField (m : AesCtrHmacStreamingKey) (f : Field) : Option AesCtrHmacStreamingKey :=
  match f.num, f.val with
  | 1, .varint v => some { m with version := UInt32.ofNat v }
  | 2, .len b => (AesCtrHmacStreamingParams.merge m.getParams b).map fun x => { m with params := some x }
  | 3, .len b => some { m with keyValue := b }
  | _, _ => some m

/-- Merging serialized bytes into a `AesCtrHmacStreamingKey`. -/
def AesCtrHmacStreamingKey.merge (m : AesCtrHmacStreamingKey) (b : Bytes) : Option AesCtrHmacStreamingKey :=
  match parseFields b with
  | none => none
  | some fs => fs.foldlM AesCtrHmacStreamingKey.mergeField m

def AesCtrHmacStreamingKey.serializeToString (m : AesCtrHmacStreamingKey) : Py Bytes := serializeFields m.fields
def AesCtrHmacStreamingKey.fromString (b : Bytes) : Py AesCtrHmacStreamingKey := ofMerge (AesCtrHmacStreamingKey.merge {} b)

/-- `message JwtHmacKey.CustomKid`, `jwt_hmac.proto:41-43`. -/
structure JwtHmacKey.CustomKid where
  value : PStr := []
  deriving DecidableEq, Repr, Inhabited

/-- Fields of `JwtHmacKey.CustomKid` in wire order. -/
def JwtHmacKey.CustomKid.fields (m : JwtHmacKey.CustomKid) : List Field :=
  strField 1 m.value

/-- Merging one field into a `JwtHmacKey.CustomKid`. -/
def JwtHmacKey.CustomKid.mergeField (m : JwtHmacKey.CustomKid) (f : Field) : Option JwtHmacKey.CustomKid :=
  match f.num, f.val with
  | 1, .len b => (pstrDecode? b).map fun x => { m with value := x }
  | _, _ => some m

/-- Merging serialized bytes into a `JwtHmacKey.CustomKid`. -/
def JwtHmacKey.CustomKid.merge (m : JwtHmacKey.CustomKid) (b : Bytes) : Option JwtHmacKey.CustomKid :=
  match parseFields b with
  | none => none
  | some fs => fs.foldlM JwtHmacKey.CustomKid.mergeField m

def JwtHmacKey.CustomKid.serializeToString (m : JwtHmacKey.CustomKid) : Py Bytes := serializeFields m.fields
def JwtHmacKey.CustomKid.fromString (b : Bytes) : Py JwtHmacKey.CustomKid := ofMerge (JwtHmacKey.CustomKid.merge {} b)

/-- `message JwtHmacKey`, `jwt_hmac.proto:34-45`. -/
structure JwtHmacKey where
  version : UInt32 := 0
  algorithm : EnumVal := 0
  keyValue : Bytes := []
  customKid : Option JwtHmacKey.CustomKid := none
  deriving DecidableEq, Repr, Inhabited

/-- Reading `customKid` when it is absent yields the default message. -/
def JwtHmacKey.getCustomKid (m : JwtHmacKey) : JwtHmacKey.CustomKid := m.customKid.getD {}

/-- Fields of `JwtHmacKey` in wire order. -/
def JwtHmacKey.fields (m : JwtHmacKey) : List Field :=
  uint32Field 1 m.version ++
  enumField 2 m.algorithm ++
  bytesField 3 m.keyValue ++
  msgField 4 (m.customKid.map JwtHmacKey.CustomKid.fields)

/-- Merging one field into a `JwtHmacKey`. -/
def JwtHmacKey.mergeField (m : JwtHmacKey) (f : Field) : Option JwtHmacKey :=
  match f.num, f.val with
  | 1, .varint v => some { m with version := UInt32.ofNat v }
  | 2, .varint v => some { m with algorithm := UInt32.ofNat v }
  | 3, .len b => some { m with keyValue := b }
  | 4, .len b => (JwtHmacKey.CustomKid.merge m.getCustomKid b).map fun x => { m with customKid := some x }
  | _, _ => some m

/-- Merging serialized bytes into a `JwtHmacKey`. -/
def JwtHmacKey.merge (m : JwtHmacKey) (b : Bytes) : Option JwtHmacKey :=
  match parseFields b with
  | none => none
  | some fs => fs.foldlM JwtHmacKey.mergeField m

def JwtHmacKey.serializeToString (m : JwtHmacKey) : Py Bytes := serializeFields m.fields
def JwtHmacKey.fromString (b : Bytes) : Py JwtHmacKey := ofMerge (JwtHmacKey.merge {} b)

/-- `message JwtHmacKeyFormat`, `jwt_hmac.proto:47-51`. -/
structure JwtHmacKeyFormat where
  version : UInt32 := 0
  algorithm : EnumVal := 0
  keySize : UInt32 := 0
  deriving DecidableEq, Repr, Inhabited

/-- Fields of `JwtHmacKeyFormat` in wire order. -/
def JwtHmacKeyFormat.fields (m : JwtHmacKeyFormat) : List Field :=
  uint32Field 1 m.version ++
  enumField 2 m.algorithm ++
  uint32Field 3 m.keySize

/-- Merging one field into a `JwtHmacKeyFormat`. -/
def JwtHmacKeyFormat.mergeField (m : JwtHmacKeyFormat) (f : Field) : Option JwtHmacKeyFormat :=
  match f.num, f.val with
  | 1, .varint v => some { m with version := UInt32.ofNat v }
  | 2, .varint v => some { m with algorithm := UInt32.ofNat v }
  | 3, .varint v => some { m with keySize := UInt32.ofNat v }
  | _, _ => some m

/-- Merging serialized bytes into a `JwtHmacKeyFormat`. -/
def JwtHmacKeyFormat.merge (m : JwtHmacKeyFormat) (b : Bytes) : Option JwtHmacKeyFormat :=
  match parseFields b with
  | none => none
  | some fs => fs.foldlM JwtHmacKeyFormat.mergeField m

def JwtHmacKeyFormat.serializeToString (m : JwtHmacKeyFormat) : Py Bytes := serializeFields m.fields
def JwtHmacKeyFormat.fromString (b : Bytes) : Py JwtHmacKeyFormat := ofMerge (JwtHmacKeyFormat.merge {} b)

/-- `message JwtEcdsaPublicKey.CustomKid`, `jwt_ecdsa.proto:44-46`. -/
structure JwtEcdsaPublicKey.CustomKid where
  value : PStr := []
  deriving DecidableEq, Repr, Inhabited

/-- Fields of `JwtEcdsaPublicKey.CustomKid` in wire order. -/
def JwtEcdsaPublicKey.CustomKid.fields (m : JwtEcdsaPublicKey.CustomKid) : List Field :=
  strField 1 m.value

/-- Merging one field into a `JwtEcdsaPublicKey.CustomKid`. -/
def JwtEcdsaPublicKey.CustomKid.mergeField (m : JwtEcdsaPublicKey.CustomKid) (f : Field) : Option JwtEcdsaPublicKey.CustomKid :=
  match f.num, f.val with
  | 1, .len b => (pstrDecode? b).map fun x => { m with value := x }
  | _, _ => some m

/-- Merging serialized bytes into a `JwtEcdsaPublicKey.CustomKid`. -/
def JwtEcdsaPublicKey.CustomKid.merge (m : JwtEcdsaPublicKey.CustomKid) (b : Bytes) : Option JwtEcdsaPublicKey.CustomKid :=
  match parseFields b with
  | none => none
  | some fs => fs.foldlM JwtEcdsaPublicKey.CustomKid.mergeField m

def JwtEcdsaPublicKey.CustomKid.serializeToString (m : JwtEcdsaPublicKey.CustomKid) : Py Bytes := serializeFields m.fields
def JwtEcdsaPublicKey.CustomKid.fromString (b : Bytes) : Py JwtEcdsaPublicKey.CustomKid := ofMerge (JwtEcdsaPublicKey.CustomKid.merge {} b)

/-- `message JwtEcdsaPublicKey`, `jwt_ecdsa.proto:34-48`. -/
structure JwtEcdsaPublicKey where
  version : UInt32 := 0
  algorithm : EnumVal := 0
  x : Bytes := []
  y : Bytes := []
  customKid : Option JwtEcdsaPublicKey.CustomKid := none
  deriving DecidableEq, Repr, Inhabited

/-- Reading `customKid` when it is absent yields the default message. -/
def JwtEcdsaPublicKey.getCustomKid (m : JwtEcdsaPublicKey) : JwtEcdsaPublicKey.CustomKid := m.customKid.getD {}

/-- Fields of `JwtEcdsaPublicKey` in wire order. -/
def JwtEcdsaPublicKey.fields (m : JwtEcdsaPublicKey) : List Field :=
  uint32Field 1 m.version ++
  enumField 2 m.algorithm ++
  bytesField 3 m.x ++
  bytesField 4 m.y ++
  msgField 5 (m.customKid.map JwtEcdsaPublicKey.CustomKid.fields)

/-- Merging one field into a `JwtEcdsaPublicKey`. -/
def JwtEcdsaPublicKey.mergeField (m : JwtEcdsaPublicKey) (f : Field) : Option JwtEcdsaPublicKey :=
  match f.num, f.val with
  | 1, .varint v => some { m with version := UInt32.ofNat v }
  | 2, .varint v => some { m with algorithm := UInt32.ofNat v }
  | 3, .len b => some { m with x := b }
  | 4, .len b => some { m with y := b }
  | 5, .len b => (JwtEcdsaPublicKey.CustomKid.merge m.getCustomKid b).map fun x => { m with customKid := some x }
  | _, _ => some m

/-- Merging serialized bytes into a `JwtEcdsaPublicKey`. -/
def JwtEcdsaPublicKey.merge (m : JwtEcdsaPublicKey) (b : Bytes) : Option JwtEcdsaPublicKey :=
  match parseFields b with
  | none => none
  | some fs => fs.foldlM JwtEcdsaPublicKey.mergeField m

def JwtEcdsaPublicKey.serializeToString (m : JwtEcdsaPublicKey) : Py Bytes := serializeFields m.fields
def JwtEcdsaPublicKey.fromString (b : Bytes) : Py JwtEcdsaPublicKey := ofMerge (JwtEcdsaPublicKey.merge {} b)

/-- `message JwtEcdsaPrivateKey`, `jwt_ecdsa.proto:51-56`. -/
structure JwtEcdsaPrivateKey where
  version : UInt32 := 0
  publicKey : Option JwtEcdsaPublicKey := none
  keyValue : Bytes := []
  deriving DecidableEq, Repr, Inhabited

/-- Reading `publicKey` when it is absent yields the default message. -/
def JwtEcdsaPrivateKey.getPublicKey (m : JwtEcdsaPrivateKey) : JwtEcdsaPublicKey := m.publicKey.getD {}

/-- Fields of `JwtEcdsaPrivateKey` in wire order. -/
def JwtEcdsaPrivateKey.fields (m : JwtEcdsaPrivateKey) : List Field :=
  uint32Field 1 m.version ++
  msgField 2 (m.publicKey.map JwtEcdsaPublicKey.fields) ++
  bytesField 3 m.keyValue

/-- Merging one field into a `JwtEcdsaPrivateKey`. -/
def JwtEcdsaPrivateKey.mergeField (m : JwtEcdsaPrivateKey) (f : Field) : Option JwtEcdsaPrivateKey :=
  match f.num, f.val with
  | 1, .varint v => some { m with version := UInt32.ofNat v }
  | 2, .len b => (JwtEcdsaPublicKey.merge m.getPublicKey b).map fun x => { m with publicKey := some x }
  | 3, .len b => some { m with keyValue := b }
  | _, _ => some m

/-- Merging serialized bytes into a `JwtEcdsaPrivateKey`. -/
def JwtEcdsaPrivateKey.merge (m : JwtEcdsaPrivateKey) (b : Bytes) : Option JwtEcdsaPrivateKey :=
  match parseFields b with
  | none => none
  | some fs => fs.foldlM JwtEcdsaPrivateKey.mergeField m

def JwtEcdsaPrivateKey.serializeToString (m : JwtEcdsaPrivateKey) : Py Bytes := serializeFields m.fields
def JwtEcdsaPrivateKey.fromString (b : Bytes) : Py JwtEcdsaPrivateKey := ofMerge (JwtEcdsaPrivateKey.merge {} b)

/-- `message JwtEcdsaKeyFormat`, `jwt_ecdsa.proto:58-61`. -/
structure JwtEcdsaKeyFormat where
  version : UInt32 := 0
  algorithm : EnumVal := 0
  deriving DecidableEq, Repr, Inhabited

/-- Fields of `JwtEcdsaKeyFormat` in wire order. -/
def JwtEcdsaKeyFormat.fields (m : JwtEcdsaKeyFormat) : List Field :=
  uint32Field 1 m.version ++
  enumField 2 m.algorithm

/-- Merging one field into a `JwtEcdsaKeyFormat`. -/
def JwtEcdsaKeyFormat.mergeField (m : JwtEcdsaKeyFormat) (f : Field) : Option JwtEcdsaKeyFormat :=
  match f.num, f.val with
  | 1, .varint v => some { m with version := UInt32.ofNat v }
  | 2, .varint v => some { m with algorithm := UInt32.ofNat v }
  | _, _ => some m

/-- Merging serialized bytes into a `JwtEcdsaKeyFormat`. -/
def JwtEcdsaKeyFormat.merge (m : JwtEcdsaKeyFormat) (b : Bytes) : Option JwtEcdsaKeyFormat :=
  match parseFields b with
  | none => none
  | some fs => fs.foldlM JwtEcdsaKeyFormat.mergeField m

def JwtEcdsaKeyFormat.serializeToString (m : JwtEcdsaKeyFormat) : Py Bytes := serializeFields m.fields
def JwtEcdsaKeyFormat.fromString (b : Bytes) : Py JwtEcdsaKeyFormat := ofMerge (JwtEcdsaKeyFormat.merge {} b)

/-- `message JwtRsaSsaPkcs1PublicKey.CustomKid`, `jwt_rsa_ssa_pkcs1.proto:46-48`. -/
structure JwtRsaSsaPkcs1PublicKey.CustomKid where
  value : PStr := []
  deriving DecidableEq, Repr, Inhabited

/-- Fields of `JwtRsaSsaPkcs1PublicKey.CustomKid` in wire order. -/
def JwtRsaSsaPkcs1PublicKey.CustomKid.fields (m : JwtRsaSsaPkcs1PublicKey.CustomKid) : List Field :=
  strField 1 m.value

/-- Merging one field into a `JwtRsaSsaPkcs1PublicKey.CustomKid`. -/
def JwtRsaSsaPkcs1PublicKey.CustomKid.mergeField (m : JwtRsaSsaPkcs1PublicKey.CustomKid) (f : Field) : Option JwtRsaSsaPkcs1PublicKey.CustomKid :=
  match f.num, f.val with
  | 1, .len b => (pstrDecode? b).map fun x => { m with value := x }
  | _, _ => some m

/-- Merging serialized bytes into a `JwtRsaSsaPkcs1PublicKey.CustomKid`. -/
def JwtRsaSsaPkcs1PublicKey.CustomKid.merge (m : JwtRsaSsaPkcs1PublicKey.CustomKid) (b : Bytes) : Option JwtRsaSsaPkcs1PublicKey.CustomKid :=
  match parseFields b with
  | none => none
  | some fs => fs.foldlM JwtRsaSsaPkcs1PublicKey.CustomKid.mergeField m

def JwtRsaSsaPkcs1PublicKey.CustomKid.serializeToString (m : JwtRsaSsaPkcs1PublicKey.CustomKid) : Py Bytes := serializeFields m.fields
def JwtRsaSsaPkcs1PublicKey.CustomKid.fromString (b : Bytes) : Py JwtRsaSsaPkcs1PublicKey.CustomKid := ofMerge (JwtRsaSsaPkcs1PublicKey.CustomKid.merge {} b)

/-- `message JwtRsaSsaPkcs1PublicKey`, `jwt_rsa_ssa_pkcs1.proto:34-50`. -/
structure JwtRsaSsaPkcs1PublicKey where
  version : UInt32 := 0
  algorithm : EnumVal := 0
  n : Bytes := []
  e : Bytes := []
  customKid : Option JwtRsaSsaPkcs1PublicKey.CustomKid := none
  deriving DecidableEq, Repr, Inhabited

/-- Reading `customKid` when it is absent yields the default message. -/
def JwtRsaSsaPkcs1PublicKey.getCustomKid (m : JwtRsaSsaPkcs1PublicKey) : JwtRsaSsaPkcs1PublicKey.CustomKid := m.customKid.getD {}

/-- Fields of `JwtRsaSsaPkcs1PublicKey` in wire order. -/
def JwtRsaSsaPkcs1PublicKey.fields (m : JwtRsaSsaPkcs1PublicKey) : List Field :=
  uint32Field 1 m.version ++
  enumField 2 m.algorithm ++
  bytesField 3 m.n ++
  bytesField 4 m.e ++
  msgField 5 (m.customKid.map JwtRsaSsaPkcs1PublicKey.CustomKid.fields)

/-- Merging one field into a `JwtRsaSsaPkcs1PublicKey`. -/
def JwtRsaSsaPkcs1PublicKey.mergeField (m : JwtRsaSsaPkcs1PublicKey) (f : Field) : Option JwtRsaSsaPkcs1PublicKey :=
  match f.num, f.val with
  | 1, .varint v => some { m with version := UInt32.ofNat v }
  | 2, .varint v => some { m with algorithm := UInt32.ofNat v }
  | 3, .len b => some { m with n := b }
  | 4, .len b => some { m with e := b }
  | 5, .len b => (JwtRsaSsaPkcs1PublicKey.CustomKid.merge m.getCustomKid b).map fun x => { m with customKid := some x }
  | _, _ => some m

/-- Merging serialized bytes into a `JwtRsaSsaPkcs1PublicKey`. -/
def JwtRsaSsaPkcs1PublicKey.merge (m : JwtRsaSsaPkcs1PublicKey) (b : Bytes) : Option JwtRsaSsaPkcs1PublicKey :=
  match parseFields b with
  | none => none
  | some fs => fs.foldlM JwtRsaSsaPkcs1PublicKey.mergeField m

def JwtRsaSsaPkcs1PublicKey.serializeToString (m : JwtRsaSsaPkcs1PublicKey) : Py Bytes := serializeFields m.fields
def JwtRsaSsaPkcs1PublicKey.fromString (b : Bytes) : Py JwtRsaSsaPkcs1PublicKey := ofMerge (JwtRsaSsaPkcs1PublicKey.merge {} b)

/-- `message JwtRsaSsaPkcs1PrivateKey`, `jwt_rsa_ssa_pkcs1.proto:53-76`. -/
structure JwtRsaSsaPkcs1PrivateKey where
  version : UInt32 := 0
  publicKey : Option JwtRsaSsaPkcs1PublicKey := none
  d : Bytes := []
  p : Bytes := []
  q : Bytes := []
  dp : Bytes := []
  dq : Bytes := []
  crt : Bytes := []
  deriving DecidableEq, Repr, Inhabited

/-- Reading `publicKey` when it is absent yields the default message. -/
def JwtRsaSsaPkcs1PrivateKey.getPublicKey (m : JwtRsaSsaPkcs1PrivateKey) : JwtRsaSsaPkcs1PublicKey := m.publicKey.getD {}

/-- Fields of `JwtRsaSsaPkcs1PrivateKey` in wire order. -/
def JwtRsaSsaPkcs1PrivateKey.fields (m : JwtRsaSsaPkcs1PrivateKey) : List Field :=
  uint32Field 1 m.version ++
  msgField 2 (m.publicKey.map JwtRsaSsaPkcs1PublicKey.fields) ++
  bytesField 3 m.d ++
  bytesField 4 m.p ++
  bytesField 5 m.q ++
  bytesField 6 m.dp ++
  bytesField 7 m.dq ++
  bytesField 8 m.crt

/-- Merging one field into a `JwtRsaSsaPkcs1PrivateKey`. -/
def JwtRsaSsaPkcs1PrivateKey.mergeField (m : JwtRsaSsaPkcs1PrivateKey) (f : Field) : Option JwtRsaSsaPkcs1PrivateKey :=
  match f.num, f.val with
  | 1, .varint v => some { m with version := UInt32.ofNat v }
  | 2, .len b => (JwtRsaSsaPkcs1PublicKey.merge m.getPublicKey b).map fun x => { m with publicKey := some x }
  | 3, .len b => some { m with d := b }
  | 4, .len b => some { m with p := b }
  | 5, .len b => some { m with q := b }
  | 6, .len b => some { m with dp := b }
  | 7, .len b => some { m with dq := b }
  | 8, .len b => some { m with crt := b }
  | _, _ => some m

/-- Merging serialized bytes into a `JwtRsaSsaPkcs1PrivateKey`. -/
def JwtRsaSsaPkcs1PrivateKey.merge (m : JwtRsaSsaPkcs1PrivateKey) (b : Bytes) : Option JwtRsaSsaPkcs1PrivateKey :=
  match parseFields b with
  | none => none
  | some fs => fs.foldlM JwtRsaSsaPkcs1PrivateKey.mergeField m

def JwtRsaSsaPkcs1PrivateKey.serializeToString (m : JwtRsaSsaPkcs1PrivateKey) : Py Bytes := serializeFields m.fields
def JwtRsaSsaPkcs1PrivateKey.fromString (b : Bytes) : Py JwtRsaSsaPkcs1PrivateKey := ofMerge (JwtRsaSsaPkcs1PrivateKey.merge {} b)

/-- `message JwtRsaSsaPkcs1KeyFormat`, `jwt_rsa_ssa_pkcs1.proto:78-83`. -/
structure JwtRsaSsaPkcs1KeyFormat where
  version : UInt32 := 0
  algorithm : EnumVal := 0
  modulusSizeInBits : UInt32 := 0
  publicExponent : Bytes := []
  deriving DecidableEq, Repr, Inhabited

/-- Fields of `JwtRsaSsaPkcs1KeyFormat` in wire order. -/
def JwtRsaSsaPkcs1KeyFormat.fields (m : JwtRsaSsaPkcs1KeyFormat) : List Field :=
  uint32Field 1 m.version ++
  enumField 2 m.algorithm ++
  uint32Field 3 m.modulusSizeInBits ++
  bytesField 4 m.publicExponent

/-- Merging one field into a `JwtRsaSsaPkcs1KeyFormat`. -/
def JwtRsaSsaPkcs1KeyFormat.mergeField (m : JwtRsaSsaPkcs1KeyFormat) (f : Field) : Option JwtRsaSsaPkcs1KeyFormat :=
  match f.num, f.val with
  | 1, .varint v => some { m with version := UInt32.ofNat v }
  | 2, .varint v => some { m with algorithm := UInt32.ofNat v }
  | 3, .varint v => some { m with modulusSizeInBits := UInt32.ofNat v }
  | 4, .len b => some { m with publicExponent := b }
  | _, _ => some m

/-- Merging serialized bytes into a `JwtRsaSsaPkcs1KeyFormat`. -/
def JwtRsaSsaPkcs1KeyFormat.merge (m : JwtRsaSsaPkcs1KeyFormat) (b : Bytes) : Option JwtRsaSsaPkcs1KeyFormat :=
  match parseFields b with
  | none => none
  | some fs => fs.foldlM JwtRsaSsaPkcs1KeyFormat.mergeField m

def JwtRsaSsaPkcs1KeyFormat.serializeToString (m : JwtRsaSsaPkcs1KeyFormat) : Py Bytes := serializeFields m.fields
def JwtRsaSsaPkcs1KeyFormat.fromString (b : Bytes) : Py JwtRsaSsaPkcs1KeyFormat := ofMerge (JwtRsaSsaPkcs1KeyFormat.merge {} b)

/-- `message JwtRsaSsaPssPublicKey.CustomKid`, `jwt_rsa_ssa_pss.proto:46-48`. -/
structure JwtRsaSsaPssPublicKey.CustomKid where
  value : PStr := []
  deriving DecidableEq, Repr, Inhabited

/-- Fields of `JwtRsaSsaPssPublicKey.CustomKid` in wire order. -/
def JwtRsaSsaPssPublicKey.CustomKid.fields (m : JwtRsaSsaPssPublicKey.CustomKid) : List Field :=
  strField 1 m.value

/-- Merging one field into a `JwtRsaSsaPssPublicKey.CustomKid`. -/
def JwtRsaSsaPssPublicKey.CustomKid.mergeField (m : JwtRsaSsaPssPublicKey.CustomKid) (f : Field) : Option JwtRsaSsaPssPublicKey.CustomKid :=
  match f.num, f.val with
  | 1, .len b => (pstrDecode? b).map fun x => { m with value := x }
  | _, _ => some m

/-- Merging serialized bytes into a `JwtRsaSsaPssPublicKey.CustomKid`. -/
def JwtRsaSsaPssPublicKey.CustomKid.merge (m : JwtRsaSsaPssPublicKey.CustomKid) (b : Bytes) : Option JwtRsaSsaPssPublicKey.CustomKid :=
  match parseFields b with
  | none => none
  | some fs => fs.foldlM JwtRsaSsaPssPublicKey.CustomKid.mergeField m

def JwtRsaSsaPssPublicKey.CustomKid.serializeToString (m : JwtRsaSsaPssPublicKey.CustomKid) : Py Bytes := serializeFields m.fields
def JwtRsaSsaPssPublicKey.CustomKid.fromString (b : Bytes) : Py JwtRsaSsaPssPublicKey.CustomKid := ofMerge (JwtRsaSsaPssPublicKey.CustomKid.merge {} b)

/-- `message JwtRsaSsaPssPublicKey`, `jwt_rsa_ssa_pss.proto:34-50`. -/
structure JwtRsaSsaPssPublicKey where
  version : UInt32 := 0
  algorithm : EnumVal := 0
  n : Bytes := []
  e : Bytes := []
  customKid : Option JwtRsaSsaPssPublicKey.CustomKid := none
  deriving DecidableEq, Repr, Inhabited

/-- Reading `customKid` when it is absent yields the default message. -/
def JwtRsaSsaPssPublicKey.getCustomKid (m : JwtRsaSsaPssPublicKey) : JwtRsaSsaPssPublicKey.CustomKid := m.customKid.getD {}

/-- Fields of `JwtRsaSsaPssPublicKey` in wire order. -/
def JwtRsaSsaPssPublicKey.fields (m : JwtRsaSsaPssPublicKey) : List Field :=
  uint32Field 1 m.version ++
  enumField 2 m.algorithm ++
  bytesField 3 m.n ++
  bytesField 4 m.e ++
  msgField 5 (m.customKid.map JwtRsaSsaPssPublicKey.CustomKid.fields)

/-- Merging one field into a `JwtRsaSsaPssPublicKey`. -/
def JwtRsaSsaPssPublicKey.mergeField (m : JwtRsaSsaPssPublicKey) (f : Field) : Option JwtRsaSsaPssPublicKey :=
  match f.num, f.val with
  | 1, .varint v => some { m with version := UInt32.ofNat v }
  | 2, .varint v => some { m with algorithm := UInt32.ofNat v }
  | 3, .len b => some { m with n := b }
  | 4, .len b => some { m with e := b }
  | 5, .len b => (JwtRsaSsaPssPublicKey.CustomKid.merge m.getCustomKid b).map fun x => { m with customKid := some x }
  | _, _ => some m

/-- Merging serialized bytes into a `JwtRsaSsaPssPublicKey`. -/
def JwtRsaSsaPssPublicKey.merge (m : JwtRsaSsaPssPublicKey) (b : Bytes) : Option JwtRsaSsaPssPublicKey :=
  match parseFields b with
  | none => none
  | some fs => fs.foldlM JwtRsaSsaPssPublicKey.mergeField m

def JwtRsaSsaPssPublicKey.serializeToString (m : JwtRsaSsaPssPublicKey) : Py Bytes := serializeFields m.fields
def JwtRsaSsaPssPublicKey.fromString (b : Bytes) : Py JwtRsaSsaPssPublicKey := ofMerge (JwtRsaSsaPssPublicKey.merge {} b)

/-- `message JwtRsaSsaPssPrivateKey`, `jwt_rsa_ssa_pss.proto:53-76`. -/
structure JwtRsaSsaPssPrivateKey where
  version : UInt32 := 0
  publicKey : Option JwtRsaSsaPssPublicKey := none
  d : Bytes := []
  p : Bytes := []
  q : Bytes := []
  dp : Bytes := []
  dq : Bytes := []
  crt : Bytes := []
  deriving DecidableEq, Repr, Inhabited

/-- Reading `publicKey` when it is absent yields the default message. -/
def JwtRsaSsaPssPrivateKey.getPublicKey (m : JwtRsaSsaPssPrivateKey) : JwtRsaSsaPssPublicKey := m.publicKey.getD {}

/-- Fields of `JwtRsaSsaPssPrivateKey` in wire order. -/
def JwtRsaSsaPssPrivateKey.fields (m : JwtRsaSsaPssPrivateKey) : List Field :=
  uint32Field 1 m.version ++
  msgField 2 (m.publicKey.map JwtRsaSsaPssPublicKey.fields) ++
  bytesField 3 m.d ++
  bytesField 4 m.p ++
  bytesField 5 m.q ++
  bytesField 6 m.dp ++
  bytesField 7 m.dq ++
  bytesField 8 m.crt

/-- Merging one field into a `JwtRsaSsaPssPrivateKey`. -/
def JwtRsaSsaPssPrivateKey.mergeField (m : JwtRsaSsaPssPrivateKey) (f : Field) : Option JwtRsaSsaPssPrivateKey :=
  match f.num, f.val with
  | 1, .varint v => some { m with version := UInt32.ofNat v }
  | 2, .len b => (JwtRsaSsaPssPublicKey.merge m.getPublicKey b).map fun x => { m with publicKey := some x }
  | 3, .len b => some { m with d := b }
  | 4, .len b => some { m with p := b }
  | 5, .len b => some { m with q := b }
  | 6, .len b => some { m with dp := b }
  | 7, .len b => some { m with dq := b }
  | 8, .len b => some { m with crt := b }
  | _, _ => some m

/-- Merging serialized bytes into a `JwtRsaSsaPssPrivateKey`. -/
def JwtRsaSsaPssPrivateKey.merge (m : JwtRsaSsaPssPrivateKey) (b : Bytes) : Option JwtRsaSsaPssPrivateKey :=
  match parseFields b with
  | none => none
  | some fs => fs.foldlM JwtRsaSsaPssPrivateKey.mergeField m

def JwtRsaSsaPssPrivateKey.serializeToString (m : JwtRsaSsaPssPrivateKey) : Py Bytes := serializeFields m.fields
def JwtRsaSsaPssPrivateKey.fromString (b : Bytes) : Py JwtRsaSsaPssPrivateKey := ofMerge (JwtRsaSsaPssPrivateKey.merge {} b)

/-- `message JwtRsaSsaPssKeyFormat`, `jwt_rsa_ssa_pss.proto:78-83`. -/
structure JwtRsaSsaPssKeyFormat where
  version : UInt32 := 0
  algorithm : EnumVal := 0
  modulusSizeInBits : UInt32 := 0
  publicExponent : Bytes := []
  deriving DecidableEq, Repr, Inhabited

/-- Fields of `JwtRsaSsaPssKeyFormat` in wire order. -/
def JwtRsaSsaPssKeyFormat.fields (m : JwtRsaSsaPssKeyFormat) : List Field :=
  uint32Field 1 m.version ++
  enumField 2 m.algorithm ++
  uint32Field 3 m.modulusSizeInBits ++
  bytesField 4 m.publicExponent

/-- Merging one field into a `JwtRsaSsaPssKeyFormat`. -/
def JwtRsaSsaPssKeyFormat.mergeField (m : JwtRsaSsaPssKeyFormat) (f : Field) : Option JwtRsaSsaPssKeyFormat :=
  match f.num, f.val with
  | 1, .varint v => some { m with version := UInt32.ofNat v }
  | 2, .varint v => some { m with algorithm := UInt32.ofNat v }
  | 3, .varint v => some { m with modulusSizeInBits := UInt32.ofNat v }
  | 4, .len b => some { m with publicExponent := b }
  | _, _ => some m

/-- Merging serialized bytes into a `JwtRsaSsaPssKeyFormat`. -/
def JwtRsaSsaPssKeyFormat.merge (m : JwtRsaSsaPssKeyFormat) (b : Bytes) : Option JwtRsaSsaPssKeyFormat :=
  match parseFields b with
  | none => none
  | some fs => fs.foldlM JwtRsaSsaPssKeyFormat.mergeField m

def JwtRsaSsaPssKeyFormat.serializeToString (m : JwtRsaSsaPssKeyFormat) : Py Bytes := serializeFields m.fields
def JwtRsaSsaPssKeyFormat.fromString (b : Bytes) : Py JwtRsaSsaPssKeyFormat := ofMerge (JwtRsaSsaPssKeyFormat.merge {} b)

/-- `message AesGcmKey`, `aes_gcm.proto:64-67`. -/
structure AesGcmKey where
  version : UInt32 := 0
  keyValue : Bytes := []
  deriving DecidableEq, Repr, Inhabited

/-- Fields of `AesGcmKey` in wire order. -/
def AesGcmKey.fields (m : AesGcmKey) : List Field :=
  uint32Field 1 m.version ++
  bytesField 3 m.keyValue

/-- Merging one field into a `AesGcmKey`. -/
def AesGcmKey.mergeField (m : AesGcmKey) (f : Field) : Option AesGcmKey :=
  match f.num, f.val with
  | 1, .varint v => some { m with version := UInt32.ofNat v }
  | 3, .len b => some { m with keyValue := b }
  | _, _ => some m

/-- Merging serialized bytes into a `AesGcmKey`. -/
def AesGcmKey.merge (m : AesGcmKey) (b : Bytes) : Option AesGcmKey :=
  match parseFields b with
  | none => none
  | some fs => fs.foldlM AesGcmKey.mergeField m

def AesGcmKey.serializeToString (m : AesGcmKey) : Py Bytes := serializeFields m.fields
def AesGcmKey.fromString (b : Bytes) : Py AesGcmKey := ofMerge (AesGcmKey.merge {} b)

/-- `message AesGcmSivKey`, `aes_gcm_siv.proto:33-36`. -/
structure AesGcmSivKey where
  version : UInt32 := 0
  keyValue : Bytes := []
  deriving DecidableEq, Repr, Inhabited

/-- Fields of `AesGcmSivKey` in wire order. -/
def AesGcmSivKey.fields (m : AesGcmSivKey) : List Field :=
  uint32Field 1 m.version ++
  bytesField 3 m.keyValue

/-- Merging one field into a `AesGcmSivKey`. -/
def AesGcmSivKey.mergeField (m : AesGcmSivKey) (f : Field) : Option AesGcmSivKey :=
  match f.num, f.val with
  | 1, .varint v => some { m with version := UInt32.ofNat v }
  | 3, .len b => some { m with keyValue := b }
  | _, _ => some m

/-- Merging serialized bytes into a `AesGcmSivKey`. -/
def AesGcmSivKey.merge (m : AesGcmSivKey) (b : Bytes) : Option AesGcmSivKey :=
  match parseFields b with
  | none => none
  | some fs => fs.foldlM AesGcmSivKey.mergeField m

def AesGcmSivKey.serializeToString (m : AesGcmSivKey) : Py Bytes := serializeFields m.fields
def AesGcmSivKey.fromString (b : Bytes) : Py AesGcmSivKey := ofMerge (AesGcmSivKey.merge {} b)

/-- `message AesEaxKey`, `aes_eax.proto:37-41`. -/
structure AesEaxKey where
  version : UInt32 := 0
  params : Option AesEaxParams := none
  keyValue : Bytes := []
  deriving DecidableEq, Repr, Inhabited

/-- Reading `params` when it is absent yields the default message. -/
def AesEaxKey.getParams (m : AesEaxKey) : AesEaxParams := m.params.getD {}

/-- Fields of `AesEaxKey` in wire order. -/
def AesEaxKey.fields (m : AesEaxKey) : List Field :=
  uint32Field 1 m.version ++
  msgField 2 (m.params.map AesEaxParams.fields) ++
  bytesField 3 m.keyValue

/-- Merging one field into a `AesEaxKey`. -/
def AesEaxKey.mergeField (m : AesEaxKey) (f : Field) : Option AesEaxKey :=
  match f.num, f.val with
  | 1, .varint v => some { m with version := UInt32.ofNat v }
  | 2, .len b => (AesEaxParams.merge m.getParams b).map fun x => { m with params := some x }
  | 3, .len b => some { m with keyValue := b }
  | _, _ => some m

/-- Merging serialized bytes into a `AesEaxKey`. -/
def AesEaxKey.merge (m : AesEaxKey) (b : Bytes) : Option AesEaxKey :=
  match parseFields b with
  | none => none
  | some fs => fs.foldlM AesEaxKey.mergeField m

def AesEaxKey.serializeToString (m : AesEaxKey) : Py Bytes := serializeFields m.fields
def AesEaxKey.fromString (b : Bytes) : Py AesEaxKey := ofMerge (AesEaxKey.merge {} b)

/-- `message XChaCha20Poly1305KeyFormat`, `xchacha20_poly1305.proto:25-27`. -/
structure XChaCha20Poly1305KeyFormat where
  version : UInt32 := 0
  deriving DecidableEq, Repr, Inhabited

/-- Fields of `XChaCha20Poly1305KeyFormat` in wire order. -/
def XChaCha20Poly1305KeyFormat.fields (m : XChaCha20Poly1305KeyFormat) : List Field :=
  uint32Field 1 m.version

/-- Merging one field into a `XChaCha20Poly1305KeyFormat`. -/
def XChaCha20Poly1305KeyFormat.mergeField (m : XChaCha20Poly1305KeyFormat) (f : Field) : Option XChaCha20Poly1305KeyFormat :=
  match f.num, f.val with
  | 1, .varint v => some { m with version := UInt32.ofNat v }
  | _, _ => some m

/-- Merging serialized bytes into a `XChaCha20Poly1305KeyFormat`. -/
def XChaCha20Poly1305KeyFormat.merge (m : XChaCha20Poly1305KeyFormat) (b : Bytes) : Option XChaCha20Poly1305KeyFormat :=
  match parseFields b with
  | none => none
  | some fs => fs.foldlM XChaCha20Poly1305KeyFormat.mergeField m

def XChaCha20Poly1305KeyFormat.serializeToString (m : XChaCha20Poly1305KeyFormat) : Py Bytes := serializeFields m.fields
def XChaCha20Poly1305KeyFormat.fromString (b : Bytes) : Py XChaCha20Poly1305KeyFormat := ofMerge (XChaCha20Poly1305KeyFormat.merge {} b)

/-- `message XChaCha20Poly1305Key`, `xchacha20_poly1305.proto:30-33`. -/
structure XChaCha20Poly1305Key where
  version : UInt32 := 0
  keyValue : Bytes := []
  deriving DecidableEq, Repr, Inhabited

/-- Fields of `XChaCha20Poly1305Key` in wire order. -/
def XChaCha20Poly1305Key.fields (m : XChaCha20Poly1305Key) : List Field :=
  uint32Field 1 m.version ++
  bytesField 3 m.keyValue

/-- Merging one field into a `XChaCha20Poly1305Key`. -/
def XChaCha20Poly1305Key.mergeField (m : XChaCha20Poly1305Key) (f : Field) : Option XChaCha20Poly1305Key :=
  match f.num, f.val with
  | 1, .varint v => some { m with version := UInt32.ofNat v }
  | 3, .len b => some { m with keyValue := b }
  | _, _ => some m

/-- Merging serialized bytes into a `XChaCha20Poly1305Key`. -/
def XChaCha20Poly1305Key.merge (m : XChaCha20Poly1305Key) (b : Bytes) : Option XChaCha20Poly1305Key :=
  match parseFields b with
  | none => none
  | some fs => fs.foldlM XChaCha20Poly1305Key.mergeField m

def XChaCha20Poly1305Key.serializeToString (m : XChaCha20Poly1305Key) : Py Bytes := serializeFields m.fields
def XChaCha20Poly1305Key.fromString (b : Bytes) : Py XChaCha20Poly1305Key := ofMerge (XChaCha20Poly1305Key.merge {} b)

/-- `message AesCtrKey`, `aes_ctr.proto:35-39`. -/
structure AesCtrKey where
  version : UInt32 := 0
  params : Option AesCtrParams := none
  keyValue : Bytes := []
  deriving DecidableEq, Repr, Inhabited

/-- Reading `params` when it is absent yields the default message. -/
def AesCtrKey.getParams (m : AesCtrKey) : AesCtrParams := m.params.getD {}

/-- Fields of `AesCtrKey` in wire order. -/
def AesCtrKey.fields (m : AesCtrKey) : List Field :=
  uint32Field 1 m.version ++
  msgField 2 (m.params.map AesCtrParams.fields) ++
  bytesField 3 m.keyValue

/-- Merging one field into a `AesCtrKey`. -/
def AesCtrKey.mergeField (m : AesCtrKey) (f : Field) : Option AesCtrKey :=
  match f.num, f.val with
  | 1, .varint v => some { m with version := UInt32.ofNat v }
  | 2, .len b => (AesCtrParams.merge m.getParams b).map fun x => { m with params := some x }
  | 3, .len b => some { m with keyValue := b }
  | _, _ => some m

/-- Merging serialized bytes into a `AesCtrKey`. -/
def AesCtrKey.merge (m : AesCtrKey) (b : Bytes) : Option AesCtrKey :=
  match parseFields b with
  | none => none
  | some fs => fs.foldlM AesCtrKey.mergeField m

def AesCtrKey.serializeToString (m : AesCtrKey) : Py Bytes := serializeFields m.fields
def AesCtrKey.fromString (b : Bytes) : Py AesCtrKey := ofMerge (AesCtrKey.merge {} b)

/-- `message HmacKey`, `hmac.proto:33-37`. -/
structure HmacKey where
  version : UInt32 := 0
  params : Option HmacParams := none
  keyValue : Bytes := []
  deriving DecidableEq, Repr, Inhabited

/-- Reading `params` when it is absent yields the default message. -/
def HmacKey.getParams (m : HmacKey) : HmacParams := m.params.getD {}

/-- Fields of `HmacKey` in wire order. -/
def HmacKey.fields (m : HmacKey) : List Field :=
  uint32Field 1 m.version ++
  msgField 2 (m.params.map HmacParams.fields) ++
  bytesField 3 m.keyValue

/-- Merging one field into a `HmacKey`. -/
def HmacKey.mergeField (m : HmacKey) (f : Field) : Option HmacKey :=
  match f.num, f.val with
  | 1, .varint v => some { m with version := UInt32.ofNat v }
  | 2, .len b => (HmacParams.merge m.getParams b).map fun x => { m with params := some x }
  | 3, .len b => some { m with keyValue := b }
  | _, _ => some m

/-- Merging serialized bytes into a `HmacKey`. -/
def HmacKey.merge (m : HmacKey) (b : Bytes) : Option HmacKey :=
  match parseFields b with
  | none => none
  | some fs => fs.foldlM HmacKey.mergeField m

def HmacKey.serializeToString (m : HmacKey) : Py Bytes := serializeFields m.fields
def HmacKey.fromString (b : Bytes) : Py HmacKey := ofMerge (HmacKey.merge {} b)

/-- `message AesCtrHmacAeadKey`, `aes_ctr_hmac_aead.proto:34-38`. -/
structure AesCtrHmacAeadKey where
  version : UInt32 := 0
  aesCtrKey : Option AesCtrKey := none
  hmacKey : Option HmacKey := none
  deriving DecidableEq, Repr, Inhabited

/-- Reading `aesCtrKey` when it is absent yields the default message. -/
def AesCtrHmacAeadKey.getAesCtrKey (m : AesCtrHmacAeadKey) : AesCtrKey := m.aesCtrKey.getD {}

/-- Reading `hmacKey` when it is absent yields the default message. -/
def AesCtrHmacAeadKey.getHmacKey (m : AesCtrHmacAeadKey) : HmacKey := m.hmacKey.getD {}

/-- Fields of `AesCtrHmacAeadKey` in wire order. -/
def AesCtrHmacAeadKey.fields (m : AesCtrHmacAeadKey) : List Field :=
  uint32Field 1 m.version ++
  msgField 2 (m.aesCtrKey.map AesCtrKey.fields) ++
  msgField 3 (m.hmacKey.map HmacKey.fields)

/-- Merging one field into a `AesCtrHmacAeadKey`. -/
def AesCtrHmacAeadKey.mergeField (m : AesCtrHmacAeadKey) (f : Field) : Option AesCtrHmacAeadKey :=
  match f.num, f.val with
  | 1, .varint v => some { m with version := UInt32.ofNat v }
  | 2, .len b => (AesCtrKey.merge m.getAesCtrKey b).map fun x => { m with aesCtrKey := some x }
  | 3, .len b => (HmacKey.merge m.getHmacKey b).map fun x => { m with hmacKey := some x }
  | _, _ => some m

/-- Merging serialized bytes into a `AesCtrHmacAeadKey`. -/
def AesCtrHmacAeadKey.merge (m : AesCtrHmacAeadKey) (b : Bytes) : Option AesCtrHmacAeadKey :=
  match parseFields b with
  | none => none
  | some fs => fs.foldlM AesCtrHmacAeadKey.mergeField m

def AesCtrHmacAeadKey.serializeToString (m : AesCtrHmacAeadKey) : Py Bytes := serializeFields m.fields
def AesCtrHmacAeadKey.fromString (b : Bytes) : Py AesCtrHmacAeadKey := ofMerge (AesCtrHmacAeadKey.merge {} b)

/-- `message AesSivKey`, `aes_siv.proto:40-44`. -/
structure AesSivKey where
  version : UInt32 := 0
  keyValue : Bytes := []
  deriving DecidableEq, Repr, Inhabited

/-- Fields of `AesSivKey` in wire order. -/
def AesSivKey.fields (m : AesSivKey) : List Field :=
  uint32Field 1 m.version ++
  bytesField 2 m.keyValue

/-- Merging one field into a `AesSivKey`. -/
def AesSivKey.mergeField (m : AesSivKey) (f : Field) : Option AesSivKey :=
  match f.num, f.val with
  | 1, .varint v => some { m with version := UInt32.ofNat v }
  | 2, .len b => some { m with keyValue := b }
  | _, _ => some m

/-- Merging serialized bytes into a `AesSivKey`. -/
def AesSivKey.merge (m : AesSivKey) (b : Bytes) : Option AesSivKey :=
  match parseFields b with
  | none => none
  | some fs => fs.foldlM AesSivKey.mergeField m

def AesSivKey.serializeToString (m : AesSivKey) : Py Bytes := serializeFields m.fields
def AesSivKey.fromString (b : Bytes) : Py AesSivKey := ofMerge (AesSivKey.merge {} b)

/-- `message AesCmacKey`, `aes_cmac.proto:30-34`. -/
structure AesCmacKey where
  version : UInt32 := 0
  keyValue : Bytes := []
  params : Option AesCmacParams := none
  deriving DecidableEq, Repr, Inhabited

/-- Reading `params` when it is absent yields the default message. -/
def AesCmacKey.getParams (m : AesCmacKey) : AesCmacParams := m.params.getD {}

/-- Fields of `AesCmacKey` in wire order. -/
def AesCmacKey.fields (m : AesCmacKey) : List Field :=
  uint32Field 1 m.version ++
  bytesField 2 m.keyValue ++
  msgField 3 (m.params.map AesCmacParams.fields)

/-- Merging one field into a `AesCmacKey`. -/
def AesCmacKey.mergeField (m : AesCmacKey) (f : Field) : Option AesCmacKey :=
  match f.num, f.val with
  | 1, .varint v => some { m with version := UInt32.ofNat v }
  | 2, .len b => some { m with keyValue := b }
  | 3, .len b => (AesCmacParams.merge m.getParams b).map fun x => { m with params := some x }
  | _, _ => some m

/-- Merging serialized bytes into a `AesCmacKey`. -/
def AesCmacKey.merge (m : AesCmacKey) (b : Bytes) : Option AesCmacKey :=
  match parseFields b with
  | none => none
  | some fs => fs.foldlM AesCmacKey.mergeField m

def AesCmacKey.serializeToString (m : AesCmacKey) : Py Bytes := serializeFields m.fields
def AesCmacKey.fromString (b : Bytes) : Py AesCmacKey := ofMerge (AesCmacKey.merge {} b)

/-- `message AesCmacPrfKey`, `aes_cmac_prf.proto:26-29`. -/
structure AesCmacPrfKey where
  version : UInt32 := 0
  keyValue : Bytes := []
  deriving DecidableEq, Repr, Inhabited

/-- Fields of `AesCmacPrfKey` in wire order. -/
def AesCmacPrfKey.fields (m : AesCmacPrfKey) : List Field :=
  uint32Field 1 m.version ++
  bytesField 2 m.keyValue

/-- Merging one field into a `AesCmacPrfKey`. -/
def AesCmacPrfKey.mergeField (m : AesCmacPrfKey) (f : Field) : Option AesCmacPrfKey :=
  match f.num, f.val with
  | 1, .varint v => some { m with version := UInt32.ofNat v }
  | 2, .len b => some { m with keyValue := b }
  | _, _ => some m

/-- Merging serialized bytes into a `AesCmacPrfKey`. -/
def AesCmacPrfKey.merge (m : AesCmacPrfKey) (b : Bytes) : Option AesCmacPrfKey :=
  match parseFields b with
  | none => none
  | some fs => fs.foldlM AesCmacPrfKey.mergeField m

def AesCmacPrfKey.serializeToString (m : AesCmacPrfKey) : Py Bytes := serializeFields m.fields
def AesCmacPrfKey.fromString (b : Bytes) : Py AesCmacPrfKey := ofMerge (AesCmacPrfKey.merge {} b)

/-- `message HmacPrfKey`, `hmac_prf.proto:32-36`. -/
structure HmacPrfKey where
  version : UInt32 := 0
  params : Option HmacPrfParams := none
  keyValue : Bytes := []
  deriving DecidableEq, Repr, Inhabited

/-- Reading `params` when it is absent yields the default message. -/
def HmacPrfKey.getParams (m : HmacPrfKey) : HmacPrfParams := m.params.getD {}

/-- Fields of `HmacPrfKey` in wire order. -/
def HmacPrfKey.fields (m : HmacPrfKey) : List Field :=
  uint32Field 1 m.version ++
  msgField 2 (m.params.map HmacPrfParams.fields) ++
  bytesField 3 m.keyValue

/-- Merging one field into a `HmacPrfKey`. -/
def HmacPrfKey.mergeField (m : HmacPrfKey) (f : Field) : Option HmacPrfKey :=
  match f.num, f.val with
  | 1, .varint v => some { m with version := UInt32.ofNat v }
  | 2, .len b => (HmacPrfParams.merge m.getParams b).map fun x => { m with params := some x }
  | 3, .len b => some { m with keyValue := b }
  | _, _ => some m

/-- Merging serialized bytes into a `HmacPrfKey`. -/
def HmacPrfKey.merge (m : HmacPrfKey) (b : Bytes) : Option HmacPrfKey :=
  match parseFields b with
  | none => none
  | some fs => fs.foldlM HmacPrfKey.mergeField m

def HmacPrfKey.serializeToString (m : HmacPrfKey) : Py Bytes := serializeFields m.fields
def HmacPrfKey.fromString (b : Bytes) : Py HmacPrfKey := ofMerge (HmacPrfKey.merge {} b)

/-- `message HkdfPrfKey`, `hkdf_prf.proto:38-42`. -/
structure HkdfPrfKey where
  version : UInt32 := 0
  params : Option HkdfPrfParams := none
  keyValue : Bytes := []
  deriving DecidableEq, Repr, Inhabited

/-- Reading `params` when it is absent yields the default message. -/
def HkdfPrfKey.getParams (m : HkdfPrfKey) : HkdfPrfParams := m.params.getD {}

/-- Fields of `HkdfPrfKey` in wire order. -/
def HkdfPrfKey.fields (m : HkdfPrfKey) : List Field :=
  uint32Field 1 m.version ++
  msgField 2 (m.params.map HkdfPrfParams.fields) ++
  bytesField 3 m.keyValue

/-- Merging one field into a `HkdfPrfKey`. -/
def HkdfPrfKey.mergeField (m : HkdfPrfKey) (f : Field) : Option HkdfPrfKey :=
  match f.num, f.val with
  | 1, .varint v => some { m with version := UInt32.ofNat v }
  | 2, .len b => (HkdfPrfParams.merge m.getParams b).map fun x => { m with params := some x }
  | 3, .len b => some { m with keyValue := b }
  | _, _ => some m

/-- Merging serialized bytes into a `HkdfPrfKey`. -/
def HkdfPrfKey.merge (m : HkdfPrfKey) (b : Bytes) : Option HkdfPrfKey :=
  match parseFields b with
  | none => none
  | some fs => fs.foldlM HkdfPrfKey.mergeField m

def HkdfPrfKey.serializeToString (m : HkdfPrfKey) : Py Bytes := serializeFields m.fields
def HkdfPrfKey.fromString (b : Bytes) : Py HkdfPrfKey := ofMerge (HkdfPrfKey.merge {} b)

end Tink
