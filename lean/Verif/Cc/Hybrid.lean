import Verif.Cc.HybridSsl

/-!
# Hybrid encryption

`/repo/cc/hybrid/ecies_aead_hkdf_*.cc` and `/repo/cc/hybrid/internal/hpke_*.cc`, with the functions that they
call in `/repo/cc/internal/ec_util.cc` and `/repo/cc/subtle`.  `Enums::ProtoToSubtle`, `/repo/cc/util/enums.cc`,
is the identity on the curves, hash types and point formats that are known, and maps all others to one that
is not; curves, hash types and point formats are those of the protos here.
-/

namespace Tink.Cc
open Cpp

/-! ## Points -/

/-- `GetEcPoint`, `/repo/cc/internal/ec_util.cc:681-689`, with `SslGetEcPointFromCoordinates`,
lines 88-107. -/
def hybEcPoint (lib : HybSsl) (curve : EnumVal) (x y : Bytes) : StatusOr (Nat × Nat) := do
  let g ← ecGroupFromCurveType curve
  if lib.ecPoint g (fromBytesBE x) (fromBytesBE y) then return (fromBytesBE x, fromBytesBE y)
  else internalError

/-- `EcFieldSizeInBytes`, lines 314-324. -/
def ecFieldSizeInBytes (curve : EnumVal) : StatusOr Nat :=
  if curve = EllipticCurveType.CURVE25519 then .ok 32
  else do
    let g ← ecGroupFromCurveType curve
    return g.fieldSize

/-- `EcPointEncodingSizeInBytes`, lines 326-353. -/
def ecPointEncodingSizeInBytes (curve format : EnumVal) : StatusOr Nat := do
  let n ← ecFieldSizeInBytes curve
  if curve = EllipticCurveType.CURVE25519 then return n
  else if n = 0 then invalidArgument
  else if format = EcPointFormat.UNCOMPRESSED then return 2 * n + 1
  else if format = EcPointFormat.COMPRESSED then return n + 1
  else if format = EcPointFormat.DO_NOT_USE_CRUNCHY_UNCOMPRESSED then return 2 * n
  else invalidArgument

/-- `EcPointEncode`, lines 554-604, with `SslEcPointEncode`, lines 61-84, and `EC_POINT_point2oct`. -/
def ecPointEncode (lib : HybSsl) (curve format : EnumVal) (p : Nat × Nat) : StatusOr Bytes := do
  let g ← ecGroupFromCurveType curve
  if !lib.ecPoint g p.1 p.2 then internalError
  else if format = EcPointFormat.UNCOMPRESSED then
    return 4 :: (digitsBE g.fieldSize p.1 ++ digitsBE g.fieldSize p.2)
  else if format = EcPointFormat.COMPRESSED then
    return (if p.2 % 2 = 1 then 3 else 2) :: digitsBE g.fieldSize p.1
  else if format = EcPointFormat.DO_NOT_USE_CRUNCHY_UNCOMPRESSED then do
    let x ← bignumToString p.1 g.fieldSize
    let y ← bignumToString p.2 g.fieldSize
    return x ++ y
  else internalError

/-- `SslGetEcPointFromEncoded`, lines 111-162, with `EC_POINT_oct2point`. -/
def sslGetEcPointFromEncoded (lib : HybSsl) (curve format : EnumVal) (encoded : Bytes) :
    StatusOr (Nat × Nat) :=
  if format ≠ EcPointFormat.UNCOMPRESSED && format ≠ EcPointFormat.COMPRESSED then invalidArgument
  else do
    let g ← ecGroupFromCurveType curve
    let size ← ecPointEncodingSizeInBytes curve format
    if encoded.length ≠ size then internalError
    else
      let first := encoded.headD 0
      if format = EcPointFormat.UNCOMPRESSED && first ≠ 4 then internalError
      else if format = EcPointFormat.COMPRESSED && first ≠ 3 && first ≠ 2 then internalError
      else if format = EcPointFormat.UNCOMPRESSED then
        let x := fromBytesBE ((encoded.drop 1).take g.fieldSize)
        let y := fromBytesBE (encoded.drop (1 + g.fieldSize))
        if lib.ecPoint g x y then return (x, y) else internalError
      else
        let x := fromBytesBE (encoded.drop 1)
        match lib.ecDecompress g x (first == 3) with
        | none => internalError
        | some y => if lib.ecPoint g x y then return (x, y) else internalError

/-- `EcPointDecode`, lines 606-634. -/
def ecPointDecode (lib : HybSsl) (curve format : EnumVal) (encoded : Bytes) : StatusOr (Nat × Nat) :=
  if format = EcPointFormat.UNCOMPRESSED || format = EcPointFormat.COMPRESSED then
    sslGetEcPointFromEncoded lib curve format encoded
  else if format = EcPointFormat.DO_NOT_USE_CRUNCHY_UNCOMPRESSED then do
    let g ← ecGroupFromCurveType curve
    if encoded.length ≠ 2 * g.fieldSize then internalError
    else
      let x := fromBytesBE (encoded.take g.fieldSize)
      let y := fromBytesBE (encoded.drop g.fieldSize)
      if lib.ecPoint g x y then return (x, y) else internalError
  else internalError

/-- `ComputeEcdhSharedSecret`, lines 691-728. -/
def computeEcdhSharedSecret (lib : HybSsl) (curve : EnumVal) (d : Nat) (p : Nat × Nat) : StatusOr Bytes := do
  let g ← ecGroupFromCurveType curve
  if !lib.ecPoint g p.1 p.2 then internalError
  else
    match lib.ecMul g d p with
    | none => internalError
    | some s => if !lib.ecPoint g s.1 s.2 then internalError else bignumToString s.1 g.fieldSize

/-- The fields of `EcKey`, `/repo/cc/internal/ec_util.h`, that are used. -/
structure HybEcKey where
  pubX : Bytes
  pubY : Bytes
  priv : Bytes

/-- `NewEcKey`, `/repo/cc/internal/ec_util.cc:355-376`, with `EcKeyFromSslEcKey`, lines 273-312,
`NewX25519Key`, lines 417-433, and `EcKeyFromX25519Key`, lines 435-445. -/
def hybNewEcKey (lib : HybSsl) (seed : Seed) (curve : EnumVal) : StatusOr HybEcKey :=
  if curve = EllipticCurveType.CURVE25519 then
    let d := lib.x25519Generate seed
    .ok { pubX := lib.x25519Public d, pubY := [], priv := d }
  else do
    let g ← ecGroupFromCurveType curve
    let d := lib.ecGenerate seed g
    let x ← bignumToString (lib.ecPublic g d).1 g.fieldSize
    let y ← bignumToString (lib.ecPublic g d).2 g.fieldSize
    let priv ← bignumToString d g.fieldSize
    return { pubX := x, pubY := y, priv }

/-! ## The key encapsulation of ECIES -/

/-- `Hkdf::ComputeEciesHkdfSymmetricKey`, `/repo/cc/subtle/hkdf.cc:127-135`, with `ComputeHkdf`,
lines 87-105. -/
def computeEciesHkdfSymmetricKey (lib : HybSsl) (hash : EnumVal) (kemBytes sharedSecret salt info : Bytes)
    (outLen : Nat) : StatusOr Bytes := do
  let md ← evpHashFromHashType hash
  match lib.hkdf md (kemBytes ++ sharedSecret) salt info outLen with
  | none => internalError
  | some key => return key

/-- `EciesHkdfSenderKemBoringSsl`: what is stored in it. -/
inductive SenderKem
  | nist (curve : EnumVal) (peer : Nat × Nat)
  | x25519 (peer : Bytes)

/-- `EciesHkdfSenderKemBoringSsl::New`, `/repo/cc/subtle/ecies_hkdf_sender_kem_boringssl.cc:43-58`, with the
two functions for the curves, lines 69-81 and 136-167. -/
def senderKemNew (lib : HybSsl) (curve : EnumVal) (x y : Bytes) : StatusOr SenderKem :=
  if curve = EllipticCurveType.NIST_P256 || curve = EllipticCurveType.NIST_P384 ||
      curve = EllipticCurveType.NIST_P521 then do
    let p ← hybEcPoint lib curve x y
    return .nist curve p
  else if curve = EllipticCurveType.CURVE25519 then
    if x.length ≠ 32 then invalidArgument
    else if !y.isEmpty then invalidArgument
    else .ok (.x25519 x)
  else unimplemented

/-- `GenerateKey`, lines 83-129 and 169-210: the encapsulated key and the symmetric key.  With X25519 the
shared secret is used without a check that there is one (line 202), and the process ends if there is none. -/
def senderGenerateKey (lib : HybSsl) (seed : Seed) (hash : EnumVal) (salt info : Bytes) (keySize : Nat)
    (format : EnumVal) : SenderKem → Run (Bytes × Bytes)
  | .nist curve peer => do
    let g ← run (ecGroupFromCurveType curve)
    let d := lib.ecGenerate seed g
    let kemBytes ← run (ecPointEncode lib curve format (lib.ecPublic g d))
    let secret ← run (computeEcdhSharedSecret lib curve d peer)
    let key ← run (computeEciesHkdfSymmetricKey lib hash kemBytes secret salt info keySize)
    return (kemBytes, key)
  | .x25519 peer =>
    if format ≠ EcPointFormat.COMPRESSED then run invalidArgument
    else
      let d := lib.x25519Generate seed
      let kemBytes := lib.x25519Public d
      match lib.x25519 d peer with
      | none => .error .aborted
      | some secret => do
        let key ← run (computeEciesHkdfSymmetricKey lib hash kemBytes secret salt info keySize)
        return (kemBytes, key)

/-- `EciesHkdfRecipientKemBoringSsl`: what is stored in it. -/
inductive RecipientKem
  | nist (curve : EnumVal) (priv : Bytes)
  | x25519 (priv : Bytes)

/-- `EciesHkdfRecipientKemBoringSsl::New`, `/repo/cc/subtle/ecies_hkdf_recipient_kem_boringssl.cc:44-60`,
with the two functions for the curves, lines 63-79 and 120-146. -/
def recipientKemNew (curve : EnumVal) (priv : Bytes) : StatusOr RecipientKem :=
  if curve = EllipticCurveType.NIST_P256 || curve = EllipticCurveType.NIST_P384 ||
      curve = EllipticCurveType.NIST_P521 then
    if priv.isEmpty then invalidArgument
    else do
      let _ ← ecGroupFromCurveType curve
      return .nist curve priv
  else if curve = EllipticCurveType.CURVE25519 then
    if priv.length ≠ 32 then invalidArgument else .ok (.x25519 priv)
  else unimplemented

/-- `GenerateKey`, lines 89-113 and 148-181. -/
def recipientGenerateKey (lib : HybSsl) (kemBytes : Bytes) (hash : EnumVal) (salt info : Bytes) (keySize : Nat)
    (format : EnumVal) : RecipientKem → StatusOr Bytes
  | .nist curve priv =>
    match ecPointDecode lib curve format kemBytes with
    | .error _ => invalidArgument
    | .ok p => do
      let secret ← computeEcdhSharedSecret lib curve (fromBytesBE priv) p
      computeEciesHkdfSymmetricKey lib hash kemBytes secret salt info keySize
  | .x25519 priv =>
    if format ≠ EcPointFormat.COMPRESSED then invalidArgument
    else if kemBytes.length ≠ 32 then invalidArgument
    else
      match lib.x25519 priv kemBytes with
      | none => internalError
      | some secret => computeEciesHkdfSymmetricKey lib hash kemBytes secret salt info keySize

/-! ## The data encapsulation of ECIES -/

/-- `DemKeyType`, `/repo/cc/hybrid/ecies_aead_hkdf_dem_helper.h:58-63`. -/
inductive DemKeyType
  | aesGcm
  | aesCtrHmacAead
  | xChaCha20Poly1305
  | aesSiv

/-- `DemKeyParams`, `/repo/cc/hybrid/ecies_aead_hkdf_dem_helper.h:65-72`. -/
structure DemKeyParams where
  keyType : DemKeyType
  keySize : UInt32
  aesCtrKeySize : UInt32 := 0
  aesCtrIvSize : UInt32 := 0
  hmacHash : EnumVal := 0
  hmacTagSize : UInt32 := 0

/-- `ParseFromString` of a key format, INVALID_ARGUMENT if it fails. -/
def demParsed {α : Type} : Py α → StatusOr α
  | .ok a => .ok a
  | .error _ => invalidArgument

/-- `EciesAeadHkdfDemHelper::GetKeyParams`, `/repo/cc/hybrid/ecies_aead_hkdf_dem_helper.cc:81-125`.  The sum
of the sizes of the two keys of AES-CTR-HMAC is a sum of 32 bits. -/
def demGetKeyParams (t : KeyTemplate) : StatusOr DemKeyParams :=
  if t.typeUrl = ps! "type.googleapis.com/google.crypto.tink.AesGcmKey" then do
    let f ← demParsed (AesGcmKeyFormat.fromString t.value)
    return { keyType := .aesGcm, keySize := f.keySize }
  else if t.typeUrl = ps! "type.googleapis.com/google.crypto.tink.AesCtrHmacAeadKey" then do
    let f ← demParsed (AesCtrHmacAeadKeyFormat.fromString t.value)
    return { keyType := .aesCtrHmacAead
             keySize := f.getAesCtrKeyFormat.keySize + f.getHmacKeyFormat.keySize
             aesCtrKeySize := f.getAesCtrKeyFormat.keySize
             aesCtrIvSize := f.getAesCtrKeyFormat.getParams.ivSize
             hmacHash := f.getHmacKeyFormat.getParams.hash
             hmacTagSize := f.getHmacKeyFormat.getParams.tagSize }
  else if t.typeUrl = ps! "type.googleapis.com/google.crypto.tink.XChaCha20Poly1305Key" then do
    let _ ← demParsed (XChaCha20Poly1305KeyFormat.fromString t.value)
    return { keyType := .xChaCha20Poly1305, keySize := 32 }
  else if t.typeUrl = ps! "type.googleapis.com/google.crypto.tink.AesSivKey" then do
    let f ← demParsed (AesSivKeyFormat.fromString t.value)
    return { keyType := .aesSiv, keySize := f.keySize }
  else invalidArgument

/-- `AeadOrDaead`, `/repo/cc/daead/subtle/aead_or_daead.h`, with `Encrypt` and `Decrypt`,
`/repo/cc/daead/subtle/aead_or_daead.cc:35-78`. -/
def ofDaead (a : Cpp.DeterministicAead) : Cpp.Aead where
  encrypt _ plaintext ad := a.encryptDeterministically plaintext ad
  decrypt ciphertext ad := a.decryptDeterministically ciphertext ad

/-- `EciesAeadHkdfDemHelper::GetAeadOrDaead`, `/repo/cc/hybrid/ecies_aead_hkdf_dem_helper.cc:137-169`.
`substr` with a position behind the end throws `std::out_of_range` (line 161).  `GetPrimitive` of the key
type manager does not validate the key. -/
def demGetAead (lib : Ssl) (p : DemKeyParams) (key : Bytes) : Run Cpp.Aead :=
  if key.length ≠ p.keySize.toNat then run internalError
  else
    match p.keyType with
    | .aesGcm => run (aesGcmNew lib key)
    | .aesCtrHmacAead =>
      if key.length < p.aesCtrKeySize.toNat then .error .outOfRange
      else run (AesCtrHmacAeadKeyManager.create lib
        { aesCtrKey := some { params := some { ivSize := p.aesCtrIvSize }
                              keyValue := key.take p.aesCtrKeySize.toNat }
          hmacKey := some { params := some { hash := p.hmacHash, tagSize := p.hmacTagSize }
                            keyValue := key.drop p.aesCtrKeySize.toNat } })
    | .xChaCha20Poly1305 => run (xChaCha20Poly1305New lib key)
    | .aesSiv => run ((AesSiv.new lib key).map ofDaead)

/-! ## ECIES -/

/-- `EciesAeadHkdfHybridEncrypt::Encrypt`, `/repo/cc/hybrid/ecies_aead_hkdf_hybrid_encrypt.cc:90-118`. -/
def eciesEncrypt (lib : HybSsl) (p : EciesAeadHkdfParams) (kem : SenderKem) (dem : DemKeyParams) (seed : Seed)
    (plaintext info : Bytes) : Run Bytes := do
  let kemKey ← senderGenerateKey lib seed p.getKemParams.hkdfHashType p.getKemParams.hkdfSalt info
    dem.keySize.toNat p.ecPointFormat kem
  let aead ← demGetAead lib.sym dem kemKey.2
  let ct ← run (aead.encrypt seed plaintext [])
  return kemKey.1 ++ ct

/-- `EciesAeadHkdfHybridDecrypt::Decrypt`, `/repo/cc/hybrid/ecies_aead_hkdf_hybrid_decrypt.cc:89-125`. -/
def eciesDecrypt (lib : HybSsl) (p : EciesAeadHkdfParams) (kem : RecipientKem) (dem : DemKeyParams)
    (ciphertext info : Bytes) : Run Bytes := do
  let headerSize ← run (ecPointEncodingSizeInBytes p.getKemParams.curveType p.ecPointFormat)
  if ciphertext.length < headerSize then run invalidArgument
  else do
    let key ← run (recipientGenerateKey lib (ciphertext.take headerSize) p.getKemParams.hkdfHashType
      p.getKemParams.hkdfSalt info dem.keySize.toNat p.ecPointFormat kem)
    let aead ← demGetAead lib.sym dem key
    run (aead.decrypt (ciphertext.drop headerSize) [])

/-- What is handed to Python.  Python knows a status only; the two other ways in which these functions may
end are simplified to INTERNAL here.  The theorems about keysets are about keys with which they do not
happen; where they do is stated in terms of `Run`. -/
def runStatus {α : Type} : Run α → StatusOr α
  | .ok a => .ok a
  | .error (.status s) => .error s
  | .error .outOfRange => internalError
  | .error .aborted => internalError

/-- `Validate`, `/repo/cc/hybrid/ecies_aead_hkdf_hybrid_encrypt.cc:44-65`. -/
def eciesEncryptValidate (k : EciesAeadHkdfPublicKey) : StatusOr Unit :=
  if k.x.isEmpty || k.params.isNone then invalidArgument
  else if k.getParams.kemParams.isSome &&
      k.getParams.getKemParams.curveType = EllipticCurveType.CURVE25519 then
    if !k.y.isEmpty then invalidArgument else .ok ()
  else if k.y.isEmpty then invalidArgument
  else .ok ()

/-- `EciesAeadHkdfHybridEncrypt::New`, lines 70-88: what the primitive stores. -/
def eciesEncryptParts (lib : HybSsl) (k : EciesAeadHkdfPublicKey) : StatusOr (SenderKem × DemKeyParams) := do
  eciesEncryptValidate k
  let kem ← senderKemNew lib k.getParams.getKemParams.curveType k.x k.y
  let dem ← demGetKeyParams k.getParams.getDemParams.getAeadDem
  return (kem, dem)

/-- The primitive. -/
def eciesEncryptNew (lib : HybSsl) (k : EciesAeadHkdfPublicKey) : StatusOr Cpp.HybridEncrypt := do
  let parts ← eciesEncryptParts lib k
  return { encrypt := fun seed plaintext info =>
             runStatus (eciesEncrypt lib k.getParams parts.1 parts.2 seed plaintext info) }

/-- `Validate`, `/repo/cc/hybrid/ecies_aead_hkdf_hybrid_decrypt.cc:43-65`. -/
def eciesDecryptValidate (k : EciesAeadHkdfPrivateKey) : StatusOr Unit :=
  if k.publicKey.isNone || k.getPublicKey.params.isNone || k.getPublicKey.x.isEmpty || k.keyValue.isEmpty then
    invalidArgument
  else if k.getPublicKey.getParams.kemParams.isSome &&
      k.getPublicKey.getParams.getKemParams.curveType = EllipticCurveType.CURVE25519 then
    if !k.getPublicKey.y.isEmpty then invalidArgument else .ok ()
  else if k.getPublicKey.y.isEmpty then invalidArgument
  else .ok ()

/-- `EciesAeadHkdfHybridDecrypt::New`, lines 69-87: what the primitive stores. -/
def eciesDecryptParts (k : EciesAeadHkdfPrivateKey) : StatusOr (RecipientKem × DemKeyParams) := do
  eciesDecryptValidate k
  let kem ← recipientKemNew k.getPublicKey.getParams.getKemParams.curveType k.keyValue
  let dem ← demGetKeyParams k.getPublicKey.getParams.getDemParams.getAeadDem
  return (kem, dem)

/-- The primitive. -/
def eciesDecryptNew (lib : HybSsl) (k : EciesAeadHkdfPrivateKey) : StatusOr Cpp.HybridDecrypt := do
  let parts ← eciesDecryptParts k
  return { decrypt := fun ciphertext info =>
             runStatus (eciesDecrypt lib k.getPublicKey.getParams parts.1 parts.2 ciphertext info) }

/-! ## HPKE -/

/-- UNKNOWN. -/
def unknownError {α : Type} : StatusOr α := .error ⟨.other 2, false⟩

/-- `HpkeParamsProtoToStruct`, `/repo/cc/hybrid/internal/hpke_util.cc:74-83`, with the three functions
before it, lines 34-70, and `KemParam`, `KdfParam` and `AeadParam`, `hpke_util_boringssl.cc:32-41`, `60-69`
and `83-96`, which accept all results: the AEAD. -/
def hpkeParams (p : HpkeParams) : StatusOr EnumVal :=
  if p.kem ≠ HpkeKem.DHKEM_X25519_HKDF_SHA256 then invalidArgument
  else if p.kdf ≠ HpkeKdf.HKDF_SHA256 then invalidArgument
  else if p.aead = HpkeAead.AES_128_GCM || p.aead = HpkeAead.AES_256_GCM ||
      p.aead = HpkeAead.CHACHA20_POLY1305 then .ok p.aead
  else invalidArgument

/-- `HpkeEncapsulatedKeyLength`, `/repo/cc/hybrid/internal/hpke_util.cc:85-97`. -/
def hpkeEncapsulatedKeyLength (kem : EnumVal) : StatusOr Nat :=
  if kem = HpkeKem.DHKEM_X25519_HKDF_SHA256 then
    ecPointEncodingSizeInBytes EllipticCurveType.CURVE25519 EcPointFormat.UNCOMPRESSED
  else invalidArgument

/-- `HpkeEncrypt::Encrypt`, `/repo/cc/hybrid/internal/hpke_encrypt.cc:66-83`, with `SetupSender`,
`hpke_context.cc:55-69` and `hpke_context_boringssl.cc:42-76`, and `Seal`, lines 115-136. -/
def hpkeEncrypt (lib : HybSsl) (k : HpkePublicKey) (seed : Seed) (plaintext info : Bytes) : StatusOr Bytes := do
  let aead ← hpkeParams k.getParams
  if k.publicKey.isEmpty then invalidArgument
  else
    match lib.hpkeSender seed aead k.publicKey info with
    | none => unknownError
    | some (enc, ctx) =>
      match lib.hpkeSeal ctx plaintext [] with
      | none => unknownError
      | some ct => return enc ++ ct

/-- `HpkeEncrypt::New`, `/repo/cc/hybrid/internal/hpke_encrypt.cc:40-64`. -/
def hpkeEncryptNew (lib : HybSsl) (k : HpkePublicKey) : StatusOr Cpp.HybridEncrypt :=
  if k.publicKey.isEmpty then invalidArgument
  else if k.params.isNone then invalidArgument
  else if k.getParams.kem ≠ HpkeKem.DHKEM_X25519_HKDF_SHA256 then invalidArgument
  else if k.getParams.kdf ≠ HpkeKdf.HKDF_SHA256 then invalidArgument
  else if k.getParams.aead = HpkeAead.AEAD_UNKNOWN then invalidArgument
  else .ok { encrypt := hpkeEncrypt lib k }

/-- `HpkeDecrypt::Decrypt`, `/repo/cc/hybrid/internal/hpke_decrypt.cc:80-104`, with `SetupRecipient`,
`hpke_context.cc:71-90` and `hpke_context_boringssl.cc:78-113`, and `Open`, lines 138-155. -/
def hpkeDecrypt (lib : HybSsl) (p : HpkeParams) (priv ciphertext info : Bytes) : StatusOr Bytes := do
  let size ← hpkeEncapsulatedKeyLength p.kem
  if ciphertext.length < size then invalidArgument
  else do
    let enc := ciphertext.take size
    let payload := ciphertext.drop size
    let aead ← hpkeParams p
    if priv.isEmpty then invalidArgument
    else if enc.isEmpty then invalidArgument
    else if !lib.hpkeKey priv then invalidArgument
    else
      match lib.hpkeRecipient aead priv enc info with
      | none => unknownError
      | some ctx =>
        match lib.hpkeOpen ctx payload [] with
        | none => unknownError
        | some pt => return pt

/-- `HpkeDecrypt::New`, `/repo/cc/hybrid/internal/hpke_decrypt.cc:46-78`. -/
def hpkeDecryptNew (lib : HybSsl) (k : HpkePrivateKey) : StatusOr Cpp.HybridDecrypt :=
  if k.privateKey.isEmpty then invalidArgument
  else if k.publicKey.isNone then invalidArgument
  else if k.getPublicKey.params.isNone then invalidArgument
  else if k.getPublicKey.getParams.kem ≠ HpkeKem.DHKEM_X25519_HKDF_SHA256 then invalidArgument
  else if k.getPublicKey.getParams.kdf ≠ HpkeKdf.HKDF_SHA256 then invalidArgument
  else if k.getPublicKey.getParams.aead = HpkeAead.AEAD_UNKNOWN then invalidArgument
  else .ok { decrypt := hpkeDecrypt lib k.getPublicKey.getParams k.privateKey }

end Tink.Cc
