import Verif.Config.Register
import Verif.Templates.Templates

/-!
# Vocabulary for C64 and C65
-/

namespace Tink.Spec
open Config Templates

/-! ## What Python reports of a C++ result -/

/-- A C++ result as a Python program sees it: a value comes back (as `f` shows it), and every error
status is a `TinkError`. -/
def reported {α β : Type} (f : α → β) : StatusOr α → Py β
  | .ok a => .ok (f a)
  | .error _ => .error .tinkError

/-- The message can be serialized: it is smaller than 2 GiB. -/
def Fits (kd : KeyData) : Prop := ∃ b, kd.serializeToString = .ok b
/-- The same for a template. -/
def FitsTemplate (t : KeyTemplate) : Prop := ∃ b, t.serializeToString = .ok b

/-! ## What the packages register -/

/-- The packages with a function `register`. -/
inductive Package where
  | aead | daead | hybrid | mac | prf | signature | streamingAead
  deriving DecidableEq

/-- The key types of a package, with the class of primitives their keys give. -/
def keyTypes : Package → List (PStr × PrimClass)
  | .aead =>
    [(ps! "type.googleapis.com/google.crypto.tink.AesCtrHmacAeadKey", .aead),
     (ps! "type.googleapis.com/google.crypto.tink.AesEaxKey", .aead),
     (ps! "type.googleapis.com/google.crypto.tink.AesGcmKey", .aead),
     (ps! "type.googleapis.com/google.crypto.tink.AesGcmSivKey", .aead),
     (ps! "type.googleapis.com/google.crypto.tink.XChaCha20Poly1305Key", .aead),
     (ps! "type.googleapis.com/google.crypto.tink.KmsAeadKey", .aead),
     (ps! "type.googleapis.com/google.crypto.tink.KmsEnvelopeAeadKey", .aead)]
  | .daead => [(ps! "type.googleapis.com/google.crypto.tink.AesSivKey", .daead)]
  | .hybrid =>
    [(ps! "type.googleapis.com/google.crypto.tink.EciesAeadHkdfPrivateKey", .hybridDecrypt),
     (ps! "type.googleapis.com/google.crypto.tink.EciesAeadHkdfPublicKey", .hybridEncrypt),
     (ps! "type.googleapis.com/google.crypto.tink.HpkePrivateKey", .hybridDecrypt),
     (ps! "type.googleapis.com/google.crypto.tink.HpkePublicKey", .hybridEncrypt)]
  | .mac =>
    [(ps! "type.googleapis.com/google.crypto.tink.AesCmacKey", .mac),
     (ps! "type.googleapis.com/google.crypto.tink.HmacKey", .mac)]
  | .prf =>
    [(ps! "type.googleapis.com/google.crypto.tink.AesCmacPrfKey", .prf),
     (ps! "type.googleapis.com/google.crypto.tink.HkdfPrfKey", .prf),
     (ps! "type.googleapis.com/google.crypto.tink.HmacPrfKey", .prf)]
  | .signature =>
    [(ps! "type.googleapis.com/google.crypto.tink.EcdsaPrivateKey", .sign),
     (ps! "type.googleapis.com/google.crypto.tink.EcdsaPublicKey", .verify),
     (ps! "type.googleapis.com/google.crypto.tink.Ed25519PrivateKey", .sign),
     (ps! "type.googleapis.com/google.crypto.tink.Ed25519PublicKey", .verify),
     (ps! "type.googleapis.com/google.crypto.tink.RsaSsaPkcs1PrivateKey", .sign),
     (ps! "type.googleapis.com/google.crypto.tink.RsaSsaPkcs1PublicKey", .verify),
     (ps! "type.googleapis.com/google.crypto.tink.RsaSsaPssPrivateKey", .sign),
     (ps! "type.googleapis.com/google.crypto.tink.RsaSsaPssPublicKey", .verify)]
  | .streamingAead =>
    [(ps! "type.googleapis.com/google.crypto.tink.AesCtrHmacStreamingKey", .rawStreamingAead),
     (ps! "type.googleapis.com/google.crypto.tink.AesGcmHkdfStreamingKey", .rawStreamingAead)]

/-- The classes for which a package lets `KeysetHandle.primitive` be called. -/
def wrapped : Package → List PrimClass
  | .aead => [.aead]
  | .daead => [.daead]
  | .hybrid => [.hybridDecrypt, .hybridEncrypt]
  | .mac => [.mac]
  | .prf => [.prfSet]
  | .signature => [.sign, .verify]
  | .streamingAead => [.streamingAead]

def packages : List Package := [.aead, .daead, .hybrid, .mac, .prf, .signature, .streamingAead]

section
variable {σ δ ε τ S P C : Type}

/-- Tink's wrapper for a class. -/
inductive TinkWrapper (L : Library σ δ ε τ S P C) : PrimClass → PrimitiveWrapper P C → Prop
  | aead : TinkWrapper L .aead (aeadWrapper L.aead (L.wrapperType .aead) (L.cls .aead))
  | daead : TinkWrapper L .daead (daeadWrapper L.daead (L.wrapperType .daead) (L.cls .daead))
  | hybridDecrypt : TinkWrapper L .hybridDecrypt
      (hybridDecryptWrapper L.hybridDecrypt (L.wrapperType .hybridDecrypt) (L.cls .hybridDecrypt))
  | hybridEncrypt : TinkWrapper L .hybridEncrypt
      (hybridEncryptWrapper L.hybridEncrypt (L.wrapperType .hybridEncrypt) (L.cls .hybridEncrypt))
  | mac : TinkWrapper L .mac (macWrapper L.mac (L.wrapperType .mac) (L.cls .mac))
  | prfSet : TinkWrapper L .prfSet
      (prfSetWrapper L.prf L.prfSet (L.wrapperType .prfSet) (L.cls .prf) (L.cls .prfSet))
  | sign : TinkWrapper L .sign (signWrapper L.sign (L.wrapperType .sign) (L.cls .sign))
  | verify : TinkWrapper L .verify (verifyWrapper L.verify (L.wrapperType .verify) (L.cls .verify))
  | streamingAead : TinkWrapper L .streamingAead
      (streamingAeadWrapper L.rawStreamingAead L.streamingAead (L.wrapperType .streamingAead)
        (L.cls .rawStreamingAead) (L.cls .streamingAead))

/-- The key manager makes primitives and keys with the C++ key manager `cc`: it is for the same key
type, hands on what `cc` gives (C++ primitives as `toPy` shows them), and it is one for private keys iff `isPrivate`. -/
structure Serves {A B : Type} (V : View P A) (toPy : B → A) (cc : Cpp.KeyManager B) (isPrivate : Bool)
    (m : KeyManager P C) : Prop where
  keyType : m.keyType = cc.keyType
  primitive : ∀ kd, Fits kd → m.primitive kd = reported (fun b => V.inj (toPy b)) (cc.getPrimitive kd)
  newKeyData : ∀ seed t, FitsTemplate t → t.typeUrl = cc.keyType →
    (∀ kd, cc.newKeyData seed t.value = .ok kd → Fits kd) →
    m.newKeyData seed t = reported id (cc.newKeyData seed t.value)
  isPrivate : m.publicKeyData.isSome = isPrivate
  publicKeyData : ∀ g, m.publicKeyData = some g → ∀ kd, Fits kd →
    (∀ f pub, cc.publicKeyData = some f → f kd.value = .ok pub → Fits pub) →
    g kd = match cc.publicKeyData with
      | some f => reported id (f kd.value)
      | none => .error .tinkError

/-- The key manager for keys of type `url` that give primitives of class `k`: it serves them with the
C++ key manager for that type and class; for the two KMS key types it is the package's own key manager
(C++ may have key managers for these types too, but they are not used). -/
inductive TinkManager [DecidableEq C] (L : Library σ δ ε τ S P C) (url : PStr) :
    PrimClass → KeyManager P C → Prop
  | aead {cc m} (notKms : url ≠ ps! "type.googleapis.com/google.crypto.tink.KmsAeadKey")
      (notEnvelope : url ≠ ps! "type.googleapis.com/google.crypto.tink.KmsEnvelopeAeadKey")
      (found : L.ccAead url = some cc) (serves : Serves L.aead aeadCcToPy cc false m) :
      TinkManager L url .aead m
  | kmsAead (h : url = ps! "type.googleapis.com/google.crypto.tink.KmsAeadKey") :
      TinkManager L url .aead
        (kmsAeadKeyManager L.aead L.kmsManagerType (L.cls .aead) L.kmsClients)
  | kmsEnvelopeAead (h : url = ps! "type.googleapis.com/google.crypto.tink.KmsEnvelopeAeadKey") :
      TinkManager L url .aead
        (kmsEnvelopeAeadKeyManager L.aead L.envelopeManagerType (L.cls .aead) L.kmsRegistry
          L.kmsClients L.kmsSeed L.kmsSplit)
  | daead {cc m} (found : L.ccDaead url = some cc) (serves : Serves L.daead daeadCcToPy cc false m) :
      TinkManager L url .daead m
  | hybridDecrypt {cc m} (found : L.ccHybridDecrypt url = some cc)
      (serves : Serves L.hybridDecrypt hybridDecryptCcToPy cc true m) :
      TinkManager L url .hybridDecrypt m
  | hybridEncrypt {cc m} (found : L.ccHybridEncrypt url = some cc)
      (serves : Serves L.hybridEncrypt hybridEncryptCcToPy cc false m) :
      TinkManager L url .hybridEncrypt m
  | mac {cc m} (found : L.ccMac url = some cc) (serves : Serves L.mac macCcToPy cc false m) :
      TinkManager L url .mac m
  | prf {cc m} (found : L.ccPrf url = some cc) (serves : Serves L.prf prfCcToPy cc false m) :
      TinkManager L url .prf m
  | sign {cc m} (found : L.ccSign url = some cc) (serves : Serves L.sign signCcToPy cc true m) :
      TinkManager L url .sign m
  | verify {cc m} (found : L.ccVerify url = some cc)
      (serves : Serves L.verify verifyCcToPy cc false m) : TinkManager L url .verify m
  | rawStreamingAead {cc m} (found : L.ccStreamingAead url = some cc)
      (serves : Serves L.rawStreamingAead L.streamingCcToPy cc false m) :
      TinkManager L url .rawStreamingAead m

/-- Every key type of the package is registered, with Tink's key manager and new keys allowed, and so
is Tink's wrapper for every class of the package. -/
structure PackageRegistered [DecidableEq C] (L : Library σ δ ε τ S P C) (r : Registry P C)
    (pkg : Package) : Prop where
  managers : ∀ url k, (url, k) ∈ keyTypes pkg →
    ∃ m, PyDict.get? r.keyManagers url = some (m, true) ∧ m.primitiveClass = L.cls k ∧
      m.keyType = url ∧ TinkManager L url k m
  wrappers : ∀ k ∈ wrapped pkg,
    ∃ w, PyDict.get? r.wrappers (L.cls k) = some w ∧ TinkWrapper L k w

/-- What C++ is trusted with: the two registrations succeed, and afterwards there is, for each key
type of a package except the two KMS key types, a C++ key manager with that type URL.  And the Python
classes are different classes, of which the primitives are instances. -/
structure LawfulConfig (L : Library σ δ ε τ S P C) (isInst : P → C → Bool) : Prop where
  bindingsRegister : L.bindingsRegister = .ok ()
  bindingsRegisterHpke : L.bindingsRegisterHpke = .ok ()
  ccAead : ∀ url, (url, PrimClass.aead) ∈ keyTypes .aead →
    url ≠ ps! "type.googleapis.com/google.crypto.tink.KmsAeadKey" →
    url ≠ ps! "type.googleapis.com/google.crypto.tink.KmsEnvelopeAeadKey" →
    ∃ cc, L.ccAead url = some cc ∧ cc.keyType = url
  ccDaead : ∀ url, (url, PrimClass.daead) ∈ keyTypes .daead →
    ∃ cc, L.ccDaead url = some cc ∧ cc.keyType = url
  ccHybridDecrypt : ∀ url, (url, PrimClass.hybridDecrypt) ∈ keyTypes .hybrid →
    ∃ cc, L.ccHybridDecrypt url = some cc ∧ cc.keyType = url
  ccHybridEncrypt : ∀ url, (url, PrimClass.hybridEncrypt) ∈ keyTypes .hybrid →
    ∃ cc, L.ccHybridEncrypt url = some cc ∧ cc.keyType = url
  ccMac : ∀ url, (url, PrimClass.mac) ∈ keyTypes .mac →
    ∃ cc, L.ccMac url = some cc ∧ cc.keyType = url
  ccPrf : ∀ url, (url, PrimClass.prf) ∈ keyTypes .prf →
    ∃ cc, L.ccPrf url = some cc ∧ cc.keyType = url
  ccSign : ∀ url, (url, PrimClass.sign) ∈ keyTypes .signature →
    ∃ cc, L.ccSign url = some cc ∧ cc.keyType = url
  ccVerify : ∀ url, (url, PrimClass.verify) ∈ keyTypes .signature →
    ∃ cc, L.ccVerify url = some cc ∧ cc.keyType = url
  ccStreamingAead : ∀ url, (url, PrimClass.rawStreamingAead) ∈ keyTypes .streamingAead →
    ∃ cc, L.ccStreamingAead url = some cc ∧ cc.keyType = url
  classes : ∀ k k', L.cls k = L.cls k' → k = k'
  aead : ∀ a, isInst (L.aead.inj a) (L.cls .aead) = true
  daead : ∀ a, isInst (L.daead.inj a) (L.cls .daead) = true
  hybridDecrypt : ∀ a, isInst (L.hybridDecrypt.inj a) (L.cls .hybridDecrypt) = true
  hybridEncrypt : ∀ a, isInst (L.hybridEncrypt.inj a) (L.cls .hybridEncrypt) = true
  mac : ∀ a, isInst (L.mac.inj a) (L.cls .mac) = true
  prf : ∀ a, isInst (L.prf.inj a) (L.cls .prf) = true
  prfSet : ∀ a, isInst (L.prfSet.inj a) (L.cls .prfSet) = true
  sign : ∀ a, isInst (L.sign.inj a) (L.cls .sign) = true
  verify : ∀ a, isInst (L.verify.inj a) (L.cls .verify) = true
  rawStreamingAead : ∀ a, isInst (L.rawStreamingAead.inj a) (L.cls .rawStreamingAead) = true
  streamingAead : ∀ a, isInst (L.streamingAead.inj a) (L.cls .streamingAead) = true

end

section
variable {σ δ ε τ S P C : Type}

/-- C++ makes, from the value of a key template, the key data `kd`, and from these a primitive that
Python sees as `o`. -/
inductive CcMakes (L : Library σ δ ε τ S P C) (url : PStr) (seed : Seed) (value : Bytes) (kd : KeyData) :
    PrimClass → P → Prop
  | aead {cc a} (found : L.ccAead url = some cc) (new : cc.newKeyData seed value = .ok kd)
      (made : cc.getPrimitive kd = .ok a) : CcMakes L url seed value kd .aead (L.aead.inj (aeadCcToPy a))
  | daead {cc a} (found : L.ccDaead url = some cc) (new : cc.newKeyData seed value = .ok kd)
      (made : cc.getPrimitive kd = .ok a) :
      CcMakes L url seed value kd .daead (L.daead.inj (daeadCcToPy a))
  | hybridDecrypt {cc a} (found : L.ccHybridDecrypt url = some cc)
      (new : cc.newKeyData seed value = .ok kd) (made : cc.getPrimitive kd = .ok a) :
      CcMakes L url seed value kd .hybridDecrypt (L.hybridDecrypt.inj (hybridDecryptCcToPy a))
  | mac {cc a} (found : L.ccMac url = some cc) (new : cc.newKeyData seed value = .ok kd)
      (made : cc.getPrimitive kd = .ok a) : CcMakes L url seed value kd .mac (L.mac.inj (macCcToPy a))
  | prf {cc a} (found : L.ccPrf url = some cc) (new : cc.newKeyData seed value = .ok kd)
      (made : cc.getPrimitive kd = .ok a) : CcMakes L url seed value kd .prf (L.prf.inj (prfCcToPy a))
  | sign {cc a} (found : L.ccSign url = some cc) (new : cc.newKeyData seed value = .ok kd)
      (made : cc.getPrimitive kd = .ok a) : CcMakes L url seed value kd .sign (L.sign.inj (signCcToPy a))
  | rawStreamingAead {cc a} (found : L.ccStreamingAead url = some cc)
      (new : cc.newKeyData seed value = .ok kd) (made : cc.getPrimitive kd = .ok a) :
      CcMakes L url seed value kd .rawStreamingAead (L.rawStreamingAead.inj (L.streamingCcToPy a))

end

section
variable {σ δ ε τ S P C : Type}

/-- C++ has no key manager for this key type and class. -/
def CcUnknown (L : Library σ δ ε τ S P C) (url : PStr) : PrimClass → Prop
  | .aead => L.ccAead url = none
  | .daead => L.ccDaead url = none
  | .hybridDecrypt => L.ccHybridDecrypt url = none
  | .hybridEncrypt => L.ccHybridEncrypt url = none
  | .mac => L.ccMac url = none
  | .prf => L.ccPrf url = none
  | .sign => L.ccSign url = none
  | .verify => L.ccVerify url = none
  | .rawStreamingAead => L.ccStreamingAead url = none
  | .prfSet | .streamingAead => False

end

/-- The predefined key templates of a package. -/
def templates : Package → List (Py KeyTemplate)
  | .aead =>
    [AES128_EAX, AES128_EAX_RAW, AES256_EAX, AES256_EAX_RAW, AES128_GCM, AES128_GCM_RAW, AES256_GCM,
     AES256_GCM_RAW, AES128_GCM_SIV, AES128_GCM_SIV_RAW, AES256_GCM_SIV, AES256_GCM_SIV_RAW,
     AES128_CTR_HMAC_SHA256, AES128_CTR_HMAC_SHA256_RAW, AES256_CTR_HMAC_SHA256,
     AES256_CTR_HMAC_SHA256_RAW, XCHACHA20_POLY1305, XCHACHA20_POLY1305_RAW]
  | .daead => [AES256_SIV]
  | .hybrid =>
    [ECIES_P256_HKDF_HMAC_SHA256_AES128_GCM, ECIES_P256_COMPRESSED_HKDF_HMAC_SHA256_AES128_GCM,
     ECIES_P256_HKDF_HMAC_SHA256_AES128_CTR_HMAC_SHA256,
     ECIES_P256_COMPRESSED_HKDF_HMAC_SHA256_AES128_CTR_HMAC_SHA256,
     DHKEM_X25519_HKDF_SHA256_HKDF_SHA256_AES_128_GCM,
     DHKEM_X25519_HKDF_SHA256_HKDF_SHA256_AES_128_GCM_RAW,
     DHKEM_X25519_HKDF_SHA256_HKDF_SHA256_AES_256_GCM,
     DHKEM_X25519_HKDF_SHA256_HKDF_SHA256_AES_256_GCM_RAW,
     DHKEM_X25519_HKDF_SHA256_HKDF_SHA256_CHACHA20_POLY1305,
     DHKEM_X25519_HKDF_SHA256_HKDF_SHA256_CHACHA20_POLY1305_RAW]
  | .mac =>
    [Mac.AES_CMAC, Mac.HMAC_SHA256_128BITTAG, Mac.HMAC_SHA256_256BITTAG, Mac.HMAC_SHA512_256BITTAG,
     Mac.HMAC_SHA512_512BITTAG]
  | .prf => [Prf.AES_CMAC, Prf.HMAC_SHA256, Prf.HMAC_SHA512, Prf.HKDF_SHA256]
  | .signature =>
    [ECDSA_P256, ECDSA_P256_RAW, ECDSA_P384, ECDSA_P384_SHA384, ECDSA_P384_SHA512, ECDSA_P521,
     ECDSA_P256_IEEE_P1363, ECDSA_P384_IEEE_P1363, ECDSA_P384_SHA384_IEEE_P1363,
     ECDSA_P521_IEEE_P1363, ED25519, RSA_SSA_PKCS1_3072_SHA256_F4, RSA_SSA_PKCS1_4096_SHA512_F4,
     RSA_SSA_PSS_3072_SHA256_SHA256_32_F4, RSA_SSA_PSS_4096_SHA512_SHA512_64_F4]
  | .streamingAead =>
    [Streaming.AES128_GCM_HKDF_4KB, Streaming.AES128_GCM_HKDF_1MB, Streaming.AES256_GCM_HKDF_4KB,
     Streaming.AES256_GCM_HKDF_1MB, Streaming.AES128_CTR_HMAC_SHA256_4KB,
     Streaming.AES128_CTR_HMAC_SHA256_1MB, Streaming.AES256_CTR_HMAC_SHA256_4KB,
     Streaming.AES256_CTR_HMAC_SHA256_1MB]

/-- The class of the primitives of the single keys of a new keyset. -/
def keyClass : Package → PrimClass
  | .aead => .aead
  | .daead => .daead
  | .hybrid => .hybridDecrypt
  | .mac => .mac
  | .prf => .prf
  | .signature => .sign
  | .streamingAead => .rawStreamingAead

/-- The class of which a new keyset gives a primitive. -/
def keysetClass : Package → PrimClass
  | .aead => .aead
  | .daead => .daead
  | .hybrid => .hybridDecrypt
  | .mac => .mac
  | .prf => .prfSet
  | .signature => .sign
  | .streamingAead => .streamingAead

end Tink.Spec
