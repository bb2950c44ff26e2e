import Verif.Core.CcKeyManager
import Verif.Kms.KeyManagers
import Verif.Stream.Wrapper

/-!
# Registration of Tink's key managers and wrappers

The functions `register` of the packages `aead`, `daead`, `hybrid`, `mac`, `prf`, `signature` and
`streaming_aead`, and `tink_config.register`.
-/

namespace Tink
namespace Config

/-- The classes of primitives. -/
inductive PrimClass where
  | aead | daead | hybridDecrypt | hybridEncrypt | mac | prf | prfSet | sign | verify
  | rawStreamingAead | streamingAead
  deriving DecidableEq

/-- The primitive objects, the Python classes, and what C++ and the KMS part of the package provide.

`ccAead url` is what `Registry::get_key_manager<Aead>(url)` of C++ finds once the C++ configuration is
registered; in the same way the other fields `cc…`.  `bindingsRegister` and `bindingsRegisterHpke` are
the outcomes of `tink_bindings.register()` and `tink_bindings.register_hpke()`
(`/repo/python/tink/cc/cc_tink_config.cc:28-33`, `/repo/python/tink/cc/pybind/cc_hpke_config.cc:33-38`).
`S` is the type of C++ streaming AEADs and `streamingCcToPy` the constructor of
`_StreamingAeadCcToPyWrapper`
(`/repo/python/tink/streaming_aead/_streaming_aead_key_manager.py:27-48`).  The KMS key managers use
the global registry and the global list of KMS clients; these are parameters (`Kms/KeyManagers.lean`). -/
structure Library (σ δ ε τ S P C : Type) where
  aead : View P Aead
  daead : View P DeterministicAead
  hybridDecrypt : View P HybridDecrypt
  hybridEncrypt : View P HybridEncrypt
  mac : View P Mac
  prf : View P Prf
  prfSet : View P PrfSet
  sign : View P PublicKeySign
  verify : View P PublicKeyVerify
  rawStreamingAead : View P (RawStreamingAead δ ε τ)
  streamingAead : View P (StreamingAead σ δ ε τ)
  cls : PrimClass → C
  managerType : Nat
  privateManagerType : Nat
  kmsManagerType : Nat
  envelopeManagerType : Nat
  wrapperType : PrimClass → Nat
  bindingsRegister : Py Unit
  bindingsRegisterHpke : Py Unit
  ccAead : PStr → Option (Cpp.KeyManager Cpp.Aead)
  ccDaead : PStr → Option (Cpp.KeyManager Cpp.DeterministicAead)
  ccHybridDecrypt : PStr → Option (Cpp.KeyManager Cpp.HybridDecrypt)
  ccHybridEncrypt : PStr → Option (Cpp.KeyManager Cpp.HybridEncrypt)
  ccMac : PStr → Option (Cpp.KeyManager Cpp.Mac)
  ccPrf : PStr → Option (Cpp.KeyManager Cpp.Prf)
  ccSign : PStr → Option (Cpp.KeyManager Cpp.PublicKeySign)
  ccVerify : PStr → Option (Cpp.KeyManager Cpp.PublicKeyVerify)
  ccStreamingAead : PStr → Option (Cpp.KeyManager S)
  streamingCcToPy : S → RawStreamingAead δ ε τ
  kmsClients : KmsClients Aead
  kmsRegistry : Registry P C
  kmsSeed : Seed
  kmsSplit : Seed → Seed × Seed × Seed

/-- A statement of one of the functions `register`. -/
inductive Stmt (P C : Type) where
  /-- a call of `tink_bindings.register()` or `tink_bindings.register_hpke()` with this outcome -/
  | bindings (outcome : Py Unit)
  /-- the construction of a key manager, and
  `core.Registry.register_key_manager(key_manager, new_key_allowed=True)` -/
  | keyManager (construction : Py (KeyManager P C))
  /-- `core.Registry.register_primitive_wrapper(w)` -/
  | wrapper (w : PrimitiveWrapper P C)

section
variable {P C : Type} [DecidableEq C]

/-- Execution of a statement. -/
def Stmt.exec (isInst : P → C → Bool) (r : Registry P C) : Stmt P C → Registry P C × Py Unit
  | .bindings outcome => (r, outcome)
  | .keyManager (.error e) => (r, .error e)
  | .keyManager (.ok m) => r.registerKeyManager m true
  | .wrapper w => r.registerPrimitiveWrapper isInst w

/-- Execution of statements in sequence; an exception ends it. -/
def execAll (isInst : P → C → Bool) : List (Stmt P C) → Registry P C → Registry P C × Py Unit
  | [], r => (r, .ok ())
  | s :: ss, r => andThen (s.exec isInst r) (execAll isInst ss)

end

section
variable {σ δ ε τ S P C : Type}

/-- `'type.googleapis.com/google.crypto.tink.' + ident`. -/
def typeUrl (ident : PStr) : PStr := ps! "type.googleapis.com/google.crypto.tink." ++ ident

/-- The key manager constructed in `/repo/python/tink/aead/_aead_key_manager.py:49-52`. -/
def aeadManager (L : Library σ δ ε τ S P C) (ident : PStr) : Py (KeyManager P C) := do
  let cc ← CcKeyManager.fromCcRegistry (L.ccAead (typeUrl ident))
  return keyManagerCcToPy L.aead aeadCcToPy L.managerType (L.cls .aead) cc

/-- `aead.register`, `/repo/python/tink/aead/_aead_key_manager.py:39-60`. -/
def registerAead [DecidableEq C] (L : Library σ δ ε τ S P C) : List (Stmt P C) :=
  .bindings L.bindingsRegister ::
  ([ps! "AesCtrHmacAeadKey", ps! "AesGcmKey", ps! "AesGcmSivKey", ps! "AesEaxKey",
    ps! "XChaCha20Poly1305Key"].map fun ident => .keyManager (aeadManager L ident)) ++
  [.wrapper (aeadWrapper L.aead (L.wrapperType .aead) (L.cls .aead)),
   .keyManager (.ok (kmsAeadKeyManager L.aead L.kmsManagerType (L.cls .aead) L.kmsClients)),
   .keyManager (.ok (kmsEnvelopeAeadKeyManager L.aead L.envelopeManagerType (L.cls .aead)
     L.kmsRegistry L.kmsClients L.kmsSeed L.kmsSplit))]

/-- The key manager constructed in
`/repo/python/tink/daead/_deterministic_aead_key_manager.py:47-49`. -/
def daeadManager (L : Library σ δ ε τ S P C) (ident : PStr) : Py (KeyManager P C) := do
  let cc ← CcKeyManager.fromCcRegistry (L.ccDaead (typeUrl ident))
  return keyManagerCcToPy L.daead daeadCcToPy L.managerType (L.cls .daead) cc

/-- `daead.register`, `/repo/python/tink/daead/_deterministic_aead_key_manager.py:42-52`. -/
def registerDaead (L : Library σ δ ε τ S P C) : List (Stmt P C) :=
  [.bindings L.bindingsRegister,
   .keyManager (daeadManager L (ps! "AesSivKey")),
   .wrapper (daeadWrapper L.daead (L.wrapperType .daead) (L.cls .daead))]

/-- The key managers constructed in `/repo/python/tink/hybrid/_hybrid_key_manager.py:60-62, 75-78`. -/
def hybridDecryptManager (L : Library σ δ ε τ S P C) (ident : PStr) : Py (KeyManager P C) := do
  let cc ← CcKeyManager.fromCcRegistry (L.ccHybridDecrypt (typeUrl ident))
  return privateKeyManagerCcToPy L.hybridDecrypt hybridDecryptCcToPy L.privateManagerType
    (L.cls .hybridDecrypt) cc

/-- The key managers constructed in `/repo/python/tink/hybrid/_hybrid_key_manager.py:67-69, 84-87`. -/
def hybridEncryptManager (L : Library σ δ ε τ S P C) (ident : PStr) : Py (KeyManager P C) := do
  let cc ← CcKeyManager.fromCcRegistry (L.ccHybridEncrypt (typeUrl ident))
  return keyManagerCcToPy L.hybridEncrypt hybridEncryptCcToPy L.managerType (L.cls .hybridEncrypt) cc

/-- `hybrid.register`, `/repo/python/tink/hybrid/_hybrid_key_manager.py:46-89`. -/
def registerHybrid (L : Library σ δ ε τ S P C) : List (Stmt P C) :=
  [.bindings L.bindingsRegister,
   .bindings L.bindingsRegisterHpke,
   .wrapper (hybridDecryptWrapper L.hybridDecrypt (L.wrapperType .hybridDecrypt)
     (L.cls .hybridDecrypt)),
   .wrapper (hybridEncryptWrapper L.hybridEncrypt (L.wrapperType .hybridEncrypt)
     (L.cls .hybridEncrypt)),
   .keyManager (hybridDecryptManager L (ps! "EciesAeadHkdfPrivateKey")),
   .keyManager (hybridEncryptManager L (ps! "EciesAeadHkdfPublicKey")),
   .keyManager (hybridDecryptManager L (ps! "HpkePrivateKey")),
   .keyManager (hybridEncryptManager L (ps! "HpkePublicKey"))]

/-- The key manager constructed in `/repo/python/tink/mac/_mac_key_manager.py:42-44`. -/
def macManager (L : Library σ δ ε τ S P C) (ident : PStr) : Py (KeyManager P C) := do
  let cc ← CcKeyManager.fromCcRegistry (L.ccMac (typeUrl ident))
  return keyManagerCcToPy L.mac macCcToPy L.managerType (L.cls .mac) cc

/-- `mac.register`, `/repo/python/tink/mac/_mac_key_manager.py:37-46`. -/
def registerMac (L : Library σ δ ε τ S P C) : List (Stmt P C) :=
  .bindings L.bindingsRegister ::
  ([ps! "HmacKey", ps! "AesCmacKey"].map fun ident => .keyManager (macManager L ident)) ++
  [.wrapper (macWrapper L.mac (L.wrapperType .mac) (L.cls .mac))]

/-- The key manager constructed in `/repo/python/tink/prf/_prf_key_manager.py:43-45`. -/
def prfManager (L : Library σ δ ε τ S P C) (ident : PStr) : Py (KeyManager P C) := do
  let cc ← CcKeyManager.fromCcRegistry (L.ccPrf (typeUrl ident))
  return keyManagerCcToPy L.prf prfCcToPy L.managerType (L.cls .prf) cc

/-- `prf.register`, `/repo/python/tink/prf/_prf_key_manager.py:34-47`. -/
def registerPrf (L : Library σ δ ε τ S P C) : List (Stmt P C) :=
  .bindings L.bindingsRegister ::
  ([ps! "AesCmacPrfKey", ps! "HmacPrfKey", ps! "HkdfPrfKey"].map fun ident =>
    .keyManager (prfManager L ident)) ++
  [.wrapper (prfSetWrapper L.prf L.prfSet (L.wrapperType .prfSet) (L.cls .prf) (L.cls .prfSet))]

/-- The key manager constructed in `/repo/python/tink/signature/_signature_key_manager.py:53-55`. -/
def signManager (L : Library σ δ ε τ S P C) (ident : PStr) : Py (KeyManager P C) := do
  let cc ← CcKeyManager.fromCcRegistry (L.ccSign (typeUrl ident))
  return privateKeyManagerCcToPy L.sign signCcToPy L.privateManagerType (L.cls .sign) cc

/-- The key manager constructed in `/repo/python/tink/signature/_signature_key_manager.py:61-63`. -/
def verifyManager (L : Library σ δ ε τ S P C) (ident : PStr) : Py (KeyManager P C) := do
  let cc ← CcKeyManager.fromCcRegistry (L.ccVerify (typeUrl ident))
  return keyManagerCcToPy L.verify verifyCcToPy L.managerType (L.cls .verify) cc

/-- `signature.register`, `/repo/python/tink/signature/_signature_key_manager.py:46-69`. -/
def registerSignature (L : Library σ δ ε τ S P C) : List (Stmt P C) :=
  .bindings L.bindingsRegister ::
  ([ps! "EcdsaPrivateKey", ps! "Ed25519PrivateKey", ps! "RsaSsaPssPrivateKey",
    ps! "RsaSsaPkcs1PrivateKey"].map fun ident => .keyManager (signManager L ident)) ++
  ([ps! "EcdsaPublicKey", ps! "Ed25519PublicKey", ps! "RsaSsaPssPublicKey",
    ps! "RsaSsaPkcs1PublicKey"].map fun ident => .keyManager (verifyManager L ident)) ++
  [.wrapper (signWrapper L.sign (L.wrapperType .sign) (L.cls .sign)),
   .wrapper (verifyWrapper L.verify (L.wrapperType .verify) (L.cls .verify))]

/-- The key manager constructed in
`/repo/python/tink/streaming_aead/_streaming_aead_key_manager.py:66-68`. -/
def streamingManager (L : Library σ δ ε τ S P C) (ident : PStr) : Py (KeyManager P C) := do
  let cc ← CcKeyManager.fromCcRegistry (L.ccStreamingAead (typeUrl ident))
  return keyManagerCcToPy L.rawStreamingAead L.streamingCcToPy L.managerType
    (L.cls .rawStreamingAead) cc

/-- `streaming_aead.register`,
`/repo/python/tink/streaming_aead/_streaming_aead_key_manager.py:58-71`. -/
def registerStreamingAead (L : Library σ δ ε τ S P C) : List (Stmt P C) :=
  .bindings L.bindingsRegister ::
  ([ps! "AesCtrHmacStreamingKey", ps! "AesGcmHkdfStreamingKey"].map fun ident =>
    .keyManager (streamingManager L ident)) ++
  [.wrapper (streamingAeadWrapper L.rawStreamingAead L.streamingAead (L.wrapperType .streamingAead)
    (L.cls .rawStreamingAead) (L.cls .streamingAead))]

/-- `tink_config.register`, `/repo/python/tink/tink_config.py:26-33`. -/
def registerTinkConfig [DecidableEq C] (L : Library σ δ ε τ S P C) : List (Stmt P C) :=
  registerAead L ++ registerDaead L ++ registerHybrid L ++ registerMac L ++ registerPrf L ++
  registerSignature L ++ registerStreamingAead L

end
end Config
end Tink
