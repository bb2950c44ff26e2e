import Verif.Config.Register
import Verif.Keyset.JsonFormat

/-!
# The introductory example programs

`/repo/python/examples`: `example()` of `aead/aead_basic.py`, `mac/mac_basic.py`,
`deterministic_aead/deterministic_aead_basic.py`, `signature/signature_basic.py` and
`hybrid/hybrid_basic.py`, with the keysets that are written out in them.

Every program runs in a process of its own, so it starts with an empty registry.  `seed` is the randomness of
the one call that uses any.  `AssertionError` is `Exc.other 0`.
-/

namespace Tink.Cli.Basic
open Config

/-- The keyset in `aead/aead_basic.py:29-44`. -/
def aeadKeyset : PyStr := py! r#"{
      "key": [{
          "keyData": {
              "keyMaterialType":
                  "SYMMETRIC",
              "typeUrl":
                  "type.googleapis.com/google.crypto.tink.AesGcmKey",
              "value":
                  "GiBWyUfGgYk3RTRhj/LIUzSudIWlyjCftCOypTr0jCNSLg=="
          },
          "keyId": 294406504,
          "outputPrefixType": "TINK",
          "status": "ENABLED"
      }],
      "primaryKeyId": 294406504
  }"#

/-- The keyset in `mac/mac_basic.py:29-44`. -/
def macKeyset : PyStr := py! r#"{
      "key": [{
          "keyData": {
              "keyMaterialType":
                  "SYMMETRIC",
              "typeUrl":
                  "type.googleapis.com/google.crypto.tink.HmacKey",
              "value":
                  "EgQIAxAQGiA0LQjovcydWhVQV3k8W9ZSRkd7Ei4Y/TRWApE8guwV4Q=="
          },
          "keyId": 1892702217,
          "outputPrefixType": "TINK",
          "status": "ENABLED"
      }],
      "primaryKeyId": 1892702217
  }"#

/-- The keyset in `deterministic_aead/deterministic_aead_basic.py:29-44`. -/
def daeadKeyset : PyStr := py! r#"{
      "key": [{
          "keyData": {
              "keyMaterialType":
                  "SYMMETRIC",
              "typeUrl":
                  "type.googleapis.com/google.crypto.tink.AesSivKey",
              "value":
                  "EkAl9HCMmKTN1p3V186uhZpJQ+tivyc4IKyE+opg6SsEbWQ/WesWHzwCRrlgRuxdaggvgMzwWhjPnkk9gptBnGLK"
          },
          "keyId": 1919301694,
          "outputPrefixType": "TINK",
          "status": "ENABLED"
      }],
      "primaryKeyId": 1919301694
  }"#

/-- The private keyset in `signature/signature_basic.py:30-45`. -/
def signPrivate : PyStr := py! r#"{
      "key": [{
          "keyData": {
              "keyMaterialType":
                  "ASYMMETRIC_PRIVATE",
              "typeUrl":
                  "type.googleapis.com/google.crypto.tink.EcdsaPrivateKey",
              "value":
                  "EkwSBggDEAIYAhogEiSZ9u2nDtvZuDgWgGsVTIZ5/V08N4ycUspTX0RYRrkiIHpEwHxQd1bImkyMvV2bqtUbgMh5uPSTdnUEGrPXdt56GiEA3iUi+CRN71qy0fOCK66xAW/IvFyjOGtxjppRhSFUneo="
          },
          "keyId": 611814836,
          "outputPrefixType": "TINK",
          "status": "ENABLED"
      }],
      "primaryKeyId": 611814836
  }"#

/-- The public keyset in `signature/signature_basic.py:49-64`. -/
def signPublic : PyStr := py! r#"{
      "key": [{
          "keyData": {
              "keyMaterialType":
                  "ASYMMETRIC_PUBLIC",
              "typeUrl":
                  "type.googleapis.com/google.crypto.tink.EcdsaPublicKey",
              "value":
                  "EgYIAxACGAIaIBIkmfbtpw7b2bg4FoBrFUyGef1dPDeMnFLKU19EWEa5IiB6RMB8UHdWyJpMjL1dm6rVG4DIebj0k3Z1BBqz13beeg=="
          },
          "keyId": 611814836,
          "outputPrefixType": "TINK",
          "status": "ENABLED"
      }],
      "primaryKeyId": 611814836
  }"#

/-- The private keyset in `hybrid/hybrid_basic.py:32-47`. -/
def hybridPrivate : PyStr := py! r#"{
      "key": [{
          "keyData": {
              "keyMaterialType":
                  "ASYMMETRIC_PRIVATE",
              "typeUrl":
                  "type.googleapis.com/google.crypto.tink.HpkePrivateKey",
              "value":
                  "EioSBggBEAEYAhogVWQpmQoz74jcAp5WOD36KiBQ71MVCpn2iWfOzWLtKV4aINfn8qlMbyijNJcCzrafjsgJ493ZZGN256KTfKw0WN+p"
          },
          "keyId": 958452012,
          "outputPrefixType": "TINK",
          "status": "ENABLED"
      }],
      "primaryKeyId": 958452012
  }"#

/-- The public keyset in `hybrid/hybrid_basic.py:51-65`. -/
def hybridPublic : PyStr := py! r#"{
      "key": [{
          "keyData": {
              "keyMaterialType":
                  "ASYMMETRIC_PUBLIC",
              "typeUrl":
                  "type.googleapis.com/google.crypto.tink.HpkePublicKey",
              "value":
                  "EgYIARABGAIaIFVkKZkKM++I3AKeVjg9+iogUO9TFQqZ9olnzs1i7Sle"          },
          "keyId": 958452012,
          "outputPrefixType": "TINK",
          "status": "ENABLED"
      }],
      "primaryKeyId": 958452012
  }"#

section
variable {σ δ ε τ S P C F : Type} [DecidableEq C]

/-- `register()` of a package, in a new process. -/
def registering (isInst : P → C → Bool) (ss : List (Stmt P C)) : Py (Registry P C) :=
  match execAll isInst ss {} with
  | (_, .error e) => .error e
  | (r, .ok ()) => .ok r

/-- `assert`. -/
def check (b : Bool) : Py Unit := if b then .ok () else .error (.other 0)

/-- `example`, `aead/aead_basic.py:21-67`. -/
def aead (L : Library σ δ ε τ S P C) (isInst : P → C → Bool) (E : JsonFormatEnv F) (seed : Seed) : Py Unit := do
  let r ← registering isInst (registerAead L)
  let h ← JsonProtoKeysetFormat.parse E aeadKeyset .secretKeyAccess
  let p ← h.primitive isInst r (L.cls .aead)
  let ct ← (L.aead.view p).encrypt seed (by! "msg") (by! "associated_data")
  let output ← (L.aead.view p).decrypt ct (by! "associated_data")
  check (output == by! "msg")

/-- `example`, `mac/mac_basic.py:21-67`. -/
def mac (L : Library σ δ ε τ S P C) (isInst : P → C → Bool) (E : JsonFormatEnv F) : Py Unit := do
  let r ← registering isInst (registerMac L)
  let h ← JsonProtoKeysetFormat.parse E macKeyset .secretKeyAccess
  let p ← h.primitive isInst r (L.cls .mac)
  let tag ← (L.mac.view p).computeMac (by! "data")
  (L.mac.view p).verifyMac tag (by! "data")

/-- `example`, `deterministic_aead/deterministic_aead_basic.py:21-68`. -/
def daead (L : Library σ δ ε τ S P C) (isInst : P → C → Bool) (E : JsonFormatEnv F) : Py Unit := do
  let r ← registering isInst (registerDaead L)
  let h ← JsonProtoKeysetFormat.parse E daeadKeyset .secretKeyAccess
  let p ← h.primitive isInst r (L.cls .daead)
  let ct ← (L.daead.view p).encryptDeterministically (by! "msg") (by! "associated_data")
  let output ← (L.daead.view p).decryptDeterministically ct (by! "associated_data")
  check (output == by! "msg")

/-- `example`, `signature/signature_basic.py:21-105`. -/
def signature (L : Library σ δ ε τ S P C) (isInst : P → C → Bool) (E : JsonFormatEnv F) (seed : Seed) :
    Py Unit := do
  let r ← registering isInst (registerSignature L)
  let priv ← JsonProtoKeysetFormat.parse E signPrivate .secretKeyAccess
  let p ← priv.primitive isInst r (L.cls .sign)
  let sig ← (L.sign.view p).sign seed (by! "msg")
  let pub ← JsonProtoKeysetFormat.parseWithoutSecret E signPublic
  let v ← pub.primitive isInst r (L.cls .verify)
  (L.verify.view v).verify sig (by! "msg")
  let pub2 ← priv.publicKeysetHandle r
  let v2 ← pub2.primitive isInst r (L.cls .verify)
  (L.verify.view v2).verify sig (by! "msg")

/-- `example`, `hybrid/hybrid_basic.py:21-98`. -/
def hybrid (L : Library σ δ ε τ S P C) (isInst : P → C → Bool) (E : JsonFormatEnv F) (seed : Seed) :
    Py Unit := do
  let r ← registering isInst (registerHybrid L)
  let pub ← JsonProtoKeysetFormat.parseWithoutSecret E hybridPublic
  let e ← pub.primitive isInst r (L.cls .hybridEncrypt)
  let ct ← (L.hybridEncrypt.view e).encrypt seed (by! "message") (by! "context_info")
  let priv ← JsonProtoKeysetFormat.parse E hybridPrivate .secretKeyAccess
  let d ← priv.primitive isInst r (L.cls .hybridDecrypt)
  let decrypted ← (L.hybridDecrypt.view d).decrypt ct (by! "context_info")
  check (decrypted == by! "message")

end

end Tink.Cli.Basic
