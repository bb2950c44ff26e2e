import Verif.Config.Register
import Verif.Keyset.JsonFormat
import Verif.Templates.Templates

/-!
# The functions of the walkthrough

`/repo/python/examples/walkthrough`: `create_keyset.py`, `obtain_and_use_a_primitive.py`,
`write_cleartext_keyset.py`, `load_cleartext_keyset.py`, `write_keyset.py` and
`load_encrypted_keyset.py`.

`r` is the global registry at the time of the call.  `seed` and `draws` are the random numbers with which a
keyset is generated; `none` means, as for `KeysetHandle.generateNew`, that the search for a key id goes on
after the given draws.  A text stream is its content.
-/

namespace Tink.Walkthrough
open Config Templates

section
variable {σ δ ε τ S P C F : Type} [DecidableEq C]

/-- `CreateAead128GcmKeyset`, `create_keyset.py:20-37`. -/
def createAead128GcmKeyset (r : Registry P C) (seed : Seed) (draws : List UInt32) :
    Option (Py KeysetHandle) :=
  match AES128_GCM with
  | .error e => some (.error e)
  | .ok template => KeysetHandle.generateNew r seed draws template

/-- `AeadEncrypt`, `obtain_and_use_a_primitive.py:20-44`. -/
def aeadEncrypt (L : Library σ δ ε τ S P C) (isInst : P → C → Bool) (r : Registry P C)
    (h : KeysetHandle) (seed : Seed) (plaintext ad : Bytes) : Py Bytes := do
  let p ← h.primitive isInst r (L.cls .aead)
  (L.aead.view p).encrypt seed plaintext ad

/-- `AeadDecrypt`, `obtain_and_use_a_primitive.py:47-72`. -/
def aeadDecrypt (L : Library σ δ ε τ S P C) (isInst : P → C → Bool) (r : Registry P C)
    (h : KeysetHandle) (ciphertext ad : Bytes) : Py Bytes := do
  let p ← h.primitive isInst r (L.cls .aead)
  (L.aead.view p).decrypt ciphertext ad

/-- `WriteKeyset`, `write_cleartext_keyset.py:22-35`. -/
def writeKeyset (E : JsonFormatEnv F) (h : KeysetHandle) (stream : PyStr) : PyStr × Py Unit :=
  match JsonProtoKeysetFormat.serialize E h .secretKeyAccess with
  | .error e => (stream, .error e)
  | .ok text => (stream ++ text, .ok ())

/-- `LoadKeyset`, `load_cleartext_keyset.py:20-40`. -/
def loadKeyset (E : JsonFormatEnv F) (text : PyStr) : Py KeysetHandle :=
  JsonProtoKeysetFormat.parse E text .secretKeyAccess

/-- `GetKmsAead`, `write_keyset.py:22-28`; the same statements are in `load_encrypted_keyset.py:52-54`. -/
def getKmsAead (L : Library σ δ ε τ S P C) (isInst : P → C → Bool) (r : Registry P C) (seed : Seed)
    (draws : List UInt32) (uri : PyStr) : Option (Py Aead) :=
  match createKmsAeadKeyTemplate uri with
  | .error e => some (.error e)
  | .ok template =>
    match KeysetHandle.generateNew r seed draws template with
    | none => none
    | some (.error e) => some (.error e)
    | some (.ok handle) => some do
      let p ← handle.primitive isInst r (L.cls .aead)
      return L.aead.view p

/-- `WriteEncryptedKeyset`, `write_keyset.py:31-55`.  `seedEnc` feeds the encryption. -/
def writeEncryptedKeyset (L : Library σ δ ε τ S P C) (isInst : P → C → Bool) (E : JsonFormatEnv F)
    (r : Registry P C) (seed : Seed) (draws : List UInt32) (seedEnc : Seed) (h : KeysetHandle)
    (stream : PyStr) (uri : PyStr) (ad : Bytes) : Option (PyStr × Py Unit) :=
  match getKmsAead L isInst r seed draws uri with
  | none => none
  | some (.error e) => some (stream, .error e)
  | some (.ok aead) => some (h.writeWithAssociatedData (jsonKeysetWriter E) stream aead seedEnc ad)

/-- `LoadEncryptedKeyset`, `load_encrypted_keyset.py:21-57`. -/
def loadEncryptedKeyset (L : Library σ δ ε τ S P C) (isInst : P → C → Bool) (E : JsonFormatEnv F)
    (r : Registry P C) (seed : Seed) (draws : List UInt32) (text uri : PyStr) (ad : Bytes) :
    Option (Py KeysetHandle) :=
  match getKmsAead L isInst r seed draws uri with
  | none => none
  | some (.error e) => some (.error e)
  | some (.ok aead) => some (JsonProtoKeysetFormat.parseEncrypted E text aead ad)

end
end Tink.Walkthrough
