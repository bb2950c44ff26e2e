import Verif.Cli.Programs
import Verif.Keyset.Remote

/-!
# The example program for encrypted keysets

`/repo/python/examples/encrypted_keyset/encrypted_keyset_cli.py`.

The associated data for the keyset is a `str` (lines 81 and 100), although the functions it is given to
ask for `bytes`.  It gets as far as the request to the KMS, a message of the Google library with a field
of type `bytes`.  What becomes of it there depends on the version of that library (some refuse it with
`TypeError`, some take it for base64), and is a parameter.
-/

namespace Tink.Cli
open Config Templates

section
variable {σ δ ε τ S P C F κ : Type} [DecidableEq C]

/-- A call that has an effect on the KMS, with its exception as a value: the part of a `try` block up
to and with the call. -/
def attemptKms {α : Type} (f : κ → κ × Py α) : Run κ (Py α) := fun w =>
  (.ok (f w.kms).2, { w with kms := (f w.kms).1 })

/-- A method of `_GcpKmsAead`, called with a `str` as associated data.  `convert` is what the Google
library makes of it: bytes, or an exception (as it leaves the method). -/
def withText (convert : PyStr → Py Bytes) (text : PyStr) (call : κ → Bytes → Bytes → κ × Py Bytes) :
    RemoteCall κ := fun s b =>
  match convert text with
  | .error e => (s, .error e)
  | .ok ad => call s b ad

/-- The value of `keyset_encryption_associated_data`, `encrypted_keyset_cli.py:81` and `:100`. -/
def keysetEncryptionText : PyStr := py! "encrypted keyset example"

/-- `main`, `encrypted_keyset_cli.py:43-131`.  `api` loads the credentials and makes the client of the
API; `draws` are the key IDs drawn by `tink.new_keyset_handle`. -/
def encryptedKeysetCli (L : Library σ δ ε τ S P C) (isInst : P → C → Bool) (E : JsonFormatEnv F)
    (api : PyStr → Py (Gcp.ApiClient κ)) (convert : PyStr → Py Bytes) (os : Os) (seed : Seed)
    (draws : List UInt32) (fl : KeysetFlags) (kekUri credentialPath : PyStr) (text : Option PyStr) :
    Run κ Exit := do
  let ad ← Run.lift (flagBytes text)
  let r ← registered isInst (registerAead L)
  let client : Py (Option PyStr × Gcp.ApiClient κ) := do
    let bound ← Gcp.initKeyUri (some kekUri)
    let c ← api credentialPath
    return (bound, c)
  tryTink client fun (bound, c) =>
    tryTink (Gcp.getAead c bound kekUri) fun remote =>
      match fl.mode with
      | .generate =>
        let new : Py KeysetHandle := do
          let t ← AES128_GCM
          match KeysetHandle.generateNew r seed draws t with
          | none => .error (.other 0)
          | some x => x
        tryTink new fun h => do
          openWrite os fl.keysetPath
          let x ← attemptKms (serializeEncryptedRemotely E h (withText convert keysetEncryptionText remote.encrypt)
            (withText convert keysetEncryptionText remote.decrypt))
          tryTink x fun serialized => do
            writeText os fl.keysetPath serialized
            return some 0
      | .use mode => do
        let serialized ← readText os fl.keysetPath
        let x ← attemptKms (parseEncryptedRemotely E serialized (withText convert keysetEncryptionText remote.decrypt))
        tryTink x fun h =>
          tryTink (h.primitive isInst r (L.cls .aead)) fun p => do
            let inputPath ← givenPath fl.inputPath
            let input ← readBytes os inputPath
            let output ← Run.lift (match mode with
              | .decrypt => (L.aead.view p).decrypt input ad
              | .encrypt => (L.aead.view p).encrypt seed input ad)
            let outputPath ← givenPath fl.outputPath
            openWrite os outputPath
            writeBytes os outputPath output
            return none

end
end Tink.Cli
