import Verif.Cli.Os
import Verif.Config.Register
import Verif.Keyset.JsonFormat
import Verif.Kms.Gcp
import Verif.Templates.Templates

/-!
# The example programs

`/repo/python/examples`: `aead/aead_cli.py`, `deterministic_aead/deterministic_aead_cli.py`,
`mac/mac_cli.py`, `signature/signature_cli.py`, `hybrid/hybrid_cli.py`,
`cleartext_keyset/cleartext_keyset_cli.py`, `envelope_aead/envelope_cli.py` and
`gcs/gcs_envelope_aead_cli.py`.

Every program runs in a process of its own, so it starts with an empty registry.  The values of the
flag `mode` are those that `flags.DEFINE_enum` admits, and flags marked as required are given; the
branches for other values are unreachable and left out.  Log messages are not modelled.
-/

namespace Tink.Cli
open Config Templates

section
variable {σ δ ε τ S P C F κ : Type} [DecidableEq C]

/-- `register()` of a package, in a new process. -/
def registered (isInst : P → C → Bool) (ss : List (Stmt P C)) : Run κ (Registry P C) :=
  match execAll isInst ss {} with
  | (_, .error e) => Run.lift (.error e)
  | (r, .ok ()) => pure r

/-- Reading the keyset, `aead_cli.py:50-58`, `deterministic_aead_cli.py:50-58`, `mac_cli.py:49-57`,
`signature_cli.py:51-59`, `hybrid_cli.py:50-58` and `cleartext_keyset_cli.py:71-79`. -/
def withKeyset (E : JsonFormatEnv F) (os : Os) (path : Path) (rest : KeysetHandle → Run κ Exit) :
    Run κ Exit := do
  let text ← readText os path
  tryTink (JsonProtoKeysetFormat.parse E text .secretKeyAccess) rest

/-! ## Encryption with a cleartext keyset -/

inductive Mode where
  | encrypt | decrypt
  deriving DecidableEq

/-- The flags of `aead_cli.py`, `deterministic_aead_cli.py` and `hybrid_cli.py`; `text` is
`associated_data` or `context_info`. -/
structure Flags where
  mode : Mode
  keysetPath : Path
  inputPath : Path
  outputPath : Path
  text : Option PyStr := none

/-- `main`, `aead_cli.py:40-79`. -/
def aeadCli (L : Library σ δ ε τ S P C) (isInst : P → C → Bool) (E : JsonFormatEnv F) (os : Os)
    (seed : Seed) (fl : Flags) : Run κ Exit := do
  let ad ← Run.lift (flagBytes fl.text)
  let r ← registered isInst (registerAead L)
  withKeyset E os fl.keysetPath fun h =>
    tryTink (h.primitive isInst r (L.cls .aead)) fun p => do
      let input ← readBytes os fl.inputPath
      let output ← Run.lift (match fl.mode with
        | .decrypt => (L.aead.view p).decrypt input ad
        | .encrypt => (L.aead.view p).encrypt seed input ad)
      openWrite os fl.outputPath
      writeBytes os fl.outputPath output
      return none

/-- `main`, `deterministic_aead_cli.py:40-81`. -/
def daeadCli (L : Library σ δ ε τ S P C) (isInst : P → C → Bool) (E : JsonFormatEnv F) (os : Os)
    (fl : Flags) : Run κ Exit := do
  let ad ← Run.lift (flagBytes fl.text)
  let r ← registered isInst (registerDaead L)
  withKeyset E os fl.keysetPath fun h =>
    tryTink (h.primitive isInst r (L.cls .daead)) fun p => do
      let input ← readBytes os fl.inputPath
      let output ← Run.lift (match fl.mode with
        | .decrypt => (L.daead.view p).decryptDeterministically input ad
        | .encrypt => (L.daead.view p).encryptDeterministically input ad)
      openWrite os fl.outputPath
      writeBytes os fl.outputPath output
      return none

/-- `main`, `hybrid_cli.py:40-87`.  The output file is opened before the encryption or decryption
(72-73, 85-86). -/
def hybridCli (L : Library σ δ ε τ S P C) (isInst : P → C → Bool) (E : JsonFormatEnv F) (os : Os)
    (seed : Seed) (fl : Flags) : Run κ Exit := do
  let info ← Run.lift (flagBytes fl.text)
  let r ← registered isInst (registerHybrid L)
  withKeyset E os fl.keysetPath fun h => do
    let data ← readBytes os fl.inputPath
    match fl.mode with
    | .encrypt =>
      tryTink (h.primitive isInst r (L.cls .hybridEncrypt)) fun p => do
        openWrite os fl.outputPath
        let ct ← Run.lift ((L.hybridEncrypt.view p).encrypt seed data info)
        writeBytes os fl.outputPath ct
        return none
    | .decrypt =>
      tryTink (h.primitive isInst r (L.cls .hybridDecrypt)) fun p => do
        openWrite os fl.outputPath
        let pt ← Run.lift ((L.hybridDecrypt.view p).decrypt data info)
        writeBytes os fl.outputPath pt
        return none

inductive KeysetMode where
  | generate
  | use (mode : Mode)

/-- The flags of `cleartext_keyset_cli.py`; the last two are not required. -/
structure KeysetFlags where
  mode : KeysetMode
  keysetPath : Path
  inputPath : Option Path := none
  outputPath : Option Path := none

/-- `main`, `cleartext_keyset_cli.py:38-100`.  `draws` are the key IDs drawn by
`tink.new_keyset_handle`; it is tried as long as there are any. -/
def cleartextCli (L : Library σ δ ε τ S P C) (isInst : P → C → Bool) (E : JsonFormatEnv F) (os : Os)
    (seed : Seed) (draws : List UInt32) (fl : KeysetFlags) : Run κ Exit := do
  let r ← registered isInst (registerAead L)
  match fl.mode with
  | .generate =>
    let new : Py KeysetHandle := do
      let t ← AES128_GCM
      match KeysetHandle.generateNew r seed draws t with
      | none => .error (.other 0)
      | some x => x
    tryTink new fun h => do
      openWrite os fl.keysetPath
      tryTink (JsonProtoKeysetFormat.serialize E h .secretKeyAccess) fun text => do
        writeText os fl.keysetPath text
        return some 0
  | .use mode =>
    withKeyset E os fl.keysetPath fun h =>
      tryTink (h.primitive isInst r (L.cls .aead)) fun p => do
        let inputPath ← givenPath fl.inputPath
        let input ← readBytes os inputPath
        let output ← Run.lift (match mode with
          | .decrypt => (L.aead.view p).decrypt input (by! "envelope_example")
          | .encrypt => (L.aead.view p).encrypt seed input (by! "envelope_example"))
        let outputPath ← givenPath fl.outputPath
        openWrite os outputPath
        writeBytes os outputPath output
        return none

/-! ## MACs and signatures -/

inductive CheckMode where
  /-- `compute` or `sign` -/
  | make
  | verify
  deriving DecidableEq

/-- The flags of `mac_cli.py` and `signature_cli.py`; `codePath` is `mac_path` or `signature_path`. -/
structure CheckFlags where
  mode : CheckMode
  keysetPath : Path
  dataPath : Path
  codePath : Path

/-- Reading a code, `mac_cli.py:76-81` and `signature_cli.py:86-91`. -/
def withCode (os : Os) (path : Path) (rest : Bytes → Run κ Exit) : Run κ Exit := do
  let text ← readBytes os path
  match unhexlify (strip text) with
  | none => return some 1
  | some code => rest code

/-- `main`, `mac_cli.py:42-89`. -/
def macCli (L : Library σ δ ε τ S P C) (isInst : P → C → Bool) (E : JsonFormatEnv F) (os : Os)
    (fl : CheckFlags) : Run κ Exit := do
  let r ← registered isInst (registerMac L)
  withKeyset E os fl.keysetPath fun h =>
    tryTink (h.primitive isInst r (L.cls .mac)) fun p => do
      let data ← readBytes os fl.dataPath
      match fl.mode with
      | .make =>
        let tag ← Run.lift ((L.mac.view p).computeMac data)
        openWrite os fl.codePath
        writeBytes os fl.codePath (hexlify tag)
        return some 0
      | .verify =>
        withCode os fl.codePath fun tag =>
          tryTink ((L.mac.view p).verifyMac tag data) fun _ => return some 0

/-- `main`, `signature_cli.py:44-100`.  Nothing in `cipher.verify` raises `binascii.Error`, so the
clause in lines 96-97 is left out. -/
def signatureCli (L : Library σ δ ε τ S P C) (isInst : P → C → Bool) (E : JsonFormatEnv F) (os : Os)
    (seed : Seed) (fl : CheckFlags) : Run κ Exit := do
  let r ← registered isInst (registerSignature L)
  withKeyset E os fl.keysetPath fun h => do
    let data ← readBytes os fl.dataPath
    match fl.mode with
    | .make =>
      tryTink (h.primitive isInst r (L.cls .sign)) fun p => do
        let sig ← Run.lift ((L.sign.view p).sign seed data)
        openWrite os fl.codePath
        writeBytes os fl.codePath (hexlify sig)
        return some 0
    | .verify =>
      tryTink (h.primitive isInst r (L.cls .verify)) fun p =>
        withCode os fl.codePath fun sig =>
          tryTink ((L.verify.view p).verify sig data) fun _ => return some 0

/-! ## Envelope encryption -/

/-- A call of the KMS. -/
def onKms {α : Type} (f : κ → κ × Py α) : Run κ α := fun w => ((f w.kms).2, { w with kms := (f w.kms).1 })

/-- The flags of `envelope_cli.py` and `gcs_envelope_aead_cli.py` for the KMS. -/
structure KmsFlags where
  mode : Mode
  kekUri : PyStr
  credentialPath : PyStr

/-- The envelope AEAD, `envelope_cli.py:53-70` and `gcs_envelope_aead_cli.py:52-69`.  `api` loads the
credentials and makes the client of the API. -/
def withEnvelope (isInst : P → C → Bool) (L : Library σ δ ε τ S P C) (api : PyStr → Py (Gcp.ApiClient κ))
    (seed : Seed) (fl : KmsFlags) (rest : Registry P C → KmsEnvelopeAead κ → Run κ Exit) :
    Run κ Exit := do
  let r ← registered isInst (registerAead L)
  let client : Py (Option PyStr × Gcp.ApiClient κ) := do
    let bound ← Gcp.initKeyUri (some fl.kekUri)
    let c ← api fl.credentialPath
    return (bound, c)
  tryTink client fun (bound, c) =>
    let envelope : Py (KmsEnvelopeAead κ) := do
      let remote ← Gcp.getAead c bound fl.kekUri
      let t ← AES256_GCM
      KmsEnvelopeAead.create r seed t remote
    tryTink envelope (rest r)

/-- `main`, `envelope_cli.py:43-86`. -/
def envelopeCli (L : Library σ δ ε τ S P C) (isInst : P → C → Bool) (api : PyStr → Py (Gcp.ApiClient κ))
    (os : Os) (seed seedDek seedEnc : Seed) (fl : KmsFlags) (inputPath outputPath : Path)
    (text : Option PyStr) : Run κ Exit := do
  let ad ← Run.lift (flagBytes text)
  withEnvelope isInst L api seed fl fun r env => do
    let input ← readBytes os inputPath
    let output ← onKms (match fl.mode with
      | .decrypt => fun s => env.decrypt L.aead (L.cls .aead) r s input ad
      | .encrypt => fun s => env.encrypt L.aead (L.cls .aead) r s seedDek seedEnc input ad)
    openWrite os outputPath
    writeBytes os outputPath output
    return none

/-- `_get_bucket_and_object`, `gcs_envelope_aead_cli.py:101-122`. -/
def getBucketAndObject (gcsBlobPath : PyStr) : Py (PyStr × PyStr) :=
  if !startsWith gcsBlobPath (py! "gs://") then .error .valueError
  else
    let path := gcsBlobPath.drop (py! "gs://").length
    let bucket := path.takeWhile (· ≠ 47)
    match path.drop bucket.length with
    | [] => .error .valueError
    | _ :: object => .ok (bucket, object)

/-- The cloud storage: logging in, and the outcome of requests (`download` of a blob that is there).
An upload that fails changes nothing. -/
structure Storage where
  login : PyStr → Py Unit
  upload : PyStr → PyStr → Py Unit
  download : PyStr → PyStr → Py Unit

/-- `blob.upload_from_string(data)`. -/
def uploadBlob (st : Storage) (bucket object : PyStr) (data : Bytes) : Run κ Unit := fun w =>
  match st.upload bucket object with
  | .error e => (.error e, w)
  | .ok () => (.ok (), { w with blobs := fun b o =>
      if b = bucket ∧ o = object then some data else w.blobs b o })

/-- `blob.download_as_bytes()`; `other 404` is `NotFound`. -/
def downloadBlob (st : Storage) (bucket object : PyStr) : Run κ Bytes := fun w =>
  match st.download bucket object, w.blobs bucket object with
  | .error e, _ => (.error e, w)
  | .ok (), none => (.error (.other 404), w)
  | .ok (), some b => (.ok b, w)

/-- `main`, `gcs_envelope_aead_cli.py:48-98`.  For decryption the local file is opened before
(90-91). -/
def gcsCli (L : Library σ δ ε τ S P C) (isInst : P → C → Bool) (api : PyStr → Py (Gcp.ApiClient κ))
    (st : Storage) (os : Os) (seed seedDek seedEnc : Seed) (fl : KmsFlags) (localPath : Path)
    (gcsBlobPath : PyStr) : Run κ Exit :=
  withEnvelope isInst L api seed fl fun r env => do
    Run.lift (st.login fl.credentialPath)
    match getBucketAndObject gcsBlobPath with
    | .error e => if e.isValueError then return some 1 else Run.lift (.error e)
    | .ok (bucket, object) => do
      let ad ← Run.lift (utf8Encode gcsBlobPath)
      match fl.mode with
      | .encrypt => do
        let input ← readBytes os localPath
        let output ← onKms fun s => env.encrypt L.aead (L.cls .aead) r s seedDek seedEnc input ad
        uploadBlob st bucket object output
        return none
      | .decrypt => do
        let ct ← downloadBlob st bucket object
        openWrite os localPath
        let output ← onKms fun s => env.decrypt L.aead (L.cls .aead) r s ct ad
        writeBytes os localPath output
        return none

end
end Tink.Cli
