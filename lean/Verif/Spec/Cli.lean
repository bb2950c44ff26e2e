import Verif.Cli.Programs
import Verif.Spec.Config
import Verif.Spec.Kms

/-!
# Vocabulary for C84: the example programs
-/

namespace Tink.Spec
open Cli Config

section
variable {κ : Type}

/-! ## Files -/

/-- The file at the path can be read, and holds these bytes. -/
def FileHolds (os : Os) (files : Nat → Option Bytes) (path : Path) (b : Bytes) : Prop :=
  os.readable path = true ∧ files (os.file path) = some b

/-- Only this file has changed; it holds these bytes now. -/
def Updated (f : Nat) (b : Bytes) (files files' : Nat → Option Bytes) : Prop :=
  files' f = some b ∧ ∀ g, g ≠ f → files' g = files g

/-- Line ends, however written, are line feeds. -/
inductive LineFeeds : PyStr → PyStr → Prop
  | nil : LineFeeds [] []
  /-- `\r\n` -/
  | crlf {s t} : LineFeeds s t → LineFeeds (13 :: 10 :: s) (10 :: t)
  /-- `\r` -/
  | cr {s t} : (∀ r, s ≠ 10 :: r) → LineFeeds s t → LineFeeds (13 :: s) (10 :: t)
  | other {c s t} : c ≠ 13 → LineFeeds s t → LineFeeds (c :: s) (c :: t)

/-- The text in a file with these bytes: they are its UTF-8 encoding, up to line ends. -/
def TextOf (b : Bytes) (text : PyStr) : Prop := ∃ s, utf8Encode s = .ok b ∧ LineFeeds s text

/-- The file at the path can be read, and is a keyset in the JSON format. -/
def KeysetFile {F : Type} (E : JsonFormatEnv F) (os : Os) (files : Nat → Option Bytes) (path : Path)
    (h : KeysetHandle) : Prop :=
  ∃ b text, FileHolds os files path b ∧ TextOf b text ∧
    JsonProtoKeysetFormat.parse E text .secretKeyAccess = .ok h

/-! ## Programs that write one file -/

/-- A program that has one file to write at `path`, whose contents are given by `output` (if there
are any), ended with this exit status and left these files:
* there was something to write, and it has been written;
* or the status is 1 and no file has changed: there was nothing to write or the file could not be
  opened;
* or the status is 1 and the file could not be written completely. -/
inductive WritesLast (os : Os) (path : Path) (output : Bytes → Prop) (files : Nat → Option Bytes) :
    Nat → (Nat → Option Bytes) → Prop
  | written {b files'} : output b → os.writable path = true → os.stored path b = none →
      Updated (os.file path) b files files' → WritesLast os path output files 0 files'
  | nothing : (∀ b, ¬ output b) → WritesLast os path output files 1 files
  | notOpened : os.writable path = false → WritesLast os path output files 1 files
  | cutOff {b k files'} : output b → os.writable path = true → os.stored path b = some k →
      Updated (os.file path) (b.take k) files files' → WritesLast os path output files 1 files'

/-- The same of a program that opens the file when `ready`, before it knows what to write: if then
there is nothing to write, the file is empty. -/
inductive OpensFirst (os : Os) (path : Path) (ready : Prop) (output : Bytes → Prop)
    (files : Nat → Option Bytes) : Nat → (Nat → Option Bytes) → Prop
  | written {b files'} : ready → output b → os.writable path = true → os.stored path b = none →
      Updated (os.file path) b files files' → OpensFirst os path ready output files 0 files'
  | notReady : ¬ ready → OpensFirst os path ready output files 1 files
  | notOpened : os.writable path = false → OpensFirst os path ready output files 1 files
  | emptied {files'} : ready → (∀ b, ¬ output b) → os.writable path = true →
      Updated (os.file path) [] files files' → OpensFirst os path ready output files 1 files'
  | cutOff {b k files'} : ready → output b → os.writable path = true → os.stored path b = some k →
      Updated (os.file path) (b.take k) files files' → OpensFirst os path ready output files 1 files'

/-- The exit status of a run. -/
def exitStatus (x : Py Exit × World κ) : Nat := Cli.status x.1

/-- The run changed nothing in the cloud, and writes its file last. -/
structure EndsByWriting (os : Os) (path : Path) (output : Bytes → Prop) (w : World κ)
    (x : Py Exit × World κ) : Prop where
  blobs : x.2.blobs = w.blobs
  files : WritesLast os path output w.files (exitStatus x) x.2.files

/-- The run changed nothing in the cloud, and opens its file first. -/
structure EndsAfterOpening (os : Os) (path : Path) (ready : Prop) (output : Bytes → Prop) (w : World κ)
    (x : Py Exit × World κ) : Prop where
  blobs : x.2.blobs = w.blobs
  files : OpensFirst os path ready output w.files (exitStatus x) x.2.files

/-- The run changed nothing at all, and its status tells whether `good`. -/
structure OnlyChecks (good : Prop) (w : World κ) (x : Py Exit × World κ) : Prop where
  unchanged : x.2 = w
  status : (exitStatus x = 0 ∧ good) ∨ (exitStatus x = 1 ∧ ¬ good)

/-! ## Hexadecimal -/

/-- The digits, with their values. -/
inductive HexDigitByte : UInt8 → Nat → Prop
  | decimal {n} : n < 10 → HexDigitByte (UInt8.ofNat (48 + n)) n
  | lower {n} : n < 6 → HexDigitByte (UInt8.ofNat (97 + n)) (10 + n)
  | upper {n} : n < 6 → HexDigitByte (UInt8.ofNat (65 + n)) (10 + n)

/-- Two digits for every byte. -/
inductive HexOf : Bytes → Bytes → Prop
  | nil : HexOf [] []
  | cons {x y i j s b t} : HexDigitByte x i → HexDigitByte y j → b = UInt8.ofNat (16 * i + j) → HexOf s t →
      HexOf (x :: y :: s) (b :: t)

/-- The digits of `code`, in lower case. -/
def LowerHex (digits code : Bytes) : Prop := HexOf digits code ∧ ∀ c ∈ digits, ¬ (65 ≤ c ∧ c ≤ 70)

/-- Space, tab, line feed, vertical tab, form feed, carriage return. -/
def White (c : UInt8) : Prop := c ∈ ([32, 9, 10, 11, 12, 13] : List UInt8)

/-- The hexadecimal digits of `code`, with white space before and after. -/
def HexText (text code : Bytes) : Prop :=
  ∃ before digits after, text = before ++ digits ++ after ∧ (∀ c ∈ before, White c) ∧
    (∀ c ∈ after, White c) ∧ HexOf digits code

/-! ## What the programs compute -/

variable {σ δ ε τ S P C F : Type} [DecidableEq C]

/-- The registry of a process that has called `register()` of one package. -/
def registryOf (isInst : P → C → Bool) (ss : List (Stmt P C)) : Registry P C := (execAll isInst ss {}).1

/-- `p` is the primitive of class `k` that a keyset file gives in a process that has called
`register()`. -/
def PrimitiveOf (L : Library σ δ ε τ S P C) (isInst : P → C → Bool) (E : JsonFormatEnv F) (os : Os)
    (files : Nat → Option Bytes) (ss : List (Stmt P C)) (path : Path) (k : PrimClass) (p : P) : Prop :=
  ∃ h, KeysetFile E os files path h ∧ h.primitive isInst (registryOf isInst ss) (L.cls k) = .ok p

/-- The bytes given by a flag: none without the flag, otherwise its UTF-8 encoding. -/
def FlagBytes (text : Option PyStr) (b : Bytes) : Prop := utf8Encode (text.getD []) = .ok b

/-- The result of the operation that `mode` tells. -/
def crypt (mode : Mode) (encrypt decrypt : Bytes → Bytes → Py Bytes) (input ad : Bytes) : Py Bytes :=
  match mode with
  | .encrypt => encrypt input ad
  | .decrypt => decrypt input ad

/-- `h` is the keyset that `new_keyset_handle(AES128_GCM)` returns in a process that has called
`aead.register()`. -/
def NewAeadKeyset (L : Library σ δ ε τ S P C) (isInst : P → C → Bool) (seed : Seed) (draws : List UInt32)
    (h : KeysetHandle) : Prop :=
  ∃ t, Templates.AES128_GCM = .ok t ∧
    KeysetHandle.generateNew (registryOf isInst (registerAead L)) seed draws t = some (.ok h)

/-- All files can be read and written. -/
structure Working (os : Os) : Prop where
  readable : ∀ path, os.readable path = true
  writable : ∀ path, os.writable path = true
  stored : ∀ path b, os.stored path b = none

/-- `env` is the envelope AEAD for a key of the KMS, with AES256_GCM for the data.  (A line feed after
the name of the key is let through, see C37.) -/
def EnvelopeFor (L : Library σ δ ε τ S P C) (isInst : P → C → Bool) (api : PyStr → Py (Gcp.ApiClient κ))
    (seed : Seed) (uri credentials : PyStr) (env : KmsEnvelopeAead κ) : Prop :=
  ∃ c name kd, uri = py! "gcp-kms://" ++ name ∧
    (∃ n p l r k, GcpKeyName n p l r k ∧ (name = n ∨ name = n ++ py! "\n")) ∧ api credentials = .ok c ∧
    env.remoteAead = Gcp.gcpKmsAead c name ∧ Templates.AES256_GCM = .ok env.keyTemplate ∧
    (registryOf isInst (registerAead L)).newKeyData seed env.keyTemplate = .ok kd

/-- The C++ library has a correct AEAD for the template, whatever the random numbers. -/
def SoundAead (L : Library σ δ ε τ S P C) (t : KeyTemplate) : Prop :=
  ∃ cc, L.ccAead t.typeUrl = some cc ∧ ∀ seed, ∃ kd a, cc.newKeyData seed t.value = .ok kd ∧
    cc.getPrimitive kd = .ok a ∧ Fits kd ∧ kd.typeUrl = t.typeUrl ∧
    kd.keyMaterialType = KeyMaterialType.SYMMETRIC ∧
    ∀ s pt ad ct, a.encrypt s pt ad = .ok ct → a.decrypt ct ad = .ok pt

/-- In the state `s'` the server decrypts what it has encrypted in the state `s`. -/
def Serving (c : Gcp.ApiClient κ) (s s' : κ) : Prop :=
  ∀ name key s1 ct, c.encrypt s name key [] = (s1, .ok ct) → (c.decrypt s' name ct []).2 = .ok key

/-- The name of an object in the cloud storage: `gs://bucket/object`. -/
def GcsName (text bucket object : PyStr) : Prop :=
  text = py! "gs://" ++ bucket ++ py! "/" ++ object ∧ 47 ∉ bucket

/-- Only this object has changed; it is these bytes now. -/
def Uploaded (bucket object : PyStr) (b : Bytes) (blobs blobs' : PyStr → PyStr → Option Bytes) : Prop :=
  blobs' bucket object = some b ∧ ∀ k o, (k, o) ≠ (bucket, object) → blobs' k o = blobs k o

/-- A program that has one object to upload, given by `output` (if there is any), ended with this
status and left these objects: it has been uploaded, or there was none, or the storage refused it. -/
inductive Uploads (st : Storage) (output : PyStr → PyStr → Bytes → Prop)
    (blobs : PyStr → PyStr → Option Bytes) : Nat → (PyStr → PyStr → Option Bytes) → Prop
  | uploaded {bucket object b blobs'} : output bucket object b → st.upload bucket object = .ok () →
      Uploaded bucket object b blobs blobs' → Uploads st output blobs 0 blobs'
  | nothing : (∀ bucket object b, ¬ output bucket object b) → Uploads st output blobs 1 blobs
  | refused {bucket object b} : output bucket object b → st.upload bucket object ≠ .ok () →
      Uploads st output blobs 1 blobs

/-- Paths lead to the same files in two runs. -/
def SameFiles (os os' : Os) : Prop := ∀ path, os'.file path = os.file path

end

end Tink.Spec
