import Verif.Cli.Streaming
import Verif.Spec.Cli
import Verif.Spec.Stream
import Verif.Spec.Writing
import Verif.Spec.SegmentCrypters
import Verif.Spec.Valid
import Verif.Stream.StreamingKeyManagers

/-!
# Vocabulary for C87: the example program that encrypts large files
-/

namespace Tink.Spec
open Cli Config Io

variable {P C F κ : Type} [DecidableEq C]

/-- Tink as the program uses it: streams read from the input file and write to the output file. -/
abbrev FileLibrary (P C : Type) :=
  Library (Bytes × Nat) (Dest (Nat × Bytes)) (CcEncrypting Nat (Nat × Bytes)) (CcDecrypting Segment.State)
    (NonceBased Nat Segment.State) P C

/-- The two kinds of streaming AEAD keys are as modelled, with the cryptographic functions `lib`. -/
structure StreamingSetup (L : FileLibrary P C) (isInst : P → C → Bool) (lib : SegmentLibrary)
    (text : Exc → Bool) (inBuffer : Bytes) : Prop where
  config : LawfulConfig L isInst
  keys : L.ccStreamingAead = ccStreamingAead lib
  streams : ∀ p, L.streamingCcToPy p = p.toRaw text inBuffer
  buffer : inBuffer ≠ []

/-- `q` is the streaming AEAD of the key `k`, in a process that has called `streaming_aead.register()`. -/
def KeyGives (L : FileLibrary P C) (isInst : P → C → Bool) (k : Key)
    (q : RawStreamingAead (Dest (Nat × Bytes)) (CcEncrypting Nat (Nat × Bytes)) (CcDecrypting Segment.State)) :
    Prop :=
  ∃ o, (registryOf isInst (registerStreamingAead L)).primitive k.data (L.cls .rawStreamingAead) = .ok o ∧
    L.rawStreamingAead.view o = q

/-- This holds of the streaming AEADs of all enabled keys. -/
def EveryKey (L : FileLibrary P C) (isInst : P → C → Bool) (h : KeysetHandle)
    (Q : RawStreamingAead (Dest (Nat × Bytes)) (CcEncrypting Nat (Nat × Bytes)) (CcDecrypting Segment.State) →
      Prop) : Prop :=
  ∀ k ∈ h.keyset.key, Enabled k → ∀ q, KeyGives L isInst k q → Q q

/-- With the associated data `ad`, the primary key of the keyset decrypts `ct` to `pt`. -/
def PrimaryDecrypts (L : FileLibrary P C) (isInst : P → C → Bool) (h : KeysetHandle) (ad ct pt : Bytes) : Prop :=
  ∃ k ∈ h.keyset.key, IsPrimaryKey h.keyset k ∧ ∃ q, KeyGives L isInst k q ∧ DecryptsTo q ad ct pt

/-- With the primary key of the keyset, encrypting streams can be made, and up to `limit` bytes be encrypted. -/
def PrimaryEncrypts (L : FileLibrary P C) (isInst : P → C → Bool) (text : Exc → Bool) (inBuffer : Bytes)
    (h : KeysetHandle) (limit : Nat) : Prop :=
  ∃ k ∈ h.keyset.key, IsPrimaryKey h.keyset k ∧ ∃ np : NonceBased Nat Segment.State,
    KeyGives L isInst k (np.toRaw text inBuffer) ∧ SoundStreaming np ∧ EncryptsUpTo np limit ∧
    ∀ seed (object : Nat × Bytes) buffer ad, ∃ t, np.newRawEncryptingStream seed ⟨true, object, buffer⟩ ad = .ok t

/-- The keys can be serialized: each is smaller than 2 GiB. -/
def FitsKeys (h : KeysetHandle) : Prop := ∀ k ∈ h.keyset.key, Fits k.data

/-- All is there that the program needs: the keyset `h`, which can be used for streaming AEAD, the associated
data, an input file and an output file.  `input` is what it will read: the content of the input file, or
nothing if the output file is the same file. -/
structure Ready (L : FileLibrary P C) (isInst : P → C → Bool) (E : JsonFormatEnv F) (os : Os)
    (files : Nat → Option Bytes) (fl : Flags) (h : KeysetHandle) (ad input : Bytes) : Prop where
  flag : FlagBytes fl.text ad
  keyset : KeysetFile E os files fl.keysetPath h
  primitive : ∃ p, h.primitive isInst (registryOf isInst (registerStreamingAead L)) (L.cls .streamingAead) = .ok p
  writable : os.writable fl.outputPath = true
  input : ∃ content, FileHolds os files fl.inputPath content ∧
    input = if os.file fl.inputPath = os.file fl.outputPath then [] else content

/-- The output file can be written to the end. -/
def Disk.Writes (disk : Disk) : Prop := ∀ n, disk.outputFails n = false
/-- The input file can be read to the end. -/
def Disk.Reads (disk : Disk) : Prop := ∀ n, disk.inputFails n = false

/-- A run that ended with this status changed nothing but the output file, which now holds `c`. -/
structure Leaves (os : Os) (fl : Flags) (w : World κ) (x : Py Exit × World κ) (code : Nat) (c : Bytes) : Prop where
  status : exitStatus x = code
  files : Updated (os.file fl.outputPath) c w.files x.2.files
  blobs : x.2.blobs = w.blobs
  kms : x.2.kms = w.kms

end Tink.Spec
