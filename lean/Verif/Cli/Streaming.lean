import Verif.Cli.Programs
import Verif.Stream.Buffered

/-!
# The example program that encrypts large files

`/repo/python/examples/streaming_aead/streaming_aead_cli.py`.

The streams it uses are buffered readers and writers, which are relations (`Stream/Buffered.lean`).  So the
program is a relation too: between the world before a run, and the result with the world after it.
-/

namespace Tink.Cli
open Config Io

/-! ## The two files -/

/-- What the disk does in a run: whether the n-th read of the input file fails, and whether the n-th
operation on the output file does (writing, and closing as the last one). -/
structure Disk where
  inputFails : Nat → Bool
  outputFails : Nat → Bool

/-- The input file, `open(FLAGS.input_path, 'rb')` (line 146): a regular file, so that `read(n)` returns the
next `n` bytes, or those that are left.  The state has the bytes that are left, and the number of reads so
far.  A read that fails raises `OSError`. -/
def inputFile (disk : Disk) : Source (Bytes × Nat) where
  read s n :=
    if disk.inputFails s.2 then ((s.1, s.2 + 1), .raised .osError)
    else ((s.1.drop n, s.2 + 1), .data (s.1.take n))

/-- The output file, `open(FLAGS.output_path, 'wb')` (line 147), as the C++ classes see it: it takes all the
bytes of a write, or `OSError` is raised.  The state has the number of operations so far, and the bytes that
were written by those that did not fail. -/
def outputFile (disk : Disk) : CSink (Nat × Bytes) where
  write s d :=
    if disk.outputFails s.1 then ((s.1 + 1, s.2), .error ⟨.unknown, false⟩)
    else ((s.1 + 1, s.2 ++ d), .ok d.length)
  close s := ((s.1 + 1, s.2), if disk.outputFails s.1 then .error ⟨.unknown, false⟩ else .ok ())

/-! ## Encryption -/

/-- `BLOCK_SIZE`, line 41. -/
def blockSize : Nat := 1024 * 1024

/-- The loop of `encrypt_file`, lines 85-86, with the generator of lines 53-69: from the state `s` of the
input file, and the state `t` of the raw encrypting stream with the bytes `b` waiting in the buffered writer.
Then the calls of `write` with their results, how the loop was left, and the last states.  A read that
returned `None` would be passed on to `write`, which raises `TypeError`. -/
inductive EncryptLoop {σ ρ : Type} (src : Source σ) (W : ρ → Bytes → ρ → Py Nat → Prop) :
    σ → ρ → Bytes → List (WriteOp × Py Nat) → Py Unit → ρ → Bytes → Prop
  | ended {s t b} : (src.read s blockSize).2 = .data [] → EncryptLoop src W s t b [] (.ok ()) t b
  | readRaised {s t b e} : (src.read s blockSize).2 = .raised e → EncryptLoop src W s t b [] (.error e) t b
  | blocking {s t b} : (src.read s blockSize).2 = .blocking → EncryptLoop src W s t b [] (.error .osError) t b
  | noData {s t b} : (src.read s blockSize).2 = .none → EncryptLoop src W s t b [] (.error .typeError) t b
  | wrote {s t b d n t1 b1 ops r t2 b2} : (src.read s blockSize).2 = .data d → d ≠ [] →
      BufferedWrite W t b (.write d) (.ok n) t1 b1 →
      EncryptLoop src W (src.read s blockSize).1 t1 b1 ops r t2 b2 →
      EncryptLoop src W s t b ((.write d, .ok n) :: ops) r t2 b2
  | writeRaised {s t b d e t1 b1} : (src.read s blockSize).2 = .data d → d ≠ [] →
      BufferedWrite W t b (.write d) (.error e) t1 b1 →
      EncryptLoop src W s t b [(.write d, .error e)] (.error e) t1 b1

variable {κe τ : Type}

/-- `encrypt_file`, lines 72-86, for an input file that holds `input`, and closing the files (146-147): the
result, and what the output file holds then.  The `with` block closes the stream also when the loop is left
by an exception, and with the stream the output file; closing it again does nothing.  If closing raises,
nothing is said about the output file. -/
inductive EncryptFile (disk : Disk)
    (prim : StreamingAead (Bytes × Nat) (Dest (Nat × Bytes)) (CcEncrypting κe (Nat × Bytes)) τ)
    (seed : Seed) (outBuffer ad input : Bytes) : Py Unit → Bytes → Prop
  | notMade {e} : prim.newEncryptingStream seed ⟨true, (0, []), outBuffer⟩ ad = .error e →
      EncryptFile disk prim seed outBuffer ad input (.error e) []
  | closed {t ops body t1 b t2} : prim.newEncryptingStream seed ⟨true, (0, []), outBuffer⟩ ad = .ok t →
      EncryptLoop (inputFile disk) (CcEncrypting.RawWrite (outputFile disk))
        (input, 0) t [] ops body t1 b →
      BufferedClose (CcEncrypting.RawWrite (outputFile disk))
        (CcEncrypting.RawClose (outputFile disk)) t1 b t2 (.ok ()) →
      EncryptFile disk prim seed outBuffer ad input body t2.object.2
  | failed {t ops body t1 b t2 e} (left : Bytes) :
      prim.newEncryptingStream seed ⟨true, (0, []), outBuffer⟩ ad = .ok t →
      EncryptLoop (inputFile disk) (CcEncrypting.RawWrite (outputFile disk))
        (input, 0) t [] ops body t1 b →
      BufferedClose (CcEncrypting.RawWrite (outputFile disk))
        (CcEncrypting.RawClose (outputFile disk)) t1 b t2 (.error e) →
      EncryptFile disk prim seed outBuffer ad input (.error e) left

/-! ## Decryption -/

/-- How the loop of `decrypt_file` was left. -/
inductive LoopEnd where
  | ended
  | raised (e : Exc)
  | notWritten

/-- The loop of `decrypt_file`, lines 104-106, with the generator of lines 53-69: from the state `t` of the
raw decrypting stream with the bytes `b` read in advance by the buffered reader, and after `n` operations on
the output file.  Then the blocks that were written, how the loop was left, and the number of operations on
the output file. -/
inductive DecryptLoop {ρ : Type} (R : ρ → Nat → ρ → ReadResult → Prop) (fails : Nat → Bool) :
    ρ → Bytes → Nat → List Bytes → LoopEnd → Nat → Prop
  | ended {t b n t1 b1} : BufferedRead R t b (.read blockSize) (.data []) t1 b1 →
      DecryptLoop R fails t b n [] .ended n
  | readRaised {t b n e t1 b1} : BufferedRead R t b (.read blockSize) (.raised e) t1 b1 →
      DecryptLoop R fails t b n [] (.raised e) n
  | blocking {t b n t1 b1} : BufferedRead R t b (.read blockSize) .blocking t1 b1 →
      DecryptLoop R fails t b n [] (.raised .osError) n
  | noData {t b n t1 b1} : BufferedRead R t b (.read blockSize) .none t1 b1 →
      DecryptLoop R fails t b n [] (.raised .typeError) n
  | wrote {t b n d t1 b1 ds r n2} : BufferedRead R t b (.read blockSize) (.data d) t1 b1 → d ≠ [] →
      fails n = false → DecryptLoop R fails t1 b1 (n + 1) ds r n2 → DecryptLoop R fails t b n (d :: ds) r n2
  | notWritten {t b n d t1 b1} : BufferedRead R t b (.read blockSize) (.data d) t1 b1 → d ≠ [] →
      fails n = true → DecryptLoop R fails t b n [d] .notWritten (n + 1)

variable {ε : Type}

/-- `decrypt_file`, lines 89-109, for an input file that holds `input`, and closing the files (146-147): the
exception that is raised in the `try` statement or later, and what the output file holds then.  Closing the
decrypting stream closes the input file, which is assumed not to fail.  If writing or closing the output file
fails it holds some first bytes of what was written. -/
inductive DecryptFile {δ : Type} (disk : Disk) (prim : StreamingAead (Bytes × Nat) δ ε τ) (ad input : Bytes) :
    Py Unit → Bytes → Prop
  | notMade {e} : prim.newDecryptingStream (input, 0) true ad = .error e →
      DecryptFile disk prim ad input (.error e) []
  | ended {w ds n} : prim.newDecryptingStream (input, 0) true ad = .ok w →
      DecryptLoop (DecryptingStreamWrapper.RawRead (inputFile disk)) disk.outputFails w [] 0 ds .ended n →
      disk.outputFails n = false → DecryptFile disk prim ad input (.ok ()) ds.flatten
  | raised {w ds e n} : prim.newDecryptingStream (input, 0) true ad = .ok w →
      DecryptLoop (DecryptingStreamWrapper.RawRead (inputFile disk)) disk.outputFails w [] 0 ds (.raised e) n →
      disk.outputFails n = false → DecryptFile disk prim ad input (.error e) ds.flatten
  | notWritten {w ds n} (left : Bytes) : prim.newDecryptingStream (input, 0) true ad = .ok w →
      DecryptLoop (DecryptingStreamWrapper.RawRead (inputFile disk)) disk.outputFails w [] 0 ds .notWritten n →
      left <+: ds.flatten → DecryptFile disk prim ad input (.error .osError) left
  | notClosed {w ds r n} (left : Bytes) : prim.newDecryptingStream (input, 0) true ad = .ok w →
      DecryptLoop (DecryptingStreamWrapper.RawRead (inputFile disk)) disk.outputFails w [] 0 ds r n →
      disk.outputFails n = true → left <+: ds.flatten →
      DecryptFile disk prim ad input (.error .osError) left

/-! ## The program -/

/-- A program of which more than one course is possible. -/
def Courses (κ : Type) := World κ → Py Exit × World κ → Prop

section
variable {κ α : Type}

/-- A piece of the program, and what follows if it raises nothing. -/
def Courses.after (x : Run κ α) (rest : α → Courses κ) : Courses κ := fun w y =>
  match x w with
  | (.ok a, w') => rest a w' y
  | (.error e, w') => y = (.error e, w')

/-- `tryTink`, for what follows. -/
def Courses.tryTink (x : Py α) (rest : α → Courses κ) : Courses κ := fun w y =>
  match x with
  | .ok a => rest a w y
  | .error e => if e.isTink then y = (.ok (some 1), w) else y = (.error e, w)

/-- `open(path, 'rb')`. -/
def openRead (os : Os) (path : Path) : Run κ Unit := fun w =>
  match w.files (os.file path) with
  | none => (.error .osError, w)
  | some _ => if os.readable path then (.ok (), w) else (.error .osError, w)

/-- What the program ends with, lines 148-153 and 107-109: `exit(1)` is called if `TinkError` is raised in
`decrypt_file`. -/
def exitOf : Mode → Py Unit → Py Exit
  | _, .ok () => .ok none
  | .encrypt, .error e => .error e
  | .decrypt, .error e => if e.isTink then .ok (some 1) else .error e

variable {S P C F : Type} [DecidableEq C]

/-- Lines 146-153, after the files are opened.  Nothing is written before the first read, so `input` is what
the input file holds when both are open: nothing, if both are the same file. -/
def useFiles (os : Os) (disk : Disk)
    (prim : StreamingAead (Bytes × Nat) (Dest (Nat × Bytes)) (CcEncrypting κe (Nat × Bytes)) τ)
    (seed : Seed) (outBuffer ad : Bytes) (fl : Flags) : Courses κ := fun w y =>
  ∃ input, w.files (os.file fl.inputPath) = some input ∧ ∃ r left,
    (match fl.mode with
      | .encrypt => EncryptFile disk prim seed outBuffer ad input r left
      | .decrypt => DecryptFile disk prim ad input r left) ∧
    y = (exitOf fl.mode r, w.put (os.file fl.outputPath) left)

/-- `main`, lines 112-153. -/
def streamingCli (L : Library (Bytes × Nat) (Dest (Nat × Bytes)) (CcEncrypting κe (Nat × Bytes)) τ S P C)
    (isInst : P → C → Bool) (E : JsonFormatEnv F) (os : Os) (disk : Disk) (seed : Seed) (outBuffer : Bytes)
    (fl : Flags) : Courses κ :=
  .after (Run.lift (flagBytes fl.text)) fun ad =>
  .after (registered isInst (registerStreamingAead L)) fun r =>
  .after (readText os fl.keysetPath) fun text =>
  .tryTink (JsonProtoKeysetFormat.parse E text .secretKeyAccess) fun h =>
  .tryTink (h.primitive isInst r (L.cls .streamingAead)) fun p =>
  .after (openRead os fl.inputPath) fun _ =>
  .after (openWrite os fl.outputPath) fun _ =>
  useFiles os disk (L.streamingAead.view p) seed outBuffer ad fl

end

end Tink.Cli
