import Verif.Py.Utf8

/-!
# What the example programs need of Python and of the operating system

Files, exceptions, the exit status and hexadecimal.  The programs are in `/repo/python/examples`; this
file models no code of the repository but the functions of Python that they call.
-/

namespace Tink.Cli

/-- A path, as given by a flag. -/
abbrev Path := PyStr

/-- The operating system during one run of a program.  `file` is the file a path leads to: several
paths may lead to one file (links).  `readable`: can a file there be opened for reading and read;
`writable`: can the path be opened for writing.  `stored path data` is what becomes of writing `data`
to a file opened at `path`: `none` if all goes well, `some k` if only `k` bytes reach the file and
`OSError` is raised (a full disk).  None of this changes during a run. -/
structure Os where
  file : Path → Nat
  readable : Path → Bool
  writable : Path → Bool
  stored : Path → Bytes → Option Nat

/-- What the programs can change: the contents of the files (`none`: there is no such file), the state
`κ` of the KMS server, and the blobs in the cloud storage by bucket and name. -/
structure World (κ : Type) where
  files : Nat → Option Bytes
  kms : κ
  blobs : PyStr → PyStr → Option Bytes

/-- A piece of a program: its result or exception, and the world it leaves. -/
def Run (κ α : Type) := World κ → Py α × World κ

namespace Run
variable {κ α β : Type}

protected def pure (a : α) : Run κ α := fun w => (.ok a, w)

protected def bind (x : Run κ α) (f : α → Run κ β) : Run κ β := fun w =>
  match x w with
  | (.error e, w') => (.error e, w')
  | (.ok a, w') => f a w'

instance : Monad (Run κ) where
  pure := Run.pure
  bind := Run.bind

/-- Code that neither reads nor changes the world. -/
def lift (x : Py α) : Run κ α := fun w => (x, w)

end Run

/-- What `main` returns: `None` or a number. -/
abbrev Exit := Option Nat

/-- The exit status of a program: `app.run(main)` is `sys.exit(main(argv))`; an exception that
`main` does not catch gives 1. -/
def status : Py Exit → Nat
  | .ok none => 0
  | .ok (some n) => n
  | .error _ => 1

section
variable {κ α : Type}

/-- `try: x = … except tink.TinkError: … return 1`, and what follows. -/
def tryTink (x : Py α) (rest : α → Run κ Exit) : Run κ Exit :=
  match x with
  | .ok a => rest a
  | .error e => if e.isTink then pure (some 1) else Run.lift (.error e)

/-! ## Files -/

/-- `open(path, 'rb')` and `read()`. -/
def readBytes (os : Os) (path : Path) : Run κ Bytes := fun w =>
  match w.files (os.file path) with
  | none => (.error .osError, w)
  | some b => if os.readable path then (.ok b, w) else (.error .osError, w)

/-- Universal newlines, the default of text files: `\r\n` and `\r` are read as `\n`. -/
def universalNewlines : PyStr → PyStr
  | [] => []
  | 13 :: 10 :: s => 10 :: universalNewlines s
  | 13 :: s => 10 :: universalNewlines s
  | c :: s => c :: universalNewlines s

/-- What reading a text file makes of its bytes.  The encoding is assumed to be UTF-8, as it is on
most systems; without it the locale decides. -/
def decodeText (b : Bytes) : Py PyStr := do
  let s ← utf8Decode b
  return universalNewlines s

/-- `open(path, 'rt')` and `read()`. -/
def readText (os : Os) (path : Path) : Run κ PyStr := do
  let b ← readBytes os path
  Run.lift (decodeText b)

/-- Replaces the content of one file. -/
def World.put (w : World κ) (f : Nat) (b : Bytes) : World κ :=
  { w with files := fun g => if g = f then some b else w.files g }

/-- `open(path, 'wb')` and `open(path, 'wt')`: the file is created, or emptied. -/
def openWrite (os : Os) (path : Path) : Run κ Unit := fun w =>
  if os.writable path then (.ok (), w.put (os.file path) []) else (.error .osError, w)

/-- `file.write(data)`, the only one to a file opened with `openWrite`, and closing the file. -/
def writeBytes (os : Os) (path : Path) (data : Bytes) : Run κ Unit := fun w =>
  match os.stored path data with
  | none => (.ok (), w.put (os.file path) data)
  | some k => (.error .osError, w.put (os.file path) (data.take k))

/-- `file.write(text)` to a text file, and closing it.  Lines end in `\n` (not on Windows). -/
def writeText (os : Os) (path : Path) (text : PyStr) : Run κ Unit := do
  let b ← Run.lift (utf8Encode text)
  writeBytes os path b

/-- A path from a flag that is not required: `open(None)` raises `TypeError`. -/
def givenPath : Option Path → Run κ Path
  | none => Run.lift (.error .typeError)
  | some p => pure p

end

/-! ## Flags -/

/-- `b'' if not FLAGS.associated_data else bytes(FLAGS.associated_data, 'utf-8')`. -/
def flagBytes : Option PyStr → Py Bytes
  | none => .ok []
  | some [] => .ok []
  | some s => utf8Encode s

/-! ## Hexadecimal -/

/-- The lower case digit for a number below 16. -/
def hexDigit (n : Nat) : UInt8 := UInt8.ofNat (if n < 10 then 48 + n else 87 + n)

/-- `binascii.hexlify(b)`. -/
def hexlify (b : Bytes) : Bytes := b.flatMap fun x => [hexDigit (x.toNat / 16), hexDigit (x.toNat % 16)]

/-- The value of a digit of either case. -/
def hexValue (c : UInt8) : Option Nat :=
  if 48 ≤ c.toNat ∧ c.toNat ≤ 57 then some (c.toNat - 48)
  else if 97 ≤ c.toNat ∧ c.toNat ≤ 102 then some (c.toNat - 87)
  else if 65 ≤ c.toNat ∧ c.toNat ≤ 70 then some (c.toNat - 55)
  else none

/-- `binascii.unhexlify(b)`; `none` is `binascii.Error`. -/
def unhexlify : Bytes → Option Bytes
  | [] => some []
  | [_] => none
  | x :: y :: r =>
    match hexValue x, hexValue y, unhexlify r with
    | some i, some j, some t => some (UInt8.ofNat (16 * i + j) :: t)
    | _, _, _ => none

/-- The bytes `bytes.strip()` takes away: space, tab, line feed, vertical tab, form feed, carriage
return. -/
def isSpace (c : UInt8) : Bool := c.toNat == 32 || (9 ≤ c.toNat && c.toNat ≤ 13)

/-- `b.strip()`. -/
def strip (b : Bytes) : Bytes := ((b.dropWhile isSpace).reverse.dropWhile isSpace).reverse

end Tink.Cli
