import Verif.Setup.Text
import Verif.Py.Lit

/-!
# `python/setup.py`

The functions that read and rewrite files before the package is built: the version, the requirements, the Bazel
workspace and the generated protocol buffers.  Not modelled: how `bazel` and `protoc` are found, the `bazel` commands
themselves, and what setuptools does.
-/

namespace Tink.Setup
open Cli

/-- `os.environ`. -/
abbrev Environ := PyStr → Option PyStr

/-- `_get_tink_version`, `setup.py:35-47`, given the text of the file `VERSION`. -/
def getTinkVersion (text : PyStr) : Py PyStr :=
  match (fileLines text).find? fun line => startsWith line (py! "TINK_VERSION_LABEL") with
  | none => .error .valueError
  | some versionLine =>
    -- `split` returns a list that is not empty
    .ok (stripChars (py! "\n '\"") ((split (py! " = ") versionLine).getLastD []))

/-- `_parse_requirements`, `setup.py:97-103`, given the text of the file. -/
def parseRequirements (text : PyStr) : List PyStr :=
  ((fileLines text).filter fun line => !(isspace line || startsWith line (py! "#"))).map rstrip

/-- `http_archive_load`, `setup.py:160-162`. -/
def httpArchiveLoad : PyStr :=
  py! "load(\"@bazel_tools//tools/build_defs/repo:http.bzl\", \"http_archive\")"

/-- `cc`, `setup.py:169-174`. -/
def cc : PyStr := py! "local_repository(\n    name = \"tink_cc\",\n    path = \"../cc\",\n)\n"

/-- `cc_patched`, `setup.py:176-183`.  What `textwrap.dedent` makes of it if there are no line breaks in `filename` and
`archivePrefix`. -/
def ccPatched (filename archivePrefix : PyStr) : PyStr :=
  py! "# Modified by setup.py\nhttp_archive(\n    name = \"tink_cc\",\n    urls = [\"https://github.com/google/tink/archive/" ++
    filename ++ py! "\"],\n    strip_prefix = \"" ++ archivePrefix ++ py! "/cc\",\n)\n"

/-- `_patch_with_http_archive`, `setup.py:156-185`. -/
def patchWithHttpArchive (content filename archivePrefix : PyStr) : PyStr :=
  let lines := split [10] content
  let content :=
    if !isIn httpArchiveLoad content then
      -- `split` returns a list that is not empty
      join [10] ([lines.headD [], httpArchiveLoad] ++ lines.tail)
    else content
  replace cc (ccPatched filename archivePrefix) content

/-- `_patch_workspace`, `setup.py:140-150`: what it makes of the text. -/
def patchText (env : Environ) (content : PyStr) : PyStr :=
  match env (py! "TINK_PYTHON_SETUPTOOLS_TAGGED_VERSION") with
  | some taggedVersion =>
    patchWithHttpArchive content (py! "v" ++ taggedVersion ++ py! ".zip") (py! "tink-" ++ taggedVersion)
  | none => patchWithHttpArchive content (py! "master.zip") (py! "tink-master")

/-- `_patch_workspace`, `setup.py:106-153`.  Also all that `SdistCmd.run` (lines 248-250) and
`BuildBazelExtension.bazel_build` (lines 216-218) do to files of the source tree before they go on. -/
def patchWorkspace {κ : Type} (os : Os) (env : Environ) (workspaceFile : Path) : Run κ Unit := do
  let content ← readText os workspaceFile
  openWrite os workspaceFile
  writeText os workspaceFile (patchText env content)

/-- `workspace_file` patched several times, each time in another environment: once when the sdist is made, and once
for each extension when the package is built. -/
def patchAll {κ : Type} (os : Os) (workspaceFile : Path) : List Environ → Run κ Unit
  | [] => pure ()
  | env :: envs => do
    patchWorkspace os env workspaceFile
    patchAll os workspaceFile envs

/-! ## Protocol buffers -/

/-- When files were last modified; `none`: there is no such file. -/
abbrev Times := PyStr → Option Nat

/-- The name of the generated file, `setup.py:84`. -/
def protoOutput (source : PyStr) : PyStr := replace (py! ".proto") (py! "_pb2.py") source

/-- `_generate_proto`, `setup.py:78-94`.  `protoc` runs the compiler on a source; with `check=True` its failure is an
exception.  The message it prints is left out. -/
def generateProto (protoc : PyStr → Times → Py Times) (source : PyStr) (t : Times) : Py Times :=
  match t source with
  | none => .error .osError
  | some sourceTime =>
    match t (protoOutput source) with
    | none => protoc source t
    | some outputTime => if sourceTime < outputTime then .ok t else protoc source t

/-- The loop in `main`, `setup.py:256-257`, over what `glob` found. -/
def generateProtos (protoc : PyStr → Times → Py Times) : List PyStr → Times → Py Times
  | [], t => .ok t
  | source :: sources, t => do
    let t' ← generateProto protoc source t
    generateProtos protoc sources t'

end Tink.Setup
