import Verif.Setup.Setup
import Verif.Spec.Cli

/-!
# Vocabulary for C110: what `setup.py` makes of the files of the package
-/

namespace Tink.Spec
open Cli Setup

/-! ## The workspace -/

/-- The rule for the C++ library as it is in the repository. -/
def localRule : PyStr := py! "local_repository(\n    name = \"tink_cc\",\n    path = \"../cc\",\n)\n"

/-- A rule for the C++ library that fetches an archive of the repository. -/
def archiveRule (archive folder : PyStr) : PyStr :=
  py! "# Modified by setup.py\n" ++
  py! "http_archive(\n" ++
  py! "    name = \"tink_cc\",\n" ++
  py! "    urls = [\"https://github.com/google/tink/archive/" ++ archive ++ py! "\"],\n" ++
  py! "    strip_prefix = \"" ++ folder ++ py! "/cc\",\n" ++
  py! ")\n"

/-- What makes the rule `http_archive` known. -/
def loadLine : PyStr := py! "load(\"@bazel_tools//tools/build_defs/repo:http.bzl\", \"http_archive\")"

/-- The variable with the version to build against. -/
def taggedVersion : PyStr := py! "TINK_PYTHON_SETUPTOOLS_TAGGED_VERSION"

/-- The variable with the path of a local copy, which according to the documentation takes precedence. -/
def overridePath : PyStr := py! "TINK_PYTHON_SETUPTOOLS_OVERRIDE_BASE_PATH"

/-- The rule that the environment asks for: the archive of the tagged version, or that of the branch `master`. -/
inductive RuleFor (env : Environ) : PyStr → Prop
  | tagged {v} : env taggedVersion = some v →
      RuleFor env (archiveRule (py! "v" ++ v ++ py! ".zip") (py! "tink-" ++ v))
  | master : env taggedVersion = none → RuleFor env (archiveRule (py! "master.zip") (py! "tink-master"))

/-- The tagged version, if there is one, has no line breaks. -/
def PlainTag (env : Environ) : Prop := ∀ v, env taggedVersion = some v → 10 ∉ v ∧ 13 ∉ v

/-- A text that consists of these pieces, with `rule` between any two of them. -/
inductive WithRules (rule : PyStr) : List PyStr → PyStr → Prop
  | last {p} : WithRules rule [p] p
  | more {p ps s} : WithRules rule ps s → WithRules rule (p :: ps) (p ++ rule ++ s)

/-- What the documentation promises of the variable with the path of a local copy: the local rule has that path. -/
def HonoursOverride (patch : Environ → PyStr → PyStr) : Prop :=
  ∀ env path content, env overridePath = some path → localRule <:+: content → path <:+: patch env content

/-! ## The version and the requirements -/

/-- The text before a line. -/
def BeforeLine (s : PyStr) : Prop := s = [] ∨ ∃ s', s = s' ++ [10]

/-- White space. -/
def OnlySpace (s : PyStr) : Prop := ∀ c ∈ s, Setup.isSpace c = true

/-- The text of a requirements file, and the requirements in it: comments and empty lines are left out, and white space
at the end of a line. -/
inductive Requirements : PyStr → List PyStr → Prop
  | nil : Requirements [] []
  | blank {l s rs} : 10 ∉ l → OnlySpace l → Requirements s rs → Requirements (l ++ 10 :: s) rs
  | comment {l s rs} : 10 ∉ l → Requirements s rs → Requirements (35 :: l ++ 10 :: s) rs
  | requirement {r c l s rs} : 10 ∉ r ++ c :: l → (r ++ [c]).head? ≠ some 35 → Setup.isSpace c = false → OnlySpace l →
      Requirements s rs → Requirements (r ++ c :: l ++ 10 :: s) ((r ++ [c]) :: rs)
  /- The last line may end without a line feed. -/
  | lastBlank {l} : l ≠ [] → 10 ∉ l → OnlySpace l → Requirements l []
  | lastComment {l} : 10 ∉ l → Requirements (35 :: l) []
  | lastRequirement {r c l} : 10 ∉ r ++ c :: l → (r ++ [c]).head? ≠ some 35 → Setup.isSpace c = false → OnlySpace l →
      Requirements (r ++ c :: l) [r ++ [c]]

/-! ## Protocol buffers -/

/-- The name of a source without its ending. -/
def ProtoSource (source stem : PyStr) : Prop := source = stem ++ py! ".proto" ∧ ¬ py! ".proto" <:+: stem

/-- A compiler that, if it succeeds, has written the output for the source, and no other file.  The output is at least
as new as the source. -/
def Compiles (protoc : PyStr → Times → Py Times) : Prop :=
  ∀ source stem t t', ProtoSource source stem → protoc source t = .ok t' →
    (∃ k, t' (stem ++ py! "_pb2.py") = some k ∧ ∀ k', t source = some k' → k' ≤ k) ∧
    ∀ p, p ≠ stem ++ py! "_pb2.py" → t' p = t p

end Tink.Spec
