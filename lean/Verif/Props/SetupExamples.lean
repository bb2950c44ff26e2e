import Verif.Props.SetupFiles

/-!
# C110: examples
-/

namespace Tink.Props.SetupExample
open Spec Cli Setup Packaging

/-! ## The workspace of the repository -/

/-- The first line of `python/WORKSPACE`. -/
def firstLine : PyStr := py! "workspace(name = \"tink_py\")"

/-- The part of `python/WORKSPACE` after the local rule, `WORKSPACE:7-26`. -/
def after : PyStr := py! "
# Need to load rules_python earlier as proto uses an older version which is
# incompatible with our Python implementation will load
load(\"@tink_py//:tink_py_deps.bzl\", \"tink_py_deps\")

tink_py_deps()

load(\"@tink_py//:tink_py_deps_init.bzl\", \"tink_py_deps_init\")

tink_py_deps_init(\"tink_py\")

load(\"@tink_cc//:tink_cc_deps.bzl\", \"tink_cc_deps\", \"tink_cc_testonly_deps\")

tink_cc_deps()

tink_cc_testonly_deps()

load(\"@tink_cc//:tink_cc_deps_init.bzl\", \"tink_cc_deps_init\")

tink_cc_deps_init()
"

/-- `python/WORKSPACE`. -/
def workspace : PyStr := (firstLine ++ 10 :: py! "\n") ++ localRule ++ after

theorem workspace_pieces : WithRules localRule [firstLine ++ 10 :: py! "\n", after] workspace := .more .last

theorem workspace_plain : ∀ p ∈ [firstLine ++ 10 :: py! "\n", after], ¬ localRule <:+: p := by
  intro p hp
  simp only [List.mem_cons, List.not_mem_nil, or_false] at hp
  rcases hp with rfl | rfl <;> (rw [← isIn_iff]; decide +kernel)

theorem workspace_unknown : ¬ loadLine <:+: workspace := by rw [← isIn_iff]; decide +kernel

/-- An environment with a tagged version, one with a path, and one with neither. -/
def tagged : Environ := fun x => if x = taggedVersion then some (py! "1.7.0") else none
def pathOnly : Environ := fun x => if x = overridePath then some (py! "/home/tink") else none
def neither : Environ := fun _ => none

theorem tagged_plain : PlainTag tagged := by
  intro v h
  have : some (py! "1.7.0") = some v := h
  cases this
  decide

theorem neither_plain : PlainTag neither := by intro v h; cases h

/-- What becomes of it for a tagged version. -/
def released : PyStr :=
  (firstLine ++ 10 :: (loadLine ++ 10 :: py! "\n")) ++
    py! "# Modified by setup.py
http_archive(
    name = \"tink_cc\",
    urls = [\"https://github.com/google/tink/archive/v1.7.0.zip\"],
    strip_prefix = \"tink-1.7.0/cc\",
)
" ++ after

example : patchText tagged workspace = released := by decide +kernel

/-- `C110_archive` says so. -/
example : WithRules (archiveRule (py! "v1.7.0.zip") (py! "tink-1.7.0"))
    [firstLine ++ 10 :: (loadLine ++ 10 :: py! "\n"), after] (patchText tagged workspace) :=
  C110_archive tagged tagged_plain (.tagged (v := py! "1.7.0") rfl) (by decide) workspace_pieces workspace_plain
    workspace_unknown

/-- The same without a version. -/
example : WithRules (archiveRule (py! "master.zip") (py! "tink-master"))
    [firstLine ++ 10 :: (loadLine ++ 10 :: py! "\n"), after] (patchText neither workspace) :=
  C110_archive neither neither_plain (.master rfl) (by decide) workspace_pieces workspace_plain workspace_unknown

/-- `C110_archive_known` applies to a workspace with the line. -/
example : WithRules (archiveRule (py! "master.zip") (py! "tink-master"))
    [firstLine ++ 10 :: (loadLine ++ py! "\n"), after]
    (patchText neither ((firstLine ++ 10 :: (loadLine ++ py! "\n")) ++ localRule ++ after)) := by
  refine C110_archive_known neither neither_plain (.master rfl) (.more .last) ?_ ⟨firstLine ++ [10], 10 :: (localRule ++ after), by simp⟩
  intro p hp
  simp only [List.mem_cons, List.not_mem_nil, or_false] at hp
  rcases hp with rfl | rfl <;> (rw [← isIn_iff]; decide +kernel)

/-- What was made for a tagged version stays so without one: `C110_patched_again`. -/
example : patchText neither released = released := by
  have := C110_patched_again tagged neither tagged_plain workspace
  rwa [show patchText tagged workspace = released by decide +kernel] at this

/-- The first line must not be part of the rule: otherwise the new line is in the middle of it, and it is not replaced. -/
example : patchText neither localRule = py! "local_repository(\n" ++ loadLine ++
    py! "\n    name = \"tink_cc\",\n    path = \"../cc\",\n)\n" := by decide +kernel

/-- The path is ignored. -/
example : patchText pathOnly workspace = patchText neither workspace :=
  C110_override_ignored neither pathOnly (fun x hx => by simp [pathOnly, neither, hx]) workspace

/-! ## The file -/

/-- One file that can be read and written. -/
def os : Os := { file := fun _ => 0, readable := fun _ => true, writable := fun _ => true, stored := fun _ _ => none }

theorem workspace_text : ∃ b, utf8Encode workspace = .ok b ∧ TextOf b workspace :=
  textChar_text (by unfold TextChar; decide +kernel)

theorem released_text : ∃ b, utf8Encode released = .ok b ∧ TextOf b released :=
  textChar_text (by unfold TextChar; decide +kernel)

/-- The source distribution is made for a version and then built without it, and with a path: it is still the archive of
the version. -/
example : ∃ (w w' : World Unit) (b : Bytes), FileHolds os w.files (py! "WORKSPACE") b ∧ TextOf b workspace ∧
    (patchAll os (py! "WORKSPACE") [tagged, neither, pathOnly] : Run Unit Unit) w = (.ok (), w') ∧
    ∃ b', w'.files 0 = some b' ∧ TextOf b' released := by
  obtain ⟨b, h1, h2⟩ := workspace_text
  obtain ⟨b', h3, h4⟩ := released_text
  let w : World Unit := { files := fun _ => some b, kms := (), blobs := fun _ _ => none }
  have hb : FileHolds os w.files (py! "WORKSPACE") b := ⟨rfl, rfl⟩
  have he : utf8Encode (patchText tagged workspace) = .ok b' := by
    rw [show patchText tagged workspace = released by decide +kernel, h3]
  obtain ⟨w', e1, e2, _⟩ := C110_first_decides os (py! "WORKSPACE") w hb h2 rfl (fun _ => rfl) tagged tagged_plain he
    [neither, pathOnly]
  exact ⟨w, w', b, hb, h2, e1, b', e2.1, h4⟩

/-- A version that is not UTF-8, as `os.environ` gives it: the workspace is lost. -/
example : ∃ (w w' : World Unit) (b : Bytes), FileHolds os w.files (py! "WORKSPACE") b ∧ TextOf b workspace ∧
    (patchWorkspace os (fun x => if x = taggedVersion then some [0xDCE9] else none) (py! "WORKSPACE") : Run Unit Unit) w =
      (.error .unicodeError, w') ∧ w'.files 0 = some [] := by
  obtain ⟨b, h1, h2⟩ := workspace_text
  let w : World Unit := { files := fun _ => some b, kms := (), blobs := fun _ _ => none }
  have hb : FileHolds os w.files (py! "WORKSPACE") b := ⟨rfl, rfl⟩
  obtain ⟨w', e1, e2⟩ := C110_lost os (py! "WORKSPACE") w hb h2 rfl (line := firstLine) (by decide) workspace_plain
    workspace_pieces (fun x => if x = taggedVersion then some [0xDCE9] else none)
    (by intro v h; have : some [0xDCE9] = some v := h; cases this; decide) (v := [0xDCE9]) rfl (c := 0xDCE9) (by simp) (by decide)
  exact ⟨w, w', b, hb, h2, e1, e2.1⟩

/-- The next run: `C110_lost_unnoticed`. -/
example : ∃ w' b', (patchWorkspace os neither (py! "WORKSPACE") : Run Unit Unit)
    { files := fun _ => some [], kms := (), blobs := fun _ _ => none } = (.ok (), w') ∧
    w'.files 0 = some b' ∧ TextOf b' (10 :: loadLine) := by
  obtain ⟨w', b', h1, h2, h3⟩ := C110_lost_unnoticed os (py! "WORKSPACE")
    ({ files := fun _ => some [], kms := (), blobs := fun _ _ => none } : World Unit) ⟨rfl, rfl⟩ rfl (fun _ => rfl) neither
  exact ⟨w', b', h1, h2.1, h3⟩

/-! ## The version -/

/-- `python/VERSION`. -/
example : getTinkVersion (py! "\"\"\" Version of the current release of Tink \"\"\"\nTINK_VERSION_LABEL = \"1.7.0\"\n") =
    .ok (py! "1.7.0") :=
  C110_version (before := py! "\"\"\" Version of the current release of Tink \"\"\"\n") (v := py! "1.7.0") (after := [10])
    (.inr ⟨py! "\"\"\" Version of the current release of Tink \"\"\"", rfl⟩) (by decide +kernel)
    (by rw [← isIn_iff]; decide +kernel) (by decide) (.inr ⟨[], rfl⟩)

example : getTinkVersion (py! "VERSION = \"1.7.0\"\n") = .error .valueError :=
  (C110_version_error _ _).2 ⟨rfl, by decide +kernel, by rw [← isIn_iff]; decide +kernel⟩

/-! ## Requirements -/

/-- `python/requirements_hcvault.in`. -/
example : parseRequirements (py! "# Hashicorp Vault KMS extension.\nhvac>=1.1.1\n") = [py! "hvac>=1.1.1"] := by
  rw [C110_requirements]
  have h : Requirements (py! "hvac>=1.1.1\n") [py! "hvac>=1.1.1"] :=
    .requirement (r := py! "hvac>=1.1.") (c := 49) (l := []) (s := []) (by decide) (by decide) (by decide)
      (by simp [OnlySpace]) .nil
  exact .comment (l := py! " Hashicorp Vault KMS extension.") (by decide) h

/-- `python/requirements_gcpkms.in` has no comments. -/
example : Requirements (py! "google-auth>=2.16.2\ngoogle-api-core>=2.11.0\ngoogle-cloud-kms>=2.16.1\n")
    [py! "google-auth>=2.16.2", py! "google-api-core>=2.11.0", py! "google-cloud-kms>=2.16.1"] := by
  rw [← C110_requirements]
  decide +kernel

/-- White space before `#` makes a requirement of a comment. -/
example : Requirements (py! " # none\n\n") [py! " # none"] := by rw [← C110_requirements]; decide +kernel

/-! ## Protocol buffers -/

/-- A compiler: the output gets a later time than that of the source. -/
def protoc (source : PyStr) (t : Times) : Py Times :=
  .ok fun p => if p = protoOutput source then some ((t source).getD 0 + 1) else t p

theorem protoc_compiles : Compiles protoc := by
  intro source stem t t' hs h
  cases h
  rw [output_eq hs]
  refine ⟨⟨(t source).getD 0 + 1, by simp, ?_⟩, fun p hp => by simp [hp]⟩
  intro k' hk
  simp [hk]

def aead : PyStr := py! "tink/proto/aes_gcm.proto"
def mac : PyStr := py! "tink/proto/hmac.proto"

/-- One source has an old output, the other has none. -/
def times : Times := fun p =>
  if p = aead then some 5 else if p = mac then some 7 else if p = py! "tink/proto/aes_gcm_pb2.py" then some 3 else none

theorem sources : ∀ s ∈ [aead, mac], ∃ stem, ProtoSource s stem := by
  intro s hs
  simp only [List.mem_cons, List.not_mem_nil, or_false] at hs
  rcases hs with rfl | rfl
  · exact ⟨py! "tink/proto/aes_gcm", rfl, by rw [← isIn_iff]; decide⟩
  · exact ⟨py! "tink/proto/hmac", rfl, by rw [← isIn_iff]; decide⟩

example : ∃ t', generateProtos protoc [aead, mac] times = .ok t' ∧ t' (py! "tink/proto/aes_gcm_pb2.py") = some 6 ∧
    t' (py! "tink/proto/hmac_pb2.py") = some 8 ∧ t' (py! "other") = none ∧
    -- a second run finds nothing to do
    generateProtos protoc [aead, mac] t' = .ok t' := by
  refine ⟨_, rfl, by decide +kernel, by decide +kernel, by decide +kernel, C110_protos_newer protoc ?_⟩
  intro s hs
  simp only [List.mem_cons, List.not_mem_nil, or_false] at hs
  rcases hs with rfl | rfl
  · exact ⟨py! "tink/proto/aes_gcm", 5, 6, ⟨rfl, by rw [← isIn_iff]; decide⟩, by decide +kernel, by decide +kernel, by decide⟩
  · exact ⟨py! "tink/proto/hmac", 7, 8, ⟨rfl, by rw [← isIn_iff]; decide⟩, by decide +kernel, by decide +kernel, by decide⟩

example : ∃ e, generateProtos protoc [aead, mac] (fun p => if p = aead then some 5 else none) = .error e :=
  C110_protos_missing protoc_compiles sources (source := mac) (by simp) (by decide +kernel)

end Tink.Props.SetupExample
