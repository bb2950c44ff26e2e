import Verif.Kms.Aws
import Verif.Kms.Gcp
import Verif.Kms.Vault

/-!
# Vocabulary for KMS clients and key names

Grammars of key URIs and paths, written without reference to how the code matches them.
-/

namespace Tink.Spec

/-- One step in the life of the process-wide list of KMS clients. -/
inductive KmsOp (A : Type) where
  | register (c : KmsClient A)
  | reset

/-- The effect of one call. -/
def KmsOp.run {A : Type} (cs : KmsClients A) : KmsOp A → KmsClients A
  | .register c => registerKmsClient cs c
  | .reset => resetKmsClients cs

/-- The list after a history of calls, starting from an empty list. -/
def kmsHistory {A : Type} (h : List (KmsOp A)) : KmsClients A := h.foldl KmsOp.run []

/-- `h = old ++ recent` where `recent` is what happened since the last reset. -/
structure SinceReset {A : Type} (h old recent : List (KmsOp A)) : Prop where
  split : h = old ++ recent
  old : old = [] ∨ ∃ o, old = o ++ [.reset]
  recent : KmsOp.reset ∉ recent

/-- `aws-kms://arn:aws:kms:<region>:<rest>`, the region being lower case letters, digits and
hyphens. -/
structure AwsKeyUri (uri region rest : PyStr) : Prop where
  form : uri = py! "aws-kms://arn:aws:kms:" ++ region ++ py! ":" ++ rest
  nonempty : region ≠ []
  chars : ∀ c ∈ region, (97 ≤ c ∧ c ≤ 122) ∨ (48 ≤ c ∧ c ≤ 57) ∨ c = 45

/-- The client is bound to no URI, or to this one. -/
def BoundTo (keyUri : Option PyStr) (uri : PyStr) : Prop :=
  keyUri = none ∨ keyUri = some [] ∨ keyUri = some uri

/-- An identifier of one to 63 letters, digits, underscores and hyphens. -/
structure GcpId (s : PyStr) : Prop where
  nonempty : s ≠ []
  short : s.length ≤ 63
  chars : ∀ c ∈ s, (97 ≤ c ∧ c ≤ 122) ∨ (65 ≤ c ∧ c ≤ 90) ∨ (48 ≤ c ∧ c ≤ 57) ∨ c = 95 ∨ c = 45

/-- `projects/<p>/locations/<l>/keyRings/<r>/cryptoKeys/<k>`. -/
structure GcpKeyName (name project loc ring key : PyStr) : Prop where
  form : name = py! "projects/" ++ project ++ py! "/locations/" ++ loc ++ py! "/keyRings/" ++ ring ++
    py! "/cryptoKeys/" ++ key
  project_nonempty : project ≠ []
  project_chars : 47 ∉ project
  loc : GcpId loc
  ring : GcpId ring
  key : GcpId key

/-- A non-empty string without slashes. -/
structure Segment (s : PyStr) : Prop where
  nonempty : s ≠ []
  chars : 47 ∉ s

/-- One or more segments separated by single slashes. -/
def Mount (m : PyStr) : Prop :=
  ∃ segs : List PyStr, segs ≠ [] ∧ (∀ s ∈ segs, Segment s) ∧ m = List.intercalate [47] segs

/-- `<mount>/keys/<name>` or `/<mount>/keys/<name>`. -/
structure VaultPath (path mount name : PyStr) : Prop where
  form : path = mount ++ py! "/keys/" ++ name ∨ path = py! "/" ++ mount ++ py! "/keys/" ++ name
  mount : Mount mount
  name : Segment name

/-- The characters that percent-encoding leaves alone: letters, digits, `_.-~` and the slash. -/
def Unreserved (b : UInt8) : Prop :=
  b.toNat ∈ py! "ABCDEFGHIJKLMNOPQRSTUVWXYZabcdefghijklmnopqrstuvwxyz0123456789_.-~/"

/-- The hexadecimal digits. -/
def hexDigits : PyStr := py! "0123456789ABCDEF"

/-- The text is the percent-encoding of the bytes: unreserved characters stand for themselves, every
other byte is written as `%` and its two hexadecimal digits. -/
inductive PercentEncoded : Bytes → PyStr → Prop
  | nil : PercentEncoded [] []
  | plain {b bs q} : Unreserved b → PercentEncoded bs q → PercentEncoded (b :: bs) (b.toNat :: q)
  | escaped {b bs q} {hi lo x y : Nat} : ¬ Unreserved b → b.toNat = 16 * hi + lo →
      hexDigits[hi]? = some x → hexDigits[lo]? = some y → PercentEncoded bs q →
      PercentEncoded (b :: bs) (37 :: x :: y :: q)

end Tink.Spec
