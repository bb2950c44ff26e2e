import Verif.Spec.JsonGrammar
import Verif.Spec.JwtKeys
import Verif.Spec.KeysetFormat

/-!
# Tokens as text

JWS in compact form (RFC 7515), for JWT (RFC 7519).
-/

namespace Tink.Spec
open Jwt Json

variable {F : Type}

/-- `s` is read as the bytes `b`: base64url characters without padding, whose bits are those of `b`, as far as
there are whole bytes. -/
def Base64Url (s b : Bytes) : Prop :=
  (∀ c ∈ s, UrlChar c) ∧ s.length % 4 ≠ 1 ∧ octetBits b = (sextetBits s).take (8 * (6 * s.length / 8))

/-- `s` is the base64url form of the bytes `b` (RFC 7515, section 2): the bits of `b`, and zeros to fill the last
character. -/
def Base64UrlForm (s b : Bytes) : Prop :=
  (∀ c ∈ s, UrlChar c) ∧ ∃ n, n < 6 ∧ sextetBits s = octetBits b ++ List.replicate n false

/-- `b` is the UTF-8 form of `text`. -/
def Utf8Text (b : Bytes) (text : PyStr) : Prop := ∃ s : PStr, text = s.map Char.toNat ∧ b = KeysetFormat.utf8 s

/-- A part of a token is read as the value `v`. -/
def PartText (env : JsonEnv F) (part : Bytes) (v : JVal F) : Prop :=
  ∃ b text, Base64Url part b ∧ Utf8Text b text ∧ JsonText env text v

/-- A part of a token is a form of the value `v`. -/
def PartForm (env : JsonEnv F) (part : Bytes) (v : JVal F) : Prop :=
  ∃ b text, Base64UrlForm part b ∧ Utf8Text b text ∧ JsonText env text v

/-- The claims that RFC 7519 registers have the right types, and times are between 1970 and 9999 (or NaN, or
`true` or `false`, which Python takes for numbers). -/
structure ClaimsTyped (fl : Floats F) (p : List (PyStr × JVal F)) : Prop where
  iss : ∀ v, PyDict.get? p (py! "iss") = some v → ∃ s, v = .str s
  sub : ∀ v, PyDict.get? p (py! "sub") = some v → ∃ s, v = .str s
  jti : ∀ v, PyDict.get? p (py! "jti") = some v → ∃ s, v = .str s
  times : ∀ n ∈ [py! "exp", py! "nbf", py! "iat"], ∀ v, PyDict.get? p n = some v →
    (∃ b, v = .bool b) ∨ (∃ k : Int, v = .int k ∧ 0 ≤ k ∧ k ≤ 253402300799) ∨ v = .float .nan ∨
      ∃ x, v = .float (.fin x) ∧ fl.lt x 0 = false ∧ fl.gt x 253402300799 = false
  aud : ∀ v, PyDict.get? p (py! "aud") = some v →
    (∃ s, v = .str s) ∨ ∃ l, v = .list l ∧ l ≠ [] ∧ ∀ x ∈ l, ∃ s, x = .str s

/-- The header of a token: the algorithm, the kid and the type if there are, and nothing else. -/
structure HeaderFor (d : List (PyStr × JVal F)) (alg : PyStr) (kid typ : Option PyStr) : Prop where
  alg : PyDict.get? d (py! "alg") = some (.str alg)
  kid : PyDict.get? d (py! "kid") = kid.map .str
  typ : PyDict.get? d (py! "typ") = typ.map .str
  only : ∀ n x, (n, x) ∈ d → n ∈ [py! "alg", py! "kid", py! "typ"]
  once : (d.map Prod.fst).Nodup

/-- An optional string, unless it is empty. -/
def nonempty : Option PyStr → Option PyStr
  | some [] => none
  | o => o

/-- The kid in the header of a token made with a key: the one that the key id stands for, or else the custom one,
if it is not empty. -/
def writtenKid (k : Key) (customKid : Option PyStr) : Option PyStr :=
  match keyKid k with
  | some kid => some kid
  | none => nonempty customKid

/-- A JSON value in which no object repeats a key, and the strings of objects are valid Unicode. -/
def Unequivocal (v : JVal F) : Prop := ¬ RepeatsKey v ∧ ValidObjects v

/-- A token that is right for a key: with the algorithm `alg`, the kid that its id stands for, a custom kid, and a
check of signatures.  It holds what `a` says, and the validator accepts that. -/
def RightToken (env : JwtEnv F) (alg : PyStr) (kid customKid : Option PyStr) (check : Bytes → Bytes → Py Unit)
    (clock : Int) (v : JwtValidator) (compact : PyStr) (a : VerifiedJwt F) : Prop :=
  ∃ header payload signature sig d, Compact compact header payload signature ∧
    (Base64Url signature sig ∧ check sig (header ++ 46 :: payload) = .ok ()) ∧
    (PartText env.json header (.dict d) ∧ Unequivocal (.dict d) ∧ HeaderMatches env.upper d alg kid customKid ∧
      (kid = none ∨ customKid = none)) ∧
    (PartText env.json payload (.dict a.raw.payload) ∧ Unequivocal (.dict a.raw.payload) ∧
      ClaimsTyped env.json.floats a.raw.payload) ∧
    a.raw.typeHeader = (PyDict.get? d (py! "typ")).bind optional ∧
    validate env.json.floats clock v a.raw = .ok ()

end Tink.Spec
