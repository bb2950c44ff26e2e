import Verif.Jwt.Validator
import Verif.Spec.Json

/-!
# Vocabulary for raw JWTs and their validation
-/

namespace Tink
namespace Spec
open Jwt Json

variable {F : Type}

/-- The claims that have their own arguments and getters (RFC 7519, section 4.1). -/
def Registered (name : PyStr) : Prop :=
  name = py! "iss" ∨ name = py! "sub" ∨ name = py! "jti" ∨ name = py! "aud" ∨ name = py! "exp" ∨
    name = py! "nbf" ∨ name = py! "iat"

/-- What the token tells about a claim: that it is absent, or its value. -/
def Shows (t : RawJwt F) (name : PyStr) : Option (JVal F) → Prop
  | none => t.has name = false ∧ t.claim name = .error .keyError
  | some v => t.has name = true ∧ t.claim name = .ok v

/-- A string argument that counts as not given when it is empty. -/
def unlessEmpty : Option PyStr → Option PyStr
  | some s => if s = [] then none else some s
  | none => none

/-- The moment that a time stands for, in microseconds after 1970 in UTC: a clock that is ahead of UTC shows that
moment later. -/
def moment (d : DateTime) : Int := d.wall - (d.tz.elim 0 fun offset => offset d.wall)

/-- The seconds that a time is stored as: whole seconds exactly; other times with an error of less than
a second, and rounded towards 1970 from 1970 until about the year 2514. -/
structure StoredAs (d : DateTime) (s : Int) : Prop where
  near : s * 1000000 - moment d < 1000000 ∧ moment d - s * 1000000 < 1000000
  whole : moment d % 1000000 = 0 → s * 1000000 = moment d
  down : 0 ≤ moment d → moment d < 2 ^ 34 * 1000000 → s = moment d / 1000000

/-- The value of a custom claim that can be copied through JSON. -/
def Copyable (env : JsonEnv F) (v : JVal F) : Prop :=
  ¬ RepeatsKey v ∧ AllTextJoined v ∧
    ∀ l d, v = .list l ∨ v = .dict d → ∃ text, dumps env v = .ok text

/-- The arguments that `new_raw_jwt` has to accept. -/
structure Acceptable (a : RawJwtArgs F) : Prop where
  expiration : (a.expiration.isSome = true ∧ a.withoutExpiration = false) ∨
    (a.expiration = none ∧ a.withoutExpiration = true)
  oneAudience : a.audience = none ∨ a.audiences = none
  audiences : ∀ l, a.audiences = some l → l ≠ [] ∧ ∀ x ∈ l, ∃ s, x = .str s
  times : ∀ d, some d = a.expiration ∨ some d = a.notBefore ∨ some d = a.issuedAt →
    d.tz ≠ none ∧ 0 ≤ intTimestamp d ∧ intTimestamp d ≤ 253402300799
  custom : ∀ n v, (n, v) ∈ a.customClaims →
    ∃ s w, n = .str s ∧ ¬ Registered s ∧ v = .json w

/-- The value of a claim says a time: `m` microseconds after 1970. -/
inductive At (fl : Floats F) : JVal F → Int → Prop
  | int (n : Int) : At fl (.int n) (n * 1000000)
  | false : At fl (.bool false) 0
  | true : At fl (.bool true) 1000000
  | float (x : F) : At fl (.float (.fin x)) (fl.micros x)

/-- What is assumed of Python's floats as times: rounding to microseconds keeps them within the whole
seconds they are between. -/
structure LawfulTimes (fl : Floats F) : Prop where
  upper : ∀ x n, fl.gt x n = false → fl.micros x ≤ n * 1000000
  lower : ∀ x n, fl.lt x n = false → n * 1000000 ≤ fl.micros x

/-- The entry of a token agrees with what a validator expects of it. -/
def Agrees (expected : Option PyStr) (ignored : Bool) (actual : Option (JVal F)) : Prop :=
  (∃ e, expected = some e ∧ actual = some (.str e)) ∨
    (expected = none ∧ (actual = none ∨ ignored = true))

/-- An audience claim contains `e`. -/
def Contains (aud : Option (JVal F)) (e : PyStr) : Prop :=
  aud = some (.str e) ∨ ∃ l, aud = some (.list l) ∧ .str e ∈ l

/-- A token with payload `p` and type header `h` is to be accepted, if the time is between `early` and
`late`. -/
structure Accepted (fl : Floats F) (v : JwtValidator) (early late : Int) (h : Option (JVal F))
    (p : List (PyStr × JVal F)) : Prop where
  expiration : (PyDict.get? p (py! "exp") = none ∧ v.allowMissingExpiration = true) ∨
    ∃ x m, PyDict.get? p (py! "exp") = some x ∧ At fl x m ∧ early < m
  notBefore : PyDict.get? p (py! "nbf") = none ∨
    ∃ x m, PyDict.get? p (py! "nbf") = some x ∧ At fl x m ∧ m ≤ late
  issuedAt : v.expectIssuedInThePast = true →
    ∃ x m, PyDict.get? p (py! "iat") = some x ∧ At fl x m ∧ m ≤ late
  typeHeader : Agrees v.expectedTypeHeader v.ignoreTypeHeader h
  issuer : Agrees v.expectedIssuer v.ignoreIssuer (PyDict.get? p (py! "iss"))
  audience : (∃ e, v.expectedAudience = some e ∧ Contains (PyDict.get? p (py! "aud")) e) ∨
    (v.expectedAudience = none ∧ (PyDict.get? p (py! "aud") = none ∨ v.ignoreAudiences = true))

/-- The moment that `t + delta` stands for: Python moves the time shown, and then the zone says how far
it is from UTC. -/
def shifted (t : DateTime) (delta : Int) : Int := moment { t with wall := t.wall + delta }

/-- A time whose distance from UTC does not depend on the time. -/
def FixedOffset (t : DateTime) : Prop := ∃ c, t.tz = some fun _ => c

/-- `t` moved by `delta` is within the years 1 to 9999. -/
def Representable (t : DateTime) (delta : Int) : Prop :=
  -62135596800000000 ≤ t.wall + delta ∧ t.wall + delta ≤ 253402300799999999

end Spec
end Tink
