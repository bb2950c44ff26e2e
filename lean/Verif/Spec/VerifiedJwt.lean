import Verif.Jwt.Verified
import Verif.Spec.Jwt
import Verif.Spec.JwtKeys

/-!
# Vocabulary for what a token tells
-/

namespace Tink
namespace Spec
open Jwt Json

variable {F : Type}

/-- The pair of methods `has_x()` and `x()`: nothing is there, and asking for it is a `KeyError`; or `v` is
there, and it is what is returned. -/
def Says {α : Type} (has : Bool) (get : Py α) : Option α → Prop
  | none => has = false ∧ get = .error .keyError
  | some v => has = true ∧ get = .ok v

/-- A claim that is a text. -/
def SaysText (has : Bool) (get : Py (JVal F)) (claim : Option (JVal F)) : Prop :=
  ∃ s : Option PyStr, claim = s.map .str ∧ Says has get claim

/-- An audience claim: one text, which is returned as a list of one, or a list of at least one. -/
inductive SaysAudiences (has : Bool) (get : Py (List (JVal F))) : Option (JVal F) → Prop
  | absent : Says has get none → SaysAudiences has get none
  | one (s : PyStr) : Says has get (some [.str s]) → SaysAudiences has get (some (.str s))
  | list (l : List PyStr) : l ≠ [] → Says has get (some (l.map .str)) →
      SaysAudiences has get (some (.list (l.map .str)))

/-- A claim that is a time: the `datetime` has the zone UTC and is at that time, between the years 1970 and
9999. -/
inductive SaysTime (fl : Floats F) (has : Bool) (get : Py DateTime) : Option (JVal F) → Prop
  | absent : Says has get none → SaysTime fl has get none
  | present (x : JVal F) (m : Int) : At fl x m → 0 ≤ m → m ≤ 253402300799000000 →
      Says has get (some { wall := m, tz := utc }) → SaysTime fl has get (some x)

/-- A claim that is a time, or NaN: then asking for it is a `ValueError`. -/
inductive SaysTimeOrNan (fl : Floats F) (has : Bool) (get : Py DateTime) : Option (JVal F) → Prop
  | time (x : Option (JVal F)) : SaysTime fl has get x → SaysTimeOrNan fl has get x
  | nan : has = true → get = .error .valueError → SaysTimeOrNan fl has get (some (.float .nan))

/-- What the custom claims of a token tell of a payload. -/
structure SaysCustom (t : TokenApi F) (payload : List (PyStr × JVal F)) : Prop where
  names : ∀ n, n ∈ t.customClaimNames ↔ ¬ Registered n ∧ ∃ v, PyDict.get? payload n = some v
  registered : ∀ n, Registered n → t.customClaim n = .error .jwtInvalidError
  absent : ∀ n, ¬ Registered n → PyDict.get? payload n = none → t.customClaim n = .error .keyError
  present : ∀ n v, ¬ Registered n → PyDict.get? payload n = some v → t.customClaim n = .ok v

/-- A token tells what is in the payload and, if there is one, the type header. -/
structure Tells (fl : Floats F) (t : TokenApi F) (header : Option (JVal F))
    (payload : List (PyStr × JVal F)) : Prop where
  typeHeader : Says t.hasTypeHeader t.typeHeader header
  issuer : SaysText t.hasIssuer t.issuer (PyDict.get? payload (py! "iss"))
  subject : SaysText t.hasSubject t.subject (PyDict.get? payload (py! "sub"))
  audiences : SaysAudiences t.hasAudiences t.audiences (PyDict.get? payload (py! "aud"))
  jwtId : SaysText t.hasJwtId t.jwtId (PyDict.get? payload (py! "jti"))
  expiration : SaysTimeOrNan fl t.hasExpiration t.expiration (PyDict.get? payload (py! "exp"))
  notBefore : SaysTimeOrNan fl t.hasNotBefore t.notBefore (PyDict.get? payload (py! "nbf"))
  issuedAt : SaysTimeOrNan fl t.hasIssuedAt t.issuedAt (PyDict.get? payload (py! "iat"))
  custom : SaysCustom t payload

/-- The type header that a header of a token has: an absent `typ` and `null` are none. -/
def TypeOf (d : List (PyStr × JVal F)) (header : Option (JVal F)) : Prop :=
  (header = none ∧ (PyDict.get? d (py! "typ") = none ∨ PyDict.get? d (py! "typ") = some .null)) ∨
    ∃ v, v ≠ .null ∧ header = some v ∧ PyDict.get? d (py! "typ") = some v

/-- What a verified token tells is what the compact token contains.  Its times can be read, that of issue if
the validator was to look at it; its type header is a text, if the validator was to look at it. -/
def TellsContent (env : JsonEnv F) (v : JwtValidator) (compact : PyStr) (a : VerifiedJwt F) : Prop :=
  ∃ header payload signature d type body, Compact compact header payload signature ∧
    Holds env header (.dict d) ∧ TypeOf d type ∧ Holds env payload (.dict body) ∧
    Tells env.floats (a.api env.floats) type body ∧
    SaysTime env.floats (a.api env.floats).hasExpiration (a.api env.floats).expiration
      (PyDict.get? body (py! "exp")) ∧
    SaysTime env.floats (a.api env.floats).hasNotBefore (a.api env.floats).notBefore
      (PyDict.get? body (py! "nbf")) ∧
    (v.expectIssuedInThePast = true →
      SaysTime env.floats (a.api env.floats).hasIssuedAt (a.api env.floats).issuedAt
        (PyDict.get? body (py! "iat"))) ∧
    (v.ignoreTypeHeader = false → ∃ s : Option PyStr, type = s.map .str)

/-- A time that was given to `new_raw_jwt` is told in UTC, in whole seconds. -/
inductive TellsTime (has : Bool) (get : Py DateTime) : Option DateTime → Prop
  | absent : Says has get none → TellsTime has get none
  | present (d : DateTime) (s : Int) : StoredAs d s →
      Says has get (some { wall := s * 1000000, tz := utc }) → TellsTime has get (some d)

/-- The audiences that were given to `new_raw_jwt`. -/
def audiencesOf (a : RawJwtArgs F) : Option (List (JVal F)) :=
  a.audiences.or (a.audience.map fun s => [.str s])

/-- A token tells the arguments of `new_raw_jwt`, with the type header `header`. -/
structure TellsArguments (t : TokenApi F) (header : Option PyStr) (a : RawJwtArgs F) : Prop where
  typeHeader : Says t.hasTypeHeader t.typeHeader (header.map .str)
  issuer : Says t.hasIssuer t.issuer ((unlessEmpty a.issuer).map .str)
  subject : Says t.hasSubject t.subject ((unlessEmpty a.subject).map .str)
  audiences : Says t.hasAudiences t.audiences (audiencesOf a)
  jwtId : Says t.hasJwtId t.jwtId (a.jwtId.map .str)
  expiration : TellsTime t.hasExpiration t.expiration a.expiration
  notBefore : TellsTime t.hasNotBefore t.notBefore a.notBefore
  issuedAt : TellsTime t.hasIssuedAt t.issuedAt a.issuedAt
  names : ∀ n, n ∈ t.customClaimNames ↔ ∃ w, (ClaimName.str n, ClaimValue.json w) ∈ a.customClaims
  custom : ∀ n w, (ClaimName.str n, ClaimValue.json w) ∈ a.customClaims → t.customClaim n = .ok w

end Spec
end Tink
