import Verif.Jwt.Raw

/-!
# `tink/jwt/_jwt_validator.py`
-/

namespace Tink
namespace Jwt

variable {F : Type}

/-- The arguments of `new_validator` (python/tink/jwt/_jwt_validator.py 119-130).  The clock skew is in
microseconds. -/
structure ValidatorArgs where
  expectedTypeHeader : Option PyStr := none
  expectedIssuer : Option PyStr := none
  expectedAudience : Option PyStr := none
  ignoreTypeHeader : Bool := false
  ignoreIssuer : Bool := false
  ignoreAudiences : Bool := false
  allowMissingExpiration : Bool := false
  expectIssuedInThePast : Bool := false
  clockSkew : Option Int := none
  fixedNow : Option DateTime := none

/-- A `JwtValidator` (python/tink/jwt/_jwt_validator.py 24-74). -/
structure JwtValidator where
  expectedTypeHeader : Option PyStr
  expectedIssuer : Option PyStr
  expectedAudience : Option PyStr
  ignoreTypeHeader : Bool
  ignoreIssuer : Bool
  ignoreAudiences : Bool
  allowMissingExpiration : Bool
  expectIssuedInThePast : Bool
  clockSkew : Int
  fixedNow : Option DateTime

/-- `bool(s)` of an `Optional[str]`. -/
def truthy : Option PyStr → Bool
  | some (_ :: _) => true
  | _ => false

/-- `_MAX_CLOCK_SKEW` (python/tink/jwt/_jwt_validator.py 21): ten minutes. -/
def maxClockSkew : Int := 600000000

/-- The test on the clock skew (python/tink/jwt/_jwt_validator.py 66-71). -/
def checkSkew : Option Int → Py Int
  | none => .ok 0
  | some s => if s ≠ 0 ∧ s > maxClockSkew then .error .valueError else .ok s

/-- `fixed_now and not fixed_now.tzinfo` (python/tink/jwt/_jwt_validator.py 72). -/
def naive : Option DateTime → Bool
  | some t => t.tz.isNone
  | none => false

/-- `new_validator` and `JwtValidator.__init__` (python/tink/jwt/_jwt_validator.py 37-74, 119-142). -/
def newValidator (a : ValidatorArgs) : Py JwtValidator :=
  if truthy a.expectedTypeHeader && a.ignoreTypeHeader then .error .valueError
  else if truthy a.expectedIssuer && a.ignoreIssuer then .error .valueError
  else if truthy a.expectedAudience && a.ignoreAudiences then .error .valueError
  else
    match checkSkew a.clockSkew with
    | .error e => .error e
    | .ok skew =>
      if naive a.fixedNow then .error .valueError
      else .ok {
        expectedTypeHeader := a.expectedTypeHeader, expectedIssuer := a.expectedIssuer,
        expectedAudience := a.expectedAudience, ignoreTypeHeader := a.ignoreTypeHeader,
        ignoreIssuer := a.ignoreIssuer, ignoreAudiences := a.ignoreAudiences,
        allowMissingExpiration := a.allowMissingExpiration,
        expectIssuedInThePast := a.expectIssuedInThePast, clockSkew := skew, fixedNow := a.fixedNow }

/-- The time that counts: `fixed_now`, or the clock, which is in UTC
(python/tink/jwt/_jwt_validator.py 157-160). -/
def JwtValidator.now (v : JwtValidator) (clock : Int) : DateTime :=
  match v.fixedNow with
  | some t => t
  | none => { wall := clock, tz := utc }

/-- The check of the expiration (python/tink/jwt/_jwt_validator.py 161-166). -/
def checkExpiration (fl : Floats F) (v : JwtValidator) (now : DateTime) (t : RawJwt F) : Py Unit :=
  if t.has (py! "exp") then do
    let exp ← t.time fl (py! "exp")
    let limit ← now.add (-v.clockSkew)
    if exp.instant ≤ limit.instant then .error .jwtInvalidError else .ok ()
  else if v.allowMissingExpiration then .ok () else .error .jwtInvalidError

/-- The check of the start of validity (python/tink/jwt/_jwt_validator.py 167-170). -/
def checkNotBefore (fl : Floats F) (v : JwtValidator) (now : DateTime) (t : RawJwt F) : Py Unit :=
  if t.has (py! "nbf") then do
    let nbf ← t.time fl (py! "nbf")
    let limit ← now.add v.clockSkew
    if nbf.instant > limit.instant then .error .jwtInvalidError else .ok ()
  else .ok ()

/-- The check of the time of issue (python/tink/jwt/_jwt_validator.py 171-177). -/
def checkIssuedAt (fl : Floats F) (v : JwtValidator) (now : DateTime) (t : RawJwt F) : Py Unit :=
  if v.expectIssuedInThePast then
    if t.has (py! "iat") then do
      let iat ← t.time fl (py! "iat")
      let limit ← now.add v.clockSkew
      if iat.instant > limit.instant then .error .jwtInvalidError else .ok ()
    else .error .jwtInvalidError
  else .ok ()

/-- `a == b` of a value and a `str`. -/
def isText (v : JVal F) (s : PyStr) : Bool :=
  match v with
  | .str t => t = s
  | _ => false

/-- The check of the type header (python/tink/jwt/_jwt_validator.py 178-190). -/
def checkTypeHeader (v : JwtValidator) (t : RawJwt F) : Py Unit :=
  match v.expectedTypeHeader with
  | some expected =>
    match t.typeHeader with
    | none => .error .jwtInvalidError
    | some h => if isText h expected then .ok () else .error .jwtInvalidError
  | none => if t.hasTypeHeader && !v.ignoreTypeHeader then .error .jwtInvalidError else .ok ()

/-- The check of the issuer (python/tink/jwt/_jwt_validator.py 191-203). -/
def checkIssuer (v : JwtValidator) (t : RawJwt F) : Py Unit :=
  match v.expectedIssuer with
  | some expected =>
    match t.claim (py! "iss") with
    | .error _ => .error .jwtInvalidError
    | .ok i => if isText i expected then .ok () else .error .jwtInvalidError
  | none => if t.has (py! "iss") && !v.ignoreIssuer then .error .jwtInvalidError else .ok ()

/-- The check of the audience (python/tink/jwt/_jwt_validator.py 204-213). -/
def checkAudience (v : JwtValidator) (t : RawJwt F) : Py Unit :=
  match v.expectedAudience with
  | some expected =>
    if t.has (py! "aud") then
      match t.audiences with
      | .error e => .error e
      | .ok l => if l.any (isText · expected) then .ok () else .error .jwtInvalidError
    else .error .jwtInvalidError
  | none => if t.has (py! "aud") && !v.ignoreAudiences then .error .jwtInvalidError else .ok ()

/-- `validate` (python/tink/jwt/_jwt_validator.py 145-213), at a time of the clock. -/
def validate (fl : Floats F) (clock : Int) (v : JwtValidator) (t : RawJwt F) : Py Unit := do
  checkExpiration fl v (v.now clock) t
  checkNotBefore fl v (v.now clock) t
  checkIssuedAt fl v (v.now clock) t
  checkTypeHeader v t
  checkIssuer v t
  checkAudience v t

end Jwt
end Tink
