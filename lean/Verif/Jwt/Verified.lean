import Verif.Jwt.Primitives

/-!
# What a token tells: the methods of `RawJwt`, `VerifiedJwt` and `JwtValidator` by name

`Jwt/Raw.lean` has one function for all claims that are texts and one for all that are times; here is each
method with the name of its claim.
-/

namespace Tink
namespace Jwt

variable {F : Type}

namespace RawJwt

/-- `has_issuer` (python/tink/jwt/_raw_jwt.py 109-110). -/
def hasIssuer (t : RawJwt F) : Bool := t.has (py! "iss")
/-- `issuer` (python/tink/jwt/_raw_jwt.py 112-113). -/
def issuer (t : RawJwt F) : Py (JVal F) := t.claim (py! "iss")
/-- `has_subject` (python/tink/jwt/_raw_jwt.py 115-116). -/
def hasSubject (t : RawJwt F) : Bool := t.has (py! "sub")
/-- `subject` (python/tink/jwt/_raw_jwt.py 118-119). -/
def subject (t : RawJwt F) : Py (JVal F) := t.claim (py! "sub")
/-- `has_audiences` (python/tink/jwt/_raw_jwt.py 121-122). -/
def hasAudiences (t : RawJwt F) : Bool := t.has (py! "aud")
/-- `has_jwt_id` (python/tink/jwt/_raw_jwt.py 130-131). -/
def hasJwtId (t : RawJwt F) : Bool := t.has (py! "jti")
/-- `jwt_id` (python/tink/jwt/_raw_jwt.py 133-134). -/
def jwtId (t : RawJwt F) : Py (JVal F) := t.claim (py! "jti")
/-- `has_expiration` (python/tink/jwt/_raw_jwt.py 136-137). -/
def hasExpiration (t : RawJwt F) : Bool := t.has (py! "exp")
/-- `expiration` (python/tink/jwt/_raw_jwt.py 139-140). -/
def expiration (fl : Floats F) (t : RawJwt F) : Py DateTime := t.time fl (py! "exp")
/-- `has_not_before` (python/tink/jwt/_raw_jwt.py 142-143). -/
def hasNotBefore (t : RawJwt F) : Bool := t.has (py! "nbf")
/-- `not_before` (python/tink/jwt/_raw_jwt.py 145-146). -/
def notBefore (fl : Floats F) (t : RawJwt F) : Py DateTime := t.time fl (py! "nbf")
/-- `has_issued_at` (python/tink/jwt/_raw_jwt.py 148-149). -/
def hasIssuedAt (t : RawJwt F) : Bool := t.has (py! "iat")
/-- `issued_at` (python/tink/jwt/_raw_jwt.py 151-152). -/
def issuedAt (fl : Floats F) (t : RawJwt F) : Py DateTime := t.time fl (py! "iat")

end RawJwt

/-- The methods that `RawJwt` and `VerifiedJwt` have in common.  The set of names is a list. -/
structure TokenApi (F : Type) where
  hasTypeHeader : Bool
  typeHeader : Py (JVal F)
  hasIssuer : Bool
  issuer : Py (JVal F)
  hasSubject : Bool
  subject : Py (JVal F)
  hasAudiences : Bool
  audiences : Py (List (JVal F))
  hasJwtId : Bool
  jwtId : Py (JVal F)
  hasExpiration : Bool
  expiration : Py DateTime
  hasNotBefore : Bool
  notBefore : Py DateTime
  hasIssuedAt : Bool
  issuedAt : Py DateTime
  customClaimNames : List PyStr
  customClaim : PyStr → Py (JVal F)

/-- The methods of a `RawJwt` (python/tink/jwt/_raw_jwt.py 101-163). -/
def RawJwt.api (fl : Floats F) (t : RawJwt F) : TokenApi F where
  hasTypeHeader := t.hasTypeHeader
  typeHeader := t.getTypeHeader
  hasIssuer := t.hasIssuer
  issuer := t.issuer
  hasSubject := t.hasSubject
  subject := t.subject
  hasAudiences := t.hasAudiences
  audiences := t.audiences
  hasJwtId := t.hasJwtId
  jwtId := t.jwtId
  hasExpiration := t.hasExpiration
  expiration := t.expiration fl
  hasNotBefore := t.hasNotBefore
  notBefore := t.notBefore fl
  hasIssuedAt := t.hasIssuedAt
  issuedAt := t.issuedAt fl
  customClaimNames := t.customClaimNames
  customClaim := t.customClaim

/-- The methods of a `VerifiedJwt` (python/tink/jwt/_verified_jwt.py 48-100). -/
def VerifiedJwt.api (fl : Floats F) (t : VerifiedJwt F) : TokenApi F where
  hasTypeHeader := t.raw.hasTypeHeader
  typeHeader := t.raw.getTypeHeader
  hasIssuer := t.raw.hasIssuer
  issuer := t.raw.issuer
  hasSubject := t.raw.hasSubject
  subject := t.raw.subject
  hasAudiences := t.raw.hasAudiences
  audiences := t.raw.audiences
  hasJwtId := t.raw.hasJwtId
  jwtId := t.raw.jwtId
  hasExpiration := t.raw.hasExpiration
  expiration := t.raw.expiration fl
  hasNotBefore := t.raw.hasNotBefore
  notBefore := t.raw.notBefore fl
  hasIssuedAt := t.raw.hasIssuedAt
  issuedAt := t.raw.issuedAt fl
  customClaimNames := t.raw.customClaimNames
  customClaim := t.raw.customClaim

/-- The methods of a `JwtValidator`. -/
structure ValidatorApi where
  hasExpectedTypeHeader : Bool
  expectedTypeHeader : Option PyStr
  hasExpectedIssuer : Bool
  expectedIssuer : Option PyStr
  hasExpectedAudience : Bool
  expectedAudience : Option PyStr
  ignoreTypeHeader : Bool
  ignoreIssuer : Bool
  ignoreAudiences : Bool
  allowMissingExpiration : Bool
  expectIssuedInThePast : Bool
  clockSkew : Int
  hasFixedNow : Bool
  fixedNow : Option DateTime

/-- The methods of a `JwtValidator` (python/tink/jwt/_jwt_validator.py 76-116). -/
def JwtValidator.api (v : JwtValidator) : ValidatorApi where
  hasExpectedTypeHeader := v.expectedTypeHeader.isSome
  expectedTypeHeader := v.expectedTypeHeader
  hasExpectedIssuer := v.expectedIssuer.isSome
  expectedIssuer := v.expectedIssuer
  hasExpectedAudience := v.expectedAudience.isSome
  expectedAudience := v.expectedAudience
  ignoreTypeHeader := v.ignoreTypeHeader
  ignoreIssuer := v.ignoreIssuer
  ignoreAudiences := v.ignoreAudiences
  allowMissingExpiration := v.allowMissingExpiration
  expectIssuedInThePast := v.expectIssuedInThePast
  clockSkew := v.clockSkew
  hasFixedNow := v.fixedNow.isSome
  fixedNow := v.fixedNow

end Jwt
end Tink
