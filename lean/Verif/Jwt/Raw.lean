import Verif.Jwt.JsonUtil
import Verif.Jwt.Time

/-!
# `tink/jwt/_raw_jwt.py`
-/

namespace Tink
namespace Jwt
open Json JsonUtil

variable {F : Type}

/-- `_REGISTERED_NAMES` (python/tink/jwt/_raw_jwt.py 25). -/
def registeredNames : List PyStr :=
  [py! "iss", py! "sub", py! "jti", py! "aud", py! "exp", py! "nbf", py! "iat"]

/-- `_MAX_TIMESTAMP_VALUE` (python/tink/jwt/_raw_jwt.py 27). -/
def maxTimestamp : Int := 253402300799

/-- A `RawJwt` (python/tink/jwt/_raw_jwt.py 48-74): the type header, `none` for `None`, and the payload.
The type header of a token that was read from its compact form can be any JSON value. -/
structure RawJwt (F : Type) where
  typeHeader : Option (JVal F)
  payload : List (PyStr × JVal F)

/-- `_validate_string_claim` (python/tink/jwt/_raw_jwt.py 76-79). -/
def validateStringClaim (payload : List (PyStr × JVal F)) (name : PyStr) : Py Unit :=
  match PyDict.get? payload name with
  | none => .ok ()
  | some (.str _) => .ok ()
  | some _ => .error .jwtInvalidError

/-- `timestamp > _MAX_TIMESTAMP_VALUE or timestamp < 0` (python/tink/jwt/_raw_jwt.py 86). -/
def outOfRange (fl : Floats F) : PyFloat F → Bool
  | .nan => false
  | .inf => true
  | .ninf => true
  | .fin x => fl.gt x maxTimestamp || fl.lt x 0

/-- `_validate_timestamp_claim` (python/tink/jwt/_raw_jwt.py 81-88); a `bool` is an `int`. -/
def validateTimestampClaim (fl : Floats F) (payload : List (PyStr × JVal F)) (name : PyStr) : Py Unit :=
  match PyDict.get? payload name with
  | none => .ok ()
  | some (.bool _) => .ok ()
  | some (.int n) => if n > maxTimestamp ∨ n < 0 then .error .jwtInvalidError else .ok ()
  | some (.float x) => if outOfRange fl x then .error .jwtInvalidError else .ok ()
  | some _ => .error .jwtInvalidError

/-- `isinstance(value, str)`. -/
def isStr : JVal F → Bool
  | .str _ => true
  | _ => false

/-- `_validate_audience_claim` (python/tink/jwt/_raw_jwt.py 90-99). -/
def validateAudienceClaim (payload : List (PyStr × JVal F)) : Py Unit :=
  match PyDict.get? payload (py! "aud") with
  | none => .ok ()
  | some (.str _) => .ok ()
  | some (.list l) =>
    if l.isEmpty then .error .jwtInvalidError
    else if l.all isStr then .ok ()
    else .error .jwtInvalidError
  | some _ => .error .jwtInvalidError

/-- The checks of `RawJwt.__init__` on a `dict` (python/tink/jwt/_raw_jwt.py 68-74). -/
def validatePayload (fl : Floats F) (payload : List (PyStr × JVal F)) : Py Unit := do
  validateStringClaim payload (py! "iss")
  validateStringClaim payload (py! "sub")
  validateStringClaim payload (py! "jti")
  validateTimestampClaim fl payload (py! "exp")
  validateTimestampClaim fl payload (py! "nbf")
  validateTimestampClaim fl payload (py! "iat")
  validateAudienceClaim payload

/-- `RawJwt.__init__` (python/tink/jwt/_raw_jwt.py 61-74). -/
def RawJwt.init (fl : Floats F) (typeHeader : Option (JVal F)) : JVal F → Py (RawJwt F)
  | .dict payload =>
    match validatePayload fl payload with
    | .error e => .error e
    | .ok () => .ok { typeHeader := typeHeader, payload := payload }
  | _ => .error .jwtInvalidError

namespace RawJwt

/-- `name in self._payload`: `has_issuer`, `has_subject`, `has_audiences`, `has_jwt_id`,
`has_expiration`, `has_not_before`, `has_issued_at` (python/tink/jwt/_raw_jwt.py 109-110, 115-116,
121-122, 130-131, 136-137, 142-143, 148-149). -/
def has (t : RawJwt F) (name : PyStr) : Bool := (PyDict.get? t.payload name).isSome

/-- `self._payload[name]`: `issuer`, `subject`, `jwt_id` (python/tink/jwt/_raw_jwt.py 112-113, 118-119,
133-134); `KeyError` if there is none. -/
def claim (t : RawJwt F) (name : PyStr) : Py (JVal F) :=
  match PyDict.get? t.payload name with
  | some v => .ok v
  | none => .error .keyError

/-- `has_type_header` (python/tink/jwt/_raw_jwt.py 101-102). -/
def hasTypeHeader (t : RawJwt F) : Bool := t.typeHeader.isSome

/-- `type_header` (python/tink/jwt/_raw_jwt.py 104-107). -/
def getTypeHeader (t : RawJwt F) : Py (JVal F) :=
  match t.typeHeader with
  | some v => .ok v
  | none => .error .keyError

/-- `audiences` (python/tink/jwt/_raw_jwt.py 124-128).  The claim is a string or a list, as was checked;
the last line is for the values that the check excludes. -/
def audiences (t : RawJwt F) : Py (List (JVal F)) :=
  match t.claim (py! "aud") with
  | .error e => .error e
  | .ok (.str s) => .ok [.str s]
  | .ok (.list l) => .ok l
  | .ok _ => .error .typeError

/-- `expiration`, `not_before`, `issued_at` (python/tink/jwt/_raw_jwt.py 139-140, 145-146, 151-152). -/
def time (fl : Floats F) (t : RawJwt F) (name : PyStr) : Py DateTime :=
  match t.claim name with
  | .error e => .error e
  | .ok v => toDatetime fl v

/-- `custom_claim_names` (python/tink/jwt/_raw_jwt.py 154-155), as a list in the order of the
payload. -/
def customClaimNames (t : RawJwt F) : List PyStr :=
  (PyDict.keys t.payload).filter fun n => n ∉ registeredNames

/-- `custom_claim` (python/tink/jwt/_raw_jwt.py 157-163).  A copy is the same value. -/
def customClaim (t : RawJwt F) (name : PyStr) : Py (JVal F) :=
  if name ∈ registeredNames then .error .jwtInvalidError else t.claim name

/-- `json_payload` (python/tink/jwt/_raw_jwt.py 165-167). -/
def jsonPayload (env : JsonEnv F) (t : RawJwt F) : Py PyStr := jsonDumps env (.dict t.payload)

/-- `_from_json` and `raw_jwt_from_json` (python/tink/jwt/_raw_jwt.py 226-231, 261-263). -/
def fromJson (env : JsonEnv F) (typeHeader : Option (JVal F)) (payload : PyStr) : Py (RawJwt F) :=
  match jsonLoads env payload with
  | .error e => .error e
  | .ok v => RawJwt.init env.floats typeHeader v

end RawJwt

/-- The name of a custom claim: a `str`, or another object. -/
inductive ClaimName where
  | str (s : PyStr)
  | other

/-- The value of a custom claim: a JSON value, or an object of another type.  (Lists and dicts that
contain other objects, and dicts with keys that are not strings, are left out.) -/
inductive ClaimValue (F : Type) where
  | json (v : JVal F)
  | other

/-- The arguments of `new_raw_jwt` (python/tink/jwt/_raw_jwt.py 234-245). -/
structure RawJwtArgs (F : Type) where
  typeHeader : Option PyStr := none
  issuer : Option PyStr := none
  subject : Option PyStr := none
  audience : Option PyStr := none
  audiences : Option (List (JVal F)) := none
  jwtId : Option PyStr := none
  expiration : Option DateTime := none
  withoutExpiration : Bool := false
  notBefore : Option DateTime := none
  issuedAt : Option DateTime := none
  customClaims : List (ClaimName × ClaimValue F) := []

/-- Puts a claim into the payload, if it is given. -/
def putOpt (d : List (PyStr × JVal F)) (name : PyStr) : Option (JVal F) → List (PyStr × JVal F)
  | none => d
  | some v => PyDict.set d name v

/-- A string that is given and not empty, as a claim (`if issuer:`). -/
def nonEmpty : Option PyStr → Option (JVal F)
  | some (c :: s) => some (.str (c :: s))
  | _ => none

/-- A time as a claim. -/
def timeClaim : Option DateTime → Py (Option (JVal F))
  | none => .ok none
  | some t =>
    match fromDatetime t with
    | .ok n => .ok (some (.int n))
    | .error e => .error e

/-- What is stored for a custom claim (python/tink/jwt/_raw_jwt.py 214-219). -/
def storedClaim (env : JsonEnv F) : JVal F → Py (JVal F)
  | .list l => copyOf (.list l)
  | .dict d => copyOf (.dict d)
  | v => .ok v
where
  copyOf (v : JVal F) : Py (JVal F) :=
    match dumps env v with
    | .error e => .error e
    | .ok text => loads env text

/-- The loop over the custom claims (python/tink/jwt/_raw_jwt.py 210-221). -/
def addCustomClaims (env : JsonEnv F) (d : List (PyStr × JVal F)) :
    List (ClaimName × ClaimValue F) → Py (List (PyStr × JVal F))
  | [] => .ok d
  | (.other, _) :: _ => .error .jwtInvalidError
  | (.str name, value) :: rest =>
    if name ∈ registeredNames then .error .jwtInvalidError
    else
      match value with
      | .other => .error .jwtInvalidError
      | .json v =>
        match storedClaim env v with
        | .error e => .error e
        | .ok w => addCustomClaims env (PyDict.set d name w) rest

/-- The payload without the claims that are times (python/tink/jwt/_raw_jwt.py 192-202). -/
def basePayload (a : RawJwtArgs F) : List (PyStr × JVal F) :=
  putOpt (putOpt (putOpt (putOpt (putOpt [] (py! "iss") (nonEmpty a.issuer))
    (py! "sub") (nonEmpty a.subject)) (py! "jti") (a.jwtId.map .str)) (py! "aud") (a.audience.map .str))
    (py! "aud") (a.audiences.map .list)

/-- `RawJwt.create` and `new_raw_jwt` (python/tink/jwt/_raw_jwt.py 169-224, 234-258).  A `datetime` is
always true. -/
def newRawJwt (env : JsonEnv F) (a : RawJwtArgs F) : Py (RawJwt F) :=
  if a.expiration.isNone && !a.withoutExpiration then .error .valueError
  else if a.expiration.isSome && a.withoutExpiration then .error .valueError
  else if a.audience.isSome && a.audiences.isSome then .error .jwtInvalidError
  else do
    let exp ← timeClaim a.expiration
    let nbf ← timeClaim a.notBefore
    let iat ← timeClaim a.issuedAt
    let payload ← addCustomClaims env
      (putOpt (putOpt (putOpt (basePayload a) (py! "exp") exp) (py! "nbf") nbf) (py! "iat") iat)
      a.customClaims
    RawJwt.init env.floats (a.typeHeader.map .str) (.dict payload)

end Jwt
end Tink
