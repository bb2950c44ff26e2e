import Verif.Jwt.Codec
import Verif.Jwt.Raw

/-!
# `tink/jwt/_jwt_format.py`: headers
-/

namespace Tink
namespace Jwt
open Json JsonUtil

variable {F : Type}

/-- What the JWT code uses of the interpreter: JSON, and `str.upper`. -/
structure JwtEnv (F : Type) where
  json : JsonEnv F
  upper : PyStr → PyStr

/-- `_VALID_ALGORITHMS` (python/tink/jwt/_jwt_format.py 26-29). -/
def validAlgorithms : List PyStr :=
  [py! "HS256", py! "HS384", py! "HS512", py! "ES256", py! "ES384", py! "ES512", py! "RS256",
    py! "RS384", py! "RS512", py! "PS256", py! "PS384", py! "PS512"]

/-- `_validate_algorithm` (python/tink/jwt/_jwt_format.py 65-67). -/
def validateAlgorithm (alg : PyStr) : Py Unit :=
  if alg ∈ validAlgorithms then .ok () else .error .jwtInvalidError

/-- `bool(v)`. -/
def truth (fl : Floats F) : JVal F → Bool
  | .null => false
  | .bool b => b
  | .int n => n ≠ 0
  | .float (.fin x) => fl.gt x 0 || fl.lt x 0
  | .float _ => true
  | .str s => !s.isEmpty
  | .list l => !l.isEmpty
  | .dict d => !d.isEmpty

/-- `if type_header: header['typ'] = type_header` (python/tink/jwt/_jwt_format.py 117-118). -/
def typEntry (fl : Floats F) : Option (JVal F) → List (PyStr × JVal F)
  | some v => if truth fl v then [(py! "typ", v)] else []
  | none => []

/-- `if kid: header['kid'] = kid` (python/tink/jwt/_jwt_format.py 114-115). -/
def kidEntry : Option PyStr → List (PyStr × JVal F)
  | some (c :: s) => [(py! "kid", .str (c :: s))]
  | _ => []

/-- The `dict` made by `create_header` (python/tink/jwt/_jwt_format.py 113-118). -/
def headerOf (fl : Floats F) (alg : PyStr) (typeHeader : Option (JVal F)) (kid : Option PyStr) :
    List (PyStr × JVal F) :=
  kidEntry kid ++ (py! "alg", .str alg) :: typEntry fl typeHeader

/-- `create_header` (python/tink/jwt/_jwt_format.py 110-119). -/
def createHeader (env : JwtEnv F) (alg : PyStr) (typeHeader : Option (JVal F)) (kid : Option PyStr) :
    Py Bytes := do
  validateAlgorithm alg
  let text ← jsonDumps env.json (.dict (headerOf env.json.floats alg typeHeader kid))
  encodeText text

/-- `_validate_kid_header` (python/tink/jwt/_jwt_format.py 165-167), of the entry. -/
def kidIs (v : JVal F) (kid : PyStr) : Py Unit :=
  match v with
  | .str s => if s = kid then .ok () else .error .jwtInvalidError
  | _ => .error .jwtInvalidError

/-- `hdr_algorithm.upper() != algorithm` (python/tink/jwt/_jwt_format.py 176-179); only strings have
`upper`. -/
def checkAlg (env : JwtEnv F) (header : List (PyStr × JVal F)) (alg : PyStr) : Py Unit :=
  match (PyDict.get? header (py! "alg")).getD (.str []) with
  | .str s => if env.upper s = alg then .ok () else .error .jwtInvalidError
  | _ => .error .attributeError

/-- The checks of the kid (python/tink/jwt/_jwt_format.py 183-191). -/
def checkKid (header : List (PyStr × JVal F)) (tinkKid customKid : Option PyStr) : Py Unit :=
  match tinkKid, customKid with
  | some _, some _ => .error .jwtInvalidError
  | some kid, none =>
    match PyDict.get? header (py! "kid") with
    | none => .error .jwtInvalidError
    | some v => kidIs v kid
  | none, some kid =>
    match PyDict.get? header (py! "kid") with
    | none => .ok ()
    | some v => kidIs v kid
  | none, none => .ok ()

/-- `validate_header` (python/tink/jwt/_jwt_format.py 170-191).  Only a `dict` has `get`. -/
def validateHeader (env : JwtEnv F) (header : JVal F) (alg : PyStr) (tinkKid customKid : Option PyStr) :
    Py Unit := do
  validateAlgorithm alg
  match header with
  | .dict h =>
    checkAlg env h alg
    if (PyDict.get? h (py! "crit")).isSome then .error .jwtInvalidError
    else checkKid h tinkKid customKid
  | _ => .error .attributeError

/-- A JSON value as an `Optional`: `null` is `None`. -/
def optional : JVal F → Option (JVal F)
  | .null => none
  | v => some v

/-- `get_type_header` (python/tink/jwt/_jwt_format.py 194-195), of a header that was validated. -/
def getTypeHeader : JVal F → Option (JVal F)
  | .dict h => (PyDict.get? h (py! "typ")).bind optional
  | _ => none

/-- `create_unsigned_compact` (python/tink/jwt/_jwt_format.py 198-204). -/
def createUnsignedCompact (env : JwtEnv F) (alg : PyStr) (kid : Option PyStr) (t : RawJwt F) :
    Py Bytes := do
  let header ← createHeader env alg t.typeHeader kid
  let text ← t.jsonPayload env.json
  let payload ← encodeText text
  return header ++ 46 :: payload

end Jwt
end Tink
