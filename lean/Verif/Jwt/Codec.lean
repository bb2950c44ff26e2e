import Verif.Py.Base64
import Verif.Core.Proto

/-!
# `tink/jwt/_jwt_format.py`: base64url, key ids, the compact form
-/

namespace Tink
namespace Jwt

/-- `base64_encode` (python/tink/jwt/_jwt_format.py 32-34); `rstrip(b'=')` removes all trailing `=`. -/
def base64Encode (data : Bytes) : Bytes :=
  ((urlsafeB64encode data).reverse.dropWhile (· = 61)).reverse

/-- `_is_valid_urlsafe_base64_char` (python/tink/jwt/_jwt_format.py 37-46). -/
def validChar (c : UInt8) : Bool :=
  if c ≥ 97 && c ≤ 122 then true
  else if c ≥ 65 && c ≤ 90 then true
  else if c ≥ 48 && c ≤ 57 then true
  else if c = 45 || c = 95 then true
  else false

/-- `base64_decode` (python/tink/jwt/_jwt_format.py 49-62). -/
def base64Decode (encoded : Bytes) : Py Bytes :=
  if encoded.all validChar then
    match urlsafeB64decode (encoded ++ [61, 61, 61]) with
    | .ok b => .ok b
    | .error _ => .error .jwtInvalidError
  else .error .jwtInvalidError

/-- `encode_header` and `encode_payload` (python/tink/jwt/_jwt_format.py 70-74, 84-89). -/
def encodeText (json : PyStr) : Py Bytes :=
  match utf8Encode json with
  | .ok b => .ok (base64Encode b)
  | .error _ => .error .jwtInvalidError

/-- `decode_header` and `decode_payload` (python/tink/jwt/_jwt_format.py 77-81, 92-97). -/
def decodeText (encoded : Bytes) : Py PyStr :=
  match base64Decode encoded with
  | .error e => .error e
  | .ok b =>
    match utf8Decode b with
    | .ok s => .ok s
    | .error _ => .error .jwtInvalidError

/-- `get_kid` (python/tink/jwt/_jwt_format.py 122-130).  `struct.pack('>L', 2**32)` raises
`struct.error`. -/
def getKid (keyId : Int) (pfx : EnumVal) : Py (Option PyStr) :=
  if pfx = OutputPrefixType.RAW then .ok none
  else if pfx = OutputPrefixType.TINK then
    if keyId < 0 ∨ keyId > 2 ^ 32 then .error .jwtInvalidError
    else if keyId = 2 ^ 32 then .error .structError
    else
      match utf8Decode (base64Encode (be32 keyId.toNat)) with
      | .ok s => .ok (some s)
      | .error e => .error e
  else .error .jwtInvalidError

/-- `b.rsplit(b'.', 1)`: what is before and after the last dot, if there is one. -/
def rsplitDot : Bytes → Option (Bytes × Bytes)
  | [] => none
  | c :: r =>
    match rsplitDot r with
    | some (a, b) => some (c :: a, b)
    | none => if c = 46 then some ([], r) else none

/-- `b.split(b'.')`: the pieces between the dots. -/
def splitDots : Bytes → List Bytes
  | [] => [[]]
  | c :: r =>
    if c = 46 then [] :: splitDots r
    else
      match splitDots r with
      | p :: ps => (c :: p) :: ps
      | [] => [[c]]

/-- What `split_signed_compact` returns. -/
structure Parts where
  unsigned : Bytes
  header : PyStr
  payload : PyStr
  signature : Bytes
  deriving DecidableEq

/-- The second half of `split_signed_compact` (python/tink/jwt/_jwt_format.py 155-162). -/
def splitUnsigned (unsigned signature : Bytes) : Py Parts :=
  match splitDots unsigned with
  | [h, p] =>
    match decodeText h with
    | .error e => .error e
    | .ok header =>
      match decodeText p with
      | .error e => .error e
      | .ok payload =>
        .ok { unsigned := unsigned, header := header, payload := payload, signature := signature }
  | _ => .error .jwtInvalidError

/-- `split_signed_compact` (python/tink/jwt/_jwt_format.py 133-162) of a `str`. -/
def splitSignedCompact (compact : PyStr) : Py Parts :=
  match utf8Encode compact with
  | .error _ => .error .jwtInvalidError
  | .ok encoded =>
    match rsplitDot encoded with
    | none => .error .jwtInvalidError
    | some (unsigned, sig) =>
      match base64Decode sig with
      | .error e => .error e
      | .ok signature => splitUnsigned unsigned signature

/-- `create_signed_compact` (python/tink/jwt/_jwt_format.py 207-208). -/
def createSignedCompact (unsigned signature : Bytes) : Py PyStr :=
  utf8Decode (unsigned ++ 46 :: base64Encode signature)

end Jwt
end Tink
