import Verif.Py.Basic

/-!
# UTF-8

`str.encode('utf-8')` and `bytes.decode('utf-8')` (strict), on lists of code
points.  Used by the proto wire format and by JSON.
-/

namespace Tink

/-- Python `str`: a list of code points.  Unlike a proto `string` it may contain
surrogates. -/
abbrev PyStr := List Nat

/-- Unicode scalar values: code points that are not surrogates. -/
def isScalar (c : Nat) : Bool := c < 0xD800 || (0xE000 ≤ c && c < 0x110000)

/-- The UTF-8 encoding of one scalar value. -/
def utf8EncodeCp (c : Nat) : Bytes :=
  if c < 0x80 then [UInt8.ofNat c]
  else if c < 0x800 then [UInt8.ofNat (0xC0 + c / 64), UInt8.ofNat (0x80 + c % 64)]
  else if c < 0x10000 then
    [UInt8.ofNat (0xE0 + c / 4096), UInt8.ofNat (0x80 + c / 64 % 64), UInt8.ofNat (0x80 + c % 64)]
  else
    [UInt8.ofNat (0xF0 + c / 262144), UInt8.ofNat (0x80 + c / 4096 % 64),
      UInt8.ofNat (0x80 + c / 64 % 64), UInt8.ofNat (0x80 + c % 64)]

/-- `s.encode('utf-8')`; `UnicodeEncodeError` on surrogates. -/
def utf8Encode (s : PyStr) : Py Bytes :=
  if s.all isScalar then .ok (s.flatMap utf8EncodeCp) else .error .unicodeError

/-- Is `b` a continuation byte. -/
def isCont (b : UInt8) : Bool := 0x80 ≤ b.toNat && b.toNat < 0xC0

/-- Strict UTF-8 decoding; `none` on malformed input. -/
def utf8Decode? : Bytes → Option PyStr
  | [] => some []
  | b0 :: rest =>
    if b0.toNat < 0x80 then (utf8Decode? rest).map (b0.toNat :: ·)
    else if b0.toNat < 0xC2 then none
    else if b0.toNat < 0xE0 then
      match rest with
      | b1 :: r =>
        if isCont b1 then
          (utf8Decode? r).map (((b0.toNat - 0xC0) * 64 + (b1.toNat - 0x80)) :: ·)
        else none
      | _ => none
    else if b0.toNat < 0xF0 then
      match rest with
      | b1 :: b2 :: r =>
        let c := (b0.toNat - 0xE0) * 4096 + (b1.toNat - 0x80) * 64 + (b2.toNat - 0x80)
        if isCont b1 && isCont b2 && (0x800 ≤ c) && isScalar c then
          (utf8Decode? r).map (c :: ·)
        else none
      | _ => none
    else if b0.toNat < 0xF5 then
      match rest with
      | b1 :: b2 :: b3 :: r =>
        let c := (b0.toNat - 0xF0) * 262144 + (b1.toNat - 0x80) * 4096 + (b2.toNat - 0x80) * 64
          + (b3.toNat - 0x80)
        if isCont b1 && isCont b2 && isCont b3 && (0x10000 ≤ c) && isScalar c then
          (utf8Decode? r).map (c :: ·)
        else none
      | _ => none
    else none

/-- `b.decode('utf-8')`; `UnicodeDecodeError` on malformed input. -/
def utf8Decode (b : Bytes) : Py PyStr :=
  match utf8Decode? b with
  | some s => .ok s
  | none => .error .unicodeError

/-- UTF-8 encoding of a proto string. -/
def pstrEncode (s : PStr) : Bytes := s.flatMap fun c => utf8EncodeCp c.toNat

/-- UTF-8 decoding into a proto string; `none` on malformed input. -/
def pstrDecode? (b : Bytes) : Option PStr := (utf8Decode? b).map (·.map Char.ofNat)

/-- A proto string as a Python `str`. -/
def PStr.toPy (s : PStr) : PyStr := s.map Char.toNat

/-- Assigning a Python `str` to a proto `string` field; surrogates raise
`UnicodeEncodeError` (a `ValueError`). -/
def PyStr.toProto (s : PyStr) : Py PStr :=
  if s.all isScalar then .ok (s.map Char.ofNat) else .error .unicodeError

end Tink
