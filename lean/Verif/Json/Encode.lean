import Verif.Json.Value

/-!
# `json.dumps`

`json.dumps(value)` and `json.dumps(value, separators=(',', ':'))`, following `Modules/_json.c` of
CPython: `ensure_ascii` is on, and `NaN`, `Infinity` and `-Infinity` are allowed.  `pad` is what comes
after a comma or colon: a space by default.
-/

namespace Tink
namespace Json

/-- A hexadecimal digit, lower case. -/
def hexDigit (n : Nat) : Nat := if n < 10 then 48 + n else 87 + n

/-- `\uXXXX`. -/
def uEscape (c : Nat) : PyStr :=
  [92, 117, hexDigit (c / 4096 % 16), hexDigit (c / 256 % 16), hexDigit (c / 16 % 16),
    hexDigit (c % 16)]

/-- `ascii_escape_unichar` and `S_CHAR`. -/
def escapeChar (c : Nat) : PyStr :=
  if c = 34 then [92, 34]
  else if c = 92 then [92, 92]
  else if c = 8 then [92, 98]
  else if c = 12 then [92, 102]
  else if c = 10 then [92, 110]
  else if c = 13 then [92, 114]
  else if c = 9 then [92, 116]
  else if 32 ≤ c ∧ c ≤ 126 then [c]
  else if c < 0x10000 then uEscape c
  else uEscape (0xD800 + (c - 0x10000) / 1024) ++ uEscape (0xDC00 + (c - 0x10000) % 1024)

/-- `py_encode_basestring_ascii`. -/
def encodeString (s : PyStr) : PyStr := 34 :: s.flatMap escapeChar ++ [34]

/-- The decimal digits of a number, with `fuel` more than their number. -/
def decimalAux : Nat → Nat → PyStr → PyStr
  | 0, _, acc => acc
  | fuel + 1, n, acc =>
    if n < 10 then (48 + n) :: acc else decimalAux fuel (n / 10) ((48 + n % 10) :: acc)

/-- `str(n)` of a natural number. -/
def decimal (n : Nat) : PyStr := decimalAux (n + 1) n []

variable {F : Type}

/-- `int.__repr__`; `ValueError` on too many digits. -/
def encodeInt (env : JsonEnv F) (n : Int) : Py PyStr :=
  if env.digitsOk (decimal n.natAbs).length then
    .ok (if n < 0 then 45 :: decimal n.natAbs else decimal n.natAbs)
  else .error .valueError

/-- `encoder_encode_float`. -/
def encodeFloat (env : JsonEnv F) : PyFloat F → PyStr
  | .nan => py! "NaN"
  | .inf => py! "Infinity"
  | .ninf => py! "-Infinity"
  | .fin x => env.floats.repr x

/-- Runs `f` on every element, from the first on. -/
def mapPy {α β : Type} (f : α → Py β) : List α → Py (List β)
  | [] => .ok []
  | a :: as =>
    match f a with
    | .error e => .error e
    | .ok b =>
      match mapPy f as with
      | .error e => .error e
      | .ok bs => .ok (b :: bs)

/-- The texts with commas between them. -/
def commas (pad : PyStr) : List PyStr → PyStr
  | [] => []
  | [t] => t
  | t :: ts => t ++ 44 :: (pad ++ commas pad ts)

/-- One pair of an object. -/
def encodePair (pad : PyStr) (f : JVal F → Py PyStr) (p : PyStr × JVal F) : Py PyStr :=
  match f p.2 with
  | .error e => .error e
  | .ok t => .ok (encodeString p.1 ++ 58 :: (pad ++ t))

/-- Puts brackets around the texts. -/
def bracket (pad : PyStr) (l r : Nat) : Py (List PyStr) → Py PyStr
  | .error e => .error e
  | .ok ts => .ok (l :: commas pad ts ++ [r])

/-- `encoder_listencode_obj`, with a depth of recursion that is left. -/
def dumpsDepth (env : JsonEnv F) (pad : PyStr) : Nat → JVal F → Py PyStr
  | _, .null => .ok (py! "null")
  | _, .bool true => .ok (py! "true")
  | _, .bool false => .ok (py! "false")
  | _, .int n => encodeInt env n
  | _, .float x => .ok (encodeFloat env x)
  | _, .str s => .ok (encodeString s)
  | 0, .list _ => .error .recursionError
  | 0, .dict _ => .error .recursionError
  | depth + 1, .list l => bracket pad 91 93 (mapPy (dumpsDepth env pad depth) l)
  | depth + 1, .dict d => bracket pad 123 125 (mapPy (encodePair pad (dumpsDepth env pad depth)) d)

/-- `json.dumps(v, separators=(',', ':'))`. -/
def dumpsCompact (env : JsonEnv F) (v : JVal F) : Py PyStr := dumpsDepth env [] env.depth v

/-- `json.dumps(v)`. -/
def dumps (env : JsonEnv F) (v : JVal F) : Py PyStr := dumpsDepth env [32] env.depth v

end Json
end Tink
