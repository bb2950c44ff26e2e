import Verif.Json.Value
import Verif.Py.Dict

/-!
# `json.loads`

Follows `Modules/_json.c` and `Lib/json/decoder.py` of CPython.  A text is a list of code points; a
scanner returns a value and the rest of the text.
-/

namespace Tink
namespace Json

/-- `WHITESPACE`: space, tab, line feed, carriage return. -/
def isWs (c : Nat) : Bool := c = 32 || c = 9 || c = 10 || c = 13

/-- Skips white space. -/
def skipWs (s : PyStr) : PyStr := s.dropWhile isWs

/-- The value of a hexadecimal digit. -/
def hexVal (c : Nat) : Option Nat :=
  if 48 ≤ c ∧ c ≤ 57 then some (c - 48)
  else if 97 ≤ c ∧ c ≤ 102 then some (c - 87)
  else if 65 ≤ c ∧ c ≤ 70 then some (c - 55)
  else none

/-- The value of four hexadecimal digits. -/
def hex4 (a b c d : Nat) : Option Nat :=
  match hexVal a, hexVal b, hexVal c, hexVal d with
  | some a, some b, some c, some d => some (a * 4096 + b * 256 + c * 16 + d)
  | _, _, _, _ => none

/-- High and low surrogates. -/
def isHigh (c : Nat) : Bool := 0xD800 ≤ c && c < 0xDC00
def isLow (c : Nat) : Bool := 0xDC00 ≤ c && c < 0xE000

/-- `Py_UNICODE_JOIN_SURROGATES`. -/
def joinSurrogates (h l : Nat) : Nat := 0x10000 + (h - 0xD800) * 1024 + (l - 0xDC00)

/-- The characters of the one-letter escapes. -/
def simpleEscape (e : Nat) : Option Nat :=
  if e = 34 then some 34          -- \"
  else if e = 92 then some 92     -- \\
  else if e = 47 then some 47     -- \/
  else if e = 98 then some 8      -- \b
  else if e = 102 then some 12    -- \f
  else if e = 110 then some 10    -- \n
  else if e = 114 then some 13    -- \r
  else if e = 116 then some 9     -- \t
  else none

/-- Puts an item in front of the result of a scan. -/
def consScan {α : Type} (c : α) : Py (List α × PyStr) → Py (List α × PyStr)
  | .ok (s, r) => .ok (c :: s, r)
  | .error e => .error e

/-- The scan of a string (strict), from after the opening quote.  Every character comes with a flag:
was it written as `\uXXXX`. -/
def scanUnits : PyStr → Py (List (Nat × Bool) × PyStr)
  | [] => .error .jsonDecodeError
  | c :: r =>
    if c = 34 then .ok ([], r)
    else if c = 92 then
      match r with
      | [] => .error .jsonDecodeError
      | e :: r1 =>
        if e = 117 then
          match r1 with
          | h1 :: h2 :: h3 :: h4 :: r2 =>
            match hex4 h1 h2 h3 h4 with
            | none => .error .jsonDecodeError
            | some h => consScan (h, true) (scanUnits r2)
          | _ => .error .jsonDecodeError
        else
          match simpleEscape e with
          | none => .error .jsonDecodeError
          | some x => consScan (x, false) (scanUnits r1)
    else if c < 32 then .error .jsonDecodeError
    else consScan (c, false) (scanUnits r)

/-- A high surrogate followed by a low one, both written as `\uXXXX`, are one character. -/
def joinUnits : List (Nat × Bool) → PyStr
  | [] => []
  | [(c, _)] => [c]
  | (h, x) :: (l, y) :: r =>
    if x && y && isHigh h && isLow l then joinSurrogates h l :: joinUnits r
    else h :: joinUnits ((l, y) :: r)

/-- `scanstring_unicode`.  (CPython joins surrogates while it scans; all its errors are
`JSONDecodeError`, so joining afterwards gives the same.) -/
def scanString (s : PyStr) : Py (PyStr × PyStr) :=
  match scanUnits s with
  | .ok (u, r) => .ok (joinUnits u, r)
  | .error e => .error e

/-- ASCII digits. -/
def isDigit (c : Nat) : Bool := 48 ≤ c && c ≤ 57

/-- An optional minus sign. -/
def numSign : PyStr → PyStr × PyStr
  | c :: r => if c = 45 then ([45], r) else ([], c :: r)
  | [] => ([], [])

/-- `0`, or digits that do not begin with `0`. -/
def numInt : PyStr → Option (PyStr × PyStr)
  | [] => none
  | c :: r =>
    if c = 48 then some ([48], r)
    else if isDigit c then some (c :: r.takeWhile isDigit, r.dropWhile isDigit)
    else none

/-- An optional fraction. -/
def numFrac : PyStr → PyStr × PyStr
  | p :: c :: r =>
    if p = 46 ∧ isDigit c = true then
      (46 :: c :: r.takeWhile isDigit, r.dropWhile isDigit)
    else ([], p :: c :: r)
  | s => ([], s)

/-- An optional sign of an exponent. -/
def expSign : PyStr → PyStr × PyStr
  | c :: r => if c = 45 ∨ c = 43 then ([c], r) else ([], c :: r)
  | [] => ([], [])

/-- An optional exponent. -/
def numExp : PyStr → PyStr × PyStr
  | e :: r =>
    if (e = 101 ∨ e = 69) ∧ ((expSign r).2.takeWhile isDigit).isEmpty = false then
      (e :: ((expSign r).1 ++ (expSign r).2.takeWhile isDigit), (expSign r).2.dropWhile isDigit)
    else ([], e :: r)
  | [] => ([], [])

/-- The value of decimal digits. -/
def ofDigits (acc : Nat) : PyStr → Nat
  | [] => acc
  | c :: r => ofDigits (acc * 10 + (c - 48)) r

/-- A numeral: sign, integer part, fraction and exponent. -/
structure Numeral where
  sign : PyStr
  int : PyStr
  frac : PyStr
  exp : PyStr

/-- `_match_number_unicode`: the longest numeral at the start of the text. -/
def matchNumber (s : PyStr) : Option (Numeral × PyStr) :=
  match numInt (numSign s).2 with
  | none => none
  | some (i, r) =>
    some ({ sign := (numSign s).1, int := i, frac := (numFrac r).1, exp := (numExp (numFrac r).2).1 },
      (numExp (numFrac r).2).2)

variable {F : Type}

/-- `float(s)` if there is a fraction or an exponent, else `int(s)`, which raises `ValueError` on too
many digits. -/
def numberValue (env : JsonEnv F) (n : Numeral) : Py (JVal F) :=
  if n.frac.isEmpty && n.exp.isEmpty then
    if env.digitsOk n.int.length then
      .ok (.int (if n.sign.isEmpty then ofDigits 0 n.int else -(ofDigits 0 n.int : Int)))
    else .error .valueError
  else .ok (.float (env.floats.parse (n.sign ++ n.int ++ n.frac ++ n.exp)))

/-- `scan_once_unicode` on values that are not objects or arrays. -/
def scanScalar (env : JsonEnv F) (s : PyStr) : Py (JVal F × PyStr) :=
  if (py! "null").isPrefixOf s then .ok (.null, s.drop 4)
  else if (py! "true").isPrefixOf s then .ok (.bool true, s.drop 4)
  else if (py! "false").isPrefixOf s then .ok (.bool false, s.drop 5)
  else if (py! "NaN").isPrefixOf s then .ok (.float .nan, s.drop 3)
  else if (py! "Infinity").isPrefixOf s then .ok (.float .inf, s.drop 8)
  else if (py! "-Infinity").isPrefixOf s then .ok (.float .ninf, s.drop 9)
  else
    match matchNumber s with
    | none => .error .jsonDecodeError
    | some (n, r) =>
      match numberValue env n with
      | .ok v => .ok (v, r)
      | .error e => .error e

/-- The items of an array, from the first one on (`_parse_array_unicode`); `scan` reads a value, `n`
bounds the number of items. -/
def scanItems (scan : PyStr → Py (JVal F × PyStr)) : Nat → PyStr → Py (List (JVal F) × PyStr)
  | 0, _ => .error .jsonDecodeError
  | n + 1, s =>
    match scan s with
    | .error e => .error e
    | .ok (v, r) =>
      match skipWs r with
      | [] => .error .jsonDecodeError
      | c :: r1 =>
        if c = 93 then .ok ([v], r1)
        else if c = 44 then consScan v (scanItems scan n (skipWs r1))
        else .error .jsonDecodeError

/-- A key, the colon, and the white space after it. -/
def scanKey : PyStr → Py (PyStr × PyStr)
  | [] => .error .jsonDecodeError
  | q :: s =>
    if q = 34 then
      match scanString s with
      | .error e => .error e
      | .ok (k, r) =>
        match skipWs r with
        | [] => .error .jsonDecodeError
        | c :: r1 => if c = 58 then .ok (k, skipWs r1) else .error .jsonDecodeError
    else .error .jsonDecodeError

/-- The pairs of an object, from the first one on (`_parse_object_unicode`). -/
def scanPairs (scan : PyStr → Py (JVal F × PyStr)) :
    Nat → PyStr → Py (List (PyStr × JVal F) × PyStr)
  | 0, _ => .error .jsonDecodeError
  | n + 1, s =>
    match scanKey s with
    | .error e => .error e
    | .ok (k, s1) =>
      match scan s1 with
      | .error e => .error e
      | .ok (v, r) =>
        match skipWs r with
        | [] => .error .jsonDecodeError
        | c :: r1 =>
          if c = 125 then .ok ([(k, v)], r1)
          else if c = 44 then consScan (k, v) (scanPairs scan n (skipWs r1))
          else .error .jsonDecodeError

/-- Applies `object_pairs_hook` to the pairs read. -/
def hooked (hook : List (PyStr × JVal F) → Py (JVal F)) :
    Py (List (PyStr × JVal F) × PyStr) → Py (JVal F × PyStr)
  | .error e => .error e
  | .ok (ps, r) =>
    match hook ps with
    | .error e => .error e
    | .ok v => .ok (v, r)

/-- An array of the items read. -/
def listed : Py (List (JVal F) × PyStr) → Py (JVal F × PyStr)
  | .error e => .error e
  | .ok (vs, r) => .ok (.list vs, r)

/-- An array, from after the bracket. -/
def scanArray (scan : PyStr → Py (JVal F × PyStr)) (s : PyStr) : Py (JVal F × PyStr) :=
  match skipWs s with
  | [] => .error .jsonDecodeError
  | c :: r =>
    if c = 93 then .ok (.list [], r) else listed (scanItems scan (r.length + 1) (c :: r))

/-- An object, from after the brace. -/
def scanObject (hook : List (PyStr × JVal F) → Py (JVal F)) (scan : PyStr → Py (JVal F × PyStr))
    (s : PyStr) : Py (JVal F × PyStr) :=
  match skipWs s with
  | [] => .error .jsonDecodeError
  | c :: r =>
    if c = 125 then hooked hook (.ok ([], r))
    else hooked hook (scanPairs scan (r.length + 1) (c :: r))

/-- `scan_once_unicode`, with a depth of recursion that is left. -/
def scanValue (env : JsonEnv F) (hook : List (PyStr × JVal F) → Py (JVal F)) :
    Nat → PyStr → Py (JVal F × PyStr)
  | _, [] => .error .jsonDecodeError
  | 0, c :: r =>
    if c = 34 then
      match scanString r with
      | .ok (s, r1) => .ok (.str s, r1)
      | .error e => .error e
    else if c = 91 ∨ c = 123 then .error .recursionError
    else scanScalar env (c :: r)
  | depth + 1, c :: r =>
    if c = 34 then
      match scanString r with
      | .ok (s, r1) => .ok (.str s, r1)
      | .error e => .error e
    else if c = 91 then scanArray (scanValue env hook depth) r
    else if c = 123 then scanObject hook (scanValue env hook depth) r
    else scanScalar env (c :: r)

/-- `json.loads(text, object_pairs_hook=hook)`.  (A byte order mark is no value, and so an error.) -/
def loadsHook (env : JsonEnv F) (hook : List (PyStr × JVal F) → Py (JVal F)) (text : PyStr) :
    Py (JVal F) :=
  match scanValue env hook env.depth (skipWs text) with
  | .error e => .error e
  | .ok (v, r) => if (skipWs r).isEmpty then .ok v else .error .jsonDecodeError

/-- `dict(pairs)`: of several pairs with the same key the last one counts, in the place of the
first. -/
def dictOf (ps : List (PyStr × JVal F)) : List (PyStr × JVal F) :=
  ps.foldl (fun d p => PyDict.set d p.1 p.2) []

/-- `json.loads(text)`. -/
def loads (env : JsonEnv F) (text : PyStr) : Py (JVal F) :=
  loadsHook env (fun ps => .ok (.dict (dictOf ps))) text

end Json
end Tink
