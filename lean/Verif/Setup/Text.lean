import Verif.Cli.Os

/-!
# Functions of Python on `str` that `python/setup.py` calls

This file models no code of the repository.
-/

namespace Tink.Setup

/-- `str.replace(old, new)`, for an `old` that is not empty: occurrences are looked for from left to right and do not
overlap.  `skip` is how many characters of an occurrence are still to be left out. -/
def replaceFrom (old new : PyStr) : Nat → PyStr → PyStr
  | _, [] => []
  | skip + 1, _ :: s => replaceFrom old new skip s
  | 0, c :: s =>
    if old.isPrefixOf (c :: s) then new ++ replaceFrom old new (old.length - 1) s
    else c :: replaceFrom old new 0 s

def replace (old new s : PyStr) : PyStr := replaceFrom old new 0 s

/-- `u in s`. -/
def isIn (u : PyStr) : PyStr → Bool
  | [] => u.isEmpty
  | c :: s => u.isPrefixOf (c :: s) || isIn u s

/-- `s.split(sep)`, for a `sep` that is not empty. -/
def splitFrom (sep : PyStr) : Nat → PyStr → List PyStr
  | _, [] => [[]]
  | skip + 1, _ :: s => splitFrom sep skip s
  | 0, c :: s =>
    if sep.isPrefixOf (c :: s) then [] :: splitFrom sep (sep.length - 1) s
    else
      match splitFrom sep 0 s with
      | [] => [[c]]
      | p :: ps => (c :: p) :: ps

def split (sep s : PyStr) : List PyStr := splitFrom sep 0 s

/-- `sep.join(parts)`. -/
def join (sep : PyStr) : List PyStr → PyStr
  | [] => []
  | [p] => p
  | p :: ps => p ++ sep ++ join sep ps

/-- `for line in f`: the lines of a text file, with their line feeds. -/
def fileLines : PyStr → List PyStr
  | [] => []
  | c :: s =>
    if c = 10 then [10] :: fileLines s
    else
      match fileLines s with
      | [] => [[c]]
      | l :: ls => (c :: l) :: ls

/-- `s.strip(chars)`. -/
def stripChars (chars s : PyStr) : PyStr :=
  ((s.dropWhile (chars.contains ·)).reverse.dropWhile (chars.contains ·)).reverse

/-- The characters that `str.isspace` and `str.rstrip` take for white space. -/
def isSpace (c : Nat) : Bool :=
  (9 ≤ c && c ≤ 13) || (28 ≤ c && c ≤ 32) || c == 0x85 || c == 0xa0 || c == 0x1680 || (0x2000 ≤ c && c ≤ 0x200a) ||
    c == 0x2028 || c == 0x2029 || c == 0x202f || c == 0x205f || c == 0x3000

/-- `s.isspace()`. -/
def isspace (s : PyStr) : Bool := !s.isEmpty && s.all isSpace

/-- `s.rstrip()`. -/
def rstrip (s : PyStr) : PyStr := (s.reverse.dropWhile isSpace).reverse

end Tink.Setup
