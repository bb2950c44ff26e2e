import Lean
import Verif.Py.Utf8

/-!
# String literals

`py! "ab"` is the Python `str` `'ab'` as the explicit list `[97, 98]`; `ps! "ab"` is the
proto string `['a', 'b']`; `by! "ab"` is the Python `bytes` `b'ab'`.  They are expanded when
the file is elaborated, so that the kernel sees plain lists.
-/

namespace Tink

open Lean in
/-- A Python `str` literal. -/
macro "py!" s:str : term => do
  let xs := s.getString.toList.map fun c => Syntax.mkNumLit (toString c.toNat)
  `(([$(xs.toArray),*] : PyStr))

open Lean in
/-- A proto `string` literal. -/
macro "ps!" s:str : term => do
  let xs := s.getString.toList.map fun c => Syntax.mkCharLit c
  `(([$(xs.toArray),*] : PStr))

open Lean in
/-- A Python `bytes` literal (ASCII). -/
macro "by!" s:str : term => do
  let xs := s.getString.toList.map fun c => Syntax.mkNumLit (toString c.toNat)
  `(([$(xs.toArray),*] : Bytes))

example : py! "aB" = [97, 66] := rfl
example : ps! "aB" = ['a', 'B'] := rfl
example : by! "aB" = [97, 66] := rfl
example : PStr.toPy (ps! "aB") = py! "aB" := rfl

/-- `s.startswith(p)`. -/
def startsWith (s p : PyStr) : Bool := p.isPrefixOf s

end Tink
