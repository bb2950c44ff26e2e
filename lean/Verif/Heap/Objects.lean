import Verif.Json.Value
import Verif.Py.Dict

/-!
# Python objects that can be changed

The rest of the model has values; here lists and dicts are objects at addresses, so that two names can stand
for one object.  Texts, numbers and `None` cannot be changed and are values here as well.
-/

namespace Tink
namespace Heap

variable {F : Type}

/-- What a variable holds: a value that cannot be changed, or the address of an object. -/
inductive Val (F : Type) where
  | null
  | bool (b : Bool)
  | int (n : Int)
  | float (x : PyFloat F)
  | str (s : PyStr)
  | ref (l : Nat)

/-- A list or a dict. -/
inductive Obj (F : Type) where
  | list (items : List (Val F))
  | dict (entries : List (PyStr × Val F))

/-- All objects; an address is the position in the list. -/
abbrev Store (F : Type) := List (Obj F)

/-- The addresses in an object. -/
def Obj.vals : Obj F → List (Val F)
  | .list items => items
  | .dict entries => entries.map Prod.snd

/-- Is this an address. -/
def Val.addr? : Val F → Option Nat
  | .ref l => some l
  | _ => none

/-- The JSON value that a value is, looking at most `n` objects deep; `at_` says what is at an address. -/
def readWith (at_ : Nat → Option (Obj F)) : Nat → Val F → Option (JVal F)
  | _, .null => some .null
  | _, .bool b => some (.bool b)
  | _, .int n => some (.int n)
  | _, .float x => some (.float x)
  | _, .str s => some (.str s)
  | 0, .ref _ => none
  | n + 1, .ref l =>
    match at_ l with
    | none => none
    | some (.list items) => (items.mapM (readWith at_ n)).map .list
    | some (.dict entries) => (entries.mapM fun e => (readWith at_ n e.2).map fun v => (e.1, v)).map .dict

/-- The JSON value that a value is, looking at most `n` objects deep. -/
def read (h : Store F) : Nat → Val F → Option (JVal F) := readWith fun l => h[l]?

/-- The JSON value that a value is; `none` if it contains itself.  (Without a cycle, it is not deeper than
there are objects.) -/
def readAll (h : Store F) (v : Val F) : Option (JVal F) := read h (h.length + 1) v

mutual
/-- New objects for a JSON value, as `json.loads` and `copy.deepcopy` make them. -/
def alloc (h : Store F) : JVal F → Val F × Store F
  | .null => (.null, h)
  | .bool b => (.bool b, h)
  | .int n => (.int n, h)
  | .float x => (.float x, h)
  | .str s => (.str s, h)
  | .list l => ((.ref (allocItems h l).2.length), (allocItems h l).2 ++ [.list (allocItems h l).1])
  | .dict d => ((.ref (allocEntries h d).2.length), (allocEntries h d).2 ++ [.dict (allocEntries h d).1])
def allocItems (h : Store F) : List (JVal F) → List (Val F) × Store F
  | [] => ([], h)
  | v :: l => ((alloc h v).1 :: (allocItems (alloc h v).2 l).1, (allocItems (alloc h v).2 l).2)
def allocEntries (h : Store F) : List (PyStr × JVal F) → List (PyStr × Val F) × Store F
  | [] => ([], h)
  | p :: l => ((allocEntry h p).1 :: (allocEntries (allocEntry h p).2 l).1,
      (allocEntries (allocEntry h p).2 l).2)
def allocEntry (h : Store F) : PyStr × JVal F → (PyStr × Val F) × Store F
  | (k, v) => ((k, (alloc h v).1), (alloc h v).2)
end

/-- `copy.copy`: a new object with the same contents.  There is no address without an object; the line for it
makes the function total. -/
def copyShallow (h : Store F) : Val F → Val F × Store F
  | .ref l =>
    match h[l]? with
    | some o => (.ref h.length, h ++ [o])
    | none => (.null, h)
  | v => (v, h)

end Heap
end Tink
