import Verif.Py.Lit

/-!
# JSON values as Python objects

What `json.loads` returns and `json.dumps` accepts.  Floats are a parameter: what matters of them is
collected in `Floats`.
-/

namespace Tink

/-- A Python `float`; `F` are the finite ones. -/
inductive PyFloat (F : Type) where
  | nan
  | inf
  | ninf
  | fin (x : F)
  deriving DecidableEq

/-- What the code uses of finite floats `F`: `float(s)` of a numeral, `repr(x)`, the comparisons
`x > n` and `x < n` with an integer, and the microsecond nearest to a number of seconds (as
`datetime.fromtimestamp` rounds it). -/
structure Floats (F : Type) where
  parse : PyStr → PyFloat F
  repr : F → PyStr
  gt : F → Int → Bool
  lt : F → Int → Bool
  micros : F → Int

/-- A JSON value as a Python object.  The keys of a `dict` are `str`; its items are in insertion
order. -/
inductive JVal (F : Type) where
  | null
  | bool (b : Bool)
  | int (n : Int)
  | float (x : PyFloat F)
  | str (s : PyStr)
  | list (l : List (JVal F))
  | dict (d : List (PyStr × JVal F))

/-- The Python interpreter as far as `json` depends on it: floats, how deep a recursion may still go
(`sys.getrecursionlimit()`), and how many digits an integer may have when it is converted
(`sys.get_int_max_str_digits()`, `none` before Python 3.11). -/
structure JsonEnv (F : Type) where
  floats : Floats F
  depth : Nat
  maxDigits : Option Nat

/-- Is a number of digits within the limit. -/
def JsonEnv.digitsOk {F : Type} (env : JsonEnv F) (n : Nat) : Bool :=
  match env.maxDigits with
  | none => true
  | some m => n ≤ m

end Tink
