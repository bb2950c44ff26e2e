import Verif.Json.Decode
import Verif.Json.Encode

/-!
# `tink/jwt/_json_util.py`
-/

namespace Tink
namespace JsonUtil
open Json

variable {F : Type}

/-- `json_dumps` (python/tink/jwt/_json_util.py 22-23). -/
def jsonDumps (env : JsonEnv F) (v : JVal F) : Py PyStr := dumpsCompact env v

/-- `_validate_str` (python/tink/jwt/_json_util.py 26-28). -/
def validateStr (s : PyStr) : Py Unit :=
  match utf8Encode s with
  | .ok _ => .ok ()
  | .error e => .error e

/-- The loop of `_validate_value` over a list (python/tink/jwt/_json_util.py 38-40). -/
def validateItems : List (JVal F) → Py Unit
  | [] => .ok ()
  | .str s :: l =>
    match validateStr s with
    | .error e => .error e
    | .ok () => validateItems l
  | _ :: l => validateItems l

/-- `_validate_value` (python/tink/jwt/_json_util.py 31-40). -/
def validateValue : JVal F → Py Unit
  | .str s => validateStr s
  | .list l => validateItems l
  | _ => .ok ()

/-- The loop of `_dict_with_validation` (python/tink/jwt/_json_util.py 45-52). -/
def validatePairs (keys : List PyStr) : List (PyStr × JVal F) → Py Unit
  | [] => .ok ()
  | (k, v) :: ps =>
    match validateStr k with
    | .error e => .error e
    | .ok () =>
      if k ∈ keys then .error .jwtInvalidError
      else
        match validateValue v with
        | .error e => .error e
        | .ok () => validatePairs (k :: keys) ps

/-- `_dict_with_validation` (python/tink/jwt/_json_util.py 43-53). -/
def dictWithValidation (ps : List (PyStr × JVal F)) : Py (JVal F) :=
  match validatePairs [] ps with
  | .error e => .error e
  | .ok () => .ok (.dict (dictOf ps))

/-- The `except` clauses of `json_loads` (python/tink/jwt/_json_util.py 60-66). -/
def jsonExcept {α : Type} : Py α → Py α
  | .error .jsonDecodeError => .error .jwtInvalidError
  | .error .recursionError => .error .jwtInvalidError
  | .error .unicodeError => .error .jwtInvalidError
  | r => r

/-- `json_loads` (python/tink/jwt/_json_util.py 56-66). -/
def jsonLoads (env : JsonEnv F) (text : PyStr) : Py (JVal F) :=
  jsonExcept (loadsHook env dictWithValidation text)

end JsonUtil
end Tink
