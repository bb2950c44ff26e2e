/-!
# Python dictionaries

Insertion-ordered association lists with unique keys, the observable behaviour
of `dict` since Python 3.7.
-/

namespace Tink

/-- A Python `dict`, as the list of its items in iteration order. -/
abbrev PyDict (K : Type u) (V : Type v) := List (K × V)

namespace PyDict
variable {K : Type u} {V : Type v} [DecidableEq K]

/-- `d.get(k)`; also models `k in d` as `(get? d k).isSome`. -/
def get? : PyDict K V → K → Option V
  | [], _ => none
  | (k', v) :: d, k => if k' = k then some v else get? d k

/-- `d[k] = v`: replaces in place when the key is present, else appends. -/
def set : PyDict K V → K → V → PyDict K V
  | [], k, v => [(k, v)]
  | (k', v') :: d, k, v => if k' = k then (k', v) :: d else (k', v') :: set d k v

/-- `list(d.keys())`. -/
def keys (d : PyDict K V) : List K := d.map Prod.fst

/-- `list(d.values())`. -/
def values (d : PyDict K V) : List V := d.map Prod.snd

/-- Keys of a Python dict are pairwise distinct. -/
def WF (d : PyDict K V) : Prop := d.keys.Nodup

end PyDict
end Tink
