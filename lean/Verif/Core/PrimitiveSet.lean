import Verif.Core.CryptoFormat
import Verif.Py.Dict

namespace Tink

/-- `Entry`, `/repo/python/tink/core/_primitive_set.py:25-26`. -/
structure Entry (P : Type) where
  primitive : P
  identifier : Bytes
  status : EnumVal
  outputPrefixType : EnumVal
  keyId : UInt32

/-- `PrimitiveSet`, `/repo/python/tink/core/_primitive_set.py:33-49`.  `C` is the
type of Python classes. -/
structure PrimitiveSet (P : Type) (C : Type) where
  primitives : PyDict Bytes (List (Entry P)) := []
  primary? : Option (Entry P) := none
  primitiveClass : C

namespace PrimitiveSet
variable {P : Type} {C : Type}

/-- `primitive_from_identifier`, `_primitive_set.py:54-58`. -/
def primitiveFromIdentifier (s : PrimitiveSet P C) (identifier : Bytes) : List (Entry P) :=
  match PyDict.get? s.primitives identifier with
  | some es => es
  | none => []

/-- `all`, `_primitive_set.py:60-62`. -/
def all (s : PrimitiveSet P C) : List (List (Entry P)) := PyDict.values s.primitives

/-- `primitive`, `_primitive_set.py:64-66`. -/
def primitive (s : PrimitiveSet P C) (key : Key) : Py (List (Entry P)) := do
  let id ← outputPrefix key
  return s.primitiveFromIdentifier id

/-- `raw_primitives`, `_primitive_set.py:68-71`. -/
def rawPrimitives (s : PrimitiveSet P C) : List (Entry P) :=
  s.primitiveFromIdentifier RAW_PREFIX

/-- `add_primitive`, `_primitive_set.py:73-85`.  `isInst p c` is
`isinstance(p, c)`.  Returns the new set and the entry. -/
def addPrimitive (isInst : P → C → Bool) (s : PrimitiveSet P C) (primitive : P) (key : Key) :
    Py (PrimitiveSet P C × Entry P) :=
  if !isInst primitive s.primitiveClass then .error .tinkError
  else
    match outputPrefix key with
    | .error e => .error e
    | .ok identifier =>
      let entry : Entry P :=
        { primitive, identifier, status := key.status,
          outputPrefixType := key.outputPrefixType, keyId := key.keyId }
      let entries := (PyDict.get? s.primitives identifier).getD []
      .ok ({ s with primitives := PyDict.set s.primitives identifier (entries ++ [entry]) }, entry)

/-- `set_primary`, `_primitive_set.py:87-88`. -/
def setPrimary (s : PrimitiveSet P C) (entry : Entry P) : PrimitiveSet P C :=
  { s with primary? := some entry }

/-- `primary`, `_primitive_set.py:90-93`.  A namedtuple with five fields is always truthy,
so `not self._primary` is true only of `None`. -/
def primary (s : PrimitiveSet P C) : Py (Entry P) :=
  match s.primary? with
  | none => .error .tinkError
  | some e => .ok e

end PrimitiveSet
end Tink
