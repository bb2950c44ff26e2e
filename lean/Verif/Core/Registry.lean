import Verif.Core.PrimitiveSet

namespace Tink

/-- The source of randomness of a randomised operation (universally quantified
wherever it occurs). -/
abbrev Seed := Nat

/-- `KeyManager` and `PrivateKeyManager` objects,
`/repo/python/tink/core/_key_manager.py:27-93`.  A key manager is a parameter
of the model; its methods may behave arbitrarily.
* `pyType` is `type(manager)`;
* `publicKeyData` is present iff the object is an instance of
  `PrivateKeyManager`. -/
structure KeyManager (P : Type) (C : Type) where
  pyType : Nat
  primitiveClass : C
  keyType : PStr
  doesSupport : PStr → Bool
  primitive : KeyData → Py P
  newKeyData : Seed → KeyTemplate → Py KeyData
  publicKeyData : Option (KeyData → Py KeyData) := none

/-- `PrimitiveWrapper` objects, `/repo/python/tink/core/_primitive_wrapper.py`. -/
structure PrimitiveWrapper (P : Type) (C : Type) where
  pyType : Nat
  primitiveClass : C
  inputPrimitiveClass : C
  wrap : PrimitiveSet P C → Py P

/-- The class-level state of `Registry`, `/repo/python/tink/core/_registry.py:43-44`. -/
structure Registry (P : Type) (C : Type) where
  keyManagers : PyDict PStr (KeyManager P C × Bool) := []
  wrappers : PyDict C (PrimitiveWrapper P C) := []

namespace Registry
variable {P : Type} {C : Type} [DecidableEq C]

/-- `reset`, `_registry.py:46-50`. -/
def reset (_ : Registry P C) : Registry P C := { keyManagers := [], wrappers := [] }

omit [DecidableEq C] in
/-- `_key_manager_internal`, `_registry.py:52-59`. -/
def keyManagerInternal (r : Registry P C) (typeUrl : PStr) : Py (KeyManager P C × Bool) :=
  match PyDict.get? r.keyManagers typeUrl with
  | none => .error .tinkError
  | some p => .ok p

omit [DecidableEq C] in
/-- `key_manager`, `_registry.py:61-72`. -/
def keyManager (r : Registry P C) (typeUrl : PStr) : Py (KeyManager P C) := do
  let (m, _) ← r.keyManagerInternal typeUrl
  return m

/-- `register_key_manager`, `_registry.py:74-107`. -/
def registerKeyManager (r : Registry P C) (m : KeyManager P C) (newKeyAllowed : Bool) :
    Registry P C × Py Unit :=
  let typeUrl := m.keyType
  let primitiveClass := m.primitiveClass
  if !m.doesSupport typeUrl then (r, .error .tinkError)
  else
    match PyDict.get? r.keyManagers typeUrl with
    | some (existing, existingNewKey) =>
      if existing.pyType ≠ m.pyType ∨ existing.primitiveClass ≠ primitiveClass then
        (r, .error .tinkError)
      else if !existingNewKey && newKeyAllowed then
        (r, .error .tinkError)
      else
        ({ r with keyManagers :=
            PyDict.set r.keyManagers typeUrl (existing, newKeyAllowed) }, .ok ())
    | none =>
      ({ r with keyManagers := PyDict.set r.keyManagers typeUrl (m, newKeyAllowed) }, .ok ())

/-- `primitive`, `_registry.py:109-131`. -/
def primitive (r : Registry P C) (keyData : KeyData) (primitiveClass : C) : Py P := do
  let m ← r.keyManager keyData.typeUrl
  if m.primitiveClass ≠ primitiveClass then .error .tinkError
  else m.primitive keyData

omit [DecidableEq C] in
/-- `new_key_data`, `_registry.py:133-144`. -/
def newKeyData (r : Registry P C) (seed : Seed) (template : KeyTemplate) : Py KeyData := do
  let (m, newKeyAllowed) ← r.keyManagerInternal template.typeUrl
  if !newKeyAllowed then .error .tinkError
  else m.newKeyData seed template

omit [DecidableEq C] in
/-- `public_key_data`, `_registry.py:146-158`. -/
def publicKeyData (r : Registry P C) (privateKeyData : KeyData) : Py KeyData :=
  if privateKeyData.keyMaterialType ≠ KeyMaterialType.ASYMMETRIC_PRIVATE then
    .error .tinkError
  else do
    let m ← r.keyManager privateKeyData.typeUrl
    match m.publicKeyData with
    | none => .error .tinkError
    | some f => f privateKeyData

/-- `register_primitive_wrapper`, `_registry.py:160-183`.  `isInst p c` is
`isinstance(p, c)`.  An exception raised by `wrapper.wrap` propagates. -/
def registerPrimitiveWrapper (isInst : P → C → Bool) (r : Registry P C)
    (w : PrimitiveWrapper P C) : Registry P C × Py Unit :=
  let clash : Bool :=
    match PyDict.get? r.wrappers w.primitiveClass with
    | some w' => w'.pyType ≠ w.pyType
    | none => false
  if clash then (r, .error .tinkError)
  else
    match w.wrap { primitiveClass := w.inputPrimitiveClass } with
    | .error e => (r, .error e)
    | .ok wrapped =>
      if !isInst wrapped w.primitiveClass then (r, .error .tinkError)
      else ({ r with wrappers := PyDict.set r.wrappers w.primitiveClass w }, .ok ())

/-- `input_primitive_class`, `_registry.py:185-202`. -/
def inputPrimitiveClass (r : Registry P C) (primitiveClass : C) : Py C :=
  match PyDict.get? r.wrappers primitiveClass with
  | none => .error .tinkError
  | some w => .ok w.inputPrimitiveClass

/-- `wrap`, `_registry.py:204-233`. -/
def wrap (r : Registry P C) (pset : PrimitiveSet P C) (primitiveClass : C) : Py P :=
  match PyDict.get? r.wrappers primitiveClass with
  | none => .error .tinkError
  | some w =>
    if pset.primitiveClass ≠ w.inputPrimitiveClass then .error .tinkError
    else w.wrap pset

end Registry

/-- One statement after another; an exception ends the sequence. -/
def andThen {P C : Type} (x : Registry P C × Py Unit) (f : Registry P C → Registry P C × Py Unit) :
    Registry P C × Py Unit :=
  match x with
  | (r, .ok ()) => f r
  | (r, .error e) => (r, .error e)

end Tink
