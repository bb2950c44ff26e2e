import Verif.Core.Registry

/-!
# The registry used by several threads

CPython runs one thread at a time and may switch between any two bytecodes.  What is done with the registry in one
go is a read of the class attributes `_key_managers` and `_wrappers`, a test `key in dict`, a lookup `dict[key]`, an
assignment `dict[key] = value`, and an assignment to a class attribute.  (The keys are `str` and classes, whose hash and
comparison run no Python code.)  The methods of key managers and wrappers may take any time, but are taken not to
depend on the registry nor to change it.

A thread that makes several calls is several calls of which one starts when the one before is finished; so what
holds for every way to start calls and to let them proceed holds for every program.
-/

namespace Tink
namespace Threads

/-- A call in progress: what it does next in one go (what becomes of the state, and how it goes on after it has seen
the state), or its outcome. -/
inductive Act (S α : Type) where
  | done (r : α)
  | step (upd : S → S) (next : S → Act S α)

/-- The class attributes of `Registry`, `/repo/python/tink/core/_registry.py:43-44`, and the dictionaries.
`keyManagers a` and `wrappers a` are the dictionaries with the address `a`; the attributes have the addresses `kmNow`
and `wrNow`.  Addresses above are not used yet. -/
structure Shared (P C : Type) where
  keyManagers : Nat → PyDict PStr (KeyManager P C × Bool)
  kmNow : Nat
  wrappers : Nat → PyDict C (PrimitiveWrapper P C)
  wrNow : Nat

variable {P C : Type} [DecidableEq C]

omit [DecidableEq C] in
/-- What a thread sees that is not interrupted. -/
def Shared.registry (s : Shared P C) : Registry P C := ⟨s.keyManagers s.kmNow, s.wrappers s.wrNow⟩

omit [DecidableEq C] in
/-- The state with this registry. -/
def Shared.of (r : Registry P C) : Shared P C := ⟨fun _ => r.keyManagers, 0, fun _ => r.wrappers, 0⟩

/-- The calls.  `lookup` is `_key_manager_internal`, with which `key_manager`, `primitive`, `new_key_data` and
`public_key_data` start; `wrapperFor` is how `input_primitive_class` and `wrap` start.  What these do afterwards does
not touch the registry. -/
inductive Call (P C : Type) where
  | registerKeyManager (m : KeyManager P C) (newKeyAllowed : Bool)
  | registerPrimitiveWrapper (w : PrimitiveWrapper P C)
  | lookup (typeUrl : PStr)
  | wrapperFor (primitiveClass : C)
  | reset

/-- What the calls return. -/
inductive Answer (P C : Type) where
  | unit
  | manager (m : KeyManager P C) (newKeyAllowed : Bool)
  | wrapper (w : PrimitiveWrapper P C)

abbrev Code (P C : Type) := Act (Shared P C) (Py (Answer P C))

omit [DecidableEq C] in
/-- `dict[typeUrl] = entry`, for the dictionary with the address `a`. -/
def Shared.setManager (a : Nat) (typeUrl : PStr) (entry : KeyManager P C × Bool) (s : Shared P C) : Shared P C :=
  { s with keyManagers := fun a' => if a' = a then PyDict.set (s.keyManagers a) typeUrl entry else s.keyManagers a' }

/-- `dict[primitiveClass] = wrapper`, for the dictionary with the address `a`. -/
def Shared.setWrapper (a : Nat) (w : PrimitiveWrapper P C) (s : Shared P C) : Shared P C :=
  { s with wrappers := fun a' => if a' = a then PyDict.set (s.wrappers a) w.primitiveClass w else s.wrappers a' }

omit [DecidableEq C] in
/-- `cls._key_managers = {}`. -/
def Shared.newManagers (s : Shared P C) : Shared P C :=
  { s with keyManagers := fun a => if a = s.kmNow + 1 then [] else s.keyManagers a, kmNow := s.kmNow + 1 }

omit [DecidableEq C] in
/-- `cls._wrappers = {}`. -/
def Shared.newWrappers (s : Shared P C) : Shared P C :=
  { s with wrappers := fun a => if a = s.wrNow + 1 then [] else s.wrappers a, wrNow := s.wrNow + 1 }

/-- `register_key_manager`, `_registry.py:74-107`. -/
def registerKeyManager (m : KeyManager P C) (newKeyAllowed : Bool) : Code P C :=
  .step id fun s =>                                   -- key_managers = cls._key_managers
  let a := s.kmNow
  if !m.doesSupport m.keyType then .done (.error .tinkError)
  else .step id fun s =>                              -- type_url in key_managers
  match PyDict.get? (s.keyManagers a) m.keyType with
  | none => .step (Shared.setManager a m.keyType (m, newKeyAllowed)) fun _ => .done (.ok .unit)
  | some _ => .step id fun s =>                       -- key_managers[type_url]
    match PyDict.get? (s.keyManagers a) m.keyType with
    | none => .done (.error .keyError)
    | some (existing, existingNewKey) =>
      if existing.pyType ≠ m.pyType ∨ existing.primitiveClass ≠ m.primitiveClass then .done (.error .tinkError)
      else if !existingNewKey && newKeyAllowed then .done (.error .tinkError)
      else .step (Shared.setManager a m.keyType (existing, newKeyAllowed)) fun _ => .done (.ok .unit)

/-- `register_primitive_wrapper`, `_registry.py:176-183`: from the call of `wrap` on. -/
def checkWrapper (isInst : P → C → Bool) (w : PrimitiveWrapper P C) : Code P C :=
  match w.wrap { primitiveClass := w.inputPrimitiveClass } with
  | .error e => .done (.error e)
  | .ok wrapped =>
    if !isInst wrapped w.primitiveClass then .done (.error .tinkError)
    else .step id fun s => .step (Shared.setWrapper s.wrNow w) fun _ => .done (.ok .unit)

/-- `register_primitive_wrapper`, `_registry.py:160-183`. -/
def registerPrimitiveWrapper (isInst : P → C → Bool) (w : PrimitiveWrapper P C) : Code P C :=
  .step id fun s =>                                   -- cls._wrappers
  let a := s.wrNow
  .step id fun s =>                                   -- wrapper.primitive_class() in ...
  match PyDict.get? (s.wrappers a) w.primitiveClass with
  | none => checkWrapper isInst w
  | some _ => .step id fun s =>                       -- cls._wrappers
    let a := s.wrNow
    .step id fun s =>                                 -- ...[wrapper.primitive_class()]
    match PyDict.get? (s.wrappers a) w.primitiveClass with
    | none => .done (.error .keyError)
    | some w' => if w'.pyType ≠ w.pyType then .done (.error .tinkError) else checkWrapper isInst w

/-- `_key_manager_internal`, `_registry.py:52-59`. -/
def lookup (typeUrl : PStr) : Code P C :=
  .step id fun s =>                                   -- cls._key_managers
  let a := s.kmNow
  .step id fun s =>                                   -- type_url not in ...
  match PyDict.get? (s.keyManagers a) typeUrl with
  | none => .done (.error .tinkError)
  | some _ => .step id fun s =>                       -- cls._key_managers
    let a := s.kmNow
    .step id fun s =>                                 -- ...[type_url]
    match PyDict.get? (s.keyManagers a) typeUrl with
    | none => .done (.error .keyError)
    | some (m, b) => .done (.ok (.manager m b))

/-- The beginning of `input_primitive_class` and of `wrap`, `_registry.py:197-201,221-225`. -/
def wrapperFor (primitiveClass : C) : Code P C :=
  .step id fun s =>                                   -- cls._wrappers
  let a := s.wrNow
  .step id fun s =>                                   -- primitive_class not in ...
  match PyDict.get? (s.wrappers a) primitiveClass with
  | none => .done (.error .tinkError)
  | some _ => .step id fun s =>                       -- cls._wrappers
    let a := s.wrNow
    .step id fun s =>                                 -- ...[primitive_class]
    match PyDict.get? (s.wrappers a) primitiveClass with
    | none => .done (.error .keyError)
    | some w => .done (.ok (.wrapper w))

/-- `reset`, `_registry.py:46-50`. -/
def reset : Code P C :=
  .step Shared.newManagers fun _ => .step Shared.newWrappers fun _ => .done (.ok .unit)

/-- What a call does. -/
def code (isInst : P → C → Bool) : Call P C → Code P C
  | .registerKeyManager m b => registerKeyManager m b
  | .registerPrimitiveWrapper w => registerPrimitiveWrapper isInst w
  | .lookup u => lookup u
  | .wrapperFor c => wrapperFor c
  | .reset => reset

/-- The state, and the calls that were started, in the order in which they were. -/
structure Config (P C : Type) where
  shared : Shared P C
  calls : List (Call P C × Code P C)

/-- A thread starts a call; or the call with number `i` proceeds by one step, if it is not finished. -/
inductive Event (P C : Type) where
  | start (c : Call P C)
  | step (i : Nat)

/-- What happens next. -/
def Config.next (isInst : P → C → Bool) (cfg : Config P C) : Event P C → Config P C
  | .start c => { cfg with calls := cfg.calls ++ [(c, code isInst c)] }
  | .step i =>
    match cfg.calls[i]? with
    | some (c, .step upd next) => ⟨upd cfg.shared, cfg.calls.set i (c, next cfg.shared)⟩
    | _ => cfg

/-- After a schedule. -/
def Config.run (isInst : P → C → Bool) (cfg : Config P C) (schedule : List (Event P C)) : Config P C :=
  schedule.foldl (Config.next isInst) cfg

omit [DecidableEq C] in
/-- A process with this registry, in which no call is under way. -/
def Config.of (r : Registry P C) : Config P C := ⟨Shared.of r, []⟩

end Threads
end Tink
