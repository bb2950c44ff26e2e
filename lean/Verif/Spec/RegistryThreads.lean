import Verif.Core.RegistryThreads

/-!
# C112: the registry used by several threads
-/

namespace Tink.Spec
open Threads
variable {P C : Type}

/-- The call with number `i`, which was `c`, has returned or raised `r`. -/
def Finished (cfg : Config P C) (i : Nat) (c : Call P C) (r : Py (Answer P C)) : Prop :=
  cfg.calls[i]? = some (c, .done r)

/-- A call `c` is under way. -/
def UnderWay (cfg : Config P C) (c : Call P C) : Prop :=
  ∃ (i : Nat) (a : Code P C), cfg.calls[i]? = some (c, a) ∧ ∀ r, a ≠ Act.done r

/-- Nobody calls `reset()`. -/
def NeverReset (schedule : List (Event P C)) : Prop := .start .reset ∉ schedule

/-- The manager that is registered for the type URL now, and whether it may make new keys. -/
def ManagerRegistered (cfg : Config P C) (typeUrl : PStr) (m : KeyManager P C) (newKeyAllowed : Bool) : Prop :=
  PyDict.get? cfg.shared.registry.keyManagers typeUrl = some (m, newKeyAllowed)

/-- The wrapper that is registered for the class now. -/
def WrapperRegistered [DecidableEq C] (cfg : Config P C) (c : C) (w : PrimitiveWrapper P C) : Prop :=
  PyDict.get? cfg.shared.registry.wrappers c = some w

/-- The calls that register a manager for this type URL. -/
def RegistersFor (typeUrl : PStr) : Call P C → Prop
  | .registerKeyManager m _ => m.keyType = typeUrl
  | _ => False

/-- What happens if the call with number `i` is started but never proceeds. -/
def without (i : Nat) (schedule : List (Event P C)) : List (Event P C) :=
  schedule.filter fun e => match e with
    | .step j => j ≠ i
    | .start _ => true

/-- The wrapper passes the test of `register_primitive_wrapper`. -/
def WrapsNothing (isInst : P → C → Bool) (w : PrimitiveWrapper P C) : Prop :=
  ∃ p, w.wrap { primitiveClass := w.inputPrimitiveClass } = .ok p ∧ isInst p w.primitiveClass = true

end Tink.Spec
