import Verif.Spec.RegistryThreads
import Verif.Spec.ClientThreads

/-!
# C112, C113: how often calls proceed
-/

namespace Tink.Spec
variable {P C A : Type}

/-- How often the call with number `i` proceeds. -/
def turns (i : Nat) : List (Threads.Event P C) → Nat
  | [] => 0
  | .step j :: es => (if j = i then 1 else 0) + turns i es
  | .start _ :: es => turns i es

/-- How often the search with number `i` proceeds. -/
def searchTurns (i : Nat) : List (KmsThreads.Event A) → Nat
  | [] => 0
  | .step j :: es => (if j = i then 1 else 0) + searchTurns i es
  | _ :: es => searchTurns i es

/-- Nobody registers a client. -/
def NoneRegistered (schedule : List (KmsThreads.Event A)) : Prop := ∀ c, .register c ∉ schedule

end Tink.Spec
