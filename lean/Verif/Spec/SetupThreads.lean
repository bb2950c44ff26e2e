import Verif.Spec.Config
import Verif.Spec.RegistryThreads

/-!
# C114: `register()` called by several threads
-/

namespace Tink.Spec
open Threads
variable {σ δ ε τ S P C : Type}

/-- The call of the registry in a statement of `register()`, if it comes to it. -/
def callIn : Tink.Config.Stmt P C → Option (Call P C)
  | .bindings _ => none
  | .keyManager (.error _) => none
  | .keyManager (.ok m) => some (.registerKeyManager m true)
  | .wrapper w => some (.registerPrimitiveWrapper w)

/-- Of a key manager or wrapper that is none of Tink's: for another key type, or another class. -/
def ForOther (L : Tink.Config.Library σ δ ε τ S P C) : Call P C → Prop
  | .registerKeyManager m _ => ∀ pkg k, (m.keyType, k) ∉ keyTypes pkg
  | .registerPrimitiveWrapper w => ∀ pkg, ∀ k ∈ wrapped pkg, w.primitiveClass ≠ L.cls k
  | _ => True

end Tink.Spec
