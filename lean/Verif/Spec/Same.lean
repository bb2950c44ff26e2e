import Verif.Py.Basic

/-!
# The same outcome in two models
-/

namespace Tink
namespace Spec

/-- A result in both models: the same exception, or results that are related. -/
def Same {α β : Type} (R : α → β → Prop) : Py α → Py β → Prop
  | .error e, .error e' => e = e'
  | .ok a, .ok b => R a b
  | _, _ => False

end Spec
end Tink
