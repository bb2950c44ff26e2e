import Verif.Kms.ClientThreads

/-!
# C113: the list of KMS clients used by several threads
-/

namespace Tink.Spec
open KmsThreads
variable {A : Type}

/-- The call with number `i`, which was made for `uri`, has returned or raised `r`. -/
def Found (s : State A) (i : Nat) (uri : PyStr) (r : Py (KmsClient A)) : Prop := s.searches[i]? = some (uri, .done r)

/-- Nobody calls `reset_kms_clients()`. -/
def NoClear (schedule : List (Event A)) : Prop := .reset ∉ schedule

/-- The client is the first in the list that supports the URI; those before it say no. -/
def FirstFor (clients : KmsClients A) (uri : PyStr) (c : KmsClient A) : Prop :=
  ∃ before after, clients = before ++ c :: after ∧ c.doesSupport uri = .ok true ∧
    ∀ x ∈ before, x.doesSupport uri = .ok false

end Tink.Spec
