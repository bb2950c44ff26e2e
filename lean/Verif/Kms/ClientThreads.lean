import Verif.Kms.Remote

/-!
# The list of KMS clients used by several threads

`/repo/python/tink/_kms_clients.py`.  There is one list object; `append`, `clear` and the step of a `for` loop from one
element to the next are each done in one go.  Between these, threads may be interrupted anywhere; the method
`does_support` is taken not to use the list.
-/

namespace Tink
namespace KmsThreads
variable {A : Type}

/-- A call of `kms_client_from_uri` in progress: the loop goes on at an index; or it has returned or raised. -/
inductive Search (A : Type) where
  | looking (index : Nat)
  | done (r : Py (KmsClient A))

/-- `kms_client_from_uri`, `_kms_clients.py:58-63`, from one element to the next.  The iterator of a list keeps an index
and compares it with the length that the list has now. -/
def Search.step (clients : KmsClients A) (uri : PyStr) : Search A → Search A
  | .done r => .done r
  | .looking i =>
    match clients[i]? with
    | none => .done (.error .tinkError)
    | some c =>
      match c.doesSupport uri with
      | .error e => .done (.error e)
      | .ok true => .done (.ok c)
      | .ok false => .looking (i + 1)

/-- The list, and the calls of `kms_client_from_uri` that were started, in the order in which they were. -/
structure State (A : Type) where
  clients : KmsClients A := []
  searches : List (PyStr × Search A) := []

/-- `register_kms_client` (`_kms_clients.py:46-55`) and `reset_kms_clients` (`:66-68`) act on the list in one go;
`kms_client_from_uri` is started, and the call with number `i` proceeds. -/
inductive Event (A : Type) where
  | register (c : KmsClient A)
  | reset
  | start (uri : PyStr)
  | step (i : Nat)

/-- What happens next. -/
def State.next (s : State A) : Event A → State A
  | .register c => { s with clients := registerKmsClient s.clients c }
  | .reset => { s with clients := resetKmsClients s.clients }
  | .start uri => { s with searches := s.searches ++ [(uri, .looking 0)] }
  | .step i =>
    match s.searches[i]? with
    | some (uri, a) => { s with searches := s.searches.set i (uri, a.step s.clients uri) }
    | none => s

/-- After a schedule. -/
def State.run (s : State A) (schedule : List (Event A)) : State A := schedule.foldl State.next s

end KmsThreads
end Tink
