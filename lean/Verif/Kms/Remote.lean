import Verif.Wrap.Registered
import Verif.Py.Lit

/-!
# Remote AEADs and KMS clients

`/repo/python/tink/_kms_clients.py`.
-/

namespace Tink

/-- An `Aead` object backed by a server whose state (and randomness) is `σ`.  Passing the state
makes every call to the server visible in the result. -/
structure RemoteAead (σ : Type) where
  encrypt : σ → Bytes → Bytes → σ × Py Bytes
  decrypt : σ → Bytes → Bytes → σ × Py Bytes

/-- A local `Aead` used as a remote one; the state is the stock of seeds. -/
def RemoteAead.ofAead (a : Aead) : RemoteAead Seed where
  encrypt s pt ad := (s + 1, a.encrypt s pt ad)
  decrypt s ct ad := (s, a.decrypt ct ad)

/-- `KmsClient` objects, `_kms_clients.py:24-33`; `A` is the type of the AEADs handed out.
User classes may raise anything. -/
structure KmsClient (A : Type) where
  doesSupport : PyStr → Py Bool
  getAead : PyStr → Py A

/-- The global list `_kms_clients`, `_kms_clients.py:35`. -/
abbrev KmsClients (A : Type) := List (KmsClient A)

/-- `register_kms_client`, `_kms_clients.py:46-55`. -/
def registerKmsClient {A : Type} (cs : KmsClients A) (c : KmsClient A) : KmsClients A := cs ++ [c]

/-- `kms_client_from_uri`, `_kms_clients.py:58-63`. -/
def kmsClientFromUri {A : Type} : KmsClients A → PyStr → Py (KmsClient A)
  | [], _ => .error .tinkError
  | c :: cs, uri => do
    if ← c.doesSupport uri then return c
    else kmsClientFromUri cs uri

/-- `reset_kms_clients`, `_kms_clients.py:66-68`. -/
def resetKmsClients {A : Type} (_ : KmsClients A) : KmsClients A := []

end Tink
