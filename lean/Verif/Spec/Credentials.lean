import Verif.Kms.Credentials
import Verif.Spec.Kms

/-!
# Vocabulary for the credentials of KMS clients
-/

namespace Tink.Spec
variable {σ κ : Type}

/-- No path of a credentials file is given. -/
def NoPath (path : Option PyStr) : Prop := path = none ∨ path = some []

/-- The file has this option in its section `default`, with this value or exception. -/
def DefaultOption (read : PyStr → Py Aws.Config) (path option : PyStr) (v : Py PyStr) : Prop :=
  ∃ config sect, read path = .ok config ∧ config (py! "default") = some sect ∧ sect option = some v

/-- The credentials that a client made with this path uses: the default ones if there is no path, and
otherwise the two that are in the file. -/
inductive AwsCredentials (read : PyStr → Py Aws.Config) (path : Option PyStr) :
    Option (PyStr × PyStr) → Prop
  | default : NoPath path → AwsCredentials read path none
  | file {p id secret} : path = some p → p ≠ [] →
      DefaultOption read p (py! "aws_access_key_id") (.ok id) →
      DefaultOption read p (py! "aws_secret_access_key") (.ok secret) →
      AwsCredentials read path (some (id, secret))

/-- The API client that a GCP client made with this path uses. -/
inductive GcpClientOf (lib : Gcp.Library σ κ) (path : Option PyStr) (client : Gcp.ApiClient σ) : Prop
  | default : NoPath path → lib.client none = .ok client → GcpClientOf lib path client
  | file {p credentials} : path = some p → p ≠ [] → lib.load p = .ok credentials →
      lib.client (some credentials) = .ok client → GcpClientOf lib path client

/-- A call that changes the list of clients.  The files and the libraries may be others for each call. -/
inductive RegistryCall (σ κ : Type) where
  | aws (read : PyStr → Py Aws.Config) (keyUri path : Option PyStr)
  | gcp (lib : Gcp.Library σ κ) (keyUri path : Option PyStr)
  | reset

/-- The list after the call; an exception is caught by the caller. -/
def RegistryCall.run (boto3 : Option (PyStr × PyStr) → PyStr → Aws.Boto σ) (cs : KmsClients (RemoteAead σ)) :
    RegistryCall σ κ → KmsClients (RemoteAead σ)
  | .aws read keyUri path => (Aws.AwsKmsClient.registerClient boto3 read keyUri path cs).1
  | .gcp lib keyUri path => (Gcp.GcpKmsClient.registerClient lib keyUri path cs).1
  | .reset => resetKmsClients cs

/-- The list after a history of calls, starting from an empty list. -/
def registryHistory (boto3 : Option (PyStr × PyStr) → PyStr → Aws.Boto σ) (h : List (RegistryCall σ κ)) :
    KmsClients (RemoteAead σ) := h.foldl (RegistryCall.run boto3) []

/-- The AEAD for a key URI, by way of the list of clients. -/
def aeadFromUri (cs : KmsClients (RemoteAead σ)) (uri : PyStr) : Py (RemoteAead σ) :=
  (kmsClientFromUri cs uri).bind fun c => c.getAead uri

/-- `h = old ++ recent` where `recent` are the calls since the last reset. -/
structure CallsSinceReset (h old recent : List (RegistryCall σ κ)) : Prop where
  split : h = old ++ recent
  old : old = [] ∨ ∃ o, old = o ++ [.reset]
  recent : RegistryCall.reset ∉ recent

/-- The call registers a client for the AWS key `uri` that uses these credentials. -/
inductive RegistersAws (uri : PyStr) : RegistryCall σ κ → Option (PyStr × PyStr) → Prop
  | mk {read keyUri path creds} : BoundTo keyUri uri → AwsCredentials read path creds →
      RegistersAws uri (.aws read keyUri path) creds

/-- The call registers a client for the GCP key `uri` that uses this API client. -/
inductive RegistersGcp (uri : PyStr) : RegistryCall σ κ → Gcp.ApiClient σ → Prop
  | mk {lib keyUri path client} : BoundTo keyUri uri → GcpClientOf lib path client →
      RegistersGcp uri (.gcp lib keyUri path) client

end Tink.Spec
