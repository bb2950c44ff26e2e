import Verif.Kms.Aws
import Verif.Kms.Gcp

/-!
# Credentials and registration of KMS clients

The constructors of `AwsKmsClient` and `GcpKmsClient` with the path of a credentials file, and their
`register_client`.
-/

namespace Tink.Aws
variable {σ : Type}

/-- A `configparser.ConfigParser` after `read`: the sections, and the options in each.  The value of an
option is what `section[option]` gives, which may raise an exception (the syntax of interpolation). -/
abbrev Config := PyStr → Option (PyStr → Option (Py PyStr))

/-- `_parse_config`, `_aws_kms_client.py:117-130`.  `read path` is the state of the parser after
`config.read(path)`, which raises an exception if the file is not of the format and which leaves the parser
without sections if the file cannot be opened. -/
def parseConfig (read : PyStr → Py Config) (path : PyStr) : Py (PyStr × PyStr) := do
  let config ← read path
  match config (py! "default") with
  | none => .error .valueError
  | some default =>
    match default (py! "aws_access_key_id") with
    | none => .error .valueError
    | some x => do
      let id ← x
      match default (py! "aws_secret_access_key") with
      | none => .error .valueError
      | some y => do
        let secret ← y
        return (id, secret)

/-- `AwsKmsClient.__init__`, `_aws_kms_client.py:167-173`: the values of `_aws_access_key_id` and
`_aws_secret_access_key`, which are `None` together. -/
def initCredentials (read : PyStr → Py Config) : Option PyStr → Py (Option (PyStr × PyStr))
  | none => .ok none
  | some path =>
    if path = [] then .ok none
    else do
      let c ← parseConfig read path
      return some c

/-- `AwsKmsClient.__init__`, `_aws_kms_client.py:145-173`; `boto3 credentials region` is the client that
`boto3.session.Session(…).client('kms')` in lines 210-215 gives, which is assumed to raise no exception. -/
def AwsKmsClient.new (boto3 : Option (PyStr × PyStr) → PyStr → Boto σ) (read : PyStr → Py Config)
    (keyUri credentialsPath : Option PyStr) : Py (KmsClient (RemoteAead σ)) := do
  let bound ← initKeyUri keyUri
  let credentials ← initCredentials read credentialsPath
  return { doesSupport := fun uri => .ok (doesSupport bound uri)
           getAead := AwsKmsClient.getAead (boto3 credentials) bound }

/-- `AwsKmsClient.register_client`, `_aws_kms_client.py:217-238`: the list of clients afterwards, and
whether there was an exception. -/
def AwsKmsClient.registerClient (boto3 : Option (PyStr × PyStr) → PyStr → Boto σ) (read : PyStr → Py Config)
    (keyUri credentialsPath : Option PyStr) (cs : KmsClients (RemoteAead σ)) :
    KmsClients (RemoteAead σ) × Py Unit :=
  match AwsKmsClient.new boto3 read keyUri credentialsPath with
  | .ok c => (registerKmsClient cs c, .ok ())
  | .error e => (cs, .error e)

end Tink.Aws

namespace Tink.Gcp
variable {σ κ : Type}

/-- The Google libraries: `from_service_account_file(path)`, and `KeyManagementServiceClient()` with the
default credentials (`none`) or the given ones. -/
structure Library (σ κ : Type) where
  load : PyStr → Py κ
  client : Option κ → Py (ApiClient σ)

/-- `GcpKmsClient.__init__`, `_gcp_kms_client.py:108-116`: the value of `_client`. -/
def initClient (lib : Library σ κ) (credentialsPath : Option PyStr) : Py (ApiClient σ) :=
  let path := credentialsPath.getD []
  if path = [] then lib.client none
  else do
    let credentials ← lib.load path
    lib.client (some credentials)

/-- `GcpKmsClient.__init__`, `_gcp_kms_client.py:84-116`. -/
def GcpKmsClient.new (lib : Library σ κ) (keyUri credentialsPath : Option PyStr) :
    Py (KmsClient (RemoteAead σ)) := do
  let bound ← initKeyUri keyUri
  let client ← initClient lib credentialsPath
  return { doesSupport := fun uri => .ok (doesSupport bound uri), getAead := getAead client bound }

/-- `GcpKmsClient.register_client`, `_gcp_kms_client.py:150-171`: the list of clients afterwards, and
whether there was an exception. -/
def GcpKmsClient.registerClient (lib : Library σ κ) (keyUri credentialsPath : Option PyStr)
    (cs : KmsClients (RemoteAead σ)) : KmsClients (RemoteAead σ) × Py Unit :=
  match GcpKmsClient.new lib keyUri credentialsPath with
  | .ok c => (registerKmsClient cs c, .ok ())
  | .error e => (cs, .error e)

end Tink.Gcp
