import Verif.Kms.Remote

/-!
# AWS KMS

`/repo/python/tink/integration/awskms/_aws_kms_client.py`.  Credentials are in `Kms/Credentials.lean`.
-/

namespace Tink.Aws
variable {σ : Type}

/-- `AWS_KEYURI_PREFIX`, `_aws_kms_client.py:28`. -/
def AWS_KEYURI_PREFIX : PyStr := py! "aws-kms://"

/-- A lower case hexadecimal digit. -/
def hexDigit (n : Nat) : Nat := if n < 10 then 48 + n else 87 + n

/-- `binascii.hexlify(b).decode('utf-8')`. -/
def hexlify (b : Bytes) : PyStr := b.flatMap fun x => [hexDigit (x.toNat / 16), hexDigit (x.toNat % 16)]

/-- `_encryption_context`, `_aws_kms_client.py:31-36`. -/
def encryptionContext (ad : Bytes) : PyDict PyStr PyStr :=
  if ad ≠ [] then [(py! "associatedData", hexlify ad)] else []

/-- A boto3 KMS client talking to a server with state `σ`.  A missing entry in the response is an
exception of the call (`KeyError`).  `isClientError` recognises `botocore.exceptions.ClientError`. -/
structure Boto (σ : Type) where
  encrypt : σ → (keyId : PyStr) → (plaintext : Bytes) → (context : PyDict PyStr PyStr) → σ × Py Bytes
  decrypt : σ → (keyId : PyStr) → (ciphertext : Bytes) → (context : PyDict PyStr PyStr) → σ × Py Bytes
  isClientError : Exc → Bool

/-- `except exceptions.ClientError as e: raise tink.TinkError(e)`. -/
def convertClientError (isClientError : Exc → Bool) : Py Bytes → Py Bytes
  | .ok b => .ok b
  | .error e => if isClientError e then .error .tinkError else .error e

/-- `_AwsKmsAead`, `_aws_kms_client.py:39-66`. -/
def awsKmsAead (client : Boto σ) (keyArn : PyStr) : RemoteAead σ where
  encrypt s pt ad :=
    let (s', x) := client.encrypt s keyArn pt (encryptionContext ad)
    (s', convertClientError client.isClientError x)
  decrypt s ct ad :=
    let (s', x) := client.decrypt s keyArn ct (encryptionContext ad)
    (s', convertClientError client.isClientError x)

/-- The class `[a-z0-9-]`. -/
def isRegionChar (c : Nat) : Bool := (97 ≤ c && c ≤ 122) || (48 ≤ c && c ≤ 57) || c == 45

/-- `[a-z0-9-]+:`, matched from the start.  The colon is not in the class, so the greedy match
never has to backtrack.  `seen` says whether a character was read. -/
def matchRegion : Bool → PyStr → Bool
  | _, [] => false
  | seen, c :: r => if c = 58 then seen else if isRegionChar c then matchRegion true r else false

/-- `_has_aws_key_uri_format`, `_aws_kms_client.py:69-71`; the regular expression is
`aws-kms://arn:aws:kms:([a-z0-9-]+):`, anchored at the start only. -/
def hasAwsKeyUriFormat (uri : PyStr) : Bool :=
  startsWith uri (py! "aws-kms://arn:aws:kms:") &&
    matchRegion false (uri.drop (py! "aws-kms://arn:aws:kms:").length)

/-- `_key_uri_to_key_arn`, `_aws_kms_client.py:74-77`. -/
def keyUriToKeyArn (uri : PyStr) : Py PyStr :=
  if !startsWith uri AWS_KEYURI_PREFIX then .error .tinkError
  else .ok (uri.drop AWS_KEYURI_PREFIX.length)

/-- The constructors of `_KmsClient`, `_aws_kms_client.py:83-90`, and `AwsKmsClient`,
`_aws_kms_client.py:161-166`: the value of `_key_uri`. -/
def initKeyUri : Option PyStr → Py (Option PyStr)
  | none => .ok none
  | some uri =>
    if uri = [] then .ok none
    else if !hasAwsKeyUriFormat uri then .error .tinkError
    else .ok (some uri)

/-- `does_support`, `_aws_kms_client.py:92-97` and `175-188`. -/
def doesSupport (bound : Option PyStr) (uri : PyStr) : Bool :=
  if !hasAwsKeyUriFormat uri then false
  else match bound with
    | none => true
    | some b => decide (uri = b)

/-- `_KmsClient.get_aead`, `_aws_kms_client.py:99-107`. -/
def getAead (client : Boto σ) (bound : Option PyStr) (uri : PyStr) : Py (RemoteAead σ) :=
  if !doesSupport bound uri then .error .tinkError
  else do
    let arn ← keyUriToKeyArn uri
    return awsKmsAead client arn

/-- `new_client`, `_aws_kms_client.py:110-114`. -/
def newClient (client : Boto σ) (keyUri : Option PyStr) : Py (KmsClient (RemoteAead σ)) := do
  let bound ← initKeyUri keyUri
  return { doesSupport := fun uri => .ok (doesSupport bound uri), getAead := getAead client bound }

/-- `s.split(':')`. -/
def splitColon : PyStr → List PyStr
  | [] => [[]]
  | c :: r =>
    if c = 58 then [] :: splitColon r
    else match splitColon r with
      | [] => [[c]]
      | p :: ps => (c :: p) :: ps

/-- `_get_region_from_key_arn`, `_aws_kms_client.py:133-139`. -/
def getRegionFromKeyArn (arn : PyStr) : Py PyStr :=
  match splitColon arn with
  | _ :: _ :: _ :: region :: _ :: _ :: _ => .ok region
  | _ => .error .tinkError

/-- `AwsKmsClient.get_aead`, `_aws_kms_client.py:190-215`; `session region` is the boto3 client for
a region. -/
def AwsKmsClient.getAead (session : PyStr → Boto σ) (bound : Option PyStr) (uri : PyStr) :
    Py (RemoteAead σ) :=
  if !doesSupport bound uri then .error .tinkError
  else do
    let arn ← keyUriToKeyArn uri
    let region ← getRegionFromKeyArn arn
    return awsKmsAead (session region) arn

/-- `AwsKmsClient(key_uri, credentials_path)`. -/
def AwsKmsClient.create (session : PyStr → Boto σ) (keyUri : Option PyStr) :
    Py (KmsClient (RemoteAead σ)) := do
  let bound ← initKeyUri keyUri
  return { doesSupport := fun uri => .ok (doesSupport bound uri)
           getAead := AwsKmsClient.getAead session bound }

end Tink.Aws
