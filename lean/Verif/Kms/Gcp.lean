import Verif.Kms.Remote

/-!
# Google Cloud KMS

`/repo/python/tink/integration/gcpkms/_gcp_kms_client.py`.  Credentials are in `Kms/Credentials.lean`;
the API client object is assumed to be present (`if not client`, line 49, is not modelled).
-/

namespace Tink.Gcp
variable {σ : Type}

/-- `GCP_KEYURI_PREFIX`, `_gcp_kms_client.py:26`. -/
def GCP_KEYURI_PREFIX : PyStr := py! "gcp-kms://"

/-- The class `[a-zA-Z0-9_-]`. -/
def isIdChar (c : Nat) : Bool :=
  (97 ≤ c && c ≤ 122) || (65 ≤ c && c ≤ 90) || (48 ≤ c && c ≤ 57) || c == 95 || c == 45

/-- Matches a literal at the start; the rest on success. -/
def lit (p s : PyStr) : Option PyStr := if startsWith s p then some (s.drop p.length) else none

/-- `[^/]+/`, matched from the start; the rest on success. -/
def matchProject (s : PyStr) : Option PyStr :=
  let p := s.takeWhile (· ≠ 47)
  if p = [] then none else lit [47] (s.drop p.length)

/-- `[a-zA-Z0-9_-]{1,63}/`, matched from the start; the rest on success. -/
def matchIdSlash (s : PyStr) : Option PyStr :=
  let p := s.takeWhile isIdChar
  if p = [] ∨ p.length > 63 then none else lit [47] (s.drop p.length)

/-- `[a-zA-Z0-9_-]{1,63}$`, matched from the start.  `$` matches at the end and before a final
newline. -/
def matchIdEnd (s : PyStr) : Bool :=
  let p := s.takeWhile isIdChar
  if p = [] ∨ p.length > 63 then false
  else s.drop p.length = [] ∨ s.drop p.length = [10]

/-- `_KMS_KEY_REGEX.match(name)`, `_gcp_kms_client.py:27-32`.  No class of the expression contains
the slash that must follow it, so greedy matching never has to backtrack. -/
def matchKeyName (name : PyStr) : Bool :=
  match (do
    let s ← lit (py! "projects/") name
    let s ← matchProject s
    let s ← lit (py! "locations/") s
    let s ← matchIdSlash s
    let s ← lit (py! "keyRings/") s
    let s ← matchIdSlash s
    lit (py! "cryptoKeys/") s) with
  | none => false
  | some s => matchIdEnd s

/-- A `KeyManagementServiceClient` talking to a server with state `σ`; `isApiError` recognises
`GoogleAPIError`. -/
structure ApiClient (σ : Type) where
  encrypt : σ → (name : PyStr) → (plaintext : Bytes) → (ad : Bytes) → σ × Py Bytes
  decrypt : σ → (name : PyStr) → (ciphertext : Bytes) → (ad : Bytes) → σ × Py Bytes
  isApiError : Exc → Bool

/-- `except core_exceptions.GoogleAPIError as e: raise tink.TinkError(e)`. -/
def convertApiError (isApiError : Exc → Bool) : Py Bytes → Py Bytes
  | .ok b => .ok b
  | .error e => if isApiError e then .error .tinkError else .error e

/-- The methods of `_GcpKmsAead`, `_gcp_kms_client.py:54-78`. -/
def gcpKmsAead (client : ApiClient σ) (name : PyStr) : RemoteAead σ where
  encrypt s pt ad :=
    let (s', x) := client.encrypt s name pt ad
    (s', convertApiError client.isApiError x)
  decrypt s ct ad :=
    let (s', x) := client.decrypt s name ct ad
    (s', convertApiError client.isApiError x)

/-- `_GcpKmsAead.__init__`, `_gcp_kms_client.py:38-52`. -/
def GcpKmsAead.create (client : ApiClient σ) (name : PyStr) : Py (RemoteAead σ) :=
  if name = [] then .error .tinkError
  else if !matchKeyName name then .error .tinkError
  else .ok (gcpKmsAead client name)

/-- `GcpKmsClient.__init__`, `_gcp_kms_client.py:102-107`: the value of `_key_uri`. -/
def initKeyUri : Option PyStr → Py (Option PyStr)
  | none => .ok none
  | some uri =>
    if uri = [] then .ok none
    else if startsWith uri GCP_KEYURI_PREFIX then .ok (some uri)
    else .error .tinkError

/-- `does_support`, `_gcp_kms_client.py:118-129`. -/
def doesSupport (bound : Option PyStr) (uri : PyStr) : Bool :=
  match bound with
  | none => startsWith uri GCP_KEYURI_PREFIX
  | some b => decide (uri = b)

/-- `get_aead`, `_gcp_kms_client.py:131-148`. -/
def getAead (client : ApiClient σ) (bound : Option PyStr) (uri : PyStr) : Py (RemoteAead σ) :=
  let refused : Bool := match bound with
    | none => false
    | some b => decide (b ≠ uri)
  if refused then .error .tinkError
  else if !startsWith uri GCP_KEYURI_PREFIX then .error .tinkError
  else GcpKmsAead.create client (uri.drop GCP_KEYURI_PREFIX.length)

/-- `GcpKmsClient(key_uri, credentials_path)`. -/
def GcpKmsClient.create (client : ApiClient σ) (keyUri : Option PyStr) :
    Py (KmsClient (RemoteAead σ)) := do
  let bound ← initKeyUri keyUri
  return { doesSupport := fun uri => .ok (doesSupport bound uri), getAead := getAead client bound }

end Tink.Gcp
