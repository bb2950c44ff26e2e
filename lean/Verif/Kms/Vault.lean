import Verif.Kms.Remote
import Verif.Py.Base64

/-!
# HashiCorp Vault

`/repo/python/tink/integration/hcvault/_hcvault_kms_aead.py`.
-/

namespace Tink.Vault
variable {σ : Type}

/-- Characters `urllib.parse.quote` leaves alone: letters, digits, `_.-~` and, by default, `/`. -/
def isQuoteSafe (b : UInt8) : Bool :=
  let n := b.toNat
  (97 ≤ n && n ≤ 122) || (65 ≤ n && n ≤ 90) || (48 ≤ n && n ≤ 57) || n == 95 || n == 46 || n == 45 ||
    n == 126 || n == 47

/-- An upper case hexadecimal digit. -/
def hexDigit (n : Nat) : Nat := if n < 10 then 48 + n else 55 + n

/-- `urllib.parse.quote` on one byte. -/
def quoteByte (b : UInt8) : PyStr :=
  if isQuoteSafe b then [b.toNat] else [37, hexDigit (b.toNat / 16), hexDigit (b.toNat % 16)]

/-- `urllib.parse.quote(s)`: `UnicodeEncodeError` on surrogates. -/
def quote (s : PyStr) : Py PyStr := do
  let b ← utf8Encode s
  return b.flatMap quoteByte

/-- `s.split('/')`. -/
def splitSlash : PyStr → List PyStr
  | [] => [[]]
  | c :: r =>
    if c = 47 then [] :: splitSlash r
    else match splitSlash r with
      | [] => [[c]]
      | p :: ps => (c :: p) :: ps

/-- `'/'.join(segs)`. -/
def joinSlash : List PyStr → PyStr
  | [] => []
  | [p] => p
  | p :: q :: ps => p ++ 47 :: joinSlash (q :: ps)

/-- `_PATH_MATCHER.fullmatch(path)`, `_hcvault_kms_aead.py:26-46`: the groups on success.  The
expression `[/]?([^/]+(?:/[^/]+)*)/keys/([^/]+)$` is matched segment by segment: after an optional
leading slash, at least three segments, none empty, the last but one being `keys`. -/
def matchPath (path : PyStr) : Option (PyStr × PyStr) :=
  let body := match path with
    | c :: r => if c = 47 then r else path
    | [] => []
  let segs := splitSlash body
  match segs.reverse with
  | name :: keys :: m :: ms =>
    if segs.any (fun s => s = []) then none
    else if keys = py! "keys" then some (joinSlash (m :: ms).reverse, name) else none
  | _ => none

/-- `_get_endpoint_paths`, `_hcvault_kms_aead.py:49-68`. -/
def getEndpointPaths (keyPath : PyStr) : Py (PyStr × PyStr) := do
  let escaped ← quote keyPath
  match matchPath escaped with
  | none => .error .tinkError
  | some groups => .ok groups

/-- `client.secrets.transit` of an hvac client, for a server with state `σ`.  The results are the
strings `response['data']['ciphertext']` and `response['data']['plaintext']`; a malformed
response is an exception of the call. -/
structure Transit (σ : Type) where
  encryptData : σ → (name plaintext context mountPoint : PyStr) → σ × Py PyStr
  decryptData : σ → (name ciphertext context mountPoint : PyStr) → σ × Py PyStr

/-- `except Exception as e: raise tink.TinkError(e)`. -/
def convertAll {α : Type} : Py α → Py α
  | .ok a => .ok a
  | .error _ => .error .tinkError

/-- ASCII bytes as a `str`, `b.decode()` for the output of `b64encode`. -/
def asciiDecode (b : Bytes) : PyStr := b.map UInt8.toNat

/-- `base64.b64decode(s)` of a `str`: `ValueError` unless it is ASCII. -/
def b64decodeStr (s : PyStr) : Py Bytes :=
  if s.all (fun c => c < 128) then b64decode (s.map UInt8.ofNat) else .error .valueError

/-- `_HcVaultKmsAead`, `_hcvault_kms_aead.py:75-118`. -/
def vaultAead (client : Transit σ) (mountPoint keyName : PyStr) : RemoteAead σ where
  encrypt s plaintext ad :=
    if ad ≠ [] then (s, convertAll (.error .notImplementedError))
    else
      let (s', x) := client.encryptData s keyName (asciiDecode (b64encode plaintext)) [] mountPoint
      (s', convertAll (do let c ← x; utf8Encode c))
  decrypt s ciphertext ad :=
    if ad ≠ [] then (s, convertAll (.error .notImplementedError))
    else
      match utf8Decode ciphertext with
      | .error e => (s, convertAll (.error e))
      | .ok c =>
        let (s', x) := client.decryptData s keyName c [] mountPoint
        (s', convertAll (do let p ← x; b64decodeStr p))

/-- `new_aead`, `_hcvault_kms_aead.py:71-72`, with `__init__`, lines 78-82. -/
def newAead (keyPath : PyStr) (client : Transit σ) : Py (RemoteAead σ) := do
  let (mountPoint, keyName) ← getEndpointPaths keyPath
  return vaultAead client mountPoint keyName

end Tink.Vault
