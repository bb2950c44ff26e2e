import Verif.Keyset.Formats

/-!
# Keyset builder

`/repo/python/tink/testing/keyset_builder.py`.  The builder's state is the
keyset; operations return the new keyset and the outcome.
-/

namespace Tink
namespace KeysetBuilder

/-- `_generate_unused_key_id`, `keyset_builder.py:28-32`: as in the handle, but drawing from
`1..2^32-1`. -/
def generateUnusedKeyId := Tink.generateUnusedKeyId

/-- `raw_template`, `keyset_builder.py:35-39`. -/
def rawTemplate (t : KeyTemplate) : KeyTemplate :=
  { t with outputPrefixType := OutputPrefixType.RAW }

/-- `legacy_template`, `keyset_builder.py:42-46`. -/
def legacyTemplate (t : KeyTemplate) : KeyTemplate :=
  { t with outputPrefixType := OutputPrefixType.LEGACY }

/-- `add_new_key`, `keyset_builder.py:71-79`.  The blank key is appended before the key data
is generated.  `none`: still searching for an unused id. -/
def addNewKey {P C : Type} (r : Registry P C) (seed : Seed) (draws : List UInt32)
    (template : KeyTemplate) (ks : Keyset) : Option (Keyset × Py UInt32) :=
  match r.newKeyData seed template with
  | .error e => some ({ ks with key := ks.key ++ [{}] }, .error e)
  | .ok keyData =>
    let newKey : Key := { keyData := some keyData, status := KeyStatusType.ENABLED }
    match generateUnusedKeyId draws { ks with key := ks.key ++ [newKey] } with
    | none => none
    | some newKeyId =>
      let newKey := { newKey with keyId := newKeyId, outputPrefixType := template.outputPrefixType }
      some ({ ks with key := ks.key ++ [newKey] }, .ok newKeyId)

/-- `set_primary_key`, `keyset_builder.py:81-87`. -/
def setPrimaryKey (keyId : UInt32) (ks : Keyset) : Keyset × Py Unit :=
  if ks.key.any (fun k => k.keyId = keyId) then ({ ks with primaryKeyId := keyId }, .ok ())
  else (ks, .error .tinkError)

/-- The loop of `enable_key` and `disable_key`: changes the status of the first key with the
given id; `none` if there is none. -/
def setStatus (keyId : UInt32) (status : EnumVal) : List Key → Option (List Key)
  | [] => none
  | k :: ks =>
    if k.keyId = keyId then some ({ k with status := status } :: ks)
    else (setStatus keyId status ks).map (k :: ·)

/-- `enable_key`, `keyset_builder.py:89-95`. -/
def enableKey (keyId : UInt32) (ks : Keyset) : Keyset × Py Unit :=
  match setStatus keyId KeyStatusType.ENABLED ks.key with
  | some keys => ({ ks with key := keys }, .ok ())
  | none => (ks, .error .tinkError)

/-- `disable_key`, `keyset_builder.py:97-103`. -/
def disableKey (keyId : UInt32) (ks : Keyset) : Keyset × Py Unit :=
  match setStatus keyId KeyStatusType.DISABLED ks.key with
  | some keys => ({ ks with key := keys }, .ok ())
  | none => (ks, .error .tinkError)

/-- `delete_key`, `keyset_builder.py:105-111`.  `repeated.remove(key)` removes the first
element equal to `key`, which is the first key with that id. -/
def deleteKey (keyId : UInt32) (ks : Keyset) : Keyset × Py Unit :=
  match ks.key.find? (fun k => k.keyId = keyId) with
  | some k => ({ ks with key := ks.key.erase k }, .ok ())
  | none => (ks, .error .tinkError)

/-- `keyset_handle`, `keyset_builder.py:59-62`. -/
def keysetHandle (ks : Keyset) : Py KeysetHandle := do
  let b ← ks.serializeToString
  ProtoKeysetFormat.parse b .secretKeyAccess

/-- `keyset`, `keyset_builder.py:64-65`. -/
def keyset (ks : Keyset) : Py Bytes := ks.serializeToString

/-- `public_keyset`, `keyset_builder.py:67-69`. -/
def publicKeyset {P C : Type} (r : Registry P C) (ks : Keyset) : Py Bytes := do
  let h ← keysetHandle ks
  let publicHandle ← h.publicKeysetHandle r
  ProtoKeysetFormat.serializeWithoutSecret publicHandle

/-- `from_keyset`, `keyset_builder.py:114-117`. -/
def fromKeyset (b : Bytes) : Py Keyset := Keyset.fromString b

/-- `from_keyset_handle`, `keyset_builder.py:120-125`. -/
def fromKeysetHandle (h : KeysetHandle) : Py Keyset := do
  let b ← ProtoKeysetFormat.serialize h .secretKeyAccess
  fromKeyset b

end KeysetBuilder
end Tink
