import Verif.Jwt.KeyManagers
import Verif.Keyset.Formats

/-!
# `tink/jwt/_jwk_set_converter.py`: JWK sets

The functions that read a JWK set work on whatever `json.loads` returns, so the Python operators they
use are defined on all JSON values.  The constants `_JWT_ECDSA_PUBLIC_KEY_TYPE`,
`_JWT_RSA_SSA_PKCS1_PUBLIC_KEY_TYPE` and `_JWT_RSA_SSA_PSS_PUBLIC_KEY_TYPE`
(python/tink/jwt/_jwk_set_converter.py 28-33) have the same values as those of
`_jwt_signature_key_manager.py`, which are used here.
-/

namespace Tink
namespace Jwk
open Json Jwt

variable {F : Type}

/-- `_ECDSA_PARAMS` (python/tink/jwt/_jwk_set_converter.py 35-39). -/
def ecdsaParams : PyDict EnumVal (PyStr × PyStr) :=
  [(JwtEcdsaAlgorithm.ES256, py! "ES256", py! "P-256"), (JwtEcdsaAlgorithm.ES384, py! "ES384", py! "P-384"),
   (JwtEcdsaAlgorithm.ES512, py! "ES512", py! "P-521")]

/-- `_ECDSA_NAME_TO_ALGORITHM` (python/tink/jwt/_jwk_set_converter.py 41-43). -/
def ecdsaNames : PyDict PyStr EnumVal := ecdsaParams.map fun p => (p.2.1, p.1)

/-- `_RSA_SSA_PKCS1_PARAMS` (python/tink/jwt/_jwk_set_converter.py 45-49). -/
def rsaSsaPkcs1Params : PyDict EnumVal PyStr :=
  [(JwtRsaSsaPkcs1Algorithm.RS256, py! "RS256"), (JwtRsaSsaPkcs1Algorithm.RS384, py! "RS384"),
   (JwtRsaSsaPkcs1Algorithm.RS512, py! "RS512")]

/-- `_RSA_SSA_PKCS1_NAME_TO_ALGORITHM` (python/tink/jwt/_jwk_set_converter.py 51-54). -/
def rsaSsaPkcs1Names : PyDict PyStr EnumVal := rsaSsaPkcs1Params.map fun p => (p.2, p.1)

/-- `_RSA_SSA_PSS_PARAMS` (python/tink/jwt/_jwk_set_converter.py 56-60). -/
def rsaSsaPssParams : PyDict EnumVal PyStr :=
  [(JwtRsaSsaPssAlgorithm.PS256, py! "PS256"), (JwtRsaSsaPssAlgorithm.PS384, py! "PS384"),
   (JwtRsaSsaPssAlgorithm.PS512, py! "PS512")]

/-- `_RSA_SSA_PSS_NAME_TO_ALGORITHM` (python/tink/jwt/_jwk_set_converter.py 62-65). -/
def rsaSsaPssNames : PyDict PyStr EnumVal := rsaSsaPssParams.map fun p => (p.2, p.1)

/-- `_base64_encode` (python/tink/jwt/_jwk_set_converter.py 68-69). -/
def base64EncodeStr (data : Bytes) : Py PyStr := utf8Decode (base64Encode data)

/-- `_base64_decode` (python/tink/jwt/_jwk_set_converter.py 72-73); only strings have `encode`. -/
def base64DecodeStr : JVal F → Py Bytes
  | .str s => do
    let b ← utf8Encode s
    base64Decode b
  | _ => .error .attributeError

/-! ## Exporting -/

/-- `if kid: output['kid'] = kid elif key.HasField('custom_kid'): …` (python/tink/jwt/_jwk_set_converter.py
146-150, 170-174, 194-198). -/
def kidEntry (kid customKid : Option PyStr) : List (PyStr × JVal F) :=
  match kid with
  | some (c :: s) => [(py! "kid", .str (c :: s))]
  | _ =>
    match customKid with
    | some s => [(py! "kid", .str s)]
    | none => []

/-- `_convert_jwt_ecdsa_key` (python/tink/jwt/_jwk_set_converter.py 129-151). -/
def convertEcdsa (key : Key) : Py (JVal F) := do
  let pk ← JwtEcdsaPublicKey.fromString key.data.value
  match PyDict.get? ecdsaParams pk.algorithm with
  | none => .error .tinkError
  | some (alg, crv) => do
    let x ← base64EncodeStr pk.x
    let y ← base64EncodeStr pk.y
    let kid ← getKid key.keyId.toNat key.outputPrefixType
    return .dict ([(py! "kty", .str (py! "EC")), (py! "crv", .str crv), (py! "x", .str x),
      (py! "y", .str y), (py! "use", .str (py! "sig")), (py! "alg", .str alg),
      (py! "key_ops", .list [.str (py! "verify")])] ++
      kidEntry kid (pk.customKid.map fun k => k.value.toPy))

/-- The JWK of an RSA key (python/tink/jwt/_jwk_set_converter.py 162-175, 186-199). -/
def rsaJwk (alg : PyStr) (n e : Bytes) (key : Key) (customKid : Option PyStr) : Py (JVal F) := do
  let n' ← base64EncodeStr n
  let e' ← base64EncodeStr e
  let kid ← getKid key.keyId.toNat key.outputPrefixType
  return .dict ([(py! "kty", .str (py! "RSA")), (py! "n", .str n'), (py! "e", .str e'),
    (py! "use", .str (py! "sig")), (py! "alg", .str alg),
    (py! "key_ops", .list [.str (py! "verify")])] ++ kidEntry kid customKid)

/-- `_convert_jwt_rsa_ssa_pkcs1_key` (python/tink/jwt/_jwk_set_converter.py 154-175). -/
def convertRsaSsaPkcs1 (key : Key) : Py (JVal F) := do
  let pk ← JwtRsaSsaPkcs1PublicKey.fromString key.data.value
  match PyDict.get? rsaSsaPkcs1Params pk.algorithm with
  | none => .error .tinkError
  | some alg => rsaJwk alg pk.n pk.e key (pk.customKid.map fun k => k.value.toPy)

/-- `_convert_jwt_rsa_ssa_pss_key` (python/tink/jwt/_jwk_set_converter.py 178-199). -/
def convertRsaSsaPss (key : Key) : Py (JVal F) := do
  let pk ← JwtRsaSsaPssPublicKey.fromString key.data.value
  match PyDict.get? rsaSsaPssParams pk.algorithm with
  | none => .error .tinkError
  | some alg => rsaJwk alg pk.n pk.e key (pk.customKid.map fun k => k.value.toPy)

/-- The body of the loop of `from_public_keyset_handle`, of a key that is not skipped
(python/tink/jwt/_jwk_set_converter.py 107-118). -/
def exportKey (key : Key) : Py (JVal F) :=
  if key.data.keyMaterialType ≠ KeyMaterialType.ASYMMETRIC_PUBLIC then .error .tinkError
  else if key.outputPrefixType ∉ [OutputPrefixType.RAW, OutputPrefixType.TINK] then .error .tinkError
  else if key.data.typeUrl = JWT_ECDSA_PUBLIC_KEY_TYPE then convertEcdsa key
  else if key.data.typeUrl = JWT_RSA_SSA_PKCS1_PUBLIC_KEY_TYPE then convertRsaSsaPkcs1 key
  else if key.data.typeUrl = JWT_RSA_SSA_PSS_PUBLIC_KEY_TYPE then convertRsaSsaPss key
  else .error .tinkError

/-- The loop of `from_public_keyset_handle` (python/tink/jwt/_jwk_set_converter.py 103-118). -/
def exportKeys : List Key → Py (List (JVal F))
  | [] => .ok []
  | key :: keys =>
    if key.status ≠ KeyStatusType.ENABLED then exportKeys keys
    else
      match exportKey key with
      | .error e => .error e
      | .ok jwk =>
        match exportKeys keys with
        | .error e => .error e
        | .ok jwks => .ok (jwk :: jwks)

/-- `from_public_keyset_handle` (python/tink/jwt/_jwk_set_converter.py 76-119); also `from_keyset_handle`
(123-126), which ignores its second argument. -/
def fromPublicKeysetHandle (env : JsonEnv F) (h : KeysetHandle) : Py PyStr := do
  let serialization ← ProtoKeysetFormat.serializeWithoutSecret h
  let keyset ← Keyset.fromString serialization
  let keys ← exportKeys keyset.key
  dumpsCompact env (.dict [(py! "keys", .list keys)])

/-! ## Importing -/

/-- Is `s` a substring: `s in t` for strings. -/
def isSubstring (s : PyStr) : PyStr → Bool
  | [] => s.isEmpty
  | c :: t => s.isPrefixOf (c :: t) || isSubstring s t

/-- `v == s` for a string `s`. -/
def isStr (s : PyStr) : JVal F → Bool
  | .str t => t = s
  | _ => false

/-- `s in v` for a string `s`. -/
def contains (s : PyStr) : JVal F → Py Bool
  | .dict d => .ok (PyDict.get? d s).isSome
  | .list l => .ok (l.any (isStr s))
  | .str t => .ok (isSubstring s t)
  | _ => .error .typeError

/-- `d[k]` of a `dict`. -/
def item (d : List (PyStr × JVal F)) (k : PyStr) : Py (JVal F) :=
  match PyDict.get? d k with
  | none => .error .keyError
  | some v => .ok v

/-- `list(v)`: what a `for` loop over `v` goes through. -/
def iterate : JVal F → Py (List (JVal F))
  | .list l => .ok l
  | .dict d => .ok (d.map fun p => .str p.1)
  | .str s => .ok (s.map fun c => .str [c])
  | _ => .error .typeError

/-- `d.get(k, None) != s` for a string `s`. -/
def differs (d : List (PyStr × JVal F)) (k s : PyStr) : Bool :=
  match PyDict.get? d k with
  | none => true
  | some v => !isStr s v

/-- `len(key_ops) != 1 or key_ops[0] != 'verify'` (python/tink/jwt/_jwk_set_converter.py 271): of a `dict`
with one item, `key_ops[0]` is a `KeyError`. -/
def badKeyOps : JVal F → Py Bool
  | .list [v] => .ok (!isStr (py! "verify") v)
  | .list _ => .ok true
  | .str [c] => .ok ([c] ≠ py! "verify")
  | .str _ => .ok true
  | .dict [_] => .error .keyError
  | .dict _ => .ok true
  | _ => .error .typeError

/-- `_validate_use_and_key_ops` (python/tink/jwt/_jwk_set_converter.py 267-274). -/
def validateUseAndKeyOps (d : List (PyStr × JVal F)) : Py Unit := do
  match PyDict.get? d (py! "key_ops") with
  | none => pure ()
  | some keyOps =>
    let bad ← badKeyOps keyOps
    if bad then .error .tinkError else pure ()
  match PyDict.get? d (py! "use") with
  | none => pure ()
  | some v => if isStr (py! "sig") v then pure () else .error .tinkError

/-- `if 'kid' in key: public_key.custom_kid.value = key['kid']` (python/tink/jwt/_jwk_set_converter.py
295-296, 322-323, 349-350).  A proto `string` field takes only strings. -/
def customKidOf (d : List (PyStr × JVal F)) : Py (Option PStr) :=
  match PyDict.get? d (py! "kid") with
  | none => .ok none
  | some (.str s) => do
    let t ← s.toProto
    return some t
  | some _ => .error .typeError

/-- The key of the keyset, still without id (python/tink/jwt/_jwk_set_converter.py 297-303, 324-330,
351-357). -/
def protoKey (typeUrl : PStr) (value : Bytes) : Key :=
  { keyData := some { typeUrl := typeUrl, value := value,
                      keyMaterialType := KeyMaterialType.ASYMMETRIC_PUBLIC }
    outputPrefixType := OutputPrefixType.RAW
    status := KeyStatusType.ENABLED }

/-- `_convert_to_ecdsa_key` (python/tink/jwt/_jwk_set_converter.py 277-303); `alg` is `key['alg']`, which
is known to be a string here. -/
def convertToEcdsa (d : List (PyStr × JVal F)) (alg : PyStr) : Py Key :=
  match PyDict.get? ecdsaNames alg with
  | none => .error .tinkError
  | some algorithm =>
    if algorithm = 0 then .error .tinkError
    else if differs d (py! "kty") (py! "EC") then .error .tinkError
    else
      match PyDict.get? ecdsaParams algorithm with
      | none => .error .keyError
      | some (_, crv) =>
        if differs d (py! "crv") crv then .error .tinkError
        else do
          validateUseAndKeyOps d
          if (PyDict.get? d (py! "d")).isSome then .error .tinkError
          else do
            let xText ← item d (py! "x")
            let x ← base64DecodeStr xText
            let yText ← item d (py! "y")
            let y ← base64DecodeStr yText
            let kid ← customKidOf d
            let pk : JwtEcdsaPublicKey :=
              { algorithm := algorithm, x := x, y := y, customKid := kid.map fun k => ⟨k⟩ }
            let value ← pk.serializeToString
            return protoKey JWT_ECDSA_PUBLIC_KEY_TYPE value

/-- `'p' in key or 'q' in key or 'dp' in key or 'dq' in key or 'd' in key or 'qi' in key`
(python/tink/jwt/_jwk_set_converter.py 316-317, 343-344). -/
def rsaPrivate (d : List (PyStr × JVal F)) : Bool :=
  (PyDict.get? d (py! "p")).isSome || (PyDict.get? d (py! "q")).isSome ||
  (PyDict.get? d (py! "dp")).isSome || (PyDict.get? d (py! "dq")).isSome ||
  (PyDict.get? d (py! "d")).isSome || (PyDict.get? d (py! "qi")).isSome

/-- `_convert_to_rsa_ssa_pkcs1_key` (python/tink/jwt/_jwk_set_converter.py 306-330). -/
def convertToRsaSsaPkcs1 (d : List (PyStr × JVal F)) (alg : PyStr) : Py Key :=
  match PyDict.get? rsaSsaPkcs1Names alg with
  | none => .error .tinkError
  | some algorithm =>
    if algorithm = 0 then .error .tinkError
    else if differs d (py! "kty") (py! "RSA") then .error .tinkError
    else do
      validateUseAndKeyOps d
      if rsaPrivate d then .error .tinkError
      else do
        let nText ← item d (py! "n")
        let n ← base64DecodeStr nText
        let eText ← item d (py! "e")
        let e ← base64DecodeStr eText
        let kid ← customKidOf d
        let pk : JwtRsaSsaPkcs1PublicKey :=
          { algorithm := algorithm, n := n, e := e, customKid := kid.map fun k => ⟨k⟩ }
        let value ← pk.serializeToString
        return protoKey JWT_RSA_SSA_PKCS1_PUBLIC_KEY_TYPE value

/-- `_convert_to_rsa_ssa_pss_key` (python/tink/jwt/_jwk_set_converter.py 333-357). -/
def convertToRsaSsaPss (d : List (PyStr × JVal F)) (alg : PyStr) : Py Key :=
  match PyDict.get? rsaSsaPssNames alg with
  | none => .error .tinkError
  | some algorithm =>
    if algorithm = 0 then .error .tinkError
    else if differs d (py! "kty") (py! "RSA") then .error .tinkError
    else do
      validateUseAndKeyOps d
      if rsaPrivate d then .error .tinkError
      else do
        let nText ← item d (py! "n")
        let n ← base64DecodeStr nText
        let eText ← item d (py! "e")
        let e ← base64DecodeStr eText
        let kid ← customKidOf d
        let pk : JwtRsaSsaPssPublicKey :=
          { algorithm := algorithm, n := n, e := e, customKid := kid.map fun k => ⟨k⟩ }
        let value ← pk.serializeToString
        return protoKey JWT_RSA_SSA_PSS_PUBLIC_KEY_TYPE value

/-- Conversion of a JWK by the beginning of its algorithm (python/tink/jwt/_jwk_set_converter.py
238-246); only strings have `startswith`. -/
def importDict (d : List (PyStr × JVal F)) : JVal F → Py Key
  | .str alg =>
    if (py! "ES").isPrefixOf alg then convertToEcdsa d alg
    else if (py! "RS").isPrefixOf alg then convertToRsaSsaPkcs1 d alg
    else if (py! "PS").isPrefixOf alg then convertToRsaSsaPss d alg
    else .error .tinkError
  | _ => .error .attributeError

/-- The body of the loop of `to_public_keyset_handle` up to the new key
(python/tink/jwt/_jwk_set_converter.py 236-246).  `key['alg']` is a `TypeError` for lists and strings. -/
def importKey (key : JVal F) : Py Key := do
  let hasAlg ← contains (py! "alg") key
  if !hasAlg then .error .tinkError
  else
    match key with
    | .dict d => do
      let alg ← item d (py! "alg")
      importDict d alg
    | _ => .error .typeError

/-- `_generate_unused_key_id` (python/tink/jwt/_jwk_set_converter.py 202-206).  `draws` are the results
that `random.randint(1, 2147483647)` is going to return, those not used yet are returned; `none` means
that the loop has consumed all of them and is still running. -/
def generateUnusedKeyId : List UInt32 → Keyset → Option (UInt32 × List UInt32)
  | [], _ => none
  | keyId :: draws, ks =>
    if keyId ∉ ks.key.map Key.keyId then some (keyId, draws) else generateUnusedKeyId draws ks

/-- The loop of `to_public_keyset_handle` (python/tink/jwt/_jwk_set_converter.py 235-253). -/
def importKeys : List (JVal F) → List UInt32 → Keyset → Option (Py Keyset)
  | [], _, ks => some (.ok ks)
  | key :: keys, draws, ks =>
    match importKey key with
    | .error e => some (.error e)
    | .ok protoKey =>
      match generateUnusedKeyId draws ks with
      | none => none
      | some (newId, draws) =>
        importKeys keys draws
          { primaryKeyId := newId, key := ks.key ++ [{ protoKey with keyId := newId }] }

/-- `keys_dict['keys']` after `'keys' in keys_dict`, and the start of the loop
(python/tink/jwt/_jwk_set_converter.py 232-235). -/
def jwksOf (keysDict : JVal F) : Py (List (JVal F)) := do
  let hasKeys ← contains (py! "keys") keysDict
  if !hasKeys then .error .tinkError
  else
    match keysDict with
    | .dict d => do
      let keys ← item d (py! "keys")
      iterate keys
    | _ => .error .typeError

/-- `except json.decoder.JSONDecodeError` (python/tink/jwt/_jwk_set_converter.py 228-231). -/
def loadsJwkSet (env : JsonEnv F) (jwkSet : PyStr) : Py (JVal F) :=
  match loads env jwkSet with
  | .error .jsonDecodeError => .error .tinkError
  | r => r

/-- The end of `to_public_keyset_handle` (python/tink/jwt/_jwk_set_converter.py 254-256). -/
def parseImported (ks : Keyset) : Py KeysetHandle := do
  let serialized ← ks.serializeToString
  ProtoKeysetFormat.parseWithoutSecret serialized

/-- `to_public_keyset_handle` (python/tink/jwt/_jwk_set_converter.py 209-256); also `to_keyset_handle`
(260-264), which ignores its second argument. -/
def toPublicKeysetHandle (env : JsonEnv F) (draws : List UInt32) (jwkSet : PyStr) :
    Option (Py KeysetHandle) :=
  match (do let v ← loadsJwkSet env jwkSet; jwksOf v) with
  | .error e => some (.error e)
  | .ok keys =>
    match importKeys keys draws {} with
    | none => none
    | some (.error e) => some (.error e)
    | some (.ok ks) => some (parseImported ks)

end Jwk
end Tink
