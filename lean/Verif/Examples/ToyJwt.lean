import Verif.Examples.ToyJson
import Verif.Jwt.Register
import Verif.Spec.JwtKeys

/-!
# A toy world for JWTs

The key managers, wrappers and the registry are those of the model.  What C++ does is replaced by toy
algorithms: a tag or signature is the secret of the key (or a number of the public key) followed by the
data.
-/

namespace Tink
namespace ToyJwt
open Jwt Spec

/-- All JWT objects. -/
inductive Prim where
  | macInternal (a : JwtMacInternal Int)
  | mac (a : JwtMac Int)
  | signInternal (a : JwtPublicKeySignInternal Int)
  | sign (a : JwtPublicKeySign Int)
  | verifyInternal (a : JwtPublicKeyVerifyInternal Int)
  | verify (a : JwtPublicKeyVerify Int)

inductive Cls where
  | macInternal | mac | signInternal | sign | verifyInternal | verify
  deriving DecidableEq

def isInst : Prim → Cls → Bool
  | .macInternal _, .macInternal => true
  | .mac _, .mac => true
  | .signInternal _, .signInternal => true
  | .sign _, .sign => true
  | .verifyInternal _, .verifyInternal => true
  | .verify _, .verify => true
  | _, _ => false

private def bad {α : Type} : Py α := .error .attributeError

/-- `str.upper` for ASCII and the long s. -/
def upper (s : PyStr) : PyStr := s.map fun c => if c = 0x17f then 83 else asciiUpper c

theorem lawfulUpper : LawfulUpper upper where
  ascii s h := by
    unfold upper
    refine List.map_congr_left fun c hc => ?_
    have := h c hc
    rw [if_neg (by omega)]

/-- The part of a key that both sides know. -/
def shared (data : Bytes) : Py Bytes := do
  let kd ← KeyData.fromString data
  if kd.typeUrl = JWT_HMAC_KEY_TYPE then do
    let k ← JwtHmacKey.fromString kd.value
    return k.keyValue
  else if kd.typeUrl = JWT_ECDSA_PRIVATE_KEY_TYPE then do
    let k ← JwtEcdsaPrivateKey.fromString kd.value
    return k.getPublicKey.x
  else if kd.typeUrl = JWT_ECDSA_PUBLIC_KEY_TYPE then do
    let k ← JwtEcdsaPublicKey.fromString kd.value
    return k.x
  else .error .tinkError

def check (v m d : Bytes) : Py Unit := if m = v ++ d then .ok () else .error .tinkError

def library : Library Int Prim Cls where
  env := { json := ToyJson.env, upper := upper }
  macInternal := ⟨.macInternal, fun | .macInternal a => a | _ => ⟨fun _ _ => bad, fun _ _ _ _ => bad⟩,
    fun _ => rfl⟩
  mac := ⟨.mac, fun | .mac a => a | _ => ⟨fun _ => bad, fun _ _ _ => bad⟩, fun _ => rfl⟩
  signInternal := ⟨.signInternal, fun | .signInternal a => a | _ => ⟨fun _ _ _ => bad⟩, fun _ => rfl⟩
  sign := ⟨.sign, fun | .sign a => a | _ => ⟨fun _ _ => bad⟩, fun _ => rfl⟩
  verifyInternal := ⟨.verifyInternal, fun | .verifyInternal a => a | _ => ⟨fun _ _ _ _ => bad⟩,
    fun _ => rfl⟩
  verify := ⟨.verify, fun | .verify a => a | _ => ⟨fun _ _ _ => bad⟩, fun _ => rfl⟩
  macInternalClass := .macInternal
  macClass := .mac
  signInternalClass := .signInternal
  signClass := .sign
  verifyInternalClass := .verifyInternal
  verifyClass := .verify
  macManagerType := 1
  macWrapperType := 2
  signManagerType := 3
  signWrapperType := 4
  verifyManagerType := 5
  verifyWrapperType := 6
  ccMac url :=
    { keyType := url
      primitive := fun d => do
        let v ← shared d
        return { computeMac := fun d => .ok (v ++ d), verifyMac := check v }
      newKeyData := fun _ _ => .error .tinkError
      publicKeyData := fun _ => .error .tinkError }
  ccSign url :=
    { keyType := url
      primitive := fun d => do
        let v ← shared d
        return { sign := fun _ d => .ok (v ++ d) }
      newKeyData := fun _ _ => .error .tinkError
      publicKeyData := fun _ => .error .tinkError }
  ccVerify url :=
    { keyType := url
      primitive := fun d => do
        let v ← shared d
        return { verify := check v }
      newKeyData := fun _ _ => .error .tinkError
      publicKeyData := fun _ => .error .tinkError }

/-- The value of a call that succeeds. -/
def value {α : Type} (d : α) : Py α → α
  | .ok a => a
  | .error _ => d

def isOk {α : Type} : Py α → Bool
  | .ok _ => true
  | .error _ => false

theorem value_ok {α : Type} {d : α} {x : Py α} (h : isOk x = true) : x = .ok (value d x) := by
  cases x with
  | ok a => rfl
  | error e => cases h

/-- The registry after `register_jwt_mac` and `register_jwt_signature`. -/
def registry : Registry Prim Cls :=
  (registerJwtSignature isInst library (registerJwtMac isInst library {}).1).1

/-- A key. -/
def key (url : PStr) (value : Bytes) (material : EnumVal) (id : UInt32) (pre : EnumVal)
    (status : EnumVal := KeyStatusType.ENABLED) : Key :=
  { keyData := some { typeUrl := url, value := value, keyMaterialType := material }
    status := status, keyId := id, outputPrefixType := pre }

def hmacKey (alg : EnumVal) (secret : Bytes) (kid : Option PStr) : UInt32 → EnumVal → Key :=
  fun id pre => key JWT_HMAC_KEY_TYPE
    (ToyJwt.value [] (JwtHmacKey.serializeToString
      { algorithm := alg, keyValue := secret, customKid := kid.map fun k => { value := k } }))
    KeyMaterialType.SYMMETRIC id pre

def ecdsaPublic (alg : EnumVal) (x : Bytes) (kid : Option PStr) : JwtEcdsaPublicKey :=
  { algorithm := alg, x := x, y := [1], customKid := kid.map fun k => { value := k } }

def ecdsaPublicKey (alg : EnumVal) (x : Bytes) (kid : Option PStr) : UInt32 → EnumVal → Key :=
  fun id pre => key JWT_ECDSA_PUBLIC_KEY_TYPE
    (ToyJwt.value [] (ecdsaPublic alg x kid).serializeToString) KeyMaterialType.ASYMMETRIC_PUBLIC id pre

def ecdsaPrivateKey (alg : EnumVal) (x secret : Bytes) (kid : Option PStr) : UInt32 → EnumVal → Key :=
  fun id pre => key JWT_ECDSA_PRIVATE_KEY_TYPE
    (ToyJwt.value [] (JwtEcdsaPrivateKey.serializeToString
      { publicKey := some (ecdsaPublic alg x kid), keyValue := secret }))
    KeyMaterialType.ASYMMETRIC_PRIVATE id pre

/-- The object that a handle gives, and the objects of its enabled keys. -/
def object (ks : Keyset) (c : Cls) : Prim :=
  value (.mac ⟨fun _ => bad, fun _ _ _ => bad⟩) (KeysetHandle.primitive isInst registry ⟨ks⟩ c)

def objectOf (k : Key) (c : Cls) : Prim :=
  value (.mac ⟨fun _ => bad, fun _ _ _ => bad⟩) (registry.primitive k.data c)

def objects (ks : Keyset) (c : Cls) : List (Key × Prim) :=
  (ks.key.filter (fun k => Enabled k)).map fun k => (k, objectOf k c)

/-- A keyset whose keys all work gives an object. -/
theorem obtained {W : PrimitiveWrapper Prim Cls} {ks : Keyset} {c : Cls}
    (h1 : PyDict.get? registry.wrappers c = some W)
    (h2 : isOk (KeysetHandle.primitive isInst registry ⟨ks⟩ c) = true)
    (h3 : (ks.key.filter (fun k => Enabled k)).all
      (fun k => isOk (registry.primitive k.data W.inputPrimitiveClass)) = true) :
    Obtained isInst W registry ⟨ks⟩ c (objects ks W.inputPrimitiveClass) (object ks c) where
  wrapper := h1
  primitive := value_ok h2
  keys := by
    refine ⟨?_, ?_⟩
    · unfold objects
      rw [List.map_map]
      exact List.map_id _
    · intro q hq
      obtain ⟨k, hk, rfl⟩ := List.mem_map.1 hq
      exact value_ok (List.all_eq_true.1 h3 k hk)

/-! ## Keysets -/

def macKey1 : Key := hmacKey JwtHmacAlgorithm.HS256 [1, 2] none 7 OutputPrefixType.TINK
def macKey2 : Key := hmacKey JwtHmacAlgorithm.HS512 [3] (some ['x']) 8 OutputPrefixType.RAW
def macKeyset : Keyset := { primaryKeyId := 7, key := [macKey1, macKey2] }
def macKeyset' : Keyset :=
  { primaryKeyId := 8, key := [{ macKey1 with status := KeyStatusType.DISABLED, keyId := 3 },
      macKey2, macKey1] }

def signKey : Key := ecdsaPrivateKey JwtEcdsaAlgorithm.ES384 [5, 5] [9] (some ['x']) 4
  OutputPrefixType.RAW
def signKeyset : Keyset := { primaryKeyId := 4, key := [signKey] }
def verifyKey1 : Key := ecdsaPublicKey JwtEcdsaAlgorithm.ES256 [6] none 5 OutputPrefixType.TINK
def verifyKey2 : Key := ecdsaPublicKey JwtEcdsaAlgorithm.ES384 [5, 5] (some ['x']) 4 OutputPrefixType.RAW
def verifyKeyset : Keyset := { primaryKeyId := 5, key := [verifyKey1, verifyKey2] }

theorem macObtained : Obtained isInst (jwtMacWrapper library.macInternal library.mac 2 Cls.macInternal .mac)
    registry ⟨macKeyset⟩ .mac (objects macKeyset .macInternal) (object macKeyset .mac) :=
  obtained rfl (by decide +kernel) (by decide +kernel)

theorem macObtained' :
    Obtained isInst (jwtMacWrapper library.macInternal library.mac 2 Cls.macInternal .mac)
    registry ⟨macKeyset'⟩ .mac (objects macKeyset' .macInternal) (object macKeyset' .mac) :=
  obtained rfl (by decide +kernel) (by decide +kernel)

theorem signObtained :
    Obtained isInst (jwtSignWrapper library.signInternal library.sign 4 Cls.signInternal .sign)
    registry ⟨signKeyset⟩ .sign (objects signKeyset .signInternal) (object signKeyset .sign) :=
  obtained rfl (by decide +kernel) (by decide +kernel)

theorem verifyObtained :
    Obtained isInst (jwtVerifyWrapper library.verifyInternal library.verify 6 Cls.verifyInternal .verify)
    registry ⟨verifyKeyset⟩ .verify (objects verifyKeyset .verifyInternal) (object verifyKeyset .verify) :=
  obtained rfl (by decide +kernel) (by decide +kernel)

/-! ## A token -/

def args : RawJwtArgs Int where
  typeHeader := some (py! "JWT")
  issuer := some (py! "me")
  expiration := some { wall := 1700000000000000, tz := some fun _ => 0 }
  customClaims := [(.str (py! "x"), .json (.list [.int 1, .dict [([0xe4], .null)]]))]

def token : RawJwt Int where
  typeHeader := some (.str (py! "JWT"))
  payload := [(py! "iss", .str (py! "me")), (py! "exp", .int 1700000000),
    (py! "x", .list [.int 1, .dict [([0xe4], .null)]])]

theorem token_created : newRawJwt ToyJson.env args = .ok token := rfl

def validator : JwtValidator where
  expectedTypeHeader := some (py! "JWT")
  expectedIssuer := none
  expectedAudience := none
  ignoreTypeHeader := false
  ignoreIssuer := true
  ignoreAudiences := false
  allowMissingExpiration := false
  expectIssuedInThePast := false
  clockSkew := 0
  fixedNow := none

/-- 2023-01-01, before the token expires. -/
def clock : Int := 1672531200000000

def macCompact : PyStr :=
  value [] ((library.mac.view (object macKeyset .mac)).computeMacAndEncode token)

def signCompact : PyStr :=
  value [] ((library.sign.view (object signKeyset .sign)).signAndEncode 0 token)

theorem mac_encodes :
    (library.mac.view (object macKeyset .mac)).computeMacAndEncode token = .ok macCompact :=
  value_ok (by decide +kernel)

theorem sign_encodes :
    (library.sign.view (object signKeyset .sign)).signAndEncode 0 token = .ok signCompact :=
  value_ok (by decide +kernel)

/-- Whether a call is refused. -/
def rejects {α : Type} : Py α → Bool
  | .ok _ => false
  | .error e => e.isTink

theorem rejects_iff {α : Type} {x : Py α} : rejects x = true ↔ Rejects x := by
  cases x with
  | ok a => simp [rejects, Rejects]
  | error e => simp [rejects, Rejects]

/-- The exception of a call. -/
def raised {α : Type} : Py α → Option Exc
  | .ok _ => none
  | .error e => some e

theorem raised_iff {α : Type} {x : Py α} {e : Exc} : raised x = some e ↔ x = .error e := by
  cases x <;> simp [raised]

end ToyJwt
end Tink
