import Verif.Jwt.Register
import Verif.Py.Lit
import Verif.Spec.JwtKeys
import Verif.Spec.SymmetricKeys

/-!
# Specification vocabulary for C95: keys for JWT MACs

RFC 7518, section 3.2.
-/

namespace Tink.Spec
open Cc Jwt

/-- The algorithms: the number in the key, the name in the header, the hash function, and the size of its digest,
which is the least size of a key. -/
inductive JwsMac : EnumVal → PyStr → EnumVal → Nat → Prop
  | hs256 : JwsMac 1 (py! "HS256") HashType.SHA256 32
  | hs384 : JwsMac 2 (py! "HS384") HashType.SHA384 48
  | hs512 : JwsMac 3 (py! "HS512") HashType.SHA512 64

/-- Key data hold a key for JWT MACs that is long enough: for the algorithm `alg`, with the kid `customKid`, the hash
function `hash` and the secret `key`. -/
inductive JwsMacKey (kd : KeyData) : PyStr → Option PyStr → EnumVal → Bytes → Prop
  | mk {k : JwtHmacKey} {alg : PyStr} {hash : EnumVal} {n : Nat}
      (typeUrl : kd.typeUrl = ps! "type.googleapis.com/google.crypto.tink.JwtHmacKey")
      (key : JwtHmacKey.fromString kd.value = .ok k) (version : k.version = 0)
      (algorithm : JwsMac k.algorithm alg hash n) (long : n ≤ k.keyValue.length) :
      JwsMacKey kd alg (k.customKid.map fun c => c.value.toPy) hash k.keyValue

/-- The check of a MAC with HMAC. -/
def hmacCheck (lib : Ssl) (hash : EnumVal) (key tag data : Bytes) : Py Unit :=
  if lib.hmac hash key data = some tag then .ok () else .error .tinkError

/-- The type URL of keys for JWT MACs. -/
def jwtHmacType : PStr := ps! "type.googleapis.com/google.crypto.tink.JwtHmacKey"

section
variable {F P C : Type} [DecidableEq C]

/-- `JwtMac` can be used: the registry holds Tink's key manager for these keys, which may make new keys, no other
key manager for JWT MACs, and Tink's wrapper. -/
structure JwtMacRegistered (L : Library F P C) (r : Registry P C) : Prop where
  manager : PyDict.get? r.keyManagers jwtHmacType =
    some (jwtMacKeyManager L.macInternal L.macManagerType L.macInternalClass L.env (L.ccMac jwtHmacType), true)
  only : MacManagers L.macInternal L.macInternalClass L.env (L.ccMac jwtHmacType) r
  wrapper : PyDict.get? r.wrappers L.macClass =
    some (jwtMacWrapper L.macInternal L.mac L.macWrapperType L.macInternalClass L.macClass)

/-- The objects are instances of their classes. -/
structure JwtMacInstances (isInst : P → C → Bool) (L : Library F P C) : Prop where
  internal : ∀ a, isInst (L.macInternal.inj a) L.macInternalClass = true
  mac : ∀ a, isInst (L.mac.inj a) L.macClass = true

end

end Tink.Spec
