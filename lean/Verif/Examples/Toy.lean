import Verif.Wrap.Registered
import Verif.Keyset.Formats

/-!
# A small concrete world for the non-vacuity examples

Toy algorithms that invert themselves and reject foreign inputs, key managers
for them and a registry.  Nothing here models code; it only shows that the
hypotheses of the theorems can be met together.
-/

namespace Tink.Toy

/-- All primitive objects of the toy world. -/
inductive Prim where
  | aead (a : Aead)
  | daead (a : DeterministicAead)
  | hybridEncrypt (a : HybridEncrypt)
  | hybridDecrypt (a : HybridDecrypt)
  | mac (a : Mac)
  | sign (a : PublicKeySign)
  | verify (a : PublicKeyVerify)
  | prf (a : Prf)
  | prfSet (a : PrfSet)

inductive Cls where
  | aead | daead | hybridEncrypt | hybridDecrypt | mac | sign | verify | prf | prfSet
  deriving DecidableEq

def isInst : Prim → Cls → Bool
  | .aead _, .aead => true
  | .daead _, .daead => true
  | .hybridEncrypt _, .hybridEncrypt => true
  | .hybridDecrypt _, .hybridDecrypt => true
  | .mac _, .mac => true
  | .sign _, .sign => true
  | .verify _, .verify => true
  | .prf _, .prf => true
  | .prfSet _, .prfSet => true
  | _, _ => false

private def bad {α : Type} : Py α := .error .attributeError

def aeadView : View Prim Aead where
  inj := .aead
  view | .aead a => a | _ => ⟨fun _ _ _ => bad, fun _ _ => bad⟩
  view_inj _ := rfl
def daeadView : View Prim DeterministicAead where
  inj := .daead
  view | .daead a => a | _ => ⟨fun _ _ => bad, fun _ _ => bad⟩
  view_inj _ := rfl
def hybridEncryptView : View Prim HybridEncrypt where
  inj := .hybridEncrypt
  view | .hybridEncrypt a => a | _ => ⟨fun _ _ _ => bad⟩
  view_inj _ := rfl
def hybridDecryptView : View Prim HybridDecrypt where
  inj := .hybridDecrypt
  view | .hybridDecrypt a => a | _ => ⟨fun _ _ => bad⟩
  view_inj _ := rfl
def macView : View Prim Mac where
  inj := .mac
  view | .mac a => a | _ => ⟨fun _ => bad, fun _ _ => bad⟩
  view_inj _ := rfl
def signView : View Prim PublicKeySign where
  inj := .sign
  view | .sign a => a | _ => ⟨fun _ _ => bad⟩
  view_inj _ := rfl
def verifyView : View Prim PublicKeyVerify where
  inj := .verify
  view | .verify a => a | _ => ⟨fun _ _ => bad⟩
  view_inj _ := rfl
def prfView : View Prim Prf where
  inj := .prf
  view | .prf a => a | _ => ⟨fun _ _ => bad⟩
  view_inj _ := rfl
def prfSetView : View Prim PrfSet where
  inj := .prfSet
  view | .prfSet a => a | _ => ⟨bad, bad, bad⟩
  view_inj _ := rfl

/-- Ciphertext = key ++ associated data ++ plaintext. -/
def decrypt (v ct ad : Bytes) : Py Bytes :=
  if (v ++ ad).isPrefixOf ct then .ok (ct.drop (v ++ ad).length) else .error .tinkError

def check (v m d : Bytes) : Py Unit := if m = v ++ d then .ok () else .error .tinkError

/-- The primitive of a key; a value starting with byte 99 makes a key that raises `ValueError`. -/
def prim (c : Cls) (kd : KeyData) : Py Prim :=
  let v := kd.value
  let dec : Bytes → Bytes → Py Bytes :=
    fun ct ad => if v.head? = some 99 then .error .valueError else decrypt v ct ad
  let chk : Bytes → Bytes → Py Unit :=
    fun m d => if v.head? = some 99 then .error .valueError else check v m d
  match c with
  | .aead => .ok (.aead ⟨fun _ pt ad => .ok (v ++ ad ++ pt), dec⟩)
  | .daead => .ok (.daead ⟨fun pt ad => .ok (v ++ ad ++ pt), dec⟩)
  | .hybridEncrypt => .ok (.hybridEncrypt ⟨fun _ pt ad => .ok (v ++ ad ++ pt)⟩)
  | .hybridDecrypt => .ok (.hybridDecrypt ⟨dec⟩)
  | .mac => .ok (.mac ⟨fun d => .ok (v ++ d), chk⟩)
  | .sign => .ok (.sign ⟨fun _ d => .ok (v ++ d)⟩)
  | .verify => .ok (.verify ⟨chk⟩)
  | .prf => .ok (.prf ⟨fun i n => .ok ((v ++ i).take n)⟩)
  | .prfSet => .error .tinkError

/-- Type URL of the toy key type for a class. -/
def url : Cls → PStr
  | .aead => ['a'] | .daead => ['d'] | .hybridEncrypt => ['e'] | .hybridDecrypt => ['h']
  | .mac => ['m'] | .sign => ['s'] | .verify => ['v'] | .prf => ['p'] | .prfSet => ['q']

def manager (c : Cls) : KeyManager Prim Cls where
  pyType := 1
  primitiveClass := c
  keyType := url c
  doesSupport u := u = url c
  primitive := prim c
  newKeyData seed _ :=
    .ok { typeUrl := url c, value := [UInt8.ofNat seed],
          keyMaterialType := match c with
            | .sign | .hybridDecrypt => KeyMaterialType.ASYMMETRIC_PRIVATE
            | .verify | .hybridEncrypt => KeyMaterialType.ASYMMETRIC_PUBLIC
            | _ => KeyMaterialType.SYMMETRIC }
  publicKeyData :=
    let mk (u : PStr) (kd : KeyData) : Py KeyData :=
      .ok { typeUrl := u, value := kd.value, keyMaterialType := KeyMaterialType.ASYMMETRIC_PUBLIC }
    match c with
    | .sign => some (mk (url .verify))
    | .hybridDecrypt => some (mk (url .hybridEncrypt))
    | _ => none

/-- All toy managers and all wrappers are registered. -/
def registry : Registry Prim Cls where
  keyManagers :=
    [Cls.aead, .daead, .hybridEncrypt, .hybridDecrypt, .mac, .sign, .verify, .prf].map
      fun c => (url c, (manager c, true))
  wrappers :=
    [(.aead, aeadWrapper aeadView 10 .aead), (.daead, daeadWrapper daeadView 11 .daead),
     (.hybridEncrypt, hybridEncryptWrapper hybridEncryptView 12 .hybridEncrypt),
     (.hybridDecrypt, hybridDecryptWrapper hybridDecryptView 13 .hybridDecrypt),
     (.mac, macWrapper macView 14 .mac), (.sign, signWrapper signView 15 .sign),
     (.verify, verifyWrapper verifyView 16 .verify),
     (.prfSet, prfSetWrapper prfView prfSetView 17 .prf .prfSet)]

/-- A toy key. -/
def key (c : Cls) (value : Bytes) (id : UInt32) (pre : EnumVal)
    (status : EnumVal := KeyStatusType.ENABLED) : Key :=
  { keyData := some
      { typeUrl := url c, value := value,
        keyMaterialType := match c with
          | .sign | .hybridDecrypt => KeyMaterialType.ASYMMETRIC_PRIVATE
          | .verify | .hybridEncrypt => KeyMaterialType.ASYMMETRIC_PUBLIC
          | _ => KeyMaterialType.SYMMETRIC }
    status := status, keyId := id, outputPrefixType := pre }

/-- The primitive of a toy key. -/
def obj (c : Cls) (value : Bytes) : Prim :=
  match prim c { value := value } with
  | .ok p => p
  | .error _ => .aead ⟨fun _ _ _ => bad, fun _ _ => bad⟩

end Tink.Toy
