import Verif.Spec.Config
import Verif.Examples.ToyStream

/-!
# A toy C++ library

C++ key managers for all key types of the packages, with algorithms that invert themselves and reject
foreign inputs.  Nothing here models code; it shows that the hypotheses of C64, C65 and C66 can be met
together.
-/

namespace Tink.ToyConfig
open Spec Config

abbrev Raw := RawStreamingAead Bytes Bytes ToyStream.St
abbrev Streaming := StreamingAead Bytes Bytes Bytes ToyStream.St

inductive Prim where
  | aead (a : Aead)
  | daead (a : DeterministicAead)
  | hybridEncrypt (a : HybridEncrypt)
  | hybridDecrypt (a : HybridDecrypt)
  | mac (a : Mac)
  | sign (a : PublicKeySign)
  | verify (a : PublicKeyVerify)
  | prf (a : Prf)
  | prfSet (a : PrfSet)
  | rawStreamingAead (a : Raw)
  | streamingAead (a : Streaming)

def isInst : Prim → PrimClass → Bool
  | .aead _, .aead => true
  | .daead _, .daead => true
  | .hybridEncrypt _, .hybridEncrypt => true
  | .hybridDecrypt _, .hybridDecrypt => true
  | .mac _, .mac => true
  | .sign _, .sign => true
  | .verify _, .verify => true
  | .prf _, .prf => true
  | .prfSet _, .prfSet => true
  | .rawStreamingAead _, .rawStreamingAead => true
  | .streamingAead _, .streamingAead => true
  | _, _ => false

private def bad {α : Type} : Py α := .error .attributeError

/-- What C++ returns for a wrong input. -/
def failure {α : Type} : StatusOr α := .error { code := .other 3 }

/-- Ciphertext = key ++ associated data ++ plaintext, and tag = key ++ data, after eight bytes. -/
def pack (v x y : Bytes) : Bytes := [1, 2, 3, 4, 5, 6, 7, 8] ++ v ++ x ++ y

def unpack (v ct ad : Bytes) : StatusOr Bytes :=
  if (pack v ad []).isPrefixOf ct then .ok (ct.drop (pack v ad []).length) else failure

def check (v m d : Bytes) : StatusOr Unit := if m = pack v d [] then .ok () else failure

def aead (v : Bytes) : Cpp.Aead := ⟨fun _ pt ad => .ok (pack v ad pt), unpack v⟩
def daead (v : Bytes) : Cpp.DeterministicAead := ⟨fun pt ad => .ok (pack v ad pt), unpack v⟩
def hybridEncrypt (v : Bytes) : Cpp.HybridEncrypt := ⟨fun _ pt info => .ok (pack v info pt)⟩
def hybridDecrypt (v : Bytes) : Cpp.HybridDecrypt := ⟨unpack v⟩
def mac (v : Bytes) : Cpp.Mac := ⟨fun d => .ok (pack v d []), check v⟩
def sign (v : Bytes) : Cpp.PublicKeySign := ⟨fun _ d => .ok (pack v d [])⟩
def verify (v : Bytes) : Cpp.PublicKeyVerify := ⟨check v⟩
def prf (v : Bytes) : Cpp.Prf := ⟨fun i n => if n ≤ 16 then .ok ((v ++ i).take n) else failure⟩

theorem unpack_pack (v ad pt : Bytes) : unpack v (pack v ad pt) ad = .ok pt := by
  have h : pack v ad pt = pack v ad [] ++ pt := by simp [pack]
  unfold unpack
  rw [h, if_pos (by simp)]
  simp

theorem check_pack (v d : Bytes) : check v (pack v d []) d = .ok () := by simp [check]

theorem pack_length (v x y : Bytes) : 5 < (pack v x y).length := by simp [pack]

theorem pack_ne_nil (v x y : Bytes) : pack v x y ≠ [] := by simp [pack]

/-- A C++ key manager: a new key has the seed as its value, and an empty value is no key. -/
def manager {B : Type} (url : PStr) (material : EnumVal) (make : Bytes → B) (pub : Option PStr := none) :
    Cpp.KeyManager B where
  keyType := url
  getPrimitive kd := if kd.value = [] then failure else .ok (make kd.value)
  newKeyData seed _ :=
    .ok { typeUrl := url, value := [UInt8.ofNat seed], keyMaterialType := material }
  publicKeyData := pub.map fun u v =>
    .ok { typeUrl := u, value := v, keyMaterialType := KeyMaterialType.ASYMMETRIC_PUBLIC }

/-- The public key type that goes with a private key type. -/
def publicUrl (url : PStr) : PStr :=
  (([ps! "EciesAeadHkdf", ps! "Hpke", ps! "Ecdsa", ps! "Ed25519", ps! "RsaSsaPkcs1",
    ps! "RsaSsaPss"].map fun n => (typeUrl (n ++ ps! "PrivateKey"), typeUrl (n ++ ps! "PublicKey"))).lookup
      url).getD []

/-- Key managers for the key types of a package and class. -/
def find {B : Type} (pkg : Package) (k : PrimClass) (m : PStr → Cpp.KeyManager B) (url : PStr) :
    Option (Cpp.KeyManager B) :=
  if (url, k) ∈ keyTypes pkg then some (m url) else none

def library : Library Bytes Bytes Bytes ToyStream.St UInt8 Prim PrimClass where
  aead := ⟨.aead, fun | .aead a => a | _ => ⟨fun _ _ _ => bad, fun _ _ => bad⟩, fun _ => rfl⟩
  daead := ⟨.daead, fun | .daead a => a | _ => ⟨fun _ _ => bad, fun _ _ => bad⟩, fun _ => rfl⟩
  hybridDecrypt := ⟨.hybridDecrypt, fun | .hybridDecrypt a => a | _ => ⟨fun _ _ => bad⟩, fun _ => rfl⟩
  hybridEncrypt := ⟨.hybridEncrypt, fun | .hybridEncrypt a => a | _ => ⟨fun _ _ _ => bad⟩, fun _ => rfl⟩
  mac := ⟨.mac, fun | .mac a => a | _ => ⟨fun _ => bad, fun _ _ => bad⟩, fun _ => rfl⟩
  prf := ⟨.prf, fun | .prf a => a | _ => ⟨fun _ _ => bad⟩, fun _ => rfl⟩
  prfSet := ⟨.prfSet, fun | .prfSet a => a | _ => ⟨bad, bad, bad⟩, fun _ => rfl⟩
  sign := ⟨.sign, fun | .sign a => a | _ => ⟨fun _ _ => bad⟩, fun _ => rfl⟩
  verify := ⟨.verify, fun | .verify a => a | _ => ⟨fun _ _ => bad⟩, fun _ => rfl⟩
  rawStreamingAead :=
    ⟨.rawStreamingAead, fun | .rawStreamingAead a => a | _ => ToyStream.key 0 false, fun _ => rfl⟩
  streamingAead :=
    ⟨.streamingAead, fun | .streamingAead a => a | _ => ⟨fun _ _ _ => bad, fun _ _ _ => bad⟩, fun _ => rfl⟩
  cls := id
  managerType := 1
  privateManagerType := 2
  kmsManagerType := 3
  envelopeManagerType := 4
  wrapperType
    | .aead => 10 | .daead => 11 | .hybridDecrypt => 12 | .hybridEncrypt => 13 | .mac => 14
    | .prfSet => 15 | .sign => 16 | .verify => 17 | .streamingAead => 18 | _ => 19
  bindingsRegister := .ok ()
  bindingsRegisterHpke := .ok ()
  ccAead := find .aead .aead fun u => manager u KeyMaterialType.SYMMETRIC aead
  ccDaead := find .daead .daead fun u => manager u KeyMaterialType.SYMMETRIC daead
  ccHybridDecrypt := find .hybrid .hybridDecrypt fun u =>
    manager u KeyMaterialType.ASYMMETRIC_PRIVATE hybridDecrypt (some (publicUrl u))
  ccHybridEncrypt := find .hybrid .hybridEncrypt fun u =>
    manager u KeyMaterialType.ASYMMETRIC_PUBLIC hybridEncrypt
  ccMac := find .mac .mac fun u => manager u KeyMaterialType.SYMMETRIC mac
  ccPrf := find .prf .prf fun u => manager u KeyMaterialType.SYMMETRIC prf
  ccSign := find .signature .sign fun u =>
    manager u KeyMaterialType.ASYMMETRIC_PRIVATE sign (some (publicUrl u))
  ccVerify := find .signature .verify fun u => manager u KeyMaterialType.ASYMMETRIC_PUBLIC verify
  ccStreamingAead := find .streamingAead .rawStreamingAead fun u =>
    manager u KeyMaterialType.SYMMETRIC fun v => v.headD 0
  streamingCcToPy k := ToyStream.key k
  kmsClients := []
  kmsRegistry := {}
  kmsSeed := 0
  kmsSplit s := (s, s, s)

theorem lawful : LawfulConfig library isInst where
  bindingsRegister := rfl
  bindingsRegisterHpke := rfl
  ccAead _ h _ _ := ⟨_, if_pos h, rfl⟩
  ccDaead _ h := ⟨_, if_pos h, rfl⟩
  ccHybridDecrypt _ h := ⟨_, if_pos h, rfl⟩
  ccHybridEncrypt _ h := ⟨_, if_pos h, rfl⟩
  ccMac _ h := ⟨_, if_pos h, rfl⟩
  ccPrf _ h := ⟨_, if_pos h, rfl⟩
  ccSign _ h := ⟨_, if_pos h, rfl⟩
  ccVerify _ h := ⟨_, if_pos h, rfl⟩
  ccStreamingAead u h := ⟨_, if_pos h, rfl⟩
  classes _ _ h := h
  aead _ := rfl
  daead _ := rfl
  hybridDecrypt _ := rfl
  hybridEncrypt _ := rfl
  mac _ := rfl
  prf _ := rfl
  prfSet _ := rfl
  sign _ := rfl
  verify _ := rfl
  rawStreamingAead _ := rfl
  streamingAead _ := rfl

/-- A library whose C++ part lacks AES-SIV. -/
def withoutSiv : Library Bytes Bytes Bytes ToyStream.St UInt8 Prim PrimClass :=
  { library with ccDaead := fun _ => none }

/-- A key manager of the program's own. -/
def ownManager : KeyManager Prim PrimClass :=
  keyManagerCcToPy library.aead aeadCcToPy 5 .aead
    (manager (ps! "type.example.com/Own") KeyMaterialType.SYMMETRIC aead)

end Tink.ToyConfig
