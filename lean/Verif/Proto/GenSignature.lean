import Verif.Proto.Gen

/-!
# Messages for signature keys

Generated by `/verif/tools/protogen.py` from the `.proto` files in `/repo/python/tink/proto`; each
definition cites the lines it comes from.  The conventions are those of `Keyset/Wire.lean`.
-/

namespace Tink

/-- `message EcdsaPublicKey`, `ecdsa.proto:54-67`. -/
structure EcdsaPublicKey where
  version : UInt32 := 0
  params : Option EcdsaParams := none
  x : Bytes := []
  y : Bytes := []
  deriving DecidableEq, Repr, Inhabited

/-- Reading `params` when it is absent yields the default message. -/
def EcdsaPublicKey.getParams (m : EcdsaPublicKey) : EcdsaParams := m.params.getD {}

/-- Fields of `EcdsaPublicKey` in wire order. -/
def EcdsaPublicKey.fields (m : EcdsaPublicKey) : List Field :=
  uint32Field 1 m.version ++
  msgField 2 (m.params.map EcdsaParams.fields) ++
  bytesField 3 m.x ++
  bytesField 4 m.y

/-- Merging one field into a `EcdsaPublicKey`. -/
def EcdsaPublicKey.mergeField (m : EcdsaPublicKey) (f : Field) : Option EcdsaPublicKey :=
  match f.num, f.val with
  | 1, .varint v => some { m with version := UInt32.ofNat v }
  | 2, .len b => (EcdsaParams.merge m.getParams b).map fun x => { m with params := some x }
  | 3, .len b => some { m with x := b }
  | 4, .len b => some { m with y := b }
  | _, _ => some m

/-- Merging serialized bytes into a `EcdsaPublicKey`. -/
def EcdsaPublicKey.merge (m : EcdsaPublicKey) (b : Bytes) : Option EcdsaPublicKey :=
  match parseFields b with
  | none => none
  | some fs => fs.foldlM EcdsaPublicKey.mergeField m

def EcdsaPublicKey.serializeToString (m : EcdsaPublicKey) : Py Bytes := serializeFields m.fields
def EcdsaPublicKey.fromString (b : Bytes) : Py EcdsaPublicKey := ofMerge (EcdsaPublicKey.merge {} b)

/-- `message EcdsaPrivateKey`, `ecdsa.proto:70-78`. -/
structure EcdsaPrivateKey where
  version : UInt32 := 0
  publicKey : Option EcdsaPublicKey := none
  keyValue : Bytes := []
  deriving DecidableEq, Repr, Inhabited

/-- Reading `publicKey` when it is absent yields the default message. -/
def EcdsaPrivateKey.getPublicKey (m : EcdsaPrivateKey) : EcdsaPublicKey := m.publicKey.getD {}

/-- Fields of `EcdsaPrivateKey` in wire order. -/
def EcdsaPrivateKey.fields (m : EcdsaPrivateKey) : List Field :=
  uint32Field 1 m.version ++
  msgField 2 (m.publicKey.map EcdsaPublicKey.fields) ++
  bytesField 3 m.keyValue

/-- Merging one field into a `EcdsaPrivateKey`. -/
def EcdsaPrivateKey.mergeField (m : EcdsaPrivateKey) (f : Field) : Option EcdsaPrivateKey :=
  match f.num, f.val with
  | 1, .varint v => some { m with version := UInt32.ofNat v }
  | 2, .len b => (EcdsaPublicKey.merge m.getPublicKey b).map fun x => { m with publicKey := some x }
  | 3, .len b => some { m with keyValue := b }
  | _, _ => some m

/-- Merging serialized bytes into a `EcdsaPrivateKey`. -/
def EcdsaPrivateKey.merge (m : EcdsaPrivateKey) (b : Bytes) : Option EcdsaPrivateKey :=
  match parseFields b with
  | none => none
  | some fs => fs.foldlM EcdsaPrivateKey.mergeField m

def EcdsaPrivateKey.serializeToString (m : EcdsaPrivateKey) : Py Bytes := serializeFields m.fields
def EcdsaPrivateKey.fromString (b : Bytes) : Py EcdsaPrivateKey := ofMerge (EcdsaPrivateKey.merge {} b)

/-- `message Ed25519KeyFormat`, `ed25519.proto:28-30`. -/
structure Ed25519KeyFormat where
  version : UInt32 := 0
  deriving DecidableEq, Repr, Inhabited

/-- Fields of `Ed25519KeyFormat` in wire order. -/
def Ed25519KeyFormat.fields (m : Ed25519KeyFormat) : List Field :=
  uint32Field 1 m.version

/-- Merging one field into a `Ed25519KeyFormat`. -/
def Ed25519KeyFormat.mergeField (m : Ed25519KeyFormat) (f : Field) : Option Ed25519KeyFormat :=
  match f.num, f.val with
  | 1, .varint v => some { m with version := UInt32.ofNat v }
  | _, _ => some m

/-- Merging serialized bytes into a `Ed25519KeyFormat`. -/
def Ed25519KeyFormat.merge (m : Ed25519KeyFormat) (b : Bytes) : Option Ed25519KeyFormat :=
  match parseFields b with
  | none => none
  | some fs => fs.foldlM Ed25519KeyFormat.mergeField m

def Ed25519KeyFormat.serializeToString (m : Ed25519KeyFormat) : Py Bytes := serializeFields m.fields
def Ed25519KeyFormat.fromString (b : Bytes) : Py Ed25519KeyFormat := ofMerge (Ed25519KeyFormat.merge {} b)

/-- `message Ed25519PublicKey`, `ed25519.proto:33-40`. -/
structure Ed25519PublicKey where
  version : UInt32 := 0
  keyValue : Bytes := []
  deriving DecidableEq, Repr, Inhabited

/-- Fields of `Ed25519PublicKey` in wire order. -/
def Ed25519PublicKey.fields (m : Ed25519PublicKey) : List Field :=
  uint32Field 1 m.version ++
  bytesField 2 m.keyValue

/-- Merging one field into a `Ed25519PublicKey`. -/
def Ed25519PublicKey.mergeField (m : Ed25519PublicKey) (f : Field) : Option Ed25519PublicKey :=
  match f.num, f.val with
  | 1, .varint v => some { m with version := UInt32.ofNat v }
  | 2, .len b => some { m with keyValue := b }
  | _, _ => some m

/-- Merging serialized bytes into a `Ed25519PublicKey`. -/
def Ed25519PublicKey.merge (m : Ed25519PublicKey) (b : Bytes) : Option Ed25519PublicKey :=
  match parseFields b with
  | none => none
  | some fs => fs.foldlM Ed25519PublicKey.mergeField m

def Ed25519PublicKey.serializeToString (m : Ed25519PublicKey) : Py Bytes := serializeFields m.fields
def Ed25519PublicKey.fromString (b : Bytes) : Py Ed25519PublicKey := ofMerge (Ed25519PublicKey.merge {} b)

/-- `message Ed25519PrivateKey`, `ed25519.proto:43-52`. -/
structure Ed25519PrivateKey where
  version : UInt32 := 0
  keyValue : Bytes := []
  publicKey : Option Ed25519PublicKey := none
  deriving DecidableEq, Repr, Inhabited

/-- Reading `publicKey` when it is absent yields the default message. -/
def Ed25519PrivateKey.getPublicKey (m : Ed25519PrivateKey) : Ed25519PublicKey := m.publicKey.getD {}

/-- Fields of `Ed25519PrivateKey` in wire order. -/
def Ed25519PrivateKey.fields (m : Ed25519PrivateKey) : List Field :=
  uint32Field 1 m.version ++
  bytesField 2 m.keyValue ++
  msgField 3 (m.publicKey.map Ed25519PublicKey.fields)

/-- Merging one field into a `Ed25519PrivateKey`. -/
def Ed25519PrivateKey.mergeField (m : Ed25519PrivateKey) (f : Field) : Option Ed25519PrivateKey :=
  match f.num, f.val with
  | 1, .varint v => some { m with version := UInt32.ofNat v }
  | 2, .len b => some { m with keyValue := b }
  | 3, .len b => (Ed25519PublicKey.merge m.getPublicKey b).map fun x => { m with publicKey := some x }
  | _, _ => some m

/-- Merging serialized bytes into a `Ed25519PrivateKey`. -/
def Ed25519PrivateKey.merge (m : Ed25519PrivateKey) (b : Bytes) : Option Ed25519PrivateKey :=
  match parseFields b with
  | none => none
  | some fs => fs.foldlM Ed25519PrivateKey.mergeField m

def Ed25519PrivateKey.serializeToString (m : Ed25519PrivateKey) : Py Bytes := serializeFields m.fields
def Ed25519PrivateKey.fromString (b : Bytes) : Py Ed25519PrivateKey := ofMerge (Ed25519PrivateKey.merge {} b)

/-- `message RsaSsaPkcs1PublicKey`, `rsa_ssa_pkcs1.proto:37-48`. -/
structure RsaSsaPkcs1PublicKey where
  version : UInt32 := 0
  params : Option RsaSsaPkcs1Params := none
  n : Bytes := []
  e : Bytes := []
  deriving DecidableEq, Repr, Inhabited

/-- Reading `params` when it is absent yields the default message. -/
def RsaSsaPkcs1PublicKey.getParams (m : RsaSsaPkcs1PublicKey) : RsaSsaPkcs1Params := m.params.getD {}

/-- Fields of `RsaSsaPkcs1PublicKey` in wire order. -/
def RsaSsaPkcs1PublicKey.fields (m : RsaSsaPkcs1PublicKey) : List Field :=
  uint32Field 1 m.version ++
  msgField 2 (m.params.map RsaSsaPkcs1Params.fields) ++
  bytesField 3 m.n ++
  bytesField 4 m.e

/-- Merging one field into a `RsaSsaPkcs1PublicKey`. -/
def RsaSsaPkcs1PublicKey.mergeField (m : RsaSsaPkcs1PublicKey) (f : Field) : Option RsaSsaPkcs1PublicKey :=
  match f.num, f.val with
  | 1, .varint v => some { m with version := UInt32.ofNat v }
  | 2, .len b => (RsaSsaPkcs1Params.merge m.getParams b).map fun x => { m with params := some x }
  | 3, .len b => some { m with n := b }
  | 4, .len b => some { m with e := b }
  | _, _ => some m

/-- Merging serialized bytes into a `RsaSsaPkcs1PublicKey`. -/
def RsaSsaPkcs1PublicKey.merge (m : RsaSsaPkcs1PublicKey) (b : Bytes) : Option RsaSsaPkcs1PublicKey :=
  match parseFields b with
  | none => none
  | some fs => fs.foldlM RsaSsaPkcs1PublicKey.mergeField m

def RsaSsaPkcs1PublicKey.serializeToString (m : RsaSsaPkcs1PublicKey) : Py Bytes := serializeFields m.fields
def RsaSsaPkcs1PublicKey.fromString (b : Bytes) : Py RsaSsaPkcs1PublicKey := ofMerge (RsaSsaPkcs1PublicKey.merge {} b)

/-- `message RsaSsaPkcs1PrivateKey`, `rsa_ssa_pkcs1.proto:51-82`. -/
structure RsaSsaPkcs1PrivateKey where
  version : UInt32 := 0
  publicKey : Option RsaSsaPkcs1PublicKey := none
  d : Bytes := []
  p : Bytes := []
  q : Bytes := []
  dp : Bytes := []
  dq : Bytes := []
  crt : Bytes := []
  deriving DecidableEq, Repr, Inhabited

/-- Reading `publicKey` when it is absent yields the default message. -/
def RsaSsaPkcs1PrivateKey.getPublicKey (m : RsaSsaPkcs1PrivateKey) : RsaSsaPkcs1PublicKey := m.publicKey.getD {}

/-- Fields of `RsaSsaPkcs1PrivateKey` in wire order. -/
def RsaSsaPkcs1PrivateKey.fields (m : RsaSsaPkcs1PrivateKey) : List Field :=
  uint32Field 1 m.version ++
  msgField 2 (m.publicKey.map RsaSsaPkcs1PublicKey.fields) ++
  bytesField 3 m.d ++
  bytesField 4 m.p ++
  bytesField 5 m.q ++
  bytesField 6 m.dp ++
  bytesField 7 m.dq ++
  bytesField 8 m.crt

/-- Merging one field into a `RsaSsaPkcs1PrivateKey`. -/
def RsaSsaPkcs1PrivateKey.mergeField (m : RsaSsaPkcs1PrivateKey) (f : Field) : Option RsaSsaPkcs1PrivateKey :=
  match f.num, f.val with
  | 1, .varint v => some { m with version := UInt32.ofNat v }
  | 2, .len b => (RsaSsaPkcs1PublicKey.merge m.getPublicKey b).map fun x => { m with publicKey := some x }
  | 3, .len b => some { m with d := b }
  | 4, .len b => some { m with p := b }
  | 5, .len b => some { m with q := b }
  | 6, .len b => some { m with dp := b }
  | 7, .len b => some { m with dq := b }
  | 8, .len b => some { m with crt := b }
  | _, _ => some m

/-- Merging serialized bytes into a `RsaSsaPkcs1PrivateKey`. -/
def RsaSsaPkcs1PrivateKey.merge (m : RsaSsaPkcs1PrivateKey) (b : Bytes) : Option RsaSsaPkcs1PrivateKey :=
  match parseFields b with
  | none => none
  | some fs => fs.foldlM RsaSsaPkcs1PrivateKey.mergeField m

def RsaSsaPkcs1PrivateKey.serializeToString (m : RsaSsaPkcs1PrivateKey) : Py Bytes := serializeFields m.fields
def RsaSsaPkcs1PrivateKey.fromString (b : Bytes) : Py RsaSsaPkcs1PrivateKey := ofMerge (RsaSsaPkcs1PrivateKey.merge {} b)

/-- `message RsaSsaPssPublicKey`, `rsa_ssa_pss.proto:45-56`. -/
structure RsaSsaPssPublicKey where
  version : UInt32 := 0
  params : Option RsaSsaPssParams := none
  n : Bytes := []
  e : Bytes := []
  deriving DecidableEq, Repr, Inhabited

/-- Reading `params` when it is absent yields the default message. -/
def RsaSsaPssPublicKey.getParams (m : RsaSsaPssPublicKey) : RsaSsaPssParams := m.params.getD {}

/-- Fields of `RsaSsaPssPublicKey` in wire order. -/
def RsaSsaPssPublicKey.fields (m : RsaSsaPssPublicKey) : List Field :=
  uint32Field 1 m.version ++
  msgField 2 (m.params.map RsaSsaPssParams.fields) ++
  bytesField 3 m.n ++
  bytesField 4 m.e

/-- Merging one field into a `RsaSsaPssPublicKey`. -/
def RsaSsaPssPublicKey.mergeField (m : RsaSsaPssPublicKey) (f : Field) : Option RsaSsaPssPublicKey :=
  match f.num, f.val with
  | 1, .varint v => some { m with version := UInt32.ofNat v }
  | 2, .len b => (RsaSsaPssParams.merge m.getParams b).map fun x => { m with params := some x }
  | 3, .len b => some { m with n := b }
  | 4, .len b => some { m with e := b }
  | _, _ => some m

/-- Merging serialized bytes into a `RsaSsaPssPublicKey`. -/
def RsaSsaPssPublicKey.merge (m : RsaSsaPssPublicKey) (b : Bytes) : Option RsaSsaPssPublicKey :=
  match parseFields b with
  | none => none
  | some fs => fs.foldlM RsaSsaPssPublicKey.mergeField m

def RsaSsaPssPublicKey.serializeToString (m : RsaSsaPssPublicKey) : Py Bytes := serializeFields m.fields
def RsaSsaPssPublicKey.fromString (b : Bytes) : Py RsaSsaPssPublicKey := ofMerge (RsaSsaPssPublicKey.merge {} b)

/-- `message RsaSsaPssPrivateKey`, `rsa_ssa_pss.proto:59-90`. -/
structure RsaSsaPssPrivateKey where
  version : UInt32 := 0
  publicKey : Option RsaSsaPssPublicKey := none
  d : Bytes := []
  p : Bytes := []
  q : Bytes := []
  dp : Bytes := []
  dq : Bytes := []
  crt : Bytes := []
  deriving DecidableEq, Repr, Inhabited

/-- Reading `publicKey` when it is absent yields the default message. -/
def RsaSsaPssPrivateKey.getPublicKey (m : RsaSsaPssPrivateKey) : RsaSsaPssPublicKey := m.publicKey.getD {}

/-- Fields of `RsaSsaPssPrivateKey` in wire order. -/
def RsaSsaPssPrivateKey.fields (m : RsaSsaPssPrivateKey) : List Field :=
  uint32Field 1 m.version ++
  msgField 2 (m.publicKey.map RsaSsaPssPublicKey.fields) ++
  bytesField 3 m.d ++
  bytesField 4 m.p ++
  bytesField 5 m.q ++
  bytesField 6 m.dp ++
  bytesField 7 m.dq ++
  bytesField 8 m.crt

/-- Merging one field into a `RsaSsaPssPrivateKey`. -/
def RsaSsaPssPrivateKey.mergeField (m : RsaSsaPssPrivateKey) (f : Field) : Option RsaSsaPssPrivateKey :=
  match f.num, f.val with
  | 1, .varint v => some { m with version := UInt32.ofNat v }
  | 2, .len b => (RsaSsaPssPublicKey.merge m.getPublicKey b).map fun x => { m with publicKey := some x }
  | 3, .len b => some { m with d := b }
  | 4, .len b => some { m with p := b }
  | 5, .len b => some { m with q := b }
  | 6, .len b => some { m with dp := b }
  | 7, .len b => some { m with dq := b }
  | 8, .len b => some { m with crt := b }
  | _, _ => some m

/-- Merging serialized bytes into a `RsaSsaPssPrivateKey`. -/
def RsaSsaPssPrivateKey.merge (m : RsaSsaPssPrivateKey) (b : Bytes) : Option RsaSsaPssPrivateKey :=
  match parseFields b with
  | none => none
  | some fs => fs.foldlM RsaSsaPssPrivateKey.mergeField m

def RsaSsaPssPrivateKey.serializeToString (m : RsaSsaPssPrivateKey) : Py Bytes := serializeFields m.fields
def RsaSsaPssPrivateKey.fromString (b : Bytes) : Py RsaSsaPssPrivateKey := ofMerge (RsaSsaPssPrivateKey.merge {} b)

end Tink
