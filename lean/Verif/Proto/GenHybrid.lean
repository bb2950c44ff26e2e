import Verif.Proto.Gen

/-!
# Messages for the keys of hybrid encryption

Generated by `/verif/tools/protogen.py` from the `.proto` files in `/repo/python/tink/proto`; each
definition cites the lines it comes from.  The conventions are those of `Keyset/Wire.lean`.
-/

namespace Tink

/-- `message EciesAeadHkdfPublicKey`, `ecies_aead_hkdf.proto:84-96`. -/
structure EciesAeadHkdfPublicKey where
  version : UInt32 := 0
  params : Option EciesAeadHkdfParams := none
  x : Bytes := []
  y : Bytes := []
  deriving DecidableEq, Repr, Inhabited

/-- Reading `params` when it is absent yields the default message. -/
def EciesAeadHkdfPublicKey.getParams (m : EciesAeadHkdfPublicKey) : EciesAeadHkdfParams := m.params.getD {}

/-- Fields of `EciesAeadHkdfPublicKey` in wire order. -/
def EciesAeadHkdfPublicKey.fields (m : EciesAeadHkdfPublicKey) : List Field :=
  uint32Field 1 m.version ++
  msgField 2 (m.params.map EciesAeadHkdfParams.fields) ++
  bytesField 3 m.x ++
  bytesField 4 m.y

/-- Merging one field into a `EciesAeadHkdfPublicKey`. -/
def EciesAeadHkdfPublicKey.mergeField (m : EciesAeadHkdfPublicKey) (f : Field) : Option EciesAeadHkdfPublicKey :=
  match f.num, f.val with
  | 1, .varint v => some { m with version := UInt32.ofNat v }
  | 2, .len b => (EciesAeadHkdfParams.merge m.getParams b).map fun x => { m with params := some x }
  | 3, .len b => some { m with x := b }
  | 4, .len b => some { m with y := b }
  | _, _ => some m

/-- Merging serialized bytes into a `EciesAeadHkdfPublicKey`. -/
def EciesAeadHkdfPublicKey.merge (m : EciesAeadHkdfPublicKey) (b : Bytes) : Option EciesAeadHkdfPublicKey :=
  match parseFields b with
  | none => none
  | some fs => fs.foldlM EciesAeadHkdfPublicKey.mergeField m

def EciesAeadHkdfPublicKey.serializeToString (m : EciesAeadHkdfPublicKey) : Py Bytes := serializeFields m.fields
def EciesAeadHkdfPublicKey.fromString (b : Bytes) : Py EciesAeadHkdfPublicKey := ofMerge (EciesAeadHkdfPublicKey.merge {} b)

/-- `message EciesAeadHkdfPrivateKey`, `ecies_aead_hkdf.proto:100-109`. -/
structure EciesAeadHkdfPrivateKey where
  version : UInt32 := 0
  publicKey : Option EciesAeadHkdfPublicKey := none
  keyValue : Bytes := []
  deriving DecidableEq, Repr, Inhabited

/-- Reading `publicKey` when it is absent yields the default message. -/
def EciesAeadHkdfPrivateKey.getPublicKey (m : EciesAeadHkdfPrivateKey) : EciesAeadHkdfPublicKey := m.publicKey.getD {}

/-- Fields of `EciesAeadHkdfPrivateKey` in wire order. -/
def EciesAeadHkdfPrivateKey.fields (m : EciesAeadHkdfPrivateKey) : List Field :=
  uint32Field 1 m.version ++
  msgField 2 (m.publicKey.map EciesAeadHkdfPublicKey.fields) ++
  bytesField 3 m.keyValue

/-- Merging one field into a `EciesAeadHkdfPrivateKey`. -/
def EciesAeadHkdfPrivateKey.mergeField (m : EciesAeadHkdfPrivateKey) (f : Field) : Option EciesAeadHkdfPrivateKey :=
  match f.num, f.val with
  | 1, .varint v => some { m with version := UInt32.ofNat v }
  | 2, .len b => (EciesAeadHkdfPublicKey.merge m.getPublicKey b).map fun x => { m with publicKey := some x }
  | 3, .len b => some { m with keyValue := b }
  | _, _ => some m

/-- Merging serialized bytes into a `EciesAeadHkdfPrivateKey`. -/
def EciesAeadHkdfPrivateKey.merge (m : EciesAeadHkdfPrivateKey) (b : Bytes) : Option EciesAeadHkdfPrivateKey :=
  match parseFields b with
  | none => none
  | some fs => fs.foldlM EciesAeadHkdfPrivateKey.mergeField m

def EciesAeadHkdfPrivateKey.serializeToString (m : EciesAeadHkdfPrivateKey) : Py Bytes := serializeFields m.fields
def EciesAeadHkdfPrivateKey.fromString (b : Bytes) : Py EciesAeadHkdfPrivateKey := ofMerge (EciesAeadHkdfPrivateKey.merge {} b)

/-- `message HpkePublicKey`, `hpke.proto:53-59`. -/
structure HpkePublicKey where
  version : UInt32 := 0
  params : Option HpkeParams := none
  publicKey : Bytes := []
  deriving DecidableEq, Repr, Inhabited

/-- Reading `params` when it is absent yields the default message. -/
def HpkePublicKey.getParams (m : HpkePublicKey) : HpkeParams := m.params.getD {}

/-- Fields of `HpkePublicKey` in wire order. -/
def HpkePublicKey.fields (m : HpkePublicKey) : List Field :=
  uint32Field 1 m.version ++
  msgField 2 (m.params.map HpkeParams.fields) ++
  bytesField 3 m.publicKey

/-- Merging one field into a `HpkePublicKey`. -/
def HpkePublicKey.mergeField (m : HpkePublicKey) (f : Field) : Option HpkePublicKey :=
  match f.num, f.val with
  | 1, .varint v => some { m with version := UInt32.ofNat v }
  | 2, .len b => (HpkeParams.merge m.getParams b).map fun x => { m with params := some x }
  | 3, .len b => some { m with publicKey := b }
  | _, _ => some m

/-- Merging serialized bytes into a `HpkePublicKey`. -/
def HpkePublicKey.merge (m : HpkePublicKey) (b : Bytes) : Option HpkePublicKey :=
  match parseFields b with
  | none => none
  | some fs => fs.foldlM HpkePublicKey.mergeField m

def HpkePublicKey.serializeToString (m : HpkePublicKey) : Py Bytes := serializeFields m.fields
def HpkePublicKey.fromString (b : Bytes) : Py HpkePublicKey := ofMerge (HpkePublicKey.merge {} b)

/-- `message HpkePrivateKey`, `hpke.proto:61-67`. -/
structure HpkePrivateKey where
  version : UInt32 := 0
  publicKey : Option HpkePublicKey := none
  privateKey : Bytes := []
  deriving DecidableEq, Repr, Inhabited

/-- Reading `publicKey` when it is absent yields the default message. -/
def HpkePrivateKey.getPublicKey (m : HpkePrivateKey) : HpkePublicKey := m.publicKey.getD {}

/-- Fields of `HpkePrivateKey` in wire order. -/
def HpkePrivateKey.fields (m : HpkePrivateKey) : List Field :=
  uint32Field 1 m.version ++
  msgField 2 (m.publicKey.map HpkePublicKey.fields) ++
  bytesField 3 m.privateKey

/-- Merging one field into a `HpkePrivateKey`. -/
def HpkePrivateKey.mergeField (m : HpkePrivateKey) (f : Field) : Option HpkePrivateKey :=
  match f.num, f.val with
  | 1, .varint v => some { m with version := UInt32.ofNat v }
  | 2, .len b => (HpkePublicKey.merge m.getPublicKey b).map fun x => { m with publicKey := some x }
  | 3, .len b => some { m with privateKey := b }
  | _, _ => some m

/-- Merging serialized bytes into a `HpkePrivateKey`. -/
def HpkePrivateKey.merge (m : HpkePrivateKey) (b : Bytes) : Option HpkePrivateKey :=
  match parseFields b with
  | none => none
  | some fs => fs.foldlM HpkePrivateKey.mergeField m

def HpkePrivateKey.serializeToString (m : HpkePrivateKey) : Py Bytes := serializeFields m.fields
def HpkePrivateKey.fromString (b : Bytes) : Py HpkePrivateKey := ofMerge (HpkePrivateKey.merge {} b)

end Tink
