import Verif.Props.Rotation
import Verif.Spec.TokenText
import Verif.Spec.Valid

/-!
# Specification vocabulary for C109: rotating the keys of a keyset

`BuilderOp` and `runBuilder` (calls of a keyset builder and histories of them) are in `Props/Builder.lean`, and `Spares`
(the call neither disables nor deletes the key with the id) in `Props/Rotation.lean`.
-/

namespace Tink.Spec
open Props

variable {P C : Type}

/-- `h'` is what a rotation makes of `h`: `from_keyset_handle(h)`, any calls of the builder, and `keyset_handle()`. -/
def Rotated (r : Registry P C) (h : KeysetHandle) (ops : List BuilderOp) (h' : KeysetHandle) : Prop :=
  ∃ b b', KeysetBuilder.fromKeysetHandle h = .ok b ∧ runBuilder r ops b = some b' ∧
    KeysetBuilder.keysetHandle b' = .ok h'

/-- The key is in the keyset, and no other has its id. -/
def OnlyWithId (ks : Keyset) (k : Key) : Prop := k ∈ ks.key ∧ ∀ k' ∈ ks.key, k'.keyId = k.keyId → k' = k

/-- At most one key has the id. -/
def AtMostOne (id : UInt32) (ks : Keyset) : Prop := (ks.key.filter fun k => k.keyId = id).length ≤ 1

/-- The call disables or deletes the key with the id. -/
def Revokes (id : UInt32) : BuilderOp → Prop
  | .disableKey i => i = id
  | .deleteKey i => i = id
  | _ => False

/-- The call does not enable a key with the id, and does not draw the id for a new key. -/
def KeepsOut (id : UInt32) : BuilderOp → Prop
  | .enableKey i => i ≠ id
  | .addNewKey _ draws _ => id ∉ draws
  | _ => True

/-- The key is made of a template in one of the calls. -/
def AddedBy (r : Registry P C) (ops : List BuilderOp) (k : Key) : Prop :=
  ∃ seed draws t kd, BuilderOp.addNewKey seed draws t ∈ ops ∧ r.newKeyData seed t = .ok kd ∧ k.keyData = some kd ∧
    k.keyId ∈ draws ∧ k.outputPrefixType = t.outputPrefixType

/-- The same key, except that the status may be another. -/
def SameButStatus (k k' : Key) : Prop :=
  k'.keyData = k.keyData ∧ k'.keyId = k.keyId ∧ k'.outputPrefixType = k.outputPrefixType

/-- The header of the token says that its kid is `kid`. -/
def NamesKid {F : Type} (env : JsonEnv F) (compact kid : PyStr) : Prop :=
  ∃ header payload signature d, Compact compact header payload signature ∧ PartText env header (.dict d) ∧
    PyDict.get? d (py! "kid") = some (.str kid)

end Tink.Spec
