import Verif.Spec.Keyset

/-!
# Specification: which keysets are acceptable, which contain secrets
-/

namespace Tink.Spec

/-- The key is enabled and carries the primary id. -/
def IsPrimaryKey (ks : Keyset) (k : Key) : Prop := Enabled k ∧ k.keyId = ks.primaryKeyId

instance (ks : Keyset) (k : Key) : Decidable (IsPrimaryKey ks k) := by
  unfold IsPrimaryKey; infer_instance

/-- The documented conditions on a keyset. -/
structure Valid (ks : Keyset) : Prop where
  /-- There is a key that is not destroyed. -/
  nonempty : ∃ k ∈ ks.key, k.status ≠ KeyStatusType.DESTROYED
  /-- Keys that are not destroyed are complete. -/
  complete : ∀ k ∈ ks.key, k.status ≠ KeyStatusType.DESTROYED →
    k.keyData ≠ none ∧ k.outputPrefixType ≠ OutputPrefixType.UNKNOWN_PREFIX ∧
    k.status ≠ KeyStatusType.UNKNOWN_STATUS
  /-- At most one key is an enabled primary. -/
  one_primary : ∀ pre k₁ mid k₂ post, ks.key = pre ++ k₁ :: (mid ++ k₂ :: post) →
    ¬ (IsPrimaryKey ks k₁ ∧ IsPrimaryKey ks k₂)
  /-- There is an enabled primary, unless all key material is public. -/
  primary : (∃ k ∈ ks.key, IsPrimaryKey ks k) ∨
    ∀ k ∈ ks.key, k.data.keyMaterialType = KeyMaterialType.ASYMMETRIC_PUBLIC

/-- The key's material is of a type that counts as secret. -/
def Secret (k : Key) : Prop :=
  k.data.keyMaterialType = KeyMaterialType.UNKNOWN_KEYMATERIAL ∨
  k.data.keyMaterialType = KeyMaterialType.SYMMETRIC ∨
  k.data.keyMaterialType = KeyMaterialType.ASYMMETRIC_PRIVATE

/-- No key of the keyset is secret. -/
def NoSecret (ks : Keyset) : Prop := ∀ k ∈ ks.key, ¬ Secret k

/-- Two keys agree on everything but the key bytes and the kind of material. -/
def SameMetadata (k k' : Key) : Prop :=
  k.data.typeUrl = k'.data.typeUrl ∧ k.status = k'.status ∧ k.keyId = k'.keyId ∧
  k.outputPrefixType = k'.outputPrefixType

end Tink.Spec
