import Verif.Spec.Rotation
import Verif.Spec.SignatureKeysets
import Verif.Spec.HybridKeysets

/-!
# Specification vocabulary for C109: keysets that keep working
-/

namespace Tink.Spec
open Props Config Cc

/-- New keys are made only of predefined templates of the package. -/
def PredefinedOnly (pkg : Package) (ops : List BuilderOp) : Prop :=
  ∀ seed draws t, BuilderOp.addNewKey seed draws t ∈ ops → .ok t ∈ templates pkg

/-- The template, or what `raw_template` or `legacy_template` makes of it. -/
def VariantOf (t t' : KeyTemplate) : Prop :=
  t' = t ∨ t' = KeysetBuilder.rawTemplate t ∨ t' = KeysetBuilder.legacyTemplate t

/-- New keys are made only of predefined templates of the package, and of their raw and legacy variants. -/
def FromPredefined (pkg : Package) (ops : List BuilderOp) : Prop :=
  ∀ seed draws t', BuilderOp.addNewKey seed draws t' ∈ ops → ∃ t, .ok t ∈ templates pkg ∧ VariantOf t t'

theorem PredefinedOnly.variants {pkg : Package} {ops : List BuilderOp} (h : PredefinedOnly pkg ops) :
    FromPredefined pkg ops := fun _ _ t hm => ⟨t, h _ _ _ hm, .inl rfl⟩

/-- Every key, enabled or not, is one that can be used: it has one of the types, can be serialized, has a known kind of
prefix, and holds something good. -/
def AllUsable (types : List PStr) (good : KeyData → Prop) (ks : Keyset) : Prop :=
  ∀ k ∈ ks.key, k.data.typeUrl ∈ types ∧ Fits k.data ∧ PrefixKnown k ∧ good k.data

/-- As before, but keys with the given ids need not be of use (a destroyed key has no key data, for example); those that
are not of use are not enabled. -/
def UsableExcept (ids : List UInt32) (types : List PStr) (good : KeyData → Prop) (ks : Keyset) : Prop :=
  ∀ k ∈ ks.key, (k.data.typeUrl ∈ types ∧ Fits k.data ∧ PrefixKnown k ∧ good k.data) ∨ (k.keyId ∈ ids ∧ ¬ Enabled k)

/-- No call enables a key with one of the ids. -/
def NeverEnables (ids : List UInt32) (ops : List BuilderOp) : Prop := ∀ id ∈ ids, BuilderOp.enableKey id ∉ ops

theorem AllUsable.except {types : List PStr} {good : KeyData → Prop} {ks : Keyset} (h : AllUsable types good ks) :
    UsableExcept [] types good ks := fun k hk => .inl (h k hk)

def GoodAead (kd : KeyData) : Prop := ∃ key, AeadKey.StoredIn kd.typeUrl kd.value key ∧ key.Ok
def GoodDaead (kd : KeyData) : Prop := ∃ key, SivKey.StoredIn kd.typeUrl kd.value key ∧ key.Ok
def GoodMac (kd : KeyData) : Prop := ∃ key, MacKey.StoredIn kd.typeUrl kd.value key ∧ key.Ok
def GoodPrf (kd : KeyData) : Prop := ∃ key, PrfKey.StoredIn kd.typeUrl kd.value key ∧ key.Ok

/-- Private, and the public part is that of the private part. -/
def GoodSign (lib : SigSsl) (kd : KeyData) : Prop :=
  kd.keyMaterialType = KeyMaterialType.ASYMMETRIC_PRIVATE ∧
    ∃ s, SigKey.StoredIn kd.typeUrl kd.value s ∧ s.Ok lib ∧ s.Matches lib ∧ s.size < 2 ^ 31 - 1000

/-- Private, the public part is that of the private part, and sizes do not overflow. -/
def GoodHybrid (lib : HybSsl) (kd : KeyData) : Prop :=
  kd.keyMaterialType = KeyMaterialType.ASYMMETRIC_PRIVATE ∧
    ∃ s, HybPriv.StoredIn kd.typeUrl kd.value s ∧ s.Ok ∧ s.Matches lib ∧ s.publicPart.Ok lib ∧
      s.publicPart.Checked ∧ s.publicPart.NoOverflow ∧ s.size < 2 ^ 31 - 1000

end Tink.Spec
