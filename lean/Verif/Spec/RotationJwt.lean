import Verif.Spec.RotationWorks
import Verif.Spec.Rotation
import Verif.Spec.JwtMacKeys
import Verif.Spec.JwtSignatureKeys

/-!
# Specification vocabulary for C109: keysets for JWT that keep working
-/

namespace Tink.Spec
open Props Cc Jwt

/-- The predefined templates for `JwtMac`. -/
def jwsMacTemplates : List (Py KeyTemplate) :=
  [Templates.jwt_hs256_template, Templates.raw_jwt_hs256_template, Templates.jwt_hs384_template,
   Templates.raw_jwt_hs384_template, Templates.jwt_hs512_template, Templates.raw_jwt_hs512_template]

/-- New keys are made only of these templates. -/
def OnlyFrom (ts : List (Py KeyTemplate)) (ops : List BuilderOp) : Prop :=
  ∀ seed draws t, BuilderOp.addNewKey seed draws t ∈ ops → .ok t ∈ ts

/-- Every key, enabled or not, has prefix type TINK or RAW, can be serialized, and holds something good. -/
def AllTokenUsable (good : KeyData → Prop) (ks : Keyset) : Prop :=
  ∀ k ∈ ks.key, (k.outputPrefixType = OutputPrefixType.RAW ∨ k.outputPrefixType = OutputPrefixType.TINK) ∧
    Fits k.data ∧ good k.data

/-- As before, but keys with the given ids need not be of use; those that are not of use are not enabled. -/
def TokenUsableExcept (ids : List UInt32) (good : KeyData → Prop) (ks : Keyset) : Prop :=
  ∀ k ∈ ks.key, ((k.outputPrefixType = OutputPrefixType.RAW ∨ k.outputPrefixType = OutputPrefixType.TINK) ∧
    Fits k.data ∧ good k.data) ∨ (k.keyId ∈ ids ∧ ¬ Enabled k)

/-- A secret for an algorithm of RFC 7518, at least as long as the digest. -/
def GoodTokenMac (kd : KeyData) : Prop := ∃ alg ck hash key, JwsMacKey kd alg ck hash key

/-- A private key for an algorithm of RFC 7518 that can be used, with the public part that belongs to it. -/
def GoodTokenSign (lib : SigSsl) (kd : KeyData) : Prop :=
  kd.typeUrl ∈ jwsSigners.map Prod.fst ∧ kd.keyMaterialType = KeyMaterialType.ASYMMETRIC_PRIVATE ∧
    ∃ i s, JwsPrivateKey kd i s ∧ s.Ok lib ∧ s.Matches lib ∧ s.size + i.kidSize < 2 ^ 31 - 1000

end Tink.Spec
