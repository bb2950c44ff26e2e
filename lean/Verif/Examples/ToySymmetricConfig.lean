import Verif.Cc.KeyManagers
import Verif.Examples.ToyConfig
import Verif.Examples.ToySsl

/-!
# The toy library with the C++ key managers for symmetric keys as modelled

The library of `ToyConfig`, in which AEADs, deterministic AEADs, MACs and PRFs are those of
`Cc/KeyManagers.lean`, with the toy cryptography of `ToySsl`.
-/

namespace Tink.ToySymmetricConfig
open Spec Config Cc

def library : Library Bytes Bytes Bytes ToyStream.St UInt8 ToyConfig.Prim PrimClass :=
  { ToyConfig.library with
    ccAead := ccAead ToySsl.lib
    ccDaead := ccDaead ToySsl.lib
    ccMac := ccMac ToySsl.lib
    ccPrf := ccPrf ToySsl.lib }

theorem lawful : LawfulConfig library ToyConfig.isInst where
  bindingsRegister := rfl
  bindingsRegisterHpke := rfl
  ccAead u h h1 h2 := by
    simp only [keyTypes, List.mem_cons, Prod.mk.injEq, and_true, List.not_mem_nil, or_false] at h
    rcases h with rfl | rfl | rfl | rfl | rfl | rfl | rfl
    all_goals first
      | exact absurd rfl h1
      | exact absurd rfl h2
      | exact ⟨_, rfl, rfl⟩
  ccDaead u h := by
    simp only [keyTypes, List.mem_cons, Prod.mk.injEq, and_true, List.not_mem_nil, or_false] at h
    subst h
    exact ⟨_, rfl, rfl⟩
  ccHybridDecrypt := ToyConfig.lawful.ccHybridDecrypt
  ccHybridEncrypt := ToyConfig.lawful.ccHybridEncrypt
  ccMac u h := by
    simp only [keyTypes, List.mem_cons, Prod.mk.injEq, and_true, List.not_mem_nil, or_false] at h
    rcases h with rfl | rfl <;> exact ⟨_, rfl, rfl⟩
  ccPrf u h := by
    simp only [keyTypes, List.mem_cons, Prod.mk.injEq, and_true, List.not_mem_nil, or_false] at h
    rcases h with rfl | rfl | rfl <;> exact ⟨_, rfl, rfl⟩
  ccSign := ToyConfig.lawful.ccSign
  ccVerify := ToyConfig.lawful.ccVerify
  ccStreamingAead := ToyConfig.lawful.ccStreamingAead
  classes _ _ h := h
  aead _ := rfl
  daead _ := rfl
  hybridDecrypt _ := rfl
  hybridEncrypt _ := rfl
  mac _ := rfl
  prf _ := rfl
  prfSet _ := rfl
  sign _ := rfl
  verify _ := rfl
  rawStreamingAead _ := rfl
  streamingAead _ := rfl

end Tink.ToySymmetricConfig
