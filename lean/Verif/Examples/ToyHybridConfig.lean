import Verif.Cc.HybridKeyManagers
import Verif.Examples.ToyHybSsl
import Verif.Examples.ToySymmetricConfig

/-!
# The toy library with the C++ key managers for hybrid encryption as modelled

The library of `ToySymmetricConfig`, in which hybrid encryption is that of `Cc/HybridKeyManagers.lean`, with the toy
cryptography of `ToyHybSsl`.
-/

namespace Tink.ToyHybridConfig
open Spec Config Cc

def library : Library Bytes Bytes Bytes ToyStream.St UInt8 ToyConfig.Prim PrimClass :=
  { ToySymmetricConfig.library with
    ccHybridDecrypt := ccHybridDecrypt ToyHyb.lib
    ccHybridEncrypt := ccHybridEncrypt ToyHyb.lib }

theorem lawful : LawfulConfig library ToyConfig.isInst where
  bindingsRegister := rfl
  bindingsRegisterHpke := rfl
  ccAead := ToySymmetricConfig.lawful.ccAead
  ccDaead := ToySymmetricConfig.lawful.ccDaead
  ccHybridDecrypt u h := by
    simp only [keyTypes, List.mem_cons, Prod.mk.injEq, and_true, List.not_mem_nil, or_false, reduceCtorEq,
      and_false, false_or, or_false] at h
    rcases h with rfl | rfl <;> exact ⟨_, rfl, rfl⟩
  ccHybridEncrypt u h := by
    simp only [keyTypes, List.mem_cons, Prod.mk.injEq, and_true, List.not_mem_nil, or_false, reduceCtorEq,
      and_false, false_or, or_false] at h
    rcases h with rfl | rfl <;> exact ⟨_, rfl, rfl⟩
  ccMac := ToySymmetricConfig.lawful.ccMac
  ccPrf := ToySymmetricConfig.lawful.ccPrf
  ccSign := ToySymmetricConfig.lawful.ccSign
  ccVerify := ToySymmetricConfig.lawful.ccVerify
  ccStreamingAead := ToySymmetricConfig.lawful.ccStreamingAead
  classes _ _ h := h
  aead _ := rfl
  daead _ := rfl
  hybridDecrypt _ := rfl
  hybridEncrypt _ := rfl
  mac _ := rfl
  prf _ := rfl
  prfSet _ := rfl
  sign _ := rfl
  verify _ := rfl
  rawStreamingAead _ := rfl
  streamingAead _ := rfl

end Tink.ToyHybridConfig
