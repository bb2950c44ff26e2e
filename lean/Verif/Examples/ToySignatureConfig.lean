import Verif.Cc.SigKeyManagers
import Verif.Examples.ToySigSsl
import Verif.Examples.ToySymmetricConfig

/-!
# The toy library with the C++ key managers for signature keys as modelled

The library of `ToySymmetricConfig`, in which signatures are those of `Cc/SigKeyManagers.lean`, with the toy
cryptography of `ToySigSsl`.
-/

namespace Tink.ToySignatureConfig
open Spec Config Cc

def library : Library Bytes Bytes Bytes ToyStream.St UInt8 ToyConfig.Prim PrimClass :=
  { ToySymmetricConfig.library with
    ccSign := ccSign ToySig.lib
    ccVerify := ccVerify ToySig.lib }

theorem lawful : LawfulConfig library ToyConfig.isInst where
  bindingsRegister := rfl
  bindingsRegisterHpke := rfl
  ccAead := ToySymmetricConfig.lawful.ccAead
  ccDaead := ToySymmetricConfig.lawful.ccDaead
  ccHybridDecrypt := ToySymmetricConfig.lawful.ccHybridDecrypt
  ccHybridEncrypt := ToySymmetricConfig.lawful.ccHybridEncrypt
  ccMac := ToySymmetricConfig.lawful.ccMac
  ccPrf := ToySymmetricConfig.lawful.ccPrf
  ccSign u h := by
    simp only [keyTypes, List.mem_cons, Prod.mk.injEq, and_true, List.not_mem_nil, or_false, reduceCtorEq,
      and_false, false_or, or_false] at h
    rcases h with rfl | rfl | rfl | rfl <;> exact ⟨_, rfl, rfl⟩
  ccVerify u h := by
    simp only [keyTypes, List.mem_cons, Prod.mk.injEq, and_true, List.not_mem_nil, or_false, reduceCtorEq,
      and_false, false_or, or_false] at h
    rcases h with rfl | rfl | rfl | rfl <;> exact ⟨_, rfl, rfl⟩
  ccStreamingAead := ToySymmetricConfig.lawful.ccStreamingAead
  classes _ _ h := h
  aead _ := rfl
  daead _ := rfl
  hybridDecrypt _ := rfl
  hybridEncrypt _ := rfl
  mac _ := rfl
  prf _ := rfl
  prfSet _ := rfl
  sign _ := rfl
  verify _ := rfl
  rawStreamingAead _ := rfl
  streamingAead _ := rfl

end Tink.ToySignatureConfig
