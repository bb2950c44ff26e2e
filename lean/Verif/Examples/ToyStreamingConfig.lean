import Verif.Examples.ToyConfig
import Verif.Examples.ToySegments
import Verif.Stream.StreamingKeyManagers

/-!
# The toy library with the C++ streaming AEADs as modelled

The library of `ToyConfig`, in which streaming AEADs are those of `Stream/StreamingKeyManagers.lean`, with
the toy cryptography of `ToySegments`.
-/

namespace Tink.ToyStreamingConfig
open Spec Config

abbrev Raw := RawStreamingAead (Dest (Unit × Bytes)) (CcEncrypting Nat (Unit × Bytes)) (CcDecrypting Segment.State)
abbrev Streaming := StreamingAead (Bytes × Bool) (Dest (Unit × Bytes)) (CcEncrypting Nat (Unit × Bytes))
  (CcDecrypting Segment.State)

inductive Prim where
  | other (p : ToyConfig.Prim)
  | rawStreamingAead (a : Raw)
  | streamingAead (a : Streaming)

def isInst : Prim → PrimClass → Bool
  | .other p, c => ToyConfig.isInst p c
  | .rawStreamingAead _, .rawStreamingAead => true
  | .streamingAead _, .streamingAead => true
  | _, _ => false

def lift {A : Type} (V : View ToyConfig.Prim A) : View Prim A where
  inj a := .other (V.inj a)
  view
    | .other p => V.view p
    | _ => V.view (.streamingAead ⟨fun _ _ _ => .error .attributeError, fun _ _ _ => .error .attributeError⟩)
  view_inj a := V.view_inj a

def raw (p : NonceBased Nat Segment.State) : Raw := p.toRaw (fun _ => false) [0, 0, 0, 0, 0]

def library : Library (Bytes × Bool) (Dest (Unit × Bytes)) (CcEncrypting Nat (Unit × Bytes))
    (CcDecrypting Segment.State) (NonceBased Nat Segment.State) Prim PrimClass where
  aead := lift ToyConfig.library.aead
  daead := lift ToyConfig.library.daead
  hybridDecrypt := lift ToyConfig.library.hybridDecrypt
  hybridEncrypt := lift ToyConfig.library.hybridEncrypt
  mac := lift ToyConfig.library.mac
  prf := lift ToyConfig.library.prf
  prfSet := lift ToyConfig.library.prfSet
  sign := lift ToyConfig.library.sign
  verify := lift ToyConfig.library.verify
  rawStreamingAead :=
    ⟨.rawStreamingAead, fun | .rawStreamingAead a => a | _ => raw ⟨fun _ _ => .error ⟨.unknown, false⟩, fun _ => .error ⟨.unknown, false⟩⟩,
      fun _ => rfl⟩
  streamingAead :=
    ⟨.streamingAead, fun | .streamingAead a => a
                         | _ => ⟨fun _ _ _ => .error .attributeError, fun _ _ _ => .error .attributeError⟩,
      fun _ => rfl⟩
  cls := id
  managerType := 1
  privateManagerType := 2
  kmsManagerType := 3
  envelopeManagerType := 4
  wrapperType := ToyConfig.library.wrapperType
  bindingsRegister := .ok ()
  bindingsRegisterHpke := .ok ()
  ccAead := ToyConfig.library.ccAead
  ccDaead := ToyConfig.library.ccDaead
  ccHybridDecrypt := ToyConfig.library.ccHybridDecrypt
  ccHybridEncrypt := ToyConfig.library.ccHybridEncrypt
  ccMac := ToyConfig.library.ccMac
  ccPrf := ToyConfig.library.ccPrf
  ccSign := ToyConfig.library.ccSign
  ccVerify := ToyConfig.library.ccVerify
  ccStreamingAead := ccStreamingAead ToySegments.lib
  streamingCcToPy := raw
  kmsClients := []
  kmsRegistry := {}
  kmsSeed := 0
  kmsSplit s := (s, s, s)

theorem lawful : LawfulConfig library isInst where
  bindingsRegister := rfl
  bindingsRegisterHpke := rfl
  ccAead := ToyConfig.lawful.ccAead
  ccDaead := ToyConfig.lawful.ccDaead
  ccHybridDecrypt := ToyConfig.lawful.ccHybridDecrypt
  ccHybridEncrypt := ToyConfig.lawful.ccHybridEncrypt
  ccMac := ToyConfig.lawful.ccMac
  ccPrf := ToyConfig.lawful.ccPrf
  ccSign := ToyConfig.lawful.ccSign
  ccVerify := ToyConfig.lawful.ccVerify
  ccStreamingAead u h := by
    simp only [keyTypes, List.mem_cons, Prod.mk.injEq, and_true, List.not_mem_nil, or_false] at h
    rcases h with rfl | rfl
    · exact ⟨(AesCtrHmacStreamingKeyManager.keyTypeManager ToySegments.lib).toKeyManager, rfl, rfl⟩
    · exact ⟨(AesGcmHkdfStreamingKeyManager.keyTypeManager ToySegments.lib).toKeyManager, rfl, rfl⟩
  classes _ _ h := h
  aead _ := rfl
  daead _ := rfl
  hybridDecrypt _ := rfl
  hybridEncrypt _ := rfl
  mac _ := rfl
  prf _ := rfl
  prfSet _ := rfl
  sign _ := rfl
  verify _ := rfl
  rawStreamingAead _ := rfl
  streamingAead _ := rfl

end Tink.ToyStreamingConfig
