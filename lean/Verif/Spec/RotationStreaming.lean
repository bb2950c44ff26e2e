import Verif.Spec.RotationWorks
import Verif.Spec.StreamingKeys
import Verif.Stream.StreamingKeyManagers

/-!
# Specification vocabulary for C109: keysets for streaming AEAD
-/

namespace Tink.Spec
open Config

/-- The key types for streaming AEAD. -/
def streamingTypes : List PStr :=
  [ps! "type.googleapis.com/google.crypto.tink.AesGcmHkdfStreamingKey",
   ps! "type.googleapis.com/google.crypto.tink.AesCtrHmacStreamingKey"]

/-- `q` is what C++ makes of the key. -/
def StreamingKeyOf (lib : SegmentLibrary) (k : Key) (q : NonceBased Nat Segment.State) : Prop :=
  ∃ cc, ccStreamingAead lib k.data.typeUrl = some cc ∧ cc.getPrimitive k.data = .ok q

/-- The key data hold a key of version 0, with parameters that are supported. -/
def GoodStreaming (kd : KeyData) : Prop :=
  (kd.typeUrl = ps! "type.googleapis.com/google.crypto.tink.AesGcmHkdfStreamingKey" ∧
    ∃ k, AesGcmHkdfStreamingKey.fromString kd.value = .ok k ∧ k.version = 0 ∧
      k.getParams.derivedKeySize.toNat ≤ k.keyValue.length ∧ GcmParamsOk k.getParams ∧
      k.getParams.ciphertextSegmentSize.toNat < 2 ^ 31) ∨
  (kd.typeUrl = ps! "type.googleapis.com/google.crypto.tink.AesCtrHmacStreamingKey" ∧
    ∃ k, AesCtrHmacStreamingKey.fromString kd.value = .ok k ∧ k.version = 0 ∧
      k.getParams.derivedKeySize.toNat ≤ k.keyValue.length ∧ CtrParamsOk k.getParams)

/-- The key data hold a key whose derived keys have this size, in bytes. -/
def DerivedSize (kd : KeyData) (n : Nat) : Prop :=
  (kd.typeUrl = ps! "type.googleapis.com/google.crypto.tink.AesGcmHkdfStreamingKey" ∧
    ∃ k, AesGcmHkdfStreamingKey.fromString kd.value = .ok k ∧ k.getParams.derivedKeySize.toNat = n) ∨
  (kd.typeUrl = ps! "type.googleapis.com/google.crypto.tink.AesCtrHmacStreamingKey" ∧
    ∃ k, AesCtrHmacStreamingKey.fromString kd.value = .ok k ∧ k.getParams.derivedKeySize.toNat = n)

end Tink.Spec
