import Verif.Spec.HybridKeys
import Verif.Spec.SymmetricKeysets

/-!
# Specification vocabulary for C102: what keysets of hybrid encryption keys do
-/

namespace Tink.Spec
open Cc

/-- The key types of private keys. -/
def hybridPrivateTypes : List PStr :=
  [ps! "type.googleapis.com/google.crypto.tink.EciesAeadHkdfPrivateKey",
   ps! "type.googleapis.com/google.crypto.tink.HpkePrivateKey"]

/-- The key types of public keys. -/
def hybridPublicTypes : List PStr :=
  [ps! "type.googleapis.com/google.crypto.tink.EciesAeadHkdfPublicKey",
   ps! "type.googleapis.com/google.crypto.tink.HpkePublicKey"]

/-- The private key decrypts the ciphertext: after the key's prefix comes a ciphertext of the text. -/
def HybridOpens (lib : HybSsl) (info ct : Bytes) (k : Key) (pt : Bytes) : Prop :=
  ∃ body s, payload k ct = some body ∧ HybPriv.StoredIn k.data.typeUrl k.data.value s ∧
    s.Decrypts lib info body pt

/-- For no enabled key, the sizes of the keys for the data add up to `2 ^ 32` or more. -/
def NoOverflowIn (ks : Keyset) : Prop :=
  ∀ k ∈ ks.key, Enabled k → ∀ s, HybPriv.StoredIn k.data.typeUrl k.data.value s → s.publicPart.NoOverflow

/-- With this randomness, encryption with the public key ends with a result or a status. -/
def HybPub.Ends (lib : HybSsl) (seed : Seed) : HybPub → Prop
  | .ecies p x _ => p.NoOverflow ∧
    (p.curve = EllipticCurveType.CURVE25519 → lib.x25519 (lib.x25519Generate seed) x ≠ none)
  | .hpke .. => True

/-- All keys of the keyset, enabled or not, are private keys for hybrid encryption and can be serialized, also
after their public parts have been taken out. -/
def PrivateHybridKeyset (ks : Keyset) : Prop :=
  ∀ k ∈ ks.key, k.data.typeUrl ∈ hybridPrivateTypes ∧ Fits k.data ∧
    k.data.keyMaterialType = KeyMaterialType.ASYMMETRIC_PRIVATE ∧
    ∀ s, HybPriv.StoredIn k.data.typeUrl k.data.value s → s.size < 2 ^ 31 - 1000

/-- The key is the public counterpart of a private key: the same status, id and kind of prefix, and the
public part of what is stored. -/
def HybridCounterpart (k pub : Key) : Prop :=
  pub.status = k.status ∧ pub.keyId = k.keyId ∧ pub.outputPrefixType = k.outputPrefixType ∧
  HybridType k.data.typeUrl pub.data.typeUrl ∧
  pub.data.keyMaterialType = KeyMaterialType.ASYMMETRIC_PUBLIC ∧ Fits pub.data ∧
  ∃ s, HybPriv.StoredIn k.data.typeUrl k.data.value s ∧
    HybPub.StoredIn pub.data.typeUrl pub.data.value s.publicPart

end Tink.Spec
