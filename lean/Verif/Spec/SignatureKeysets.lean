import Verif.Spec.SignatureKeys
import Verif.Spec.SymmetricKeysets

/-!
# Specification vocabulary for C98: what keysets of signature keys do
-/

namespace Tink.Spec
open Cc

/-- The key types of private keys. -/
def signTypes : List PStr :=
  [ps! "type.googleapis.com/google.crypto.tink.EcdsaPrivateKey",
   ps! "type.googleapis.com/google.crypto.tink.Ed25519PrivateKey",
   ps! "type.googleapis.com/google.crypto.tink.RsaSsaPkcs1PrivateKey",
   ps! "type.googleapis.com/google.crypto.tink.RsaSsaPssPrivateKey"]

/-- The key types of public keys. -/
def verifyTypes : List PStr :=
  [ps! "type.googleapis.com/google.crypto.tink.EcdsaPublicKey",
   ps! "type.googleapis.com/google.crypto.tink.Ed25519PublicKey",
   ps! "type.googleapis.com/google.crypto.tink.RsaSsaPkcs1PublicKey",
   ps! "type.googleapis.com/google.crypto.tink.RsaSsaPssPublicKey"]

/-- The public key accepts the signature: after the key's prefix comes a valid signature of the data. -/
def SignatureUnder (lib : SigSsl) (data sig : Bytes) (k : Key) : Prop :=
  ∃ body v, payload k sig = some body ∧ PubKey.StoredIn k.data.typeUrl k.data.value v ∧
    v.Valid lib (authenticated k data) body

/-- All keys of the keyset, enabled or not, are private signature keys and can be serialized, also after their
public parts have been taken out. -/
def PrivateKeyset (ks : Keyset) : Prop :=
  ∀ k ∈ ks.key, k.data.typeUrl ∈ signTypes ∧ Fits k.data ∧
    k.data.keyMaterialType = KeyMaterialType.ASYMMETRIC_PRIVATE ∧
    ∀ s, SigKey.StoredIn k.data.typeUrl k.data.value s → s.size < 2 ^ 31 - 1000

/-- The key is the public counterpart of a private key: the same status, id and kind of prefix, and the
public part of what is stored. -/
def Counterpart (k pub : Key) : Prop :=
  pub.status = k.status ∧ pub.keyId = k.keyId ∧ pub.outputPrefixType = k.outputPrefixType ∧
  PublicType k.data.typeUrl pub.data.typeUrl ∧
  pub.data.keyMaterialType = KeyMaterialType.ASYMMETRIC_PUBLIC ∧ Fits pub.data ∧
  ∃ s, SigKey.StoredIn k.data.typeUrl k.data.value s ∧
    PubKey.StoredIn pub.data.typeUrl pub.data.value s.publicPart

end Tink.Spec
