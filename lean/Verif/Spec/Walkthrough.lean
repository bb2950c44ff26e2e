import Verif.Kms.Remote
import Verif.Spec.Config
import Verif.Spec.Envelope
import Verif.Spec.Keyset
import Verif.Jwt.Codec

/-!
# Vocabulary for keysets kept under a KMS key
-/

namespace Tink.Spec
open Config

/-- A text without surrogates and far shorter than 2 GiB: a URI that fits into a key. -/
structure UsableUri (uri : PyStr) : Prop where
  chars : ∀ c ∈ uri, c < 0xD800 ∨ (0xE000 ≤ c ∧ c < 0x110000)
  short : uri.length < 500000000

/-- `a` is what the first registered client that says it supports the URI returns for it. -/
def KmsGives (clients : List (KmsClient Aead)) (uri : PyStr) (a : Aead) : Prop :=
  ∃ before c after, clients = before ++ c :: after ∧ (∀ d ∈ before, d.doesSupport uri = .ok false) ∧
    c.doesSupport uri = .ok true ∧ c.getAead uri = .ok a

/-- Asking the clients for the URI ends in the exception `e`: no client supports the URI (and `e` is
`TinkError`), or the first that does not say "no" raises `e`. -/
def KmsRaises (clients : List (KmsClient Aead)) (uri : PyStr) (e : Exc) : Prop :=
  (e = .tinkError ∧ ∀ d ∈ clients, d.doesSupport uri = .ok false) ∨
  ∃ before c after, clients = before ++ c :: after ∧ (∀ d ∈ before, d.doesSupport uri = .ok false) ∧
    (c.doesSupport uri = .error e ∨ (c.doesSupport uri = .ok true ∧ c.getAead uri = .error e))

/-- `a'` decrypts what `a` encrypts with the associated data `ad`, and no ciphertext is empty. -/
def OpensFor (a a' : Aead) (ad : Bytes) : Prop :=
  ∀ s pt ct, a.encrypt s pt ad = .ok ct → ct ≠ [] ∧ a'.decrypt ct ad = .ok pt

/-- Every refusal is a plain `TinkError`; everything else is as it is. -/
def plainRefusal {α : Type} : Py α → Py α
  | .ok x => .ok x
  | .error e => if e.isTink then .error .tinkError else .error e

/-- The bytes written in URL-safe base64, with or without the padding, as a `str`. -/
def fakeKeyId (padded : Bool) (b : Bytes) : PyStr :=
  (if padded then urlsafeB64encode b else Jwt.base64Encode b).map UInt8.toNat

section
variable {σ δ ε τ S P C : Type}

/-- The key types for data keys are registered, with the C++ key managers of the library. -/
def DekRegistered (L : Library σ δ ε τ S P C) (r : Registry P C) : Prop :=
  ∀ url, DekType url → ∃ m cc, PyDict.get? r.keyManagers url = some (m, true) ∧
    m.primitiveClass = L.cls .aead ∧ m.keyType = url ∧ L.ccAead url = some cc ∧
    Serves L.aead aeadCcToPy cc false m

/-- The keys that the C++ key manager makes from the template are symmetric keys of the template's type,
small enough to be handed over. -/
def MakesKeys (cc : Cpp.KeyManager Cpp.Aead) (t : KeyTemplate) : Prop :=
  ∀ seed kd, cc.newKeyData seed t.value = .ok kd →
    kd.typeUrl = t.typeUrl ∧ kd.keyMaterialType = KeyMaterialType.SYMMETRIC ∧ Fits kd

/-- With the keys that `cc` makes from the template, `cc'` decrypts what `cc` encrypts, and no ciphertext
is empty. -/
def SameKeys (cc cc' : Cpp.KeyManager Cpp.Aead) (t : KeyTemplate) : Prop :=
  ∀ seed kd a, cc.newKeyData seed t.value = .ok kd → cc.getPrimitive kd = .ok a →
    ∃ a', cc'.getPrimitive kd = .ok a' ∧
      ∀ s pt ad ct, a.encrypt s pt ad = .ok ct → ct ≠ [] ∧ a'.decrypt ct ad = .ok pt

end
end Tink.Spec
