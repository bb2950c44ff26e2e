import Verif.Spec.Config
import Verif.Spec.Hkdf
import Verif.Spec.Keyset
import Verif.Spec.Valid

/-!
# Specification vocabulary for C94: what a keyset of symmetric keys does

In terms of the keys that are stored in it, without primitives of single keys.
-/

namespace Tink.Spec
open Cc

/-! ## Key types -/

/-- The AEAD key types with a key in the key data (and not in a KMS). -/
def aeadTypes : List PStr :=
  [ps! "type.googleapis.com/google.crypto.tink.AesCtrHmacAeadKey",
   ps! "type.googleapis.com/google.crypto.tink.AesGcmKey",
   ps! "type.googleapis.com/google.crypto.tink.AesGcmSivKey",
   ps! "type.googleapis.com/google.crypto.tink.AesEaxKey",
   ps! "type.googleapis.com/google.crypto.tink.XChaCha20Poly1305Key"]

def daeadTypes : List PStr := [ps! "type.googleapis.com/google.crypto.tink.AesSivKey"]

def macTypes : List PStr :=
  [ps! "type.googleapis.com/google.crypto.tink.HmacKey",
   ps! "type.googleapis.com/google.crypto.tink.AesCmacKey"]

def prfTypes : List PStr :=
  [ps! "type.googleapis.com/google.crypto.tink.HmacPrfKey",
   ps! "type.googleapis.com/google.crypto.tink.HkdfPrfKey",
   ps! "type.googleapis.com/google.crypto.tink.AesCmacPrfKey"]

/-- The enabled keys of a keyset have one of these types and can be serialized. -/
def KeysOf (types : List PStr) (ks : Keyset) : Prop :=
  ∀ k ∈ ks.key, Enabled k → k.data.typeUrl ∈ types ∧ Fits k.data

/-! ## Keys of a keyset -/

/-- The enabled keys, in the order in which they are tried: keys with a prefix, then RAW keys. -/
def keysInOrder (ks : Keyset) : List Key :=
  (ks.key.filter fun k => Enabled k).filter (fun k => k.outputPrefixType ≠ OutputPrefixType.RAW) ++
  (ks.key.filter fun k => Enabled k).filter (fun k => k.outputPrefixType = OutputPrefixType.RAW)

/-- The key has one of the known ways to mark its outputs. -/
def PrefixKnown (k : Key) : Prop :=
  k.outputPrefixType ∈
    [OutputPrefixType.TINK, OutputPrefixType.LEGACY, OutputPrefixType.RAW, OutputPrefixType.CRUNCHY]

/-! ## What a key does -/

/-- The ciphertext is one that the key makes from the text: after the key's prefix comes the ciphertext for
some nonce. -/
def AeadOpens (lib : Ssl) (ad ct : Bytes) (k : Key) (pt : Bytes) : Prop :=
  ∃ body key nonce, payload k ct = some body ∧ AeadKey.StoredIn k.data.typeUrl k.data.value key ∧
    nonce.length = key.nonceSize ∧ key.ciphertext lib nonce ad pt = some body

/-- AES-SIV with a key: the first half is for the synthetic IV. -/
def SivKey.ciphertext (lib : Ssl) (k : SivKey) (ad pt : Bytes) : Bytes :=
  Modes.siv (lib.aes (k.key.take 32)) (lib.aes (k.key.drop 32)) ad pt

/-- The same for deterministic encryption. -/
def SivOpens (lib : Ssl) (ad ct : Bytes) (k : Key) (pt : Bytes) : Prop :=
  ∃ body key, payload k ct = some body ∧ SivKey.StoredIn k.data.typeUrl k.data.value key ∧
    body = key.ciphertext lib ad pt

/-- The tag is the one that the key computes for the data. -/
def TagOf (lib : Ssl) (data tag : Bytes) (k : Key) : Prop :=
  ∃ body key, payload k tag = some body ∧ MacKey.StoredIn k.data.typeUrl k.data.value key ∧
    body = key.tag lib (authenticated k data)

/-- The function is that of the key, for outputs below 2 GiB. -/
def Computes (lib : Ssl) (f : Prf) (k : Key) : Prop :=
  ∃ key, PrfKey.StoredIn k.data.typeUrl k.data.value key ∧ ∀ input n, n < 2 ^ 31 →
    f.compute input n = if n ≤ (key.output lib input).length then .ok ((key.output lib input).take n)
      else .error .tinkError

/-- The first key that does something, does it: `does k a`. -/
def FirstDoes {α : Type} (does : Key → α → Prop) (ks : Keyset) (a : α) : Prop :=
  ∃ before k after, keysInOrder ks = before ++ k :: after ∧ does k a ∧ ∀ k' ∈ before, ∀ a', ¬ does k' a'

end Tink.Spec
