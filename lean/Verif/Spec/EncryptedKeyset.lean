import Verif.Cli.EncryptedKeyset
import Verif.Spec.Cli
import Verif.Spec.Valid

/-!
# Vocabulary for C108: the program for encrypted keysets
-/

namespace Tink.Spec
open Cli Config

section
variable {κ F : Type}

/-- The URI names the key `name` of the KMS, and the credentials give the client `c`.  (A line feed after
the name is let through, see C37.) -/
def KekFor (api : PyStr → Py (Gcp.ApiClient κ)) (uri credentials : PyStr) (c : Gcp.ApiClient κ)
    (name : PyStr) : Prop :=
  uri = py! "gcp-kms://" ++ name ∧
    (∃ n p l r k, GcpKeyName n p l r k ∧ (name = n ∨ name = n ++ py! "\n")) ∧ api credentials = .ok c

/-- `ad` is what the Google library makes of the text that the program gives as associated data. -/
def KeysetData (convert : PyStr → Py Bytes) (ad : Bytes) : Prop :=
  convert (py! "encrypted keyset example") = .ok ad

/-- In the state `s`, the server encrypts the keyset of `h` to `e`, and decrypts it at once to the same
keyset. -/
def EncryptedBy (c : Gcp.ApiClient κ) (name : PyStr) (ad : Bytes) (s : κ) (h : KeysetHandle)
    (e : EncryptedKeyset) : Prop :=
  ∃ serialized s1 pt, h.keyset.serializeToString = .ok serialized ∧
    c.encrypt s name serialized ad = (s1, .ok e.encryptedKeyset) ∧
    (c.decrypt s1 name e.encryptedKeyset ad).2 = .ok pt ∧ Keyset.fromString pt = .ok h.keyset ∧
    e.keysetInfo = some (keysetInfo h.keyset)

/-- The JSON text of an encrypted keyset. -/
def EncryptedText (E : JsonFormatEnv F) (e : EncryptedKeyset) (text : PyStr) : Prop :=
  (jsonKeysetWriter E).writeEncrypted [] e = (text, .ok ())

/-- The file at the path can be read and is an encrypted keyset in the JSON format, which the server
decrypts in the state `s` to the keyset of `h`. -/
def EncryptedKeysetFile (E : JsonFormatEnv F) (c : Gcp.ApiClient κ) (name : PyStr) (ad : Bytes) (s : κ)
    (os : Os) (files : Nat → Option Bytes) (path : Path) (h : KeysetHandle) : Prop :=
  ∃ b text e pt, FileHolds os files path b ∧ TextOf b text ∧ (jsonKeysetReader E text).readEncrypted = .ok e ∧
    e.encryptedKeyset ≠ [] ∧ (c.decrypt s name e.encryptedKeyset ad).2 = .ok pt ∧
    Keyset.fromString pt = .ok h.keyset ∧ Valid h.keyset

/-- In the state `s'` the server decrypts, with this associated data, what it has encrypted in the state
`s`; and what it encrypts is not empty. -/
def ServingWith (c : Gcp.ApiClient κ) (name : PyStr) (ad : Bytes) (s s' : κ) : Prop :=
  ∀ key s1 ct, c.encrypt s name key ad = (s1, .ok ct) → ct ≠ [] ∧ (c.decrypt s' name ct ad).2 = .ok key

end
end Tink.Spec
