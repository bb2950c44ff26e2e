import Verif.Kms.Remote

/-!
# Specification vocabulary for envelope encryption
-/

namespace Tink.Spec
variable {P C σ : Type}

/-- `bs` is a four byte big-endian length, that many bytes `dek`, and `body`. -/
def Framed (bs dek body : Bytes) : Prop :=
  dek.length < 4294967296 ∧ bs = be32 dek.length ++ dek ++ body

/-- What opening an envelope means: the server decrypts the embedded key with empty associated
data, and the key of the given type with those bytes decrypts the body. -/
def openEnvelope [DecidableEq C] (V : View P Aead) (c : C) (r : Registry P C) (typeUrl : PStr)
    (remote : RemoteAead σ) (s : σ) (dek body ad : Bytes) : σ × Py Bytes :=
  ((remote.decrypt s dek []).1, do
    let k ← (remote.decrypt s dek []).2
    let p ← r.primitive ⟨typeUrl, k, KeyMaterialType.SYMMETRIC⟩ c
    (V.view p).decrypt body ad)

/-- The five key types allowed for data encryption keys. -/
inductive DekType : PStr → Prop
  | aesGcm : DekType (ps! "type.googleapis.com/google.crypto.tink.AesGcmKey")
  | xChaCha : DekType (ps! "type.googleapis.com/google.crypto.tink.XChaCha20Poly1305Key")
  | aesCtrHmac : DekType (ps! "type.googleapis.com/google.crypto.tink.AesCtrHmacAeadKey")
  | aesEax : DekType (ps! "type.googleapis.com/google.crypto.tink.AesEaxKey")
  | aesGcmSiv : DekType (ps! "type.googleapis.com/google.crypto.tink.AesGcmSivKey")

/-- A call made to a remote AEAD. -/
inductive RemoteCall where
  | encrypt (plaintext ad : Bytes)
  | decrypt (ciphertext ad : Bytes)
  deriving DecidableEq

/-- The remote AEAD together with a record of the calls made to it. -/
def recording (a : RemoteAead σ) : RemoteAead (σ × List RemoteCall) where
  encrypt s pt ad := (((a.encrypt s.1 pt ad).1, s.2 ++ [.encrypt pt ad]), (a.encrypt s.1 pt ad).2)
  decrypt s ct ad := (((a.decrypt s.1 ct ad).1, s.2 ++ [.decrypt ct ad]), (a.decrypt s.1 ct ad).2)

end Tink.Spec
