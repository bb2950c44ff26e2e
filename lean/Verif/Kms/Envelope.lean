import Verif.Kms.Remote

/-!
# Envelope encryption

`/repo/python/tink/aead/_kms_envelope_aead.py`.
-/

namespace Tink
variable {P C σ : Type} [DecidableEq C]

/-- `_SUPPORTED_DEK_KEY_TYPES`, `_kms_envelope_aead.py:22-28`. -/
def supportedDekKeyTypes : List PStr :=
  [ps! "type.googleapis.com/google.crypto.tink.AesGcmKey",
   ps! "type.googleapis.com/google.crypto.tink.XChaCha20Poly1305Key",
   ps! "type.googleapis.com/google.crypto.tink.AesCtrHmacAeadKey",
   ps! "type.googleapis.com/google.crypto.tink.AesEaxKey",
   ps! "type.googleapis.com/google.crypto.tink.AesGcmSivKey"]

/-- `is_supported_dek_key_type`, `_kms_envelope_aead.py:31-32`. -/
def isSupportedDekKeyType (typeUrl : PStr) : Bool := decide (typeUrl ∈ supportedDekKeyTypes)

/-- `DEK_LEN_BYTES`, `_kms_envelope_aead.py:60`. -/
def DEK_LEN_BYTES : Nat := 4

/-- The attributes of a `KmsEnvelopeAead` object. -/
structure KmsEnvelopeAead (σ : Type) where
  keyTemplate : KeyTemplate
  remoteAead : RemoteAead σ

namespace KmsEnvelopeAead

omit [DecidableEq C] in
/-- `KmsEnvelopeAead.__init__`, `_kms_envelope_aead.py:62-74`. -/
def create (r : Registry P C) (seed : Seed) (keyTemplate : KeyTemplate) (remote : RemoteAead σ) :
    Py (KmsEnvelopeAead σ) :=
  if !isSupportedDekKeyType keyTemplate.typeUrl then .error .tinkError
  else do
    let _ ← r.newKeyData seed keyTemplate
    return { keyTemplate := keyTemplate, remoteAead := remote }

/-- `struct.pack('>I', n)`. -/
def packLen (n : Nat) : Py Bytes := if n < 4294967296 then .ok (be32 n) else .error .structError

/-- `KmsEnvelopeAead.encrypt`, `_kms_envelope_aead.py:76-89`.  `c` is the class `Aead`, `V` reads
its objects; `seedDek` and `seedEnc` feed the key generation and the encryption with the new key.
The registry is the one in place at the time of the call. -/
def encrypt (V : View P Aead) (c : C) (r : Registry P C) (env : KmsEnvelopeAead σ) (s : σ)
    (seedDek seedEnc : Seed) (plaintext ad : Bytes) : σ × Py Bytes :=
  match r.newKeyData seedDek env.keyTemplate with
  | .error e => (s, .error e)
  | .ok dek =>
    match r.primitive dek c with
    | .error e => (s, .error e)
    | .ok dekAead =>
      match (V.view dekAead).encrypt seedEnc plaintext ad with
      | .error e => (s, .error e)
      | .ok ciphertext =>
        match env.remoteAead.encrypt s dek.value [] with
        | (s', .error e) => (s', .error e)
        | (s', .ok encryptedDek) =>
          match packLen encryptedDek.length with
          | .error e => (s', .error e)
          | .ok encDekLen => (s', .ok (encDekLen ++ encryptedDek ++ ciphertext))

/-- `struct.unpack('>I', b)[0]`. -/
def unpackLen : Bytes → Py Nat
  | [a, b, c, d] => .ok (ofBe32 a b c d)
  | _ => .error .structError

/-- `KmsEnvelopeAead.decrypt`, `_kms_envelope_aead.py:91-120`. -/
def decrypt (V : View P Aead) (c : C) (r : Registry P C) (env : KmsEnvelopeAead σ) (s : σ)
    (ciphertext ad : Bytes) : σ × Py Bytes :=
  let ctLen := ciphertext.length
  if ctLen < DEK_LEN_BYTES then (s, .error .tinkError)
  else
    match unpackLen (ciphertext.take DEK_LEN_BYTES) with
    | .error e => (s, .error e)
    | .ok dekLen =>
      if dekLen > ctLen - DEK_LEN_BYTES then (s, .error .tinkError)
      else
        let encryptedDekBytes := (ciphertext.drop DEK_LEN_BYTES).take dekLen
        match env.remoteAead.decrypt s encryptedDekBytes [] with
        | (s', .error e) => (s', .error e)
        | (s', .ok dekBytes) =>
          let dek : KeyData := { typeUrl := env.keyTemplate.typeUrl, value := dekBytes,
                                 keyMaterialType := KeyMaterialType.SYMMETRIC }
          match r.primitive dek c with
          | .error e => (s', .error e)
          | .ok dekAead =>
            let ctBytes := ciphertext.drop (DEK_LEN_BYTES + dekLen)
            (s', (V.view dekAead).decrypt ctBytes ad)

/-- The envelope AEAD over a local `Aead`, as an `Aead` object.  `split` derives the three seeds
an encryption needs from one. -/
def toAead (V : View P Aead) (c : C) (r : Registry P C) (split : Seed → Seed × Seed × Seed)
    (env : KmsEnvelopeAead Seed) : Aead where
  encrypt seed pt ad := (env.encrypt V c r (split seed).1 (split seed).2.1 (split seed).2.2 pt ad).2
  decrypt ct ad := (env.decrypt V c r 0 ct ad).2

end KmsEnvelopeAead
end Tink
