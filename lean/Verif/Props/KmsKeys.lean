import Verif.Kms.KeyManagers
import Verif.Proto.GenLemmas
import Verif.Spec.Envelope
import Verif.Props.Envelope

/-!
# C61: keys that refer to a KMS

Together with the part of C60 about KMS templates.
-/

namespace Tink.Props
open Spec
variable {P C : Type}

/-- C60.  A KMS AEAD template is RAW, has the KMS key type, and carries exactly the given URI. -/
theorem C60_kms_aead_template {uri : PyStr} {t : KeyTemplate}
    (h : createKmsAeadKeyTemplate uri = .ok t) :
    t.outputPrefixType = OutputPrefixType.RAW ∧
    t.typeUrl = ps! "type.googleapis.com/google.crypto.tink.KmsAeadKey" ∧
    ∃ f, KmsAeadKeyFormat.fromString t.value = .ok f ∧ f.keyUri.toPy = uri := by
  obtain ⟨u, hu, h⟩ := bind_ok_iff.1 h
  obtain ⟨v, hv, h⟩ := bind_ok_iff.1 h
  cases h
  exact ⟨rfl, rfl, _, KmsAeadKeyFormat.fromString_serializeToString hv, toPy_toProto _ _ hu⟩

/-- C60.  A KMS envelope template is RAW, has the envelope key type, and carries exactly the given
URI and the given template. -/
theorem C60_kms_envelope_template {uri : PyStr} {dek t : KeyTemplate}
    (h : createKmsEnvelopeAeadKeyTemplate uri dek = .ok t) :
    t.outputPrefixType = OutputPrefixType.RAW ∧
    t.typeUrl = ps! "type.googleapis.com/google.crypto.tink.KmsEnvelopeAeadKey" ∧
    ∃ f, KmsEnvelopeAeadKeyFormat.fromString t.value = .ok f ∧ f.kekUri.toPy = uri ∧
      f.dekTemplate = some dek := by
  obtain ⟨u, hu, h⟩ := bind_ok_iff.1 h
  obtain ⟨v, hv, h⟩ := bind_ok_iff.1 h
  cases h
  exact ⟨rfl, rfl, _, KmsEnvelopeAeadKeyFormat.fromString_serializeToString hv,
    toPy_toProto _ _ hu, rfl⟩

/-- C61.  A key generated from a KMS AEAD template holds no secret, and its primitive is what the
first registered client supporting the template's URI returns for exactly this URI. -/
theorem C61_kms_aead {uri : PyStr} {t : KeyTemplate} {key : KeyData}
    (ht : createKmsAeadKeyTemplate uri = .ok t) (hk : KmsAeadKeyManager.newKeyData t = .ok key) :
    key.keyMaterialType = KeyMaterialType.REMOTE ∧
    ∀ clients : KmsClients Aead,
      (∀ a, KmsAeadKeyManager.primitive clients key = .ok a ↔
        ∃ c, kmsClientFromUri clients uri = .ok c ∧ c.getAead uri = .ok a) ∧
      (∀ e, KmsAeadKeyManager.primitive clients key = .error e ↔
        kmsClientFromUri clients uri = .error e ∨
          ∃ c, kmsClientFromUri clients uri = .ok c ∧ c.getAead uri = .error e) := by
  obtain ⟨_, hurl, f, hf, hu⟩ := C60_kms_aead_template ht
  unfold KmsAeadKeyManager.newKeyData at hk
  split at hk
  · cases hk
  · rw [hf] at hk
    obtain ⟨f', hf', hk⟩ := bind_ok_iff.1 hk
    cases hf'
    obtain ⟨v, hv, hk⟩ := bind_ok_iff.1 hk
    cases hk
    refine ⟨rfl, fun clients => ?_⟩
    have hkey := KmsAeadKey.fromString_serializeToString hv
    have heq : KmsAeadKeyManager.primitive clients
        { typeUrl := KMS_AEAD_KEY_TYPE_URL, value := v, keyMaterialType := KeyMaterialType.REMOTE } =
        (do let c ← kmsClientFromUri clients uri; c.getAead uri) := by
      unfold KmsAeadKeyManager.primitive
      rw [if_neg (by simp), hkey]
      show (do let c ← kmsClientFromUri clients f.keyUri.toPy; c.getAead f.keyUri.toPy) = _
      rw [hu]
    rw [heq]
    cases kmsClientFromUri clients uri with
    | error e => simp [bind, Except.bind]
    | ok c => simp [bind, Except.bind]

/-- C61.  A key generated from a KMS envelope template holds no secret; its primitive is the envelope
AEAD made of the template's key template and what the first registered client supporting the
template's URI returns for exactly this URI. -/
theorem C61_kms_envelope {uri : PyStr} {dek t : KeyTemplate} {key : KeyData}
    (ht : createKmsEnvelopeAeadKeyTemplate uri dek = .ok t)
    (hk : KmsEnvelopeAeadKeyManager.newKeyData t = .ok key) :
    key.keyMaterialType = KeyMaterialType.REMOTE ∧ DekType dek.typeUrl ∧
    ∀ (r : Registry P C) (clients : KmsClients Aead) (seed : Seed),
      (∀ env, KmsEnvelopeAeadKeyManager.primitive r clients seed key = .ok env ↔
        ∃ c a, kmsClientFromUri clients uri = .ok c ∧ c.getAead uri = .ok a ∧
          KmsEnvelopeAead.create r seed dek (RemoteAead.ofAead a) = .ok env) ∧
      (∀ e, KmsEnvelopeAeadKeyManager.primitive r clients seed key = .error e ↔
        kmsClientFromUri clients uri = .error e ∨
          ∃ c, kmsClientFromUri clients uri = .ok c ∧ (c.getAead uri = .error e ∨
            ∃ a, c.getAead uri = .ok a ∧
              KmsEnvelopeAead.create r seed dek (RemoteAead.ofAead a) = .error e)) := by
  obtain ⟨_, hurl, f, hf, hu, hd⟩ := C60_kms_envelope_template ht
  unfold KmsEnvelopeAeadKeyManager.newKeyData at hk
  split at hk
  · cases hk
  · rw [hf] at hk
    simp only [bind, Except.bind] at hk
    have hdek : f.getDekTemplate = dek := by
      unfold KmsEnvelopeAeadKeyFormat.getDekTemplate; rw [hd]; rfl
    rw [hdek] at hk
    split at hk
    · cases hk
    · rename_i hsup
      cases hv : KmsEnvelopeAeadKey.serializeToString { version := 0, params := some f } with
      | error e => rw [hv] at hk; cases hk
      | ok v =>
        rw [hv] at hk
        cases hk
        refine ⟨rfl, (isSupported_iff _).1 (by simpa using hsup), fun r clients seed => ?_⟩
        have hkey := KmsEnvelopeAeadKey.fromString_serializeToString hv
        have heq : KmsEnvelopeAeadKeyManager.primitive r clients seed
            { typeUrl := KMS_ENVELOPE_AEAD_KEY_TYPE_URL, value := v,
              keyMaterialType := KeyMaterialType.REMOTE } =
            (do let c ← kmsClientFromUri clients uri
                let a ← c.getAead uri
                KmsEnvelopeAead.create r seed dek (RemoteAead.ofAead a)) := by
          unfold KmsEnvelopeAeadKeyManager.primitive
          rw [if_neg (by simp), hkey]
          show (do let c ← kmsClientFromUri clients f.kekUri.toPy
                   let a ← c.getAead f.kekUri.toPy
                   KmsEnvelopeAead.create r seed f.getDekTemplate (RemoteAead.ofAead a)) = _
          rw [hu, hdek]
        rw [heq]
        cases kmsClientFromUri clients uri with
        | error e => simp [bind, Except.bind]
        | ok c =>
          cases hg : c.getAead uri with
          | error e => simp [bind, Except.bind, hg]
          | ok a => simp [bind, Except.bind, hg]

/-- C61.  No key is generated from an envelope template whose key template has another type. -/
theorem C61_unsupported_dek {uri : PyStr} {dek t : KeyTemplate}
    (ht : createKmsEnvelopeAeadKeyTemplate uri dek = .ok t) (hd : ¬ DekType dek.typeUrl) :
    KmsEnvelopeAeadKeyManager.newKeyData t = .error .tinkError := by
  obtain ⟨_, hurl, f, hf, hu, hdt⟩ := C60_kms_envelope_template ht
  unfold KmsEnvelopeAeadKeyManager.newKeyData
  rw [if_neg (by rw [hurl]; simp [KMS_ENVELOPE_AEAD_KEY_TYPE_URL]), hf]
  have hdek : f.getDekTemplate = dek := by
    unfold KmsEnvelopeAeadKeyFormat.getDekTemplate; rw [hdt]; rfl
  have : isSupportedDekKeyType dek.typeUrl = false := by
    rw [Bool.eq_false_iff]; exact fun hh => hd ((isSupported_iff _).1 hh)
  simp [bind, Except.bind, hdek, this]

/-- C61.  Key data that is not a valid message raises `DecodeError`, which is not a `TinkError`. -/
theorem C61_malformed_key_data :
    ∃ key : KeyData, key.typeUrl = KMS_AEAD_KEY_TYPE_URL ∧ ∀ clients,
      KmsAeadKeyManager.primitive clients key = .error .decodeError := by
  refine ⟨{ typeUrl := KMS_AEAD_KEY_TYPE_URL, value := [0x12] }, rfl, fun clients => ?_⟩
  unfold KmsAeadKeyManager.primitive
  rw [if_neg (by simp)]
  have : KmsAeadKey.fromString [0x12] = .error .decodeError := by decide +kernel
  simp only [this]; rfl

namespace KmsKeyExample

/-- An AEAD to recognise. -/
def marked : Aead where
  encrypt _ pt ad := .ok (1 :: ad ++ pt)
  decrypt _ _ := .error .tinkError

def client : KmsClient Aead :=
  { doesSupport := fun u => .ok (decide (u = py! "kms://k")), getAead := fun _ => .ok marked }

/-- A template, the key made from it, and its primitive. -/
example : ∃ t key, createKmsAeadKeyTemplate (py! "kms://k") = .ok t ∧
    KmsAeadKeyManager.newKeyData t = .ok key ∧
    KmsAeadKeyManager.primitive [client] key = .ok marked := by
  have hok : (createKmsAeadKeyTemplate (py! "kms://k") >>= KmsAeadKeyManager.newKeyData).isOk = true := by
    decide +kernel
  cases ht : createKmsAeadKeyTemplate (py! "kms://k") with
  | error e => rw [ht] at hok; cases hok
  | ok t =>
  rw [ht] at hok
  cases hk : KmsAeadKeyManager.newKeyData t with
  | error e => simp [bind, Except.bind, hk, Except.isOk, Except.toBool] at hok
  | ok key =>
  exact ⟨t, key, rfl, hk, (((C61_kms_aead ht hk).2 [client]).1 marked).2 ⟨client, rfl, rfl⟩⟩

end KmsKeyExample
end Tink.Props
