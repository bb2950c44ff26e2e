import Verif.Cli.Walkthrough
import Verif.Kms.Fake
import Verif.Jwt.CodecLemmas
import Verif.Spec.Walkthrough
import Verif.Kms.ClientLemmas
import Verif.Keyset.WireSize
import Verif.Props.KmsKeys
import Verif.Props.EndToEnd
import Verif.Props.KeysetJson

/-!
# C88: keysets kept under a KMS key
-/

namespace Tink.Props
open Spec Config Walkthrough JsonFormat

/-! ## The clients -/

theorem kmsGives_iff {clients : KmsClients Aead} {uri : PyStr} {a : Aead} :
    KmsGives clients uri a ↔ ∃ c, kmsClientFromUri clients uri = .ok c ∧ c.getAead uri = .ok a := by
  constructor
  · rintro ⟨l, c, r, h1, h2, h3, h4⟩
    exact ⟨c, (kmsClientFromUri_ok _ _ _).2 ⟨l, r, h1, h2, h3⟩, h4⟩
  · rintro ⟨c, h, h4⟩
    obtain ⟨l, r, h1, h2, h3⟩ := (kmsClientFromUri_ok _ _ _).1 h
    exact ⟨l, c, r, h1, h2, h3, h4⟩

theorem kmsRaises_iff {clients : KmsClients Aead} {uri : PyStr} {e : Exc} :
    KmsRaises clients uri e ↔ kmsClientFromUri clients uri = .error e ∨
      ∃ c, kmsClientFromUri clients uri = .ok c ∧ c.getAead uri = .error e := by
  constructor
  · rintro (h | ⟨l, c, r, h1, h2, h3 | ⟨h3, h4⟩⟩)
    · exact .inl ((kmsClientFromUri_error _ _ _).2 (.inl h))
    · exact .inl ((kmsClientFromUri_error _ _ _).2 (.inr ⟨l, c, r, h1, h2, h3⟩))
    · exact .inr ⟨c, (kmsClientFromUri_ok _ _ _).2 ⟨l, r, h1, h2, h3⟩, h4⟩
  · rintro (h | ⟨c, h, h4⟩)
    · rcases (kmsClientFromUri_error _ _ _).1 h with h | ⟨l, c, r, h1, h2, h3⟩
      · exact .inl h
      · exact .inr ⟨l, c, r, h1, h2, .inl h3⟩
    · obtain ⟨l, r, h1, h2, h3⟩ := (kmsClientFromUri_ok _ _ _).1 h
      exact .inr ⟨l, c, r, h1, h2, .inr ⟨h3, h4⟩⟩

/-- One of the two happens. -/
theorem kms_gives_or_raises (clients : KmsClients Aead) (uri : PyStr) :
    (∃ a, KmsGives clients uri a) ∨ ∃ e, KmsRaises clients uri e := by
  cases h : kmsClientFromUri clients uri with
  | error e => exact .inr ⟨e, kmsRaises_iff.2 (.inl h)⟩
  | ok c =>
    cases hg : c.getAead uri with
    | error e => exact .inr ⟨e, kmsRaises_iff.2 (.inr ⟨c, h, hg⟩)⟩
    | ok a => exact .inl ⟨a, kmsGives_iff.2 ⟨c, h, hg⟩⟩

/-! ## The template and the key -/

theorem usable_template {uri : PyStr} (h : UsableUri uri) :
    ∃ t key, createKmsAeadKeyTemplate uri = .ok t ∧ KmsAeadKeyManager.newKeyData t = .ok key := by
  have hp : PyStr.toProto uri = .ok (uri.map Char.ofNat) := by
    unfold PyStr.toProto
    rw [if_pos]
    rw [List.all_eq_true]
    intro c hc
    simp only [isScalar, Bool.or_eq_true, Bool.and_eq_true, decide_eq_true_eq]
    exact h.chars c hc
  have hs : (encodeFields (KmsAeadKeyFormat.fields ⟨uri.map Char.ofNat⟩)).length < 2000000020 := by
    unfold KmsAeadKeyFormat.fields strField
    split
    · simp [encodeFields]
    · have h1 := length_pstrEncode (uri.map Char.ofNat)
      have h2 := h.short
      rw [List.length_map] at h1
      have := length_lenField (num := 1) (b := pstrEncode (uri.map Char.ofNat)) (by decide) (by omega)
      dsimp only at *
      omega
  have hf : KmsAeadKeyFormat.serializeToString ⟨uri.map Char.ofNat⟩ =
      .ok (encodeFields (KmsAeadKeyFormat.fields ⟨uri.map Char.ofNat⟩)) := by
    unfold KmsAeadKeyFormat.serializeToString serializeFields
    rw [if_pos (by omega)]
  have ht : createKmsAeadKeyTemplate uri = .ok
      { value := encodeFields (KmsAeadKeyFormat.fields ⟨uri.map Char.ofNat⟩),
        typeUrl := KMS_AEAD_KEY_TYPE_URL, outputPrefixType := OutputPrefixType.RAW } := by
    unfold createKmsAeadKeyTemplate
    rw [hp]
    simp only [bind, Except.bind, hf, pure, Except.pure]
  have hk : (encodeFields (KmsAeadKey.fields { version := 0, params := some ⟨uri.map Char.ofNat⟩ })).length
      < 2147483648 := by
    have := length_lenField (num := 2) (b := encodeFields (KmsAeadKeyFormat.fields ⟨uri.map Char.ofNat⟩))
      (by decide) (by omega)
    simp only [KmsAeadKey.fields, uint32Field, if_true, List.nil_append, Option.map_some, msgField]
    omega
  refine ⟨_, { typeUrl := KMS_AEAD_KEY_TYPE_URL,
               value := encodeFields (KmsAeadKey.fields { version := 0, params := some ⟨uri.map Char.ofNat⟩ }),
               keyMaterialType := KeyMaterialType.REMOTE }, ht, ?_⟩
  unfold KmsAeadKeyManager.newKeyData
  rw [if_neg (by simp), KmsAeadKeyFormat.fromString_serializeToString hf]
  simp only [bind, Except.bind, KmsAeadKey.serializeToString, serializeFields, if_pos hk]
  rfl

section
variable {σ δ ε τ S P C : Type} [DecidableEq C] {L : Library σ δ ε τ S P C} {isInst : P → C → Bool}
  {r : Registry P C} {F : Type}

/-- After registration the KMS key types are served by the package's own key managers. -/
theorem registered_kms (hr : PackageRegistered L r .aead) :
    PyDict.get? r.keyManagers KMS_AEAD_KEY_TYPE_URL =
      some (kmsAeadKeyManager L.aead L.kmsManagerType (L.cls .aead) L.kmsClients, true) ∧
    PyDict.get? r.keyManagers KMS_ENVELOPE_AEAD_KEY_TYPE_URL =
      some (kmsEnvelopeAeadKeyManager L.aead L.envelopeManagerType (L.cls .aead) L.kmsRegistry
        L.kmsClients L.kmsSeed L.kmsSplit, true) := by
  have hne : KMS_AEAD_KEY_TYPE_URL ≠ KMS_ENVELOPE_AEAD_KEY_TYPE_URL := by decide
  constructor
  · obtain ⟨m, hg, _, _, ht⟩ := hr.managers KMS_AEAD_KEY_TYPE_URL .aead (by decide)
    cases ht with
    | aead h1 h2 => exact absurd rfl h1
    | kmsAead h => exact hg
    | kmsEnvelopeAead h => exact absurd h hne
  · obtain ⟨m, hg, _, _, ht⟩ := hr.managers KMS_ENVELOPE_AEAD_KEY_TYPE_URL .aead (by decide)
    cases ht with
    | aead h1 h2 => exact absurd rfl h2
    | kmsAead h => exact absurd h.symm hne
    | kmsEnvelopeAead h => exact hg

/-- After registration, the key types for data keys are served by C++. -/
theorem registered_dek (hr : PackageRegistered L r .aead) : DekRegistered L r := by
  intro url hd
  have hk : (url, PrimClass.aead) ∈ keyTypes .aead ∧
      url ≠ ps! "type.googleapis.com/google.crypto.tink.KmsAeadKey" ∧
      url ≠ ps! "type.googleapis.com/google.crypto.tink.KmsEnvelopeAeadKey" := by
    cases hd <;> decide
  obtain ⟨m, hg, hc, hu, ht⟩ := hr.managers _ _ hk.1
  cases ht with
  | aead _ _ found serves => exact ⟨m, _, hg, hc, hu, found, serves⟩
  | kmsAead h => exact absurd h hk.2.1
  | kmsEnvelopeAead h => exact absurd h hk.2.2

/-- A keyset with one RAW key: its AEAD is the key's, but for the kind of refusals. -/
theorem raw_aead (hl : LawfulConfig L isInst) (hr : PackageRegistered L r .aead) {kd : KeyData} {a : Aead}
    (hp : r.primitive kd (L.cls .aead) = .ok (L.aead.inj a)) (d : UInt32) :
    ∃ p, (⟨⟨d, [⟨some kd, KeyStatusType.ENABLED, d, OutputPrefixType.RAW⟩]⟩⟩ : KeysetHandle).primitive
        isInst r (L.cls .aead) = .ok p ∧
      (∀ s pt ad, (L.aead.view p).encrypt s pt ad = a.encrypt s pt ad) ∧
      ∀ ct ad, (L.aead.view p).decrypt ct ad = plainRefusal (a.decrypt ct ad) := by
  obtain ⟨w, hw, htw⟩ := hr.wrappers .aead (by decide)
  cases htw
  have hpre : outputPrefix (⟨some kd, KeyStatusType.ENABLED, d, OutputPrefixType.RAW⟩ : Key) = .ok [] := rfl
  have H := single_obtained (isInst := isInst) (r := r) (d := d) (pt := OutputPrefixType.RAW) hw hp
    (hl.aead a) (by decide) ⟨_, hpre⟩ rfl
  refine ⟨_, H.primitive, fun s pt ad => ?_, fun ct ad => ?_⟩
  · rw [C01_aead_encrypt_eq H (single_primary rfl rfl) hpre, L.aead.view_inj]
    cases a.encrypt s pt ad with
    | error e => rfl
    | ok b => rfl
  · rw [C03_aead_decrypt_eq H, outcomes, single_tryOrder]
    simp only [List.nil_append, List.filterMap_cons, List.filterMap_nil]
    have : payload (⟨some kd, KeyStatusType.ENABLED, d, OutputPrefixType.RAW⟩ : Key) ct = some ct := by
      unfold payload; rw [hpre]
    rw [this]
    simp only [Option.map_some, L.aead.view_inj]
    cases a.decrypt ct ad with
    | ok b => rfl
    | error e =>
      simp only [firstNonTink, plainRefusal]

/-- A keyset with one key for which there is no primitive. -/
theorem single_raises (hr : PackageRegistered L r .aead) {kd : KeyData} {e : Exc}
    (hp : r.primitive kd (L.cls .aead) = .error e) {pt : EnumVal} (hne : pt ≠ OutputPrefixType.UNKNOWN_PREFIX)
    {d : UInt32} :
    (⟨⟨d, [⟨some kd, KeyStatusType.ENABLED, d, pt⟩]⟩⟩ : KeysetHandle).primitive isInst r (L.cls .aead) =
      .error e := by
  obtain ⟨w, hw, htw⟩ := hr.wrappers .aead (by decide)
  cases htw
  unfold KeysetHandle.primitive
  rw [(C20_validate_iff _).2 (single_valid hne)]
  unfold Registry.inputPrimitiveClass
  rw [hw]
  simp only [bind, Except.bind, KeysetHandle.primitiveSet, List.foldlM_cons, KeysetHandle.addKey, if_true]
  rw [show r.primitive (Key.data ⟨some kd, KeyStatusType.ENABLED, d, pt⟩)
    (aeadWrapper L.aead (L.wrapperType .aead) (L.cls .aead)).inputPrimitiveClass = .error e from hp]

/-- What `GetKmsAead` makes of the URI. -/
theorem getKmsAead_eq (hr : PackageRegistered L r .aead) {uri : PyStr} {t : KeyTemplate} {key : KeyData}
    (ht : createKmsAeadKeyTemplate uri = .ok t) (hk : KmsAeadKeyManager.newKeyData t = .ok key)
    (seed : Seed) (d : UInt32) (draws : List UInt32) :
    getKmsAead L isInst r seed (d :: draws) uri = some (do
      let p ← (⟨⟨d, [⟨some key, KeyStatusType.ENABLED, d, OutputPrefixType.RAW⟩]⟩⟩ :
        KeysetHandle).primitive isInst r (L.cls .aead)
      return L.aead.view p) ∧
    r.primitive key (L.cls .aead) =
      (do let a ← KmsAeadKeyManager.primitive L.kmsClients key; return L.aead.inj a) := by
  obtain ⟨hraw, hurl, _⟩ := C60_kms_aead_template ht
  have hg := (registered_kms hr).1
  have hkey : key.typeUrl = KMS_AEAD_KEY_TYPE_URL := by
    unfold KmsAeadKeyManager.newKeyData at hk
    split at hk
    · cases hk
    · obtain ⟨_, _, hk⟩ := bind_ok_iff.1 hk
      obtain ⟨_, _, hk⟩ := bind_ok_iff.1 hk
      cases hk; rfl
  have hn : r.newKeyData seed t = .ok key := by
    unfold Registry.newKeyData Registry.keyManagerInternal
    rw [show t.typeUrl = KMS_AEAD_KEY_TYPE_URL from hurl, hg]
    exact hk
  have hgen := C19_generate_new_ok (d := d) (draws := draws) hn (by rw [hraw]; decide)
  constructor
  · unfold getKmsAead
    rw [ht]
    simp only [hgen, hraw]
  · unfold Registry.primitive Registry.keyManager Registry.keyManagerInternal
    rw [hkey, hg]
    show (if L.cls .aead ≠ L.cls .aead then _ else _) = _
    rw [if_neg (fun h => h rfl)]
    rfl

/-- C88.  `GetKmsAead(uri)`, in a process that has called `aead.register()`: if the registered clients give
an AEAD for the URI, the result encrypts and decrypts as this AEAD does, nothing being added to or taken
from the ciphertexts (every refusal is a plain `TinkError`).  If they raise an exception, so does
`GetKmsAead`.  The key id of the keyset made on the way has no influence. -/
theorem C88_get_kms_aead (hl : LawfulConfig L isInst) (hr : PackageRegistered L r .aead) {uri : PyStr}
    (hu : UsableUri uri) (seed : Seed) (d : UInt32) (draws : List UInt32) :
    (∀ a, KmsGives L.kmsClients uri a → ∃ a', getKmsAead L isInst r seed (d :: draws) uri = some (.ok a') ∧
      (∀ s pt ad, a'.encrypt s pt ad = a.encrypt s pt ad) ∧
      ∀ ct ad, a'.decrypt ct ad = plainRefusal (a.decrypt ct ad)) ∧
    ∀ e, KmsRaises L.kmsClients uri e → getKmsAead L isInst r seed (d :: draws) uri = some (.error e) := by
  obtain ⟨t, key, ht, hk⟩ := usable_template hu
  obtain ⟨he, hp⟩ := getKmsAead_eq (isInst := isInst) hr ht hk seed d draws
  obtain ⟨_, hc⟩ := C61_kms_aead ht hk
  obtain ⟨h1, h2⟩ := hc L.kmsClients
  constructor
  · intro a ha
    rw [(h1 a).2 (kmsGives_iff.1 ha)] at hp
    obtain ⟨p, hp', hx, hy⟩ := raw_aead hl hr hp d
    refine ⟨_, ?_, hx, hy⟩
    rw [he, hp']
    rfl
  · intro e hr'
    rw [(h2 e).2 (kmsRaises_iff.1 hr')] at hp
    rw [he, single_raises hr hp (by decide)]
    rfl


/-! ## Keysets encrypted with a KMS key -/

theorem plain_ok {α : Type} {x : Py α} {a : α} : plainRefusal x = .ok a ↔ x = .ok a := by
  cases x with
  | ok b => rfl
  | error e => simp only [plainRefusal]; split <;> simp

theorem json_written {E : JsonFormatEnv F} (hf : LawfulFloats E.json.floats) {s s' : PyStr}
    {e : EncryptedKeyset} (h : (jsonKeysetWriter E).writeEncrypted s e = (s', .ok ())) :
    ∃ u, s' = s ++ u ∧ (jsonKeysetReader E u).readEncrypted = .ok e := by
  simp only [jsonKeysetWriter] at h
  cases hd : Json.dumpsIndent E.json (encryptedKeysetToJson e) with
  | error x => rw [hd] at h; cases h
  | ok t =>
    rw [hd] at h
    cases h
    refine ⟨t, rfl, C62_reader_writer_encrypted E hf ?_⟩
    simp only [jsonKeysetWriter, hd, List.nil_append]

/-- C88.  `WriteEncryptedKeyset` appends one text to the stream, or raises an exception and leaves the stream
as it was.  The text is an encrypted keyset: it holds what the KMS made of the serialized keyset with the
associated data, after a check that the KMS gives the keyset back, and the info without key material. -/
theorem C88_write_encrypted (hl : LawfulConfig L isInst) (hr : PackageRegistered L r .aead) {uri : PyStr}
    (hu : UsableUri uri) {E : JsonFormatEnv F} (hf : LawfulFloats E.json.floats) {a : Aead}
    (ha : KmsGives L.kmsClients uri a) (seed : Seed) (d : UInt32) (draws : List UInt32) (seedEnc : Seed)
    (h : KeysetHandle) (stream : PyStr) (ad : Bytes) :
    (∃ e, writeEncryptedKeyset L isInst E r seed (d :: draws) seedEnc h stream uri ad =
      some (stream, .error e)) ∨
    ∃ u b ct pt, writeEncryptedKeyset L isInst E r seed (d :: draws) seedEnc h stream uri ad =
        some (stream ++ u, .ok ()) ∧
      h.keyset.serializeToString = .ok b ∧ a.encrypt seedEnc b ad = .ok ct ∧
      a.decrypt ct ad = .ok pt ∧ Keyset.fromString pt = .ok h.keyset ∧
      (jsonKeysetReader E u).readEncrypted = .ok ⟨ct, some (keysetInfo h.keyset)⟩ := by
  obtain ⟨a', hg, he, hd⟩ := (C88_get_kms_aead hl hr hu seed d draws).1 a ha
  unfold writeEncryptedKeyset
  rw [hg]
  simp only [Option.some.injEq]
  unfold KeysetHandle.writeWithAssociatedData
  cases hx : encryptKeyset h.keyset a' seedEnc ad with
  | error e => exact .inl ⟨e, rfl⟩
  | ok enc =>
    simp only
    obtain ⟨b, pt, h1, h2, h3, h4, h5⟩ := encryptKeyset_ok_iff.1 hx
    rcases hw : (jsonKeysetWriter E).writeEncrypted stream enc with ⟨s', x⟩
    cases x with
    | error e =>
      refine .inl ⟨e, ?_⟩
      simp only [jsonKeysetWriter] at hw
      split at hw <;> cases hw
      rfl
    | ok v =>
      obtain ⟨u, rfl, hu'⟩ := json_written hf hw
      refine .inr ⟨u, b, enc.encryptedKeyset, pt, rfl, h1, by rw [← he]; exact h2, ?_, h4, ?_⟩
      · exact plain_ok.1 (by rw [← hd]; exact h3)
      · rw [hu', ← h5]

/-- C88.  It succeeds if the KMS encrypts the serialized keyset, and decrypts it again. -/
theorem C88_write_succeeds (hl : LawfulConfig L isInst) (hr : PackageRegistered L r .aead) {uri : PyStr}
    (hu : UsableUri uri) {E : JsonFormatEnv F} (hE : Roomy E) {a : Aead}
    (ha : KmsGives L.kmsClients uri a) {h : KeysetHandle} {b ct ad : Bytes} {seedEnc : Seed}
    (hs : h.keyset.serializeToString = .ok b) (henc : a.encrypt seedEnc b ad = .ok ct)
    (hdec : a.decrypt ct ad = .ok b) (seed : Seed) (d : UInt32) (draws : List UInt32) (stream : PyStr) :
    ∃ u, writeEncryptedKeyset L isInst E r seed (d :: draws) seedEnc h stream uri ad =
      some (stream ++ u, .ok ()) := by
  obtain ⟨a', hg, he, hd⟩ := (C88_get_kms_aead hl hr hu seed d draws).1 a ha
  have hx := encryptKeyset_ok_iff (e := ⟨ct, some (keysetInfo h.keyset)⟩).2
    ⟨b, b, hs, (he _ _ _).trans henc, (hd _ _).trans (plain_ok.2 hdec), C29_keyset_round_trip hs, rfl⟩
  obtain ⟨u, hw, _⟩ := C62_write_encrypted_succeeds E hE ⟨ct, some (keysetInfo h.keyset)⟩ stream
  refine ⟨u, ?_⟩
  unfold writeEncryptedKeyset
  rw [hg]
  simp only [KeysetHandle.writeWithAssociatedData, hx, hw]

/-- C88.  If the clients raise an exception, for instance because none supports the URI, both functions
raise it, and nothing is written. -/
theorem C88_kms_unavailable (hl : LawfulConfig L isInst) (hr : PackageRegistered L r .aead) {uri : PyStr}
    (hu : UsableUri uri) {e : Exc} (he : KmsRaises L.kmsClients uri e) (E : JsonFormatEnv F) (seed : Seed)
    (d : UInt32) (draws : List UInt32) :
    (∀ seedEnc h stream ad, writeEncryptedKeyset L isInst E r seed (d :: draws) seedEnc h stream uri ad =
      some (stream, .error e)) ∧
    ∀ text ad, loadEncryptedKeyset L isInst E r seed (d :: draws) text uri ad = some (.error e) := by
  have hg := (C88_get_kms_aead hl hr hu seed d draws).2 e he
  constructor
  · intro seedEnc h stream ad
    unfold writeEncryptedKeyset; rw [hg]
  · intro text ad
    unfold loadEncryptedKeyset; rw [hg]

/-- C88.  `LoadEncryptedKeyset` returns exactly the handles to valid keysets whose serialization the KMS gives
for the ciphertext in the text, under the given associated data. -/
theorem C88_load_encrypted (hl : LawfulConfig L isInst) (hr : PackageRegistered L r .aead) {uri : PyStr}
    (hu : UsableUri uri) (E : JsonFormatEnv F) {a : Aead} (ha : KmsGives L.kmsClients uri a) (seed : Seed)
    (d : UInt32) (draws : List UInt32) (text : PyStr) (ad : Bytes) (h : KeysetHandle) :
    loadEncryptedKeyset L isInst E r seed (d :: draws) text uri ad = some (.ok h) ↔
      ∃ e pt, (jsonKeysetReader E text).readEncrypted = .ok e ∧ e.encryptedKeyset ≠ [] ∧
        a.decrypt e.encryptedKeyset ad = .ok pt ∧ Keyset.fromString pt = .ok h.keyset ∧ Valid h.keyset := by
  obtain ⟨a', hg, _, hd⟩ := (C88_get_kms_aead hl hr hu seed d draws).1 a ha
  unfold loadEncryptedKeyset
  rw [hg]
  simp only [Option.some.injEq]
  unfold JsonProtoKeysetFormat.parseEncrypted
  rw [read_ok_iff]
  simp only [hd, plain_ok]

/-- C88.  If the KMS refuses the ciphertext with a Tink error (the key, the associated data or the ciphertext
is a wrong one), `TinkError` is raised. -/
theorem C88_load_refused (hl : LawfulConfig L isInst) (hr : PackageRegistered L r .aead) {uri : PyStr}
    (hu : UsableUri uri) {E : JsonFormatEnv F} {a : Aead} (ha : KmsGives L.kmsClients uri a) {text : PyStr}
    {e : EncryptedKeyset} (ht : (jsonKeysetReader E text).readEncrypted = .ok e) (hne : e.encryptedKeyset ≠ [])
    {ad : Bytes} {x : Exc} (hx : a.decrypt e.encryptedKeyset ad = .error x) (htink : x.isTink = true)
    (seed : Seed) (d : UInt32) (draws : List UInt32) :
    loadEncryptedKeyset L isInst E r seed (d :: draws) text uri ad = some (.error .tinkError) := by
  obtain ⟨a', hg, _, hd⟩ := (C88_get_kms_aead hl hr hu seed d draws).1 a ha
  unfold loadEncryptedKeyset
  rw [hg]
  simp only [JsonProtoKeysetFormat.parseEncrypted]
  rw [C26_wrong_associated_data (x := .tinkError) ht hne (by rw [hd, hx]; simp [plainRefusal, htink])]
  rfl

variable {L' : Library σ δ ε τ S P C} {isInst' : P → C → Bool} {r' : Registry P C}

/-- C88.  What one process writes to an empty stream another one loads, whatever its C++ library, its clients
and its key ids, if its KMS client decrypts what the first one's encrypts. -/
theorem C88_round_trip (hl : LawfulConfig L isInst) (hr : PackageRegistered L r .aead)
    (hl' : LawfulConfig L' isInst') (hr' : PackageRegistered L' r' .aead) {uri uri' : PyStr}
    (hu : UsableUri uri) (hu' : UsableUri uri') {E : JsonFormatEnv F} (hf : LawfulFloats E.json.floats)
    {a a' : Aead} (ha : KmsGives L.kmsClients uri a) (ha' : KmsGives L'.kmsClients uri' a') {ad : Bytes}
    (ho : OpensFor a a' ad) {h : KeysetHandle} (hv : Valid h.keyset) {seed seedEnc : Seed} {d : UInt32}
    {draws : List UInt32} {text : PyStr}
    (hw : writeEncryptedKeyset L isInst E r seed (d :: draws) seedEnc h [] uri ad = some (text, .ok ()))
    (seed' : Seed) (d' : UInt32) (draws' : List UInt32) :
    loadEncryptedKeyset L' isInst' E r' seed' (d' :: draws') text uri' ad = some (.ok h) := by
  rcases C88_write_encrypted hl hr hu hf ha seed d draws seedEnc h [] ad with
    ⟨e, h0⟩ | ⟨u, b, ct, pt, h0, h1, h2, _, _, h5⟩
  · rw [h0] at hw; cases hw
  · rw [h0] at hw
    cases hw
    obtain ⟨hne, hd⟩ := ho _ _ _ h2
    exact (C88_load_encrypted hl' hr' hu' E ha' seed' d' draws' _ ad h).2
      ⟨_, b, h5, hne, hd, C29_keyset_round_trip h1, hv⟩

/-- C88.  The same without encryption: what `WriteKeyset` writes to an empty stream `LoadKeyset` loads, and
`WriteKeyset` succeeds. -/
theorem C88_cleartext_round_trip {E : JsonFormatEnv F} (hf : LawfulFloats E.json.floats) (hE : Roomy E)
    {h : KeysetHandle} (hv : Valid h.keyset) (stream : PyStr) :
    ∃ u, writeKeyset E h stream = (stream ++ u, .ok ()) ∧ loadKeyset E u = .ok h := by
  obtain ⟨u, hu⟩ := C62_serialize_succeeds E hE h
  refine ⟨u, ?_, C62_handle_round_trip E hf hv hu⟩
  unfold writeKeyset; rw [hu]

/-! ## Envelope encryption with a keyset -/

theorem dek_made {r : Registry P C} (hdr : DekRegistered L r) {dek : KeyTemplate} (ht : DekType dek.typeUrl)
    (hft : FitsTemplate dek) {cc : Cpp.KeyManager Cpp.Aead} (hcc : L.ccAead dek.typeUrl = some cc)
    (hm : MakesKeys cc dek) :
    (∀ seed kd, r.newKeyData seed dek = .ok kd ↔ cc.newKeyData seed dek.value = .ok kd) ∧
    ∀ kd, Fits kd → kd.typeUrl = dek.typeUrl →
      r.primitive kd (L.cls .aead) = reported (fun b => L.aead.inj (aeadCcToPy b)) (cc.getPrimitive kd) := by
  obtain ⟨m, cc', hg, hc, hk, hf, hs⟩ := hdr _ ht
  rw [hcc] at hf
  cases hf
  constructor
  · intro seed kd
    unfold Registry.newKeyData Registry.keyManagerInternal
    rw [hg]
    show m.newKeyData seed dek = _ ↔ _
    rw [hs.newKeyData seed dek hft (by rw [← hk, hs.keyType]) (fun kd' h' => (hm _ _ h').2.2)]
    exact reported_ok
  · intro kd hfk hu
    unfold Registry.primitive Registry.keyManager Registry.keyManagerInternal
    rw [hu, hg]
    show (if m.primitiveClass ≠ L.cls .aead then _ else m.primitive kd) = _
    rw [if_neg (fun h => h hc), hs.primitive kd hfk]

/-- What a new keyset for envelope encryption does. -/
theorem envelope_aead (hl : LawfulConfig L isInst) (hr : PackageRegistered L r .aead)
    (hdr : DekRegistered L L.kmsRegistry) {uri : PyStr} {dek t : KeyTemplate}
    (ht : createKmsEnvelopeAeadKeyTemplate uri dek = .ok t) {seed : Seed} {draws : List UInt32}
    {h : KeysetHandle} (hh : KeysetHandle.generateNew r seed draws t = some (.ok h)) (hft : FitsTemplate dek)
    {cc : Cpp.KeyManager Cpp.Aead} (hcc : L.ccAead dek.typeUrl = some cc) (hm : MakesKeys cc dek)
    {kd0 : KeyData} (h0 : cc.newKeyData L.kmsSeed dek.value = .ok kd0) {a : Aead}
    (ha : KmsGives L.kmsClients uri a) :
    DekType dek.typeUrl ∧ ∃ p, h.primitive isInst r (L.cls .aead) = .ok p ∧
      (∀ s pt ad, (L.aead.view p).encrypt s pt ad =
        ((⟨dek, RemoteAead.ofAead a⟩ : KmsEnvelopeAead Seed).toAead L.aead (L.cls .aead) L.kmsRegistry
          L.kmsSplit).encrypt s pt ad) ∧
      ∀ ct ad, (L.aead.view p).decrypt ct ad = plainRefusal
        (((⟨dek, RemoteAead.ofAead a⟩ : KmsEnvelopeAead Seed).toAead L.aead (L.cls .aead) L.kmsRegistry
          L.kmsSplit).decrypt ct ad) := by
  obtain ⟨hraw, hurl, _⟩ := C60_kms_envelope_template ht
  have hg := (registered_kms hr).2
  unfold KeysetHandle.generateNew at hh
  have hn : r.newKeyData seed t = KmsEnvelopeAeadKeyManager.newKeyData t := by
    unfold Registry.newKeyData Registry.keyManagerInternal
    rw [show t.typeUrl = KMS_ENVELOPE_AEAD_KEY_TYPE_URL from hurl, hg]
    rfl
  cases hk : KmsEnvelopeAeadKeyManager.newKeyData t with
  | error e => rw [hn, hk] at hh; cases hh
  | ok key =>
    rw [hn, hk] at hh
    simp only at hh
    split at hh
    · cases hh
    · rename_i d _
      simp only [Option.some.injEq] at hh
      rw [hraw] at hh
      have hks : h = ⟨⟨d, [⟨some key, KeyStatusType.ENABLED, d, OutputPrefixType.RAW⟩]⟩⟩ := by
        rcases C20_create_iff ⟨d, [⟨some key, KeyStatusType.ENABLED, d, OutputPrefixType.RAW⟩]⟩ with
          ⟨_, h1⟩ | ⟨_, h1⟩ <;> rw [h1] at hh <;> cases hh
        rfl
      have hkey : key.typeUrl = KMS_ENVELOPE_AEAD_KEY_TYPE_URL := by
        unfold KmsEnvelopeAeadKeyManager.newKeyData at hk
        split at hk
        · cases hk
        · obtain ⟨_, _, hk⟩ := bind_ok_iff.1 hk
          split at hk
          · cases hk
          · obtain ⟨_, _, hk⟩ := bind_ok_iff.1 hk
            cases hk; rfl
      obtain ⟨_, hdt, hc⟩ := C61_kms_envelope (P := P) (C := C) ht hk
      refine ⟨hdt, ?_⟩
      obtain ⟨c, hc1, hc2⟩ := kmsGives_iff.1 ha
      have hnew := ((dek_made hdr hdt hft hcc hm).1 L.kmsSeed kd0).2 h0
      have hcreate : KmsEnvelopeAead.create L.kmsRegistry L.kmsSeed dek (RemoteAead.ofAead a) =
          .ok ⟨dek, RemoteAead.ofAead a⟩ := by
        unfold KmsEnvelopeAead.create
        rw [(isSupported_iff _).2 hdt, hnew]
        rfl
      have henv := ((hc L.kmsRegistry L.kmsClients L.kmsSeed).1 _).2 ⟨c, a, hc1, hc2, hcreate⟩
      have hp : r.primitive key (L.cls .aead) = .ok (L.aead.inj
          ((⟨dek, RemoteAead.ofAead a⟩ : KmsEnvelopeAead Seed).toAead L.aead (L.cls .aead) L.kmsRegistry
            L.kmsSplit)) := by
        unfold Registry.primitive Registry.keyManager Registry.keyManagerInternal
        rw [hkey, hg]
        show (if L.cls .aead ≠ L.cls .aead then _ else _) = _
        rw [if_neg (fun h => h rfl)]
        simp only [kmsEnvelopeAeadKeyManager, henv, bind, Except.bind, pure, Except.pure]
      rw [hks]
      exact raw_aead hl hr hp d

/-- C88.  A keyset for envelope encryption, made with `create_kms_envelope_aead_key_template`: a ciphertext is
the length of the encrypted data key in four bytes, the data key as the KMS encrypted it with empty associated
data, and what the data key makes of plaintext and associated data; there is no other prefix. -/
theorem C88_envelope_ciphertext (hl : LawfulConfig L isInst) (hr : PackageRegistered L r .aead)
    (hdr : DekRegistered L L.kmsRegistry) {uri : PyStr} {dek t : KeyTemplate}
    (ht : createKmsEnvelopeAeadKeyTemplate uri dek = .ok t) {seed : Seed} {draws : List UInt32}
    {h : KeysetHandle} (hh : KeysetHandle.generateNew r seed draws t = some (.ok h)) (hft : FitsTemplate dek)
    {cc : Cpp.KeyManager Cpp.Aead} (hcc : L.ccAead dek.typeUrl = some cc) (hm : MakesKeys cc dek)
    {kd0 : KeyData} (h0 : cc.newKeyData L.kmsSeed dek.value = .ok kd0) {a : Aead}
    (ha : KmsGives L.kmsClients uri a) (s : Seed) (pt ad ct : Bytes) :
    aeadEncrypt L isInst r h s pt ad = .ok ct ↔
      ∃ kd k body ed, cc.newKeyData (L.kmsSplit s).2.1 dek.value = .ok kd ∧ cc.getPrimitive kd = .ok k ∧
        k.encrypt (L.kmsSplit s).2.2 pt ad = .ok body ∧ a.encrypt (L.kmsSplit s).1 kd.value [] = .ok ed ∧
        Framed ct ed body := by
  obtain ⟨hdt, p, hp, he, _⟩ := envelope_aead hl hr hdr ht hh hft hcc hm h0 ha
  obtain ⟨hnew, hprim⟩ := dek_made hdr hdt hft hcc hm
  unfold aeadEncrypt
  rw [hp]
  show (L.aead.view p).encrypt s pt ad = _ ↔ _
  rw [he]
  constructor
  · intro hx
    obtain ⟨s', hx⟩ : ∃ s', KmsEnvelopeAead.encrypt L.aead (L.cls .aead) L.kmsRegistry
        (⟨dek, RemoteAead.ofAead a⟩ : KmsEnvelopeAead Seed) (L.kmsSplit s).1 (L.kmsSplit s).2.1
        (L.kmsSplit s).2.2 pt ad = (s', .ok ct) := ⟨_, Prod.ext rfl hx⟩
    obtain ⟨kd, q, body, ed, h1, h2, h3, h4, h5⟩ := KmsEnvelopeAead.encrypt_ok_iff.1 hx
    have h1' := (hnew _ _).1 h1
    obtain ⟨hu, _, hfk⟩ := hm _ _ h1'
    rw [hprim kd hfk hu] at h2
    cases hk : cc.getPrimitive kd with
    | error e => rw [hk] at h2; cases h2
    | ok k =>
      rw [hk] at h2
      cases h2
      rw [L.aead.view_inj] at h3
      exact ⟨kd, k, body, ed, h1', hk, reported_ok.1 ((C65_primitives.1 ..).symm.trans h3),
        congrArg Prod.snd h4, h5⟩
  · rintro ⟨kd, k, body, ed, h1, h2, h3, h4, h5⟩
    obtain ⟨hu, _, hfk⟩ := hm _ _ h1
    have hx := KmsEnvelopeAead.encrypt_ok_iff (V := L.aead) (c := L.cls .aead) (r := L.kmsRegistry)
      (env := (⟨dek, RemoteAead.ofAead a⟩ : KmsEnvelopeAead Seed)) (s := (L.kmsSplit s).1)
      (s' := (L.kmsSplit s).1 + 1) (sd := (L.kmsSplit s).2.1) (se := (L.kmsSplit s).2.2) (pt := pt) (ad := ad)
      (ct := ct) |>.2 ⟨kd, L.aead.inj (aeadCcToPy k), body, ed, (hnew _ _).2 h1,
        by rw [hprim kd hfk hu, h2]; rfl,
        by rw [L.aead.view_inj]; exact (C65_primitives.1 ..).trans (reported_ok.2 h3),
        Prod.ext rfl h4, h5⟩
    exact congrArg Prod.snd hx

/-- C88.  Two processes make keysets from the same envelope template, each for itself.  Although the keysets
have nothing in common but the URI and the template of the data keys, each decrypts what the other one
encrypts: the keys are in the ciphertexts. -/
theorem C88_envelope_round_trip (hl : LawfulConfig L isInst) (hr : PackageRegistered L r .aead)
    (hdr : DekRegistered L L.kmsRegistry) (hl' : LawfulConfig L' isInst')
    (hr' : PackageRegistered L' r' .aead) (hdr' : DekRegistered L' L'.kmsRegistry)
    {uri : PyStr} {dek t : KeyTemplate} (ht : createKmsEnvelopeAeadKeyTemplate uri dek = .ok t)
    {seed seed' : Seed} {draws draws' : List UInt32} {h h' : KeysetHandle}
    (hh : KeysetHandle.generateNew r seed draws t = some (.ok h))
    (hh' : KeysetHandle.generateNew r' seed' draws' t = some (.ok h')) (hft : FitsTemplate dek)
    {cc cc' : Cpp.KeyManager Cpp.Aead} (hcc : L.ccAead dek.typeUrl = some cc)
    (hcc' : L'.ccAead dek.typeUrl = some cc') (hm : MakesKeys cc dek) (hm' : MakesKeys cc' dek)
    (hsame : SameKeys cc cc' dek) {kd0 kd0' : KeyData} (h0 : cc.newKeyData L.kmsSeed dek.value = .ok kd0)
    (h0' : cc'.newKeyData L'.kmsSeed dek.value = .ok kd0') {a a' : Aead}
    (ha : KmsGives L.kmsClients uri a) (ha' : KmsGives L'.kmsClients uri a') (ho : OpensFor a a' [])
    {s : Seed} {pt ad ct : Bytes} (he : aeadEncrypt L isInst r h s pt ad = .ok ct) :
    aeadDecrypt L' isInst' r' h' ct ad = .ok pt := by
  obtain ⟨kd, k, body, ed, h1, h2, h3, h4, h5⟩ :=
    (C88_envelope_ciphertext hl hr hdr ht hh hft hcc hm h0 ha s pt ad ct).1 he
  obtain ⟨hdt, p, hp, _, hd⟩ := envelope_aead hl' hr' hdr' ht hh' hft hcc' hm' h0' ha'
  obtain ⟨hu, hsym, hfk⟩ := hm _ _ h1
  obtain ⟨k', hk', hopen⟩ := hsame _ _ _ h1 h2
  unfold aeadDecrypt
  rw [hp]
  show (L'.aead.view p).decrypt ct ad = _
  rw [hd]
  refine plain_ok.2 ?_
  show (KmsEnvelopeAead.decrypt _ _ _ _ 0 ct ad).2 = _
  rw [KmsEnvelopeAead.decrypt_framed _ _ _ _ _ h5]
  have hkd : (⟨dek.typeUrl, kd.value, KeyMaterialType.SYMMETRIC⟩ : KeyData) = kd := by
    rw [← hu, ← hsym]
  have h6 := (dek_made hdr' hdt hft hcc' hm').2 kd hfk hu
  simp only [openEnvelope, RemoteAead.ofAead, (ho _ _ _ h4).2, bind, Except.bind, hkd, h6, hk', reported]
  rw [L'.aead.view_inj]
  exact (C65_primitives.2.1 ..).trans (reported_ok.2 (hopen _ _ _ _ h3).2)

/-! ## The walkthrough -/

/-- C88.  The walkthrough: one process creates a keyset, encrypts with it and writes the keyset encrypted with
a KMS key; another process, with a C++ library and a KMS client that understand what those of the first
produce, loads the keyset and decrypts. -/
theorem C88_walkthrough (hl : LawfulConfig L isInst) (hr : PackageRegistered L r .aead)
    (hl' : LawfulConfig L' isInst') (hr' : PackageRegistered L' r' .aead) {t : KeyTemplate}
    (ht : Templates.AES128_GCM = .ok t) {cc cc' : Cpp.KeyManager Cpp.Aead} (hcc : L.ccAead t.typeUrl = some cc)
    (hcc' : L'.ccAead t.typeUrl = some cc') (hm : MakesKeys cc t) (hm' : MakesKeys cc' t)
    (hsame : SameKeys cc cc' t) {seed : Seed} {kd : KeyData} {k : Cpp.Aead}
    (new : cc.newKeyData seed t.value = .ok kd) (made : cc.getPrimitive kd = .ok k)
    {uri : PyStr} (hu : UsableUri uri) {a a' : Aead} (ha : KmsGives L.kmsClients uri a)
    (ha' : KmsGives L'.kmsClients uri a') (ho : ∀ ad, OpensFor a a' ad) {E : JsonFormatEnv F}
    (hf : LawfulFloats E.json.floats) (d : UInt32) (draws : List UInt32) :
    ∃ h, createAead128GcmKeyset r seed (d :: draws) = some (.ok h) ∧
      ∀ s pt ad ct, aeadEncrypt L isInst r h s pt ad = .ok ct →
      ∀ seed1 d1 draws1 seedEnc adKeyset text,
        writeEncryptedKeyset L isInst E r seed1 (d1 :: draws1) seedEnc h [] uri adKeyset =
          some (text, .ok ()) →
      ∀ seed2 d2 draws2, ∃ h',
        loadEncryptedKeyset L' isInst' E r' seed2 (d2 :: draws2) text uri adKeyset = some (.ok h') ∧
        aeadDecrypt L' isInst' r' h' ct ad = .ok pt := by
  have hmem : .ok t ∈ templates .aead := by rw [← ht]; simp [templates]
  obtain ⟨_, e0, hft, _, _, _, hpt⟩ := C64_templates .aead _ hmem
  cases e0
  obtain ⟨hurl, hfk⟩ : kd.typeUrl = t.typeUrl ∧ Fits kd := ⟨(hm _ _ new).1, (hm _ _ new).2.2⟩
  have hne : t.outputPrefixType ≠ OutputPrefixType.UNKNOWN_PREFIX := by
    rcases hpt with ⟨hpt, _⟩ | hpt <;> rw [hpt] <;> decide
  have hdt : DekType t.typeUrl := by
    have : t.typeUrl = ps! "type.googleapis.com/google.crypto.tink.AesGcmKey" := by
      unfold Templates.AES128_GCM Templates.createAesGcm at ht
      obtain ⟨_, _, ht⟩ := bind_ok_iff.1 ht
      obtain ⟨_, _, ht⟩ := bind_ok_iff.1 ht
      cases ht; rfl
    rw [this]; exact .aesGcm
  obtain ⟨h, w, p, h1, h2, hw, H⟩ := C64_new_keyset hl hr hmem (.aead hcc new made) hfk hurl d draws
  cases hw
  refine ⟨h, ?_, ?_⟩
  · unfold createAead128GcmKeyset; rw [ht]; exact h1
  intro s pt ad ct he seed1 d1 draws1 seedEnc adk text hwrite seed2 d2 draws2
  have hv : Valid h.keyset := by rw [h2]; exact single_valid hne
  refine ⟨h, C88_round_trip hl hr hl' hr' hu hu hf ha ha' (ho adk) hv hwrite seed2 d2 draws2, ?_⟩
  obtain ⟨k', hk', hopen⟩ := hsame _ _ _ new made
  have hp' := (dek_made (registered_dek hr') hdt hft hcc' hm').2 kd hfk hurl
  rw [hk'] at hp'
  obtain ⟨w', hw', htw'⟩ := hr'.wrappers .aead (by decide)
  cases htw'
  have hprim := single_primary (P := P) (o := L.aead.inj (aeadCcToPy k)) h2 rfl
  obtain ⟨pre, hpre⟩ := H.prop.2 _ hprim.mem
  have H' := single_obtained (isInst := isInst') (r := r') (d := d) (pt := t.outputPrefixType) hw' hp'
    (hl'.aead _) hne ⟨_, hpre⟩ rfl
  have hh : h = ⟨⟨d, [⟨some kd, KeyStatusType.ENABLED, d, t.outputPrefixType⟩]⟩⟩ := by
    cases h; cases h2; rfl
  rw [← hh] at H'
  unfold aeadEncrypt at he
  rw [show h.primitive isInst r (L.cls .aead) = .ok p from H.primitive] at he
  have he : (L.aead.view p).encrypt s pt ad = .ok ct := he
  have heq := C01_aead_encrypt_eq H hprim hpre s pt ad
  obtain ⟨body, hb, _⟩ := bind_ok_iff.1 (heq.symm.trans he)
  have hb' : k.encrypt s pt ad = .ok body := by
    rw [L.aead.view_inj] at hb; exact reported_ok.1 ((C65_primitives.1 ..).symm.trans hb)
  obtain ⟨hne', hdec⟩ := hopen _ _ _ _ hb'
  unfold aeadDecrypt
  rw [H'.primitive]
  refine C01_aead_round_trip H H' hprim (single_tryOrder _ _) rfl rfl hb ?_ (.inr hne') he (by simp)
  rw [L'.aead.view_inj]
  exact (C65_primitives.2.1 ..).trans (reported_ok.2 hdec)

end

/-! ## The KMS for tests -/

section
variable {P C : Type} [DecidableEq C] {V : View P Aead} {isInst : P → C → Bool} {c : C} {r : Registry P C}

theorem fake_get {h : KeysetHandle} (hv : Valid h.keyset) {b : Bytes} (hs : h.keyset.serializeToString = .ok b)
    {x : Bytes} (hx : ∀ y ∈ x, y.toNat < 128) (hd : urlsafeB64decode (x ++ [61, 61, 61]) = .ok b) :
    FakeKms.getAead V isInst c r (py! "fake-kms://" ++ x.map UInt8.toNat) = (do
      let p ← h.primitive isInst r c
      return V.view p) := by
  have hpre : startsWith (py! "fake-kms://" ++ x.map UInt8.toNat) FakeKms.FAKE_KMS_PREFIX = true :=
    startsWith_iff.2 ⟨_, rfl⟩
  have hser : ProtoKeysetFormat.serialize h .secretKeyAccess = .ok b := by
    show getvalue (binaryKeysetWriter.write [] h.keyset) = _
    simp only [binaryKeysetWriter, hs, List.nil_append, getvalue]
  unfold FakeKms.getAead
  rw [hpre]
  simp only [Bool.not_true, Bool.false_eq_true, if_false]
  rw [show (py! "fake-kms://" ++ x.map UInt8.toNat).drop FakeKms.FAKE_KMS_PREFIX.length = x.map UInt8.toNat
    from List.drop_left, Jwt.utf8Encode_ascii x hx]
  simp only [bind, Except.bind]
  rw [show x ++ by! "===" = x ++ [61, 61, 61] from rfl, hd]
  simp only [C29_handle_round_trip hv hser]

theorem urlsafe_table : ∀ v < 64, (urlsafeChar (b64Char v)).toNat < 128 ∧
    stdChar (urlsafeChar (b64Char v)) = b64Char v := by decide +kernel

theorem urlsafe_encode (b : Bytes) : (∀ y ∈ urlsafeB64encode b, y.toNat < 128) ∧
    (urlsafeB64encode b).map stdChar = b64encode b := by
  have hpad : (urlsafeChar 61).toNat < 128 ∧ stdChar (urlsafeChar 61) = 61 := by decide
  have key : ∀ y ∈ b64encode b, (urlsafeChar y).toNat < 128 ∧ stdChar (urlsafeChar y) = y := by
    fun_induction b64encode b with
    | case1 => intro y hy; cases hy
    | case2 a =>
      have ha := a.toNat_lt
      have h1 := urlsafe_table (a.toNat / 4) (by omega)
      have h2 := urlsafe_table (a.toNat % 4 * 16) (by omega)
      intro y hy
      simp only [List.mem_cons, List.not_mem_nil, or_false] at hy
      rcases hy with rfl | rfl | rfl | rfl <;> assumption
    | case3 a b =>
      have ha := a.toNat_lt
      have hb := b.toNat_lt
      have h1 := urlsafe_table (a.toNat / 4) (by omega)
      have h2 := urlsafe_table (a.toNat % 4 * 16 + b.toNat / 16) (by omega)
      have h3 := urlsafe_table (b.toNat % 16 * 4) (by omega)
      intro y hy
      simp only [List.mem_cons, List.not_mem_nil, or_false] at hy
      rcases hy with rfl | rfl | rfl | rfl <;> assumption
    | case4 a b c r ih =>
      have ha := a.toNat_lt
      have hb := b.toNat_lt
      have hc := c.toNat_lt
      have h1 := urlsafe_table (a.toNat / 4) (by omega)
      have h2 := urlsafe_table (a.toNat % 4 * 16 + b.toNat / 16) (by omega)
      have h3 := urlsafe_table (b.toNat % 16 * 4 + c.toNat / 64) (by omega)
      have h4 := urlsafe_table (c.toNat % 64) (by omega)
      intro y hy
      simp only [List.mem_cons] at hy
      rcases hy with rfl | rfl | rfl | rfl | hy
      · exact h1
      · exact h2
      · exact h3
      · exact h4
      · exact ih y hy
  constructor
  · intro y hy
    obtain ⟨z, hz, rfl⟩ := List.mem_map.1 hy
    exact (key z hz).1
  · unfold urlsafeB64encode
    rw [List.map_map, List.map_congr_left (f := stdChar ∘ urlsafeChar) (g := id) (fun y hy => (key y hy).2),
      List.map_id]

/-- C88.  Every keyset with a serialization is a key of the KMS for tests: its URI is `fake-kms://` and the
serialization in URL-safe base64, with or without padding.  A client for no key in particular, and a client for
this URI, support the URI and give the AEAD of the keyset. -/
theorem C88_fake_kms {h : KeysetHandle} (hv : Valid h.keyset) {b : Bytes}
    (hs : h.keyset.serializeToString = .ok b) (padded : Bool) {bound : Option PyStr}
    (hb : bound = none ∨ bound = some (py! "fake-kms://" ++ fakeKeyId padded b)) :
    ∃ client, FakeKms.FakeKmsClient.create V isInst c r bound = .ok client ∧
      client.doesSupport (py! "fake-kms://" ++ fakeKeyId padded b) = .ok true ∧
      client.getAead (py! "fake-kms://" ++ fakeKeyId padded b) = (do
        let p ← h.primitive isInst r c
        return V.view p) := by
  have hpre : startsWith (py! "fake-kms://" ++ fakeKeyId padded b) FakeKms.FAKE_KMS_PREFIX = true :=
    startsWith_iff.2 ⟨_, rfl⟩
  have hget : FakeKms.getAead V isInst c r (py! "fake-kms://" ++ fakeKeyId padded b) = (do
        let p ← h.primitive isInst r c
        return V.view p) := by
    unfold fakeKeyId
    cases padded with
    | true =>
      refine fake_get hv hs ?_ ?_
      · exact (urlsafe_encode b).1
      · show b64decode ((urlsafeB64encode b ++ [61, 61, 61]).map stdChar) = _
        rw [List.map_append, (urlsafe_encode b).2]
        exact b64decode_encode_pads b 3
    | false =>
      refine fake_get hv hs ?_ ?_
      · intro y hy
        have := (Jwt.encode_spec b).1 y hy
        unfold UrlChar at this
        omega
      · simp only [Bool.false_eq_true, if_false]
        rw [Jwt.urlsafe_pads, (Jwt.encode_spec b).2.2]
  rcases hb with rfl | rfl
  · refine ⟨_, rfl, ?_, hget⟩
    simp only [FakeKms.doesSupport, hpre]
    rfl
  · refine ⟨⟨fun uri => .ok (FakeKms.doesSupport (some (py! "fake-kms://" ++ fakeKeyId padded b)) uri),
      FakeKms.getAead V isInst c r⟩,
      ?_, ?_, hget⟩
    · unfold FakeKms.FakeKmsClient.create FakeKms.initKeyUri
      simp only [hpre]
      rw [if_neg (by intro h; cases h)]
      rfl
    · simp only [FakeKms.doesSupport, hpre]
      simp

/-- C88.  Other URIs are not supported, by any client, and refused with `TinkError`; no client can be made for
one (but for the empty one, which stands for no URI). -/
theorem C88_fake_kms_refuses {uri : PyStr} (hn : ¬ ∃ x, uri = py! "fake-kms://" ++ x) :
    (∀ bound client, FakeKms.FakeKmsClient.create V isInst c r bound = .ok client →
      client.doesSupport uri = .ok false ∧ client.getAead uri = .error .tinkError) ∧
    (uri ≠ [] → FakeKms.FakeKmsClient.create V isInst c r (some uri) = .error .tinkError) := by
  have hpre : startsWith uri FakeKms.FAKE_KMS_PREFIX = false := by
    rw [← Bool.not_eq_true]
    exact fun h => hn (startsWith_iff.1 h)
  constructor
  · intro bound client hc
    obtain ⟨b, _, hc⟩ := bind_ok_iff.1 hc
    cases hc
    simp [FakeKms.doesSupport, FakeKms.getAead, hpre]
  · intro hne
    unfold FakeKms.FakeKmsClient.create FakeKms.initKeyUri
    simp only [if_neg hne, hpre]
    rfl

/-- C88.  A client for one URI supports no other. -/
theorem C88_fake_kms_bound {uri uri' : PyStr} {client : KmsClient Aead} (hne : uri ≠ [])
    (hc : FakeKms.FakeKmsClient.create V isInst c r (some uri) = .ok client) :
    client.doesSupport uri' = .ok (decide (uri' = uri)) := by
  obtain ⟨b, hb, hc⟩ := bind_ok_iff.1 hc
  cases hc
  unfold FakeKms.initKeyUri at hb
  simp only [if_neg hne] at hb
  split at hb
  · rename_i hp
    cases hb
    simp only [FakeKms.doesSupport]
    by_cases h : uri' = uri
    · subst h; simp [hp]
    · simp [h]
  · cases hb

end
end Tink.Props
