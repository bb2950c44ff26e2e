import Verif.Props.Handle
import Verif.Keyset.WireLemmas
import Verif.Keyset.Formats

/-!
# C22, C24-C26, C28-C30: reading and writing keysets
-/

namespace Tink.Props
open Spec

/-! ## C29, C30 -/

/-- C29.  Parsing the serialization of a keyset returns it. -/
theorem C29_keyset_round_trip {ks : Keyset} {b : Bytes} (h : ks.serializeToString = .ok b) :
    Keyset.fromString b = .ok ks := Keyset.fromString_serializeToString h

theorem C29_encrypted_keyset_round_trip {e : EncryptedKeyset} {b : Bytes}
    (h : e.serializeToString = .ok b) : EncryptedKeyset.fromString b = .ok e :=
  EncryptedKeyset.fromString_serializeToString h

/-- C29.  So serialization is injective. -/
theorem C29_keyset_injective {ks ks' : Keyset} {b : Bytes} (h : ks.serializeToString = .ok b)
    (h' : ks'.serializeToString = .ok b) : ks = ks' := by
  have h1 := C29_keyset_round_trip h
  rw [C29_keyset_round_trip h'] at h1
  cases h1; rfl

theorem C29_encrypted_keyset_injective {e e' : EncryptedKeyset} {b : Bytes}
    (h : e.serializeToString = .ok b) (h' : e'.serializeToString = .ok b) : e = e' := by
  have h1 := C29_encrypted_keyset_round_trip h
  rw [C29_encrypted_keyset_round_trip h'] at h1
  cases h1; rfl

/-- C29.  The two deprecated wire classes: what the binary writer writes, the binary reader
reads, for every keyset with at least one field set. -/
theorem C29_reader_writer {ks : Keyset} {b : Bytes} (hw : binaryKeysetWriter.write [] ks = (b, .ok ()))
    (hne : ks ≠ {}) : (binaryKeysetReader b).read = .ok ks := by
  simp only [binaryKeysetWriter] at hw
  split at hw
  · cases hw
  · rename_i b' hb'
    cases hw
    simp only [List.nil_append]
    have := C29_keyset_round_trip hb'
    simp only [binaryKeysetReader]
    rw [if_neg, this]
    · rfl
    · intro h
      subst h
      rw [show Keyset.fromString [] = .ok {} from rfl] at this
      cases this
      exact hne rfl

theorem C29_reader_writer_encrypted {e : EncryptedKeyset} {b : Bytes}
    (hw : binaryKeysetWriter.writeEncrypted [] e = (b, .ok ())) (hne : e.encryptedKeyset ≠ []) :
    (binaryKeysetReader b).readEncrypted = .ok ⟨e.encryptedKeyset, none⟩ := by
  simp only [binaryKeysetWriter] at hw
  split at hw
  · cases hw
  · rename_i b' hb'
    cases hw
    simp only [List.nil_append]
    have := C29_encrypted_keyset_round_trip hb'
    simp only [binaryKeysetReader]
    rw [if_neg, this]
    · rfl
    · intro h
      subst h
      rw [show EncryptedKeyset.fromString [] = .ok {} from rfl] at this
      simp only [Except.ok.injEq, EncryptedKeyset.mk.injEq] at this
      exact hne this.1.symm

theorem convert_cases {α : Type} (o : Option α) :
    (∃ a, convertDecodeError (ofMerge o) = .ok a) ∨
    convertDecodeError (ofMerge o) = .error .tinkError := by
  cases o with
  | none => exact .inr rfl
  | some a => exact .inl ⟨a, rfl⟩

/-- C30.  For every byte string, binary parsing returns a keyset or raises `TinkError`. -/
theorem C30_read_total (b : Bytes) :
    (∃ ks, (binaryKeysetReader b).read = .ok ks) ∨
    (binaryKeysetReader b).read = .error .tinkError := by
  simp only [binaryKeysetReader]
  split
  · exact .inr rfl
  · exact convert_cases _

theorem C30_read_encrypted_total (b : Bytes) :
    (∃ e, (binaryKeysetReader b).readEncrypted = .ok e) ∨
    (binaryKeysetReader b).readEncrypted = .error .tinkError := by
  simp only [binaryKeysetReader]
  split
  · exact .inr rfl
  · exact convert_cases _

/-- C30.  Parsing into a handle: a handle to a valid keyset, or `TinkError`. -/
theorem C30_parse_total (b : Bytes) (t : Token) :
    (∃ h, ProtoKeysetFormat.parse b t = .ok h ∧ Valid h.keyset) ∨
    ProtoKeysetFormat.parse b t = .error .tinkError := by
  unfold ProtoKeysetFormat.parse
  rcases C30_read_total b with ⟨ks, h⟩ | h
  · rw [h]
    show (∃ h, fromProtoKeyset ks t = .ok h ∧ _) ∨ fromProtoKeyset ks t = _
    unfold fromProtoKeyset
    split
    · exact .inr rfl
    · rcases C20_create_iff ks with ⟨hv, hc⟩ | ⟨_, hc⟩
      · exact .inl ⟨⟨ks⟩, hc, hv⟩
      · exact .inr hc
  · rw [h]; exact .inr rfl

theorem C30_parse_without_secret_total (b : Bytes) :
    (∃ h, ProtoKeysetFormat.parseWithoutSecret b = .ok h ∧ Valid h.keyset) ∨
    ProtoKeysetFormat.parseWithoutSecret b = .error .tinkError := by
  unfold ProtoKeysetFormat.parseWithoutSecret KeysetHandle.readNoSecret
  rcases C30_read_total b with ⟨ks, h⟩ | h
  · rw [h]
    show (∃ h, (assertNoSecretKeyMaterial ks >>= fun _ => KeysetHandle.create ks) = .ok h ∧ _) ∨
      (assertNoSecretKeyMaterial ks >>= fun _ => KeysetHandle.create ks) = _
    rcases assertNoSecret_cases ks with ⟨_, h1⟩ | ⟨_, h1⟩
    · rw [h1]
      rcases C20_create_iff ks with ⟨hv, hc⟩ | ⟨_, hc⟩
      · exact .inl ⟨⟨ks⟩, hc, hv⟩
      · exact .inr hc
    · rw [h1]; exact .inr rfl
  · rw [h]; exact .inr rfl

theorem C30_empty : (binaryKeysetReader []).read = .error .tinkError ∧
    (binaryKeysetReader []).readEncrypted = .error .tinkError ∧
    (∀ t, ProtoKeysetFormat.parse [] t = .error .tinkError) ∧
    ProtoKeysetFormat.parseWithoutSecret [] = .error .tinkError ∧
    (∀ aead ad, ProtoKeysetFormat.parseEncrypted [] aead ad = .error .tinkError) :=
  ⟨rfl, rfl, fun _ => rfl, rfl, fun _ _ => rfl⟩

/-! ## C28 -/

/-- C28, for the binary format and the proto conversions: any token other than a
`SecretKeyAccess` is refused.  For JSON see `Props/KeysetJson.lean`. -/
theorem C28_token_required {t : Token} (ht : t ≠ .secretKeyAccess) (b : Bytes) (ks : Keyset)
    (h : KeysetHandle) :
    ProtoKeysetFormat.parse b t = .error .tinkError ∧
    ProtoKeysetFormat.serialize h t = .error .tinkError ∧
    fromProtoKeyset ks t = .error .tinkError ∧ toProtoKeyset h t = .error .tinkError := by
  have h1 : ∀ ks, fromProtoKeyset ks t = .error .tinkError := by
    intro ks
    simp [fromProtoKeyset, hasSecretKeyAccess, ht]
  have h2 : toProtoKeyset h t = .error .tinkError := by
    simp [toProtoKeyset, hasSecretKeyAccess, ht]
  refine ⟨?_, ?_, h1 ks, h2⟩
  · unfold ProtoKeysetFormat.parse
    rcases C30_read_total b with ⟨ks, h⟩ | h
    · rw [h]; exact h1 ks
    · rw [h]; rfl
  · unfold ProtoKeysetFormat.serialize
    rw [h2]; rfl

theorem valid_ne_default {ks : Keyset} (h : Valid ks) : ks ≠ {} := by
  intro he
  obtain ⟨k, hk, _⟩ := h.nonempty
  rw [he] at hk
  cases hk

/-- C28, C29.  With the token, serializing and parsing returns the handle. -/
theorem C29_handle_round_trip {h : KeysetHandle} (hv : Valid h.keyset) {b : Bytes}
    (hs : ProtoKeysetFormat.serialize h .secretKeyAccess = .ok b) :
    ProtoKeysetFormat.parse b .secretKeyAccess = .ok h := by
  have hs' : getvalue (binaryKeysetWriter.write [] h.keyset) = .ok b := hs
  have hw : binaryKeysetWriter.write [] h.keyset = (b, .ok ()) := by
    revert hs'
    generalize binaryKeysetWriter.write [] h.keyset = x
    obtain ⟨b', o⟩ := x
    cases o <;> simp [getvalue]
  have := C29_reader_writer hw (valid_ne_default hv)
  unfold ProtoKeysetFormat.parse
  rw [this]
  rcases C20_create_iff h.keyset with ⟨_, hc⟩ | ⟨h', _⟩
  · exact hc
  · exact absurd hv h'

/-! ## C22 -/

section
variable {σ : Type}

/-- C22.  `write_no_secret` calls the writer with exactly the handle's keyset if it contains no
secret key material, and otherwise raises `TinkError` without touching the writer. -/
theorem C22_write_no_secret (h : KeysetHandle) (w : KeysetWriter σ) (s : σ) :
    (NoSecret h.keyset ∧ h.writeNoSecret w s = w.write s h.keyset) ∨
    (¬ NoSecret h.keyset ∧ h.writeNoSecret w s = (s, .error .tinkError)) := by
  unfold KeysetHandle.writeNoSecret
  rcases assertNoSecret_cases h.keyset with ⟨hn, h1⟩ | ⟨hn, h1⟩
  · left; rw [h1]; exact ⟨hn, rfl⟩
  · right; rw [h1]; exact ⟨hn, rfl⟩

/-- C22.  `read_no_secret` succeeds exactly on valid keysets without secret key material, and
returns what the reader returned. -/
theorem C22_read_no_secret (reader : KeysetReader) (h : KeysetHandle) :
    KeysetHandle.readNoSecret reader = .ok h ↔
      reader.read = .ok h.keyset ∧ NoSecret h.keyset ∧ Valid h.keyset := by
  unfold KeysetHandle.readNoSecret
  rw [bind_ok_iff]
  constructor
  · rintro ⟨ks, hr, h1⟩
    obtain ⟨⟨⟩, hn, hc⟩ := bind_ok_iff.1 h1
    rcases C20_create_iff ks with ⟨hv, hc'⟩ | ⟨_, hc'⟩
    · rw [hc'] at hc; cases hc
      exact ⟨hr, (assertNoSecret_iff ks).1 hn, hv⟩
    · rw [hc'] at hc; cases hc
  · rintro ⟨hr, hn, hv⟩
    refine ⟨h.keyset, hr, ?_⟩
    rw [bind_ok_iff]
    refine ⟨(), (assertNoSecret_iff _).2 hn, ?_⟩
    rcases C20_create_iff h.keyset with ⟨_, hc⟩ | ⟨h', _⟩
    · exact hc
    · exact absurd hv h'

/-- C22, binary format (for JSON: `Props/KeysetJson.lean`).  `serialize_without_secret`: only keysets without secrets are serialized, and the bytes
parse back to exactly that keyset. -/
theorem C22_serialize_without_secret {h : KeysetHandle} {b : Bytes}
    (hs : ProtoKeysetFormat.serializeWithoutSecret h = .ok b) :
    NoSecret h.keyset ∧ Keyset.fromString b = .ok h.keyset := by
  unfold ProtoKeysetFormat.serializeWithoutSecret at hs
  rcases C22_write_no_secret h binaryKeysetWriter [] with ⟨hn, he⟩ | ⟨_, he⟩
  · refine ⟨hn, ?_⟩
    rw [he] at hs
    simp only [binaryKeysetWriter] at hs
    split at hs
    · cases hs
    · rename_i b' hb'
      simp only [List.nil_append, getvalue, Except.ok.injEq] at hs
      subst hs
      exact C29_keyset_round_trip hb'
  · rw [he] at hs; cases hs

/-- C22, binary format (for JSON: `Props/KeysetJson.lean`).  `parse_without_secret` only returns keysets without secrets. -/
theorem C22_parse_without_secret {h : KeysetHandle} {b : Bytes}
    (hp : ProtoKeysetFormat.parseWithoutSecret b = .ok h) :
    NoSecret h.keyset ∧ Valid h.keyset ∧ Keyset.fromString b = .ok h.keyset := by
  obtain ⟨hr, hn, hv⟩ := (C22_read_no_secret _ _).1 hp
  refine ⟨hn, hv, ?_⟩
  simp only [binaryKeysetReader] at hr
  split at hr
  · cases hr
  · unfold convertDecodeError at hr
    split at hr
    · cases hr
    · exact hr

/-- C22, binary format (for JSON: `Props/KeysetJson.lean`).  Round trip on the no-secret path. -/
theorem C22_round_trip {h : KeysetHandle} (hv : Valid h.keyset) {b : Bytes}
    (hs : ProtoKeysetFormat.serializeWithoutSecret h = .ok b) :
    ProtoKeysetFormat.parseWithoutSecret b = .ok h := by
  obtain ⟨hn, hb⟩ := C22_serialize_without_secret hs
  apply (C22_read_no_secret _ _).2
  refine ⟨?_, hn, hv⟩
  simp only [binaryKeysetReader]
  rw [if_neg, hb]
  · rfl
  · intro h0
    subst h0
    rw [show Keyset.fromString [] = .ok {} from rfl] at hb
    simp only [Except.ok.injEq] at hb
    exact valid_ne_default hv hb.symm

end

/-! ## C24-C26 -/

theorem convert_ok {α : Type} {x : Py α} {a : α} : convertDecodeError x = .ok a ↔ x = .ok a := by
  unfold convertDecodeError
  split
  · simp
  · rfl

/-- What `_encrypt` does, exactly. -/
theorem encryptKeyset_ok_iff {ks : Keyset} {aead : Aead} {seed : Seed} {ad : Bytes}
    {e : EncryptedKeyset} :
    encryptKeyset ks aead seed ad = .ok e ↔
      ∃ s pt, ks.serializeToString = .ok s ∧ aead.encrypt seed s ad = .ok e.encryptedKeyset ∧
        aead.decrypt e.encryptedKeyset ad = .ok pt ∧ Keyset.fromString pt = .ok ks ∧
        e.keysetInfo = some (keysetInfo ks) := by
  unfold encryptKeyset
  rw [bind_ok_iff]
  constructor
  · rintro ⟨s, hs, h⟩
    obtain ⟨ct, hct, h⟩ := bind_ok_iff.1 h
    obtain ⟨⟨⟩, hd, h⟩ := bind_ok_iff.1 h
    cases h
    rw [convert_ok, bind_ok_iff] at hd
    obtain ⟨pt, hpt, hd⟩ := hd
    obtain ⟨ks2, hks2, hd⟩ := bind_ok_iff.1 hd
    split at hd
    · cases hd
    · rename_i he
      have he := Decidable.not_not.1 he
      subst he
      exact ⟨s, pt, hs, hct, hpt, hks2, rfl⟩
  · rintro ⟨s, pt, hs, hct, hpt, hks, hi⟩
    refine ⟨s, hs, ?_⟩
    rw [bind_ok_iff]
    refine ⟨_, hct, ?_⟩
    rw [bind_ok_iff]
    refine ⟨(), ?_, ?_⟩
    · rw [convert_ok, bind_ok_iff]
      refine ⟨pt, hpt, ?_⟩
      rw [bind_ok_iff]
      exact ⟨ks, hks, by simp⟩
    · cases e
      simp only at hi
      subst hi
      rfl

/-- What `_decrypt` does, exactly. -/
theorem decryptKeyset_ok_iff {e : EncryptedKeyset} {aead : Aead} {ad : Bytes} {ks : Keyset} :
    decryptKeyset e aead ad = .ok ks ↔
      ∃ pt, aead.decrypt e.encryptedKeyset ad = .ok pt ∧ Keyset.fromString pt = .ok ks ∧
        ks.key ≠ [] := by
  unfold decryptKeyset
  rw [convert_ok, bind_ok_iff]
  constructor
  · rintro ⟨pt, hpt, h⟩
    obtain ⟨ks', hks, h⟩ := bind_ok_iff.1 h
    obtain ⟨⟨⟩, ha, h⟩ := bind_ok_iff.1 h
    cases h
    refine ⟨pt, hpt, hks, ?_⟩
    intro he
    unfold assertEnoughKeyMaterial at ha
    rw [if_pos he] at ha
    cases ha
  · rintro ⟨pt, hpt, hks, hne⟩
    refine ⟨pt, hpt, ?_⟩
    rw [bind_ok_iff]
    refine ⟨ks, hks, ?_⟩
    rw [bind_ok_iff]
    exact ⟨(), by unfold assertEnoughKeyMaterial; rw [if_neg hne], rfl⟩

/-- Exactly when an encrypted read succeeds, and with what. -/
theorem read_ok_iff {reader : KeysetReader} {aead : Aead} {ad : Bytes} {h : KeysetHandle} :
    KeysetHandle.readWithAssociatedData reader aead ad = .ok h ↔
      ∃ e pt, reader.readEncrypted = .ok e ∧ e.encryptedKeyset ≠ [] ∧
        aead.decrypt e.encryptedKeyset ad = .ok pt ∧ Keyset.fromString pt = .ok h.keyset ∧
        Valid h.keyset := by
  unfold KeysetHandle.readWithAssociatedData
  rw [bind_ok_iff]
  constructor
  · rintro ⟨e, he, h1⟩
    obtain ⟨⟨⟩, ha, h1⟩ := bind_ok_iff.1 h1
    obtain ⟨ks, hks, hc⟩ := bind_ok_iff.1 h1
    obtain ⟨pt, hpt, hf, _⟩ := decryptKeyset_ok_iff.1 hks
    rcases C20_create_iff ks with ⟨hv, hc'⟩ | ⟨_, hc'⟩
    · rw [hc'] at hc; cases hc
      refine ⟨e, pt, he, ?_, hpt, hf, hv⟩
      intro h0
      unfold assertEnoughEncryptedKeyMaterial at ha
      rw [if_pos h0] at ha
      cases ha
    · rw [hc'] at hc; cases hc
  · rintro ⟨e, pt, he, h0, hpt, hf, hv⟩
    refine ⟨e, he, ?_⟩
    rw [bind_ok_iff]
    refine ⟨(), by unfold assertEnoughEncryptedKeyMaterial; rw [if_neg h0], ?_⟩
    rw [bind_ok_iff]
    refine ⟨h.keyset, decryptKeyset_ok_iff.2 ⟨pt, hpt, hf, ?_⟩, ?_⟩
    · obtain ⟨k, hk, _⟩ := hv.nonempty
      intro h0
      rw [h0] at hk
      cases hk
    · rcases C20_create_iff h.keyset with ⟨_, hc⟩ | ⟨h', _⟩
      · exact hc
      · exact absurd hv h'

section
variable {σ : Type}

/-- C25.  If an encrypted write succeeds, the AEAD's ciphertext was seen to decrypt to exactly
the given keyset, and that ciphertext with the keyset info is what was given to the writer. -/
theorem C25_write_checked {h : KeysetHandle} {w : KeysetWriter σ} {s s' : σ} {aead : Aead}
    {seed : Seed} {ad : Bytes}
    (hw : h.writeWithAssociatedData w s aead seed ad = (s', .ok ())) :
    ∃ ct pt, aead.decrypt ct ad = .ok pt ∧ Keyset.fromString pt = .ok h.keyset ∧
      w.writeEncrypted s ⟨ct, some (keysetInfo h.keyset)⟩ = (s', .ok ()) := by
  unfold KeysetHandle.writeWithAssociatedData at hw
  split at hw
  · cases hw
  · rename_i e he
    obtain ⟨_, pt, _, _, h3, h4, h5⟩ := encryptKeyset_ok_iff.1 he
    refine ⟨e.encryptedKeyset, pt, h3, h4, ?_⟩
    rw [← h5]; exact hw

/-- C25.  If the AEAD returns something that does not decrypt to the given keyset, `TinkError` is
raised and nothing is written. -/
theorem C25_write_check_fails {h : KeysetHandle} {w : KeysetWriter σ} {s : σ} {aead : Aead}
    {seed : Seed} {ad b ct pt : Bytes} (hs : h.keyset.serializeToString = .ok b)
    (hct : aead.encrypt seed b ad = .ok ct) (hpt : aead.decrypt ct ad = .ok pt)
    (hne : Keyset.fromString pt ≠ .ok h.keyset) :
    h.writeWithAssociatedData w s aead seed ad = (s, .error .tinkError) := by
  have : encryptKeyset h.keyset aead seed ad = .error .tinkError := by
    unfold encryptKeyset
    rw [hs]
    show (aead.encrypt seed b ad >>= _) = _
    rw [hct]
    show (convertDecodeError (aead.decrypt ct ad >>= _) >>= _) = _
    rw [hpt]
    show (convertDecodeError (Keyset.fromString pt >>= fun ks2 => if h.keyset ≠ ks2 then
      .error .tinkError else .ok ()) >>= _) = _
    cases hf : Keyset.fromString pt with
    | error e =>
      have : e = .decodeError := by
        unfold Keyset.fromString ofMerge at hf
        split at hf <;> cases hf
        rfl
      subst this
      rfl
    | ok ks2 =>
      have : h.keyset ≠ ks2 := fun he => hne (by rw [hf, he])
      show (convertDecodeError (if h.keyset ≠ ks2 then .error .tinkError else .ok ()) >>= _) = _
      rw [if_pos this]
      rfl
  unfold KeysetHandle.writeWithAssociatedData
  rw [this]

/-- C25.  Any exception raised before the writer is called leaves the storage untouched. -/
theorem C25_write_failure_untouched {h : KeysetHandle} {w : KeysetWriter σ} {s s' : σ}
    {aead : Aead} {seed : Seed} {ad : Bytes} {e : Exc}
    (hw : h.writeWithAssociatedData w s aead seed ad = (s', .error e)) :
    s' = s ∨ ∃ enc, w.writeEncrypted s enc = (s', .error e) := by
  unfold KeysetHandle.writeWithAssociatedData at hw
  split at hw
  · cases hw; exact .inl rfl
  · rename_i enc _; exact .inr ⟨enc, hw⟩

end

/-- C25.  For the binary format: what was written successfully can be read back with the same
AEAD and associated data, however faulty the AEAD, except when its ciphertext is empty. -/
theorem C25_binary_readable {h : KeysetHandle} (hv : Valid h.keyset) {aead : Aead} {seed : Seed}
    {ad b : Bytes} (hw : ProtoKeysetFormat.serializeEncrypted h aead seed ad = .ok b)
    (hne : ∀ s, h.keyset.serializeToString = .ok s → aead.encrypt seed s ad ≠ .ok []) :
    ProtoKeysetFormat.parseEncrypted b aead ad = .ok h := by
  have hw' : h.writeWithAssociatedData binaryKeysetWriter [] aead seed ad = (b, .ok ()) := by
    unfold ProtoKeysetFormat.serializeEncrypted at hw
    revert hw
    generalize h.writeWithAssociatedData binaryKeysetWriter [] aead seed ad = x
    obtain ⟨b', o⟩ := x
    cases o <;> simp [getvalue]
  unfold KeysetHandle.writeWithAssociatedData at hw'
  split at hw'
  · cases hw'
  · rename_i e he
    obtain ⟨s, pt, h1, h2, h3, h4, h5⟩ := encryptKeyset_ok_iff.1 he
    have hct : e.encryptedKeyset ≠ [] := by
      intro h0; rw [h0] at h2; exact hne s h1 h2
    exact read_ok_iff.2 ⟨_, pt, C29_reader_writer_encrypted hw' hct, hct, h3, h4, hv⟩

/-- C24.  Binary format: written under one AEAD, read under another one that decrypts its
ciphertexts. -/
theorem C24_binary_round_trip {h : KeysetHandle} (hv : Valid h.keyset) {aead aead' : Aead}
    {seed : Seed} {ad b : Bytes}
    (hw : ProtoKeysetFormat.serializeEncrypted h aead seed ad = .ok b)
    (hdec : ∀ pt ct, aead.encrypt seed pt ad = .ok ct → ct ≠ [] ∧ aead'.decrypt ct ad = .ok pt) :
    ProtoKeysetFormat.parseEncrypted b aead' ad = .ok h := by
  have hw' : h.writeWithAssociatedData binaryKeysetWriter [] aead seed ad = (b, .ok ()) := by
    unfold ProtoKeysetFormat.serializeEncrypted at hw
    revert hw
    generalize h.writeWithAssociatedData binaryKeysetWriter [] aead seed ad = x
    obtain ⟨b', o⟩ := x
    cases o <;> simp [getvalue]
  unfold KeysetHandle.writeWithAssociatedData at hw'
  split at hw'
  · cases hw'
  · rename_i e he
    obtain ⟨s, pt, h1, h2, h3, h4, h5⟩ := encryptKeyset_ok_iff.1 he
    obtain ⟨hct, hd⟩ := hdec _ _ h2
    exact read_ok_iff.2 ⟨_, s, C29_reader_writer_encrypted hw' hct, hct, hd,
      C29_keyset_round_trip h1, hv⟩

/-- C24.  Any writer and reader such that what was written is read back. -/
theorem C24_round_trip {σ : Type} {h : KeysetHandle} (hv : Valid h.keyset) {aead aead' : Aead}
    {seed : Seed} {ad : Bytes} {w : KeysetWriter σ} {s s' : σ} {reader : σ → KeysetReader}
    (hio : ∀ e s', e.encryptedKeyset ≠ [] → w.writeEncrypted s e = (s', .ok ()) →
      ∃ i, (reader s').readEncrypted = .ok ⟨e.encryptedKeyset, i⟩)
    (hw : h.writeWithAssociatedData w s aead seed ad = (s', .ok ()))
    (hdec : ∀ pt ct, aead.encrypt seed pt ad = .ok ct → ct ≠ [] ∧ aead'.decrypt ct ad = .ok pt) :
    KeysetHandle.readWithAssociatedData (reader s') aead' ad = .ok h := by
  unfold KeysetHandle.writeWithAssociatedData at hw
  split at hw
  · cases hw
  · rename_i e he
    obtain ⟨b, pt, h1, h2, h3, h4, h5⟩ := encryptKeyset_ok_iff.1 he
    obtain ⟨hct, hd⟩ := hdec _ _ h2
    obtain ⟨i, hi⟩ := hio e s' hct hw
    exact read_ok_iff.2 ⟨_, b, hi, hct, hd, C29_keyset_round_trip h1, hv⟩

/-- C24.  Writing does succeed with a correct AEAD, if the sizes stay below 2 GiB. -/
theorem C24_write_succeeds {h : KeysetHandle} {aead : Aead} {seed : Seed} {ad s ct b : Bytes}
    (hs : h.keyset.serializeToString = .ok s) (henc : aead.encrypt seed s ad = .ok ct)
    (hdec : aead.decrypt ct ad = .ok s)
    (hb : ({ encryptedKeyset := ct } : EncryptedKeyset).serializeToString = .ok b) :
    ProtoKeysetFormat.serializeEncrypted h aead seed ad = .ok b := by
  have he := encryptKeyset_ok_iff (e := ⟨ct, some (keysetInfo h.keyset)⟩).2
    ⟨s, s, hs, henc, hdec, C29_keyset_round_trip hs, rfl⟩
  unfold ProtoKeysetFormat.serializeEncrypted KeysetHandle.writeWithAssociatedData
  rw [he]
  simp only [binaryKeysetWriter, hb, List.nil_append, getvalue]

/-- C24.  `write` and `read` are the versions with empty associated data. -/
theorem C24_no_associated_data {σ : Type} (h : KeysetHandle) (w : KeysetWriter σ) (s : σ)
    (reader : KeysetReader) (aead : Aead) (seed : Seed) :
    h.write w s aead seed = h.writeWithAssociatedData w s aead seed [] ∧
    KeysetHandle.read reader aead = KeysetHandle.readWithAssociatedData reader aead [] := ⟨rfl, rfl⟩

/-- C26.  If the AEAD rejects the stored bytes under the given associated data, there is no
handle, and the AEAD's exception is raised (a `DecodeError` becoming a `TinkError`). -/
theorem C26_wrong_associated_data {reader : KeysetReader} {aead : Aead} {ad : Bytes}
    {e : EncryptedKeyset} {x : Exc} (hr : reader.readEncrypted = .ok e)
    (hne : e.encryptedKeyset ≠ []) (hx : aead.decrypt e.encryptedKeyset ad = .error x) :
    KeysetHandle.readWithAssociatedData reader aead ad =
      .error (if x = .decodeError then .tinkError else x) := by
  unfold KeysetHandle.readWithAssociatedData
  rw [hr]
  show (assertEnoughEncryptedKeyMaterial e >>= fun _ => decryptKeyset e aead ad >>= _) = _
  unfold assertEnoughEncryptedKeyMaterial decryptKeyset
  rw [if_neg hne, hx]
  show (convertDecodeError (.error x) >>= _) = _
  unfold convertDecodeError
  split
  · rename_i h; cases h; rfl
  · rename_i h
    have : x ≠ .decodeError := by rintro rfl; exact h rfl
    rw [if_neg this]
    rfl

/-- C26.  An encrypted keyset without ciphertext is refused. -/
theorem C26_empty_ciphertext {reader : KeysetReader} {e : EncryptedKeyset}
    (hr : reader.readEncrypted = .ok e) (he : e.encryptedKeyset = []) (aead : Aead) (ad : Bytes) :
    KeysetHandle.readWithAssociatedData reader aead ad = .error .tinkError := by
  unfold KeysetHandle.readWithAssociatedData
  rw [hr]
  show (assertEnoughEncryptedKeyMaterial e >>= _) = _
  unfold assertEnoughEncryptedKeyMaterial
  rw [if_pos he]
  rfl

/-- C26.  A plaintext that does not parse, or parses to a keyset that is not valid (for instance
without keys), is refused with `TinkError`. -/
theorem C26_bad_plaintext {reader : KeysetReader} {aead : Aead} {ad pt : Bytes}
    {e : EncryptedKeyset} (hr : reader.readEncrypted = .ok e)
    (hd : aead.decrypt e.encryptedKeyset ad = .ok pt)
    (hbad : ∀ ks, Keyset.fromString pt = .ok ks → ¬ Valid ks) :
    KeysetHandle.readWithAssociatedData reader aead ad = .error .tinkError := by
  by_cases hne : e.encryptedKeyset = []
  · exact C26_empty_ciphertext hr hne aead ad
  · unfold KeysetHandle.readWithAssociatedData
    rw [hr]
    show (assertEnoughEncryptedKeyMaterial e >>= fun _ => decryptKeyset e aead ad >>= _) = _
    unfold assertEnoughEncryptedKeyMaterial decryptKeyset
    rw [if_neg hne, hd]
    show (convertDecodeError (Keyset.fromString pt >>= _) >>= _) = _
    cases hf : Keyset.fromString pt with
    | error x =>
      have : x = .decodeError := by
        unfold Keyset.fromString ofMerge at hf
        split at hf <;> cases hf
        rfl
      subst this
      rfl
    | ok ks =>
      show (convertDecodeError (assertEnoughKeyMaterial ks >>= _) >>= _) = _
      unfold assertEnoughKeyMaterial
      split
      · rfl
      · show KeysetHandle.create ks = _
        rcases C20_create_iff ks with ⟨hv, _⟩ | ⟨_, hc⟩
        · exact absurd hv (hbad ks hf)
        · exact hc

namespace KeysetIOExample
open Toy

def ks : Keyset :=
  { primaryKeyId := 7
    key := [key .aead [5] 8 OutputPrefixType.RAW 77, key .aead [6] 7 OutputPrefixType.TINK] }

def master : Aead := ⟨fun seed pt ad => .ok (UInt8.ofNat seed :: ad ++ pt), fun ct ad =>
  if ad.isPrefixOf (ct.drop 1) then .ok (ct.drop (1 + ad.length)) else .error .tinkError⟩

/-- The round trip runs on a concrete keyset with an unknown status number. -/
example : (do
    let b ← ProtoKeysetFormat.serializeEncrypted ⟨ks⟩ master 9 [1, 2]
    ProtoKeysetFormat.parseEncrypted b master [1, 2]) = .ok ⟨ks⟩ := by decide +kernel

example : (do
    let b ← ProtoKeysetFormat.serializeEncrypted ⟨ks⟩ master 9 [1, 2]
    ProtoKeysetFormat.parseEncrypted b master [1, 3]) = .error .tinkError := by decide +kernel

/-- Its AEAD satisfies the hypothesis of `C24_binary_round_trip`. -/
example (seed : Seed) (ad : Bytes) : ∀ pt ct, master.encrypt seed pt ad = .ok ct →
    ct ≠ [] ∧ master.decrypt ct ad = .ok pt := by
  intro pt ct h
  cases h
  refine ⟨by simp, ?_⟩
  simp [master, List.isPrefixOf_iff_prefix, Nat.add_comm 1]

/-- An AEAD that returns an empty ciphertext and remembers the keyset. -/
def forgetful : Aead := ⟨fun _ _ _ => .ok [], fun _ _ => ks.serializeToString⟩

/-- C25, why the ciphertext must be nonempty: the write succeeds, the read fails. -/
theorem C25_empty_ciphertext_unreadable :
    ∃ b, ProtoKeysetFormat.serializeEncrypted ⟨ks⟩ forgetful 0 [] = .ok b ∧
      ProtoKeysetFormat.parseEncrypted b forgetful [] = .error .tinkError :=
  ⟨[], by decide +kernel, rfl⟩

/-- A public keyset passes the no-secret path; the keyset `ks` does not. -/
example : (do
    let b ← ProtoKeysetFormat.serializeWithoutSecret
      ⟨{ primaryKeyId := 8, key := [key .verify [5] 8 OutputPrefixType.RAW] }⟩
    ProtoKeysetFormat.parseWithoutSecret b) =
    .ok ⟨{ primaryKeyId := 8, key := [key .verify [5] 8 OutputPrefixType.RAW] }⟩ := by
  decide +kernel
example : ProtoKeysetFormat.serializeWithoutSecret ⟨ks⟩ = .error .tinkError := by decide +kernel

end KeysetIOExample
end Tink.Props
