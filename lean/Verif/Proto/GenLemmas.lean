import Verif.Proto.Gen
import Verif.Keyset.WireLemmas

/-!
# Parsing inverts serializing, for the messages of `Proto/Gen.lean`

Generated by `/verif/tools/protogen.py`.
-/

namespace Tink

theorem foldlM_msgField {β γ : Type} (f : β → Field → Option β) (b : β) (n : Nat) (o : Option γ)
    (flds : γ → List Field) (mrg : Bytes → Option γ) (g : Option γ → β)
    (h : ∀ y, f b ⟨n, .len y⟩ = (mrg y).map fun x => g (some x)) (h0 : g none = b)
    (hm : ∀ x, o = some x → mrg (encodeFields (flds x)) = some x) :
    (msgField n (o.map flds)).foldlM f b = some (g o) := by
  cases o with
  | none => simp [msgField, h0]
  | some x => simp [msgField, h, hm x rfl]

theorem KmsAeadKeyFormat.shape (m : KmsAeadKeyFormat) : ∀ f ∈ m.fields, f.Shape :=
  shape_strField _ (by decide)

theorem KmsAeadKeyFormat.merge_fields (m : KmsAeadKeyFormat) (h : (encodeFields m.fields).length < 2147483648) :
    KmsAeadKeyFormat.merge {} (encodeFields m.fields) = some m := by
  rw [KmsAeadKeyFormat.merge, parseFields_encode _ (wf_of_shape m.shape (by omega))]
  simp only [KmsAeadKeyFormat.fields, foldlM_append']
  exact foldlM_strField KmsAeadKeyFormat.mergeField {} 1 m.keyUri (fun s => { keyUri := s })
      (fun _ => rfl) rfl

theorem KmsAeadKeyFormat.fromString_serializeToString {m : KmsAeadKeyFormat} {b : Bytes}
    (h : m.serializeToString = .ok b) : KmsAeadKeyFormat.fromString b = .ok m := by
  obtain ⟨h2, h1⟩ := serializeFields_ok h
  subst h2
  unfold KmsAeadKeyFormat.fromString
  rw [KmsAeadKeyFormat.merge_fields m h1]
  rfl

theorem KmsAeadKey.shape (m : KmsAeadKey) : ∀ f ∈ m.fields, f.Shape :=
  shape_append (shape_uint32Field _ (by decide)) (shape_msgField _ (by decide))

theorem KmsAeadKey.merge_fields (m : KmsAeadKey) (h : (encodeFields m.fields).length < 2147483648) :
    KmsAeadKey.merge {} (encodeFields m.fields) = some m := by
  rw [KmsAeadKey.merge, parseFields_encode _ (wf_of_shape m.shape (by omega))]
  simp only [KmsAeadKey.fields, foldlM_append']
  rw [foldlM_uint32Field KmsAeadKey.mergeField {} 1 m.version (fun s => { version := s })
      (fun _ => rfl) rfl, Option.bind_some]
  exact foldlM_msgField KmsAeadKey.mergeField _ 2 m.params KmsAeadKeyFormat.fields (KmsAeadKeyFormat.merge {}) (fun s => { version := m.version, params := s })
      (fun _ => rfl) rfl (fun x hx => KmsAeadKeyFormat.merge_fields x (by
        refine Nat.lt_of_le_of_lt (len_le_encodeFields (num := 2) ?_) h
        simp [KmsAeadKey.fields, hx, msgField]))

theorem KmsAeadKey.fromString_serializeToString {m : KmsAeadKey} {b : Bytes}
    (h : m.serializeToString = .ok b) : KmsAeadKey.fromString b = .ok m := by
  obtain ⟨h2, h1⟩ := serializeFields_ok h
  subst h2
  unfold KmsAeadKey.fromString
  rw [KmsAeadKey.merge_fields m h1]
  rfl

theorem KmsEnvelopeAeadKeyFormat.shape (m : KmsEnvelopeAeadKeyFormat) : ∀ f ∈ m.fields, f.Shape :=
  shape_append (shape_strField _ (by decide)) (shape_msgField _ (by decide))

theorem KmsEnvelopeAeadKeyFormat.merge_fields (m : KmsEnvelopeAeadKeyFormat) (h : (encodeFields m.fields).length < 2147483648) :
    KmsEnvelopeAeadKeyFormat.merge {} (encodeFields m.fields) = some m := by
  rw [KmsEnvelopeAeadKeyFormat.merge, parseFields_encode _ (wf_of_shape m.shape (by omega))]
  simp only [KmsEnvelopeAeadKeyFormat.fields, foldlM_append']
  rw [foldlM_strField KmsEnvelopeAeadKeyFormat.mergeField {} 1 m.kekUri (fun s => { kekUri := s })
      (fun _ => rfl) rfl, Option.bind_some]
  exact foldlM_msgField KmsEnvelopeAeadKeyFormat.mergeField _ 2 m.dekTemplate KeyTemplate.fields (KeyTemplate.merge {}) (fun s => { kekUri := m.kekUri, dekTemplate := s })
      (fun _ => rfl) rfl (fun x hx => KeyTemplate.merge_fields x (by
        refine Nat.lt_of_le_of_lt (len_le_encodeFields (num := 2) ?_) h
        simp [KmsEnvelopeAeadKeyFormat.fields, hx, msgField]))

theorem KmsEnvelopeAeadKeyFormat.fromString_serializeToString {m : KmsEnvelopeAeadKeyFormat} {b : Bytes}
    (h : m.serializeToString = .ok b) : KmsEnvelopeAeadKeyFormat.fromString b = .ok m := by
  obtain ⟨h2, h1⟩ := serializeFields_ok h
  subst h2
  unfold KmsEnvelopeAeadKeyFormat.fromString
  rw [KmsEnvelopeAeadKeyFormat.merge_fields m h1]
  rfl

theorem KmsEnvelopeAeadKey.shape (m : KmsEnvelopeAeadKey) : ∀ f ∈ m.fields, f.Shape :=
  shape_append (shape_uint32Field _ (by decide)) (shape_msgField _ (by decide))

theorem KmsEnvelopeAeadKey.merge_fields (m : KmsEnvelopeAeadKey) (h : (encodeFields m.fields).length < 2147483648) :
    KmsEnvelopeAeadKey.merge {} (encodeFields m.fields) = some m := by
  rw [KmsEnvelopeAeadKey.merge, parseFields_encode _ (wf_of_shape m.shape (by omega))]
  simp only [KmsEnvelopeAeadKey.fields, foldlM_append']
  rw [foldlM_uint32Field KmsEnvelopeAeadKey.mergeField {} 1 m.version (fun s => { version := s })
      (fun _ => rfl) rfl, Option.bind_some]
  exact foldlM_msgField KmsEnvelopeAeadKey.mergeField _ 2 m.params KmsEnvelopeAeadKeyFormat.fields (KmsEnvelopeAeadKeyFormat.merge {}) (fun s => { version := m.version, params := s })
      (fun _ => rfl) rfl (fun x hx => KmsEnvelopeAeadKeyFormat.merge_fields x (by
        refine Nat.lt_of_le_of_lt (len_le_encodeFields (num := 2) ?_) h
        simp [KmsEnvelopeAeadKey.fields, hx, msgField]))

theorem KmsEnvelopeAeadKey.fromString_serializeToString {m : KmsEnvelopeAeadKey} {b : Bytes}
    (h : m.serializeToString = .ok b) : KmsEnvelopeAeadKey.fromString b = .ok m := by
  obtain ⟨h2, h1⟩ := serializeFields_ok h
  subst h2
  unfold KmsEnvelopeAeadKey.fromString
  rw [KmsEnvelopeAeadKey.merge_fields m h1]
  rfl

theorem AesEaxParams.shape (m : AesEaxParams) : ∀ f ∈ m.fields, f.Shape :=
  shape_uint32Field _ (by decide)

theorem AesEaxParams.merge_fields (m : AesEaxParams) (h : (encodeFields m.fields).length < 2147483648) :
    AesEaxParams.merge {} (encodeFields m.fields) = some m := by
  rw [AesEaxParams.merge, parseFields_encode _ (wf_of_shape m.shape (by omega))]
  simp only [AesEaxParams.fields, foldlM_append']
  exact foldlM_uint32Field AesEaxParams.mergeField {} 1 m.ivSize (fun s => { ivSize := s })
      (fun _ => rfl) rfl

theorem AesEaxParams.fromString_serializeToString {m : AesEaxParams} {b : Bytes}
    (h : m.serializeToString = .ok b) : AesEaxParams.fromString b = .ok m := by
  obtain ⟨h2, h1⟩ := serializeFields_ok h
  subst h2
  unfold AesEaxParams.fromString
  rw [AesEaxParams.merge_fields m h1]
  rfl

theorem AesEaxKeyFormat.shape (m : AesEaxKeyFormat) : ∀ f ∈ m.fields, f.Shape :=
  shape_append (shape_msgField _ (by decide)) (shape_uint32Field _ (by decide))

theorem AesEaxKeyFormat.merge_fields (m : AesEaxKeyFormat) (h : (encodeFields m.fields).length < 2147483648) :
    AesEaxKeyFormat.merge {} (encodeFields m.fields) = some m := by
  rw [AesEaxKeyFormat.merge, parseFields_encode _ (wf_of_shape m.shape (by omega))]
  simp only [AesEaxKeyFormat.fields, foldlM_append']
  rw [foldlM_msgField AesEaxKeyFormat.mergeField {} 1 m.params AesEaxParams.fields (AesEaxParams.merge {}) (fun s => { params := s })
      (fun _ => rfl) rfl (fun x hx => AesEaxParams.merge_fields x (by
        refine Nat.lt_of_le_of_lt (len_le_encodeFields (num := 1) ?_) h
        simp [AesEaxKeyFormat.fields, hx, msgField])), Option.bind_some]
  exact foldlM_uint32Field AesEaxKeyFormat.mergeField _ 2 m.keySize (fun s => { params := m.params, keySize := s })
      (fun _ => rfl) rfl

theorem AesEaxKeyFormat.fromString_serializeToString {m : AesEaxKeyFormat} {b : Bytes}
    (h : m.serializeToString = .ok b) : AesEaxKeyFormat.fromString b = .ok m := by
  obtain ⟨h2, h1⟩ := serializeFields_ok h
  subst h2
  unfold AesEaxKeyFormat.fromString
  rw [AesEaxKeyFormat.merge_fields m h1]
  rfl

theorem AesGcmKeyFormat.shape (m : AesGcmKeyFormat) : ∀ f ∈ m.fields, f.Shape :=
  shape_append (shape_uint32Field _ (by decide)) (shape_uint32Field _ (by decide))

theorem AesGcmKeyFormat.merge_fields (m : AesGcmKeyFormat) (h : (encodeFields m.fields).length < 2147483648) :
    AesGcmKeyFormat.merge {} (encodeFields m.fields) = some m := by
  rw [AesGcmKeyFormat.merge, parseFields_encode _ (wf_of_shape m.shape (by omega))]
  simp only [AesGcmKeyFormat.fields, foldlM_append']
  rw [foldlM_uint32Field AesGcmKeyFormat.mergeField {} 2 m.keySize (fun s => { keySize := s })
      (fun _ => rfl) rfl, Option.bind_some]
  exact foldlM_uint32Field AesGcmKeyFormat.mergeField _ 3 m.version (fun s => { keySize := m.keySize, version := s })
      (fun _ => rfl) rfl

theorem AesGcmKeyFormat.fromString_serializeToString {m : AesGcmKeyFormat} {b : Bytes}
    (h : m.serializeToString = .ok b) : AesGcmKeyFormat.fromString b = .ok m := by
  obtain ⟨h2, h1⟩ := serializeFields_ok h
  subst h2
  unfold AesGcmKeyFormat.fromString
  rw [AesGcmKeyFormat.merge_fields m h1]
  rfl

theorem AesGcmSivKeyFormat.shape (m : AesGcmSivKeyFormat) : ∀ f ∈ m.fields, f.Shape :=
  shape_append (shape_uint32Field _ (by decide)) (shape_uint32Field _ (by decide))

theorem AesGcmSivKeyFormat.merge_fields (m : AesGcmSivKeyFormat) (h : (encodeFields m.fields).length < 2147483648) :
    AesGcmSivKeyFormat.merge {} (encodeFields m.fields) = some m := by
  rw [AesGcmSivKeyFormat.merge, parseFields_encode _ (wf_of_shape m.shape (by omega))]
  simp only [AesGcmSivKeyFormat.fields, foldlM_append']
  rw [foldlM_uint32Field AesGcmSivKeyFormat.mergeField {} 1 m.version (fun s => { version := s })
      (fun _ => rfl) rfl, Option.bind_some]
  exact foldlM_uint32Field AesGcmSivKeyFormat.mergeField _ 2 m.keySize (fun s => { version := m.version, keySize := s })
      (fun _ => rfl) rfl

theorem AesGcmSivKeyFormat.fromString_serializeToString {m : AesGcmSivKeyFormat} {b : Bytes}
    (h : m.serializeToString = .ok b) : AesGcmSivKeyFormat.fromString b = .ok m := by
  obtain ⟨h2, h1⟩ := serializeFields_ok h
  subst h2
  unfold AesGcmSivKeyFormat.fromString
  rw [AesGcmSivKeyFormat.merge_fields m h1]
  rfl

theorem AesCtrParams.shape (m : AesCtrParams) : ∀ f ∈ m.fields, f.Shape :=
  shape_uint32Field _ (by decide)

theorem AesCtrParams.merge_fields (m : AesCtrParams) (h : (encodeFields m.fields).length < 2147483648) :
    AesCtrParams.merge {} (encodeFields m.fields) = some m := by
  rw [AesCtrParams.merge, parseFields_encode _ (wf_of_shape m.shape (by omega))]
  simp only [AesCtrParams.fields, foldlM_append']
  exact foldlM_uint32Field AesCtrParams.mergeField {} 1 m.ivSize (fun s => { ivSize := s })
      (fun _ => rfl) rfl

theorem AesCtrParams.fromString_serializeToString {m : AesCtrParams} {b : Bytes}
    (h : m.serializeToString = .ok b) : AesCtrParams.fromString b = .ok m := by
  obtain ⟨h2, h1⟩ := serializeFields_ok h
  subst h2
  unfold AesCtrParams.fromString
  rw [AesCtrParams.merge_fields m h1]
  rfl

theorem AesCtrKeyFormat.shape (m : AesCtrKeyFormat) : ∀ f ∈ m.fields, f.Shape :=
  shape_append (shape_msgField _ (by decide)) (shape_uint32Field _ (by decide))

theorem AesCtrKeyFormat.merge_fields (m : AesCtrKeyFormat) (h : (encodeFields m.fields).length < 2147483648) :
    AesCtrKeyFormat.merge {} (encodeFields m.fields) = some m := by
  rw [AesCtrKeyFormat.merge, parseFields_encode _ (wf_of_shape m.shape (by omega))]
  simp only [AesCtrKeyFormat.fields, foldlM_append']
  rw [foldlM_msgField AesCtrKeyFormat.mergeField {} 1 m.params AesCtrParams.fields (AesCtrParams.merge {}) (fun s => { params := s })
      (fun _ => rfl) rfl (fun x hx => AesCtrParams.merge_fields x (by
        refine Nat.lt_of_le_of_lt (len_le_encodeFields (num := 1) ?_) h
        simp [AesCtrKeyFormat.fields, hx, msgField])), Option.bind_some]
  exact foldlM_uint32Field AesCtrKeyFormat.mergeField _ 2 m.keySize (fun s => { params := m.params, keySize := s })
      (fun _ => rfl) rfl

theorem AesCtrKeyFormat.fromString_serializeToString {m : AesCtrKeyFormat} {b : Bytes}
    (h : m.serializeToString = .ok b) : AesCtrKeyFormat.fromString b = .ok m := by
  obtain ⟨h2, h1⟩ := serializeFields_ok h
  subst h2
  unfold AesCtrKeyFormat.fromString
  rw [AesCtrKeyFormat.merge_fields m h1]
  rfl

theorem HmacParams.shape (m : HmacParams) : ∀ f ∈ m.fields, f.Shape :=
  shape_append (shape_enumField _ (by decide)) (shape_uint32Field _ (by decide))

theorem HmacParams.merge_fields (m : HmacParams) (h : (encodeFields m.fields).length < 2147483648) :
    HmacParams.merge {} (encodeFields m.fields) = some m := by
  rw [HmacParams.merge, parseFields_encode _ (wf_of_shape m.shape (by omega))]
  simp only [HmacParams.fields, foldlM_append']
  rw [foldlM_enumField HmacParams.mergeField {} 1 m.hash (fun s => { hash := s })
      (fun _ => rfl) rfl, Option.bind_some]
  exact foldlM_uint32Field HmacParams.mergeField _ 2 m.tagSize (fun s => { hash := m.hash, tagSize := s })
      (fun _ => rfl) rfl

theorem HmacParams.fromString_serializeToString {m : HmacParams} {b : Bytes}
    (h : m.serializeToString = .ok b) : HmacParams.fromString b = .ok m := by
  obtain ⟨h2, h1⟩ := serializeFields_ok h
  subst h2
  unfold HmacParams.fromString
  rw [HmacParams.merge_fields m h1]
  rfl

theorem HmacKeyFormat.shape (m : HmacKeyFormat) : ∀ f ∈ m.fields, f.Shape :=
  shape_append (shape_append (shape_msgField _ (by decide)) (shape_uint32Field _ (by decide))) (shape_uint32Field _ (by decide))

theorem HmacKeyFormat.merge_fields (m : HmacKeyFormat) (h : (encodeFields m.fields).length < 2147483648) :
    HmacKeyFormat.merge {} (encodeFields m.fields) = some m := by
  rw [HmacKeyFormat.merge, parseFields_encode _ (wf_of_shape m.shape (by omega))]
  simp only [HmacKeyFormat.fields, foldlM_append']
  rw [foldlM_msgField HmacKeyFormat.mergeField {} 1 m.params HmacParams.fields (HmacParams.merge {}) (fun s => { params := s })
      (fun _ => rfl) rfl (fun x hx => HmacParams.merge_fields x (by
        refine Nat.lt_of_le_of_lt (len_le_encodeFields (num := 1) ?_) h
        simp [HmacKeyFormat.fields, hx, msgField])), Option.bind_some]
  rw [foldlM_uint32Field HmacKeyFormat.mergeField _ 2 m.keySize (fun s => { params := m.params, keySize := s })
      (fun _ => rfl) rfl, Option.bind_some]
  exact foldlM_uint32Field HmacKeyFormat.mergeField _ 3 m.version (fun s => { params := m.params, keySize := m.keySize, version := s })
      (fun _ => rfl) rfl

theorem HmacKeyFormat.fromString_serializeToString {m : HmacKeyFormat} {b : Bytes}
    (h : m.serializeToString = .ok b) : HmacKeyFormat.fromString b = .ok m := by
  obtain ⟨h2, h1⟩ := serializeFields_ok h
  subst h2
  unfold HmacKeyFormat.fromString
  rw [HmacKeyFormat.merge_fields m h1]
  rfl

theorem AesCtrHmacAeadKeyFormat.shape (m : AesCtrHmacAeadKeyFormat) : ∀ f ∈ m.fields, f.Shape :=
  shape_append (shape_msgField _ (by decide)) (shape_msgField _ (by decide))

theorem AesCtrHmacAeadKeyFormat.merge_fields (m : AesCtrHmacAeadKeyFormat) (h : (encodeFields m.fields).length < 2147483648) :
    AesCtrHmacAeadKeyFormat.merge {} (encodeFields m.fields) = some m := by
  rw [AesCtrHmacAeadKeyFormat.merge, parseFields_encode _ (wf_of_shape m.shape (by omega))]
  simp only [AesCtrHmacAeadKeyFormat.fields, foldlM_append']
  rw [foldlM_msgField AesCtrHmacAeadKeyFormat.mergeField {} 1 m.aesCtrKeyFormat AesCtrKeyFormat.fields (AesCtrKeyFormat.merge {}) (fun s => { aesCtrKeyFormat := s })
      (fun _ => rfl) rfl (fun x hx => AesCtrKeyFormat.merge_fields x (by
        refine Nat.lt_of_le_of_lt (len_le_encodeFields (num := 1) ?_) h
        simp [AesCtrHmacAeadKeyFormat.fields, hx, msgField])), Option.bind_some]
  exact foldlM_msgField AesCtrHmacAeadKeyFormat.mergeField _ 2 m.hmacKeyFormat HmacKeyFormat.fields (HmacKeyFormat.merge {}) (fun s => { aesCtrKeyFormat := m.aesCtrKeyFormat, hmacKeyFormat := s })
      (fun _ => rfl) rfl (fun x hx => HmacKeyFormat.merge_fields x (by
        refine Nat.lt_of_le_of_lt (len_le_encodeFields (num := 2) ?_) h
        simp [AesCtrHmacAeadKeyFormat.fields, hx, msgField]))

theorem AesCtrHmacAeadKeyFormat.fromString_serializeToString {m : AesCtrHmacAeadKeyFormat} {b : Bytes}
    (h : m.serializeToString = .ok b) : AesCtrHmacAeadKeyFormat.fromString b = .ok m := by
  obtain ⟨h2, h1⟩ := serializeFields_ok h
  subst h2
  unfold AesCtrHmacAeadKeyFormat.fromString
  rw [AesCtrHmacAeadKeyFormat.merge_fields m h1]
  rfl

theorem AesSivKeyFormat.shape (m : AesSivKeyFormat) : ∀ f ∈ m.fields, f.Shape :=
  shape_append (shape_uint32Field _ (by decide)) (shape_uint32Field _ (by decide))

theorem AesSivKeyFormat.merge_fields (m : AesSivKeyFormat) (h : (encodeFields m.fields).length < 2147483648) :
    AesSivKeyFormat.merge {} (encodeFields m.fields) = some m := by
  rw [AesSivKeyFormat.merge, parseFields_encode _ (wf_of_shape m.shape (by omega))]
  simp only [AesSivKeyFormat.fields, foldlM_append']
  rw [foldlM_uint32Field AesSivKeyFormat.mergeField {} 1 m.keySize (fun s => { keySize := s })
      (fun _ => rfl) rfl, Option.bind_some]
  exact foldlM_uint32Field AesSivKeyFormat.mergeField _ 2 m.version (fun s => { keySize := m.keySize, version := s })
      (fun _ => rfl) rfl

theorem AesSivKeyFormat.fromString_serializeToString {m : AesSivKeyFormat} {b : Bytes}
    (h : m.serializeToString = .ok b) : AesSivKeyFormat.fromString b = .ok m := by
  obtain ⟨h2, h1⟩ := serializeFields_ok h
  subst h2
  unfold AesSivKeyFormat.fromString
  rw [AesSivKeyFormat.merge_fields m h1]
  rfl

theorem AesCmacParams.shape (m : AesCmacParams) : ∀ f ∈ m.fields, f.Shape :=
  shape_uint32Field _ (by decide)

theorem AesCmacParams.merge_fields (m : AesCmacParams) (h : (encodeFields m.fields).length < 2147483648) :
    AesCmacParams.merge {} (encodeFields m.fields) = some m := by
  rw [AesCmacParams.merge, parseFields_encode _ (wf_of_shape m.shape (by omega))]
  simp only [AesCmacParams.fields, foldlM_append']
  exact foldlM_uint32Field AesCmacParams.mergeField {} 1 m.tagSize (fun s => { tagSize := s })
      (fun _ => rfl) rfl

theorem AesCmacParams.fromString_serializeToString {m : AesCmacParams} {b : Bytes}
    (h : m.serializeToString = .ok b) : AesCmacParams.fromString b = .ok m := by
  obtain ⟨h2, h1⟩ := serializeFields_ok h
  subst h2
  unfold AesCmacParams.fromString
  rw [AesCmacParams.merge_fields m h1]
  rfl

theorem AesCmacKeyFormat.shape (m : AesCmacKeyFormat) : ∀ f ∈ m.fields, f.Shape :=
  shape_append (shape_uint32Field _ (by decide)) (shape_msgField _ (by decide))

theorem AesCmacKeyFormat.merge_fields (m : AesCmacKeyFormat) (h : (encodeFields m.fields).length < 2147483648) :
    AesCmacKeyFormat.merge {} (encodeFields m.fields) = some m := by
  rw [AesCmacKeyFormat.merge, parseFields_encode _ (wf_of_shape m.shape (by omega))]
  simp only [AesCmacKeyFormat.fields, foldlM_append']
  rw [foldlM_uint32Field AesCmacKeyFormat.mergeField {} 1 m.keySize (fun s => { keySize := s })
      (fun _ => rfl) rfl, Option.bind_some]
  exact foldlM_msgField AesCmacKeyFormat.mergeField _ 2 m.params AesCmacParams.fields (AesCmacParams.merge {}) (fun s => { keySize := m.keySize, params := s })
      (fun _ => rfl) rfl (fun x hx => AesCmacParams.merge_fields x (by
        refine Nat.lt_of_le_of_lt (len_le_encodeFields (num := 2) ?_) h
        simp [AesCmacKeyFormat.fields, hx, msgField]))

theorem AesCmacKeyFormat.fromString_serializeToString {m : AesCmacKeyFormat} {b : Bytes}
    (h : m.serializeToString = .ok b) : AesCmacKeyFormat.fromString b = .ok m := by
  obtain ⟨h2, h1⟩ := serializeFields_ok h
  subst h2
  unfold AesCmacKeyFormat.fromString
  rw [AesCmacKeyFormat.merge_fields m h1]
  rfl

theorem EciesHkdfKemParams.shape (m : EciesHkdfKemParams) : ∀ f ∈ m.fields, f.Shape :=
  shape_append (shape_append (shape_enumField _ (by decide)) (shape_enumField _ (by decide))) (shape_bytesField _ (by decide))

theorem EciesHkdfKemParams.merge_fields (m : EciesHkdfKemParams) (h : (encodeFields m.fields).length < 2147483648) :
    EciesHkdfKemParams.merge {} (encodeFields m.fields) = some m := by
  rw [EciesHkdfKemParams.merge, parseFields_encode _ (wf_of_shape m.shape (by omega))]
  simp only [EciesHkdfKemParams.fields, foldlM_append']
  rw [foldlM_enumField EciesHkdfKemParams.mergeField {} 1 m.curveType (fun s => { curveType := s })
      (fun _ => rfl) rfl, Option.bind_some]
  rw [foldlM_enumField EciesHkdfKemParams.mergeField _ 2 m.hkdfHashType (fun s => { curveType := m.curveType, hkdfHashType := s })
      (fun _ => rfl) rfl, Option.bind_some]
  exact foldlM_bytesField EciesHkdfKemParams.mergeField _ 11 m.hkdfSalt (fun s => { curveType := m.curveType, hkdfHashType := m.hkdfHashType, hkdfSalt := s })
      (fun _ => rfl) rfl

theorem EciesHkdfKemParams.fromString_serializeToString {m : EciesHkdfKemParams} {b : Bytes}
    (h : m.serializeToString = .ok b) : EciesHkdfKemParams.fromString b = .ok m := by
  obtain ⟨h2, h1⟩ := serializeFields_ok h
  subst h2
  unfold EciesHkdfKemParams.fromString
  rw [EciesHkdfKemParams.merge_fields m h1]
  rfl

theorem EciesAeadDemParams.shape (m : EciesAeadDemParams) : ∀ f ∈ m.fields, f.Shape :=
  shape_msgField _ (by decide)

theorem EciesAeadDemParams.merge_fields (m : EciesAeadDemParams) (h : (encodeFields m.fields).length < 2147483648) :
    EciesAeadDemParams.merge {} (encodeFields m.fields) = some m := by
  rw [EciesAeadDemParams.merge, parseFields_encode _ (wf_of_shape m.shape (by omega))]
  simp only [EciesAeadDemParams.fields, foldlM_append']
  exact foldlM_msgField EciesAeadDemParams.mergeField {} 2 m.aeadDem KeyTemplate.fields (KeyTemplate.merge {}) (fun s => { aeadDem := s })
      (fun _ => rfl) rfl (fun x hx => KeyTemplate.merge_fields x (by
        refine Nat.lt_of_le_of_lt (len_le_encodeFields (num := 2) ?_) h
        simp [EciesAeadDemParams.fields, hx, msgField]))

theorem EciesAeadDemParams.fromString_serializeToString {m : EciesAeadDemParams} {b : Bytes}
    (h : m.serializeToString = .ok b) : EciesAeadDemParams.fromString b = .ok m := by
  obtain ⟨h2, h1⟩ := serializeFields_ok h
  subst h2
  unfold EciesAeadDemParams.fromString
  rw [EciesAeadDemParams.merge_fields m h1]
  rfl

theorem EciesAeadHkdfParams.shape (m : EciesAeadHkdfParams) : ∀ f ∈ m.fields, f.Shape :=
  shape_append (shape_append (shape_msgField _ (by decide)) (shape_msgField _ (by decide))) (shape_enumField _ (by decide))

theorem EciesAeadHkdfParams.merge_fields (m : EciesAeadHkdfParams) (h : (encodeFields m.fields).length < 2147483648) :
    EciesAeadHkdfParams.merge {} (encodeFields m.fields) = some m := by
  rw [EciesAeadHkdfParams.merge, parseFields_encode _ (wf_of_shape m.shape (by omega))]
  simp only [EciesAeadHkdfParams.fields, foldlM_append']
  rw [foldlM_msgField EciesAeadHkdfParams.mergeField {} 1 m.kemParams EciesHkdfKemParams.fields (EciesHkdfKemParams.merge {}) (fun s => { kemParams := s })
      (fun _ => rfl) rfl (fun x hx => EciesHkdfKemParams.merge_fields x (by
        refine Nat.lt_of_le_of_lt (len_le_encodeFields (num := 1) ?_) h
        simp [EciesAeadHkdfParams.fields, hx, msgField])), Option.bind_some]
  rw [foldlM_msgField EciesAeadHkdfParams.mergeField _ 2 m.demParams EciesAeadDemParams.fields (EciesAeadDemParams.merge {}) (fun s => { kemParams := m.kemParams, demParams := s })
      (fun _ => rfl) rfl (fun x hx => EciesAeadDemParams.merge_fields x (by
        refine Nat.lt_of_le_of_lt (len_le_encodeFields (num := 2) ?_) h
        simp [EciesAeadHkdfParams.fields, hx, msgField])), Option.bind_some]
  exact foldlM_enumField EciesAeadHkdfParams.mergeField _ 3 m.ecPointFormat (fun s => { kemParams := m.kemParams, demParams := m.demParams, ecPointFormat := s })
      (fun _ => rfl) rfl

theorem EciesAeadHkdfParams.fromString_serializeToString {m : EciesAeadHkdfParams} {b : Bytes}
    (h : m.serializeToString = .ok b) : EciesAeadHkdfParams.fromString b = .ok m := by
  obtain ⟨h2, h1⟩ := serializeFields_ok h
  subst h2
  unfold EciesAeadHkdfParams.fromString
  rw [EciesAeadHkdfParams.merge_fields m h1]
  rfl

theorem EciesAeadHkdfKeyFormat.shape (m : EciesAeadHkdfKeyFormat) : ∀ f ∈ m.fields, f.Shape :=
  shape_msgField _ (by decide)

theorem EciesAeadHkdfKeyFormat.merge_fields (m : EciesAeadHkdfKeyFormat) (h : (encodeFields m.fields).length < 2147483648) :
    EciesAeadHkdfKeyFormat.merge {} (encodeFields m.fields) = some m := by
  rw [EciesAeadHkdfKeyFormat.merge, parseFields_encode _ (wf_of_shape m.shape (by omega))]
  simp only [EciesAeadHkdfKeyFormat.fields, foldlM_append']
  exact foldlM_msgField EciesAeadHkdfKeyFormat.mergeField {} 1 m.params EciesAeadHkdfParams.fields (EciesAeadHkdfParams.merge {}) (fun s => { params := s })
      (fun _ => rfl) rfl (fun x hx => EciesAeadHkdfParams.merge_fields x (by
        refine Nat.lt_of_le_of_lt (len_le_encodeFields (num := 1) ?_) h
        simp [EciesAeadHkdfKeyFormat.fields, hx, msgField]))

theorem EciesAeadHkdfKeyFormat.fromString_serializeToString {m : EciesAeadHkdfKeyFormat} {b : Bytes}
    (h : m.serializeToString = .ok b) : EciesAeadHkdfKeyFormat.fromString b = .ok m := by
  obtain ⟨h2, h1⟩ := serializeFields_ok h
  subst h2
  unfold EciesAeadHkdfKeyFormat.fromString
  rw [EciesAeadHkdfKeyFormat.merge_fields m h1]
  rfl

theorem HpkeParams.shape (m : HpkeParams) : ∀ f ∈ m.fields, f.Shape :=
  shape_append (shape_append (shape_enumField _ (by decide)) (shape_enumField _ (by decide))) (shape_enumField _ (by decide))

theorem HpkeParams.merge_fields (m : HpkeParams) (h : (encodeFields m.fields).length < 2147483648) :
    HpkeParams.merge {} (encodeFields m.fields) = some m := by
  rw [HpkeParams.merge, parseFields_encode _ (wf_of_shape m.shape (by omega))]
  simp only [HpkeParams.fields, foldlM_append']
  rw [foldlM_enumField HpkeParams.mergeField {} 1 m.kem (fun s => { kem := s })
      (fun _ => rfl) rfl, Option.bind_some]
  rw [foldlM_enumField HpkeParams.mergeField _ 2 m.kdf (fun s => { kem := m.kem, kdf := s })
      (fun _ => rfl) rfl, Option.bind_some]
  exact foldlM_enumField HpkeParams.mergeField _ 3 m.aead (fun s => { kem := m.kem, kdf := m.kdf, aead := s })
      (fun _ => rfl) rfl

theorem HpkeParams.fromString_serializeToString {m : HpkeParams} {b : Bytes}
    (h : m.serializeToString = .ok b) : HpkeParams.fromString b = .ok m := by
  obtain ⟨h2, h1⟩ := serializeFields_ok h
  subst h2
  unfold HpkeParams.fromString
  rw [HpkeParams.merge_fields m h1]
  rfl

theorem HpkeKeyFormat.shape (m : HpkeKeyFormat) : ∀ f ∈ m.fields, f.Shape :=
  shape_msgField _ (by decide)

theorem HpkeKeyFormat.merge_fields (m : HpkeKeyFormat) (h : (encodeFields m.fields).length < 2147483648) :
    HpkeKeyFormat.merge {} (encodeFields m.fields) = some m := by
  rw [HpkeKeyFormat.merge, parseFields_encode _ (wf_of_shape m.shape (by omega))]
  simp only [HpkeKeyFormat.fields, foldlM_append']
  exact foldlM_msgField HpkeKeyFormat.mergeField {} 1 m.params HpkeParams.fields (HpkeParams.merge {}) (fun s => { params := s })
      (fun _ => rfl) rfl (fun x hx => HpkeParams.merge_fields x (by
        refine Nat.lt_of_le_of_lt (len_le_encodeFields (num := 1) ?_) h
        simp [HpkeKeyFormat.fields, hx, msgField]))

theorem HpkeKeyFormat.fromString_serializeToString {m : HpkeKeyFormat} {b : Bytes}
    (h : m.serializeToString = .ok b) : HpkeKeyFormat.fromString b = .ok m := by
  obtain ⟨h2, h1⟩ := serializeFields_ok h
  subst h2
  unfold HpkeKeyFormat.fromString
  rw [HpkeKeyFormat.merge_fields m h1]
  rfl

theorem EcdsaParams.shape (m : EcdsaParams) : ∀ f ∈ m.fields, f.Shape :=
  shape_append (shape_append (shape_enumField _ (by decide)) (shape_enumField _ (by decide))) (shape_enumField _ (by decide))

theorem EcdsaParams.merge_fields (m : EcdsaParams) (h : (encodeFields m.fields).length < 2147483648) :
    EcdsaParams.merge {} (encodeFields m.fields) = some m := by
  rw [EcdsaParams.merge, parseFields_encode _ (wf_of_shape m.shape (by omega))]
  simp only [EcdsaParams.fields, foldlM_append']
  rw [foldlM_enumField EcdsaParams.mergeField {} 1 m.hashType (fun s => { hashType := s })
      (fun _ => rfl) rfl, Option.bind_some]
  rw [foldlM_enumField EcdsaParams.mergeField _ 2 m.curve (fun s => { hashType := m.hashType, curve := s })
      (fun _ => rfl) rfl, Option.bind_some]
  exact foldlM_enumField EcdsaParams.mergeField _ 3 m.encoding (fun s => { hashType := m.hashType, curve := m.curve, encoding := s })
      (fun _ => rfl) rfl

theorem EcdsaParams.fromString_serializeToString {m : EcdsaParams} {b : Bytes}
    (h : m.serializeToString = .ok b) : EcdsaParams.fromString b = .ok m := by
  obtain ⟨h2, h1⟩ := serializeFields_ok h
  subst h2
  unfold EcdsaParams.fromString
  rw [EcdsaParams.merge_fields m h1]
  rfl

theorem EcdsaKeyFormat.shape (m : EcdsaKeyFormat) : ∀ f ∈ m.fields, f.Shape :=
  shape_append (shape_msgField _ (by decide)) (shape_uint32Field _ (by decide))

theorem EcdsaKeyFormat.merge_fields (m : EcdsaKeyFormat) (h : (encodeFields m.fields).length < 2147483648) :
    EcdsaKeyFormat.merge {} (encodeFields m.fields) = some m := by
  rw [EcdsaKeyFormat.merge, parseFields_encode _ (wf_of_shape m.shape (by omega))]
  simp only [EcdsaKeyFormat.fields, foldlM_append']
  rw [foldlM_msgField EcdsaKeyFormat.mergeField {} 2 m.params EcdsaParams.fields (EcdsaParams.merge {}) (fun s => { params := s })
      (fun _ => rfl) rfl (fun x hx => EcdsaParams.merge_fields x (by
        refine Nat.lt_of_le_of_lt (len_le_encodeFields (num := 2) ?_) h
        simp [EcdsaKeyFormat.fields, hx, msgField])), Option.bind_some]
  exact foldlM_uint32Field EcdsaKeyFormat.mergeField _ 3 m.version (fun s => { params := m.params, version := s })
      (fun _ => rfl) rfl

theorem EcdsaKeyFormat.fromString_serializeToString {m : EcdsaKeyFormat} {b : Bytes}
    (h : m.serializeToString = .ok b) : EcdsaKeyFormat.fromString b = .ok m := by
  obtain ⟨h2, h1⟩ := serializeFields_ok h
  subst h2
  unfold EcdsaKeyFormat.fromString
  rw [EcdsaKeyFormat.merge_fields m h1]
  rfl

theorem RsaSsaPkcs1Params.shape (m : RsaSsaPkcs1Params) : ∀ f ∈ m.fields, f.Shape :=
  shape_enumField _ (by decide)

theorem RsaSsaPkcs1Params.merge_fields (m : RsaSsaPkcs1Params) (h : (encodeFields m.fields).length < 2147483648) :
    RsaSsaPkcs1Params.merge {} (encodeFields m.fields) = some m := by
  rw [RsaSsaPkcs1Params.merge, parseFields_encode _ (wf_of_shape m.shape (by omega))]
  simp only [RsaSsaPkcs1Params.fields, foldlM_append']
  exact foldlM_enumField RsaSsaPkcs1Params.mergeField {} 1 m.hashType (fun s => { hashType := s })
      (fun _ => rfl) rfl

theorem RsaSsaPkcs1Params.fromString_serializeToString {m : RsaSsaPkcs1Params} {b : Bytes}
    (h : m.serializeToString = .ok b) : RsaSsaPkcs1Params.fromString b = .ok m := by
  obtain ⟨h2, h1⟩ := serializeFields_ok h
  subst h2
  unfold RsaSsaPkcs1Params.fromString
  rw [RsaSsaPkcs1Params.merge_fields m h1]
  rfl

theorem RsaSsaPkcs1KeyFormat.shape (m : RsaSsaPkcs1KeyFormat) : ∀ f ∈ m.fields, f.Shape :=
  shape_append (shape_append (shape_msgField _ (by decide)) (shape_uint32Field _ (by decide))) (shape_bytesField _ (by decide))

theorem RsaSsaPkcs1KeyFormat.merge_fields (m : RsaSsaPkcs1KeyFormat) (h : (encodeFields m.fields).length < 2147483648) :
    RsaSsaPkcs1KeyFormat.merge {} (encodeFields m.fields) = some m := by
  rw [RsaSsaPkcs1KeyFormat.merge, parseFields_encode _ (wf_of_shape m.shape (by omega))]
  simp only [RsaSsaPkcs1KeyFormat.fields, foldlM_append']
  rw [foldlM_msgField RsaSsaPkcs1KeyFormat.mergeField {} 1 m.params RsaSsaPkcs1Params.fields (RsaSsaPkcs1Params.merge {}) (fun s => { params := s })
      (fun _ => rfl) rfl (fun x hx => RsaSsaPkcs1Params.merge_fields x (by
        refine Nat.lt_of_le_of_lt (len_le_encodeFields (num := 1) ?_) h
        simp [RsaSsaPkcs1KeyFormat.fields, hx, msgField])), Option.bind_some]
  rw [foldlM_uint32Field RsaSsaPkcs1KeyFormat.mergeField _ 2 m.modulusSizeInBits (fun s => { params := m.params, modulusSizeInBits := s })
      (fun _ => rfl) rfl, Option.bind_some]
  exact foldlM_bytesField RsaSsaPkcs1KeyFormat.mergeField _ 3 m.publicExponent (fun s => { params := m.params, modulusSizeInBits := m.modulusSizeInBits, publicExponent := s })
      (fun _ => rfl) rfl

theorem RsaSsaPkcs1KeyFormat.fromString_serializeToString {m : RsaSsaPkcs1KeyFormat} {b : Bytes}
    (h : m.serializeToString = .ok b) : RsaSsaPkcs1KeyFormat.fromString b = .ok m := by
  obtain ⟨h2, h1⟩ := serializeFields_ok h
  subst h2
  unfold RsaSsaPkcs1KeyFormat.fromString
  rw [RsaSsaPkcs1KeyFormat.merge_fields m h1]
  rfl

theorem RsaSsaPssParams.shape (m : RsaSsaPssParams) : ∀ f ∈ m.fields, f.Shape :=
  shape_append (shape_append (shape_enumField _ (by decide)) (shape_enumField _ (by decide))) (shape_enumField _ (by decide))

theorem RsaSsaPssParams.merge_fields (m : RsaSsaPssParams) (h : (encodeFields m.fields).length < 2147483648) :
    RsaSsaPssParams.merge {} (encodeFields m.fields) = some m := by
  rw [RsaSsaPssParams.merge, parseFields_encode _ (wf_of_shape m.shape (by omega))]
  simp only [RsaSsaPssParams.fields, foldlM_append']
  rw [foldlM_enumField RsaSsaPssParams.mergeField {} 1 m.sigHash (fun s => { sigHash := s })
      (fun _ => rfl) rfl, Option.bind_some]
  rw [foldlM_enumField RsaSsaPssParams.mergeField _ 2 m.mgf1Hash (fun s => { sigHash := m.sigHash, mgf1Hash := s })
      (fun _ => rfl) rfl, Option.bind_some]
  exact foldlM_enumField RsaSsaPssParams.mergeField _ 3 m.saltLength (fun s => { sigHash := m.sigHash, mgf1Hash := m.mgf1Hash, saltLength := s })
      (fun _ => rfl) rfl

theorem RsaSsaPssParams.fromString_serializeToString {m : RsaSsaPssParams} {b : Bytes}
    (h : m.serializeToString = .ok b) : RsaSsaPssParams.fromString b = .ok m := by
  obtain ⟨h2, h1⟩ := serializeFields_ok h
  subst h2
  unfold RsaSsaPssParams.fromString
  rw [RsaSsaPssParams.merge_fields m h1]
  rfl

theorem RsaSsaPssKeyFormat.shape (m : RsaSsaPssKeyFormat) : ∀ f ∈ m.fields, f.Shape :=
  shape_append (shape_append (shape_msgField _ (by decide)) (shape_uint32Field _ (by decide))) (shape_bytesField _ (by decide))

theorem RsaSsaPssKeyFormat.merge_fields (m : RsaSsaPssKeyFormat) (h : (encodeFields m.fields).length < 2147483648) :
    RsaSsaPssKeyFormat.merge {} (encodeFields m.fields) = some m := by
  rw [RsaSsaPssKeyFormat.merge, parseFields_encode _ (wf_of_shape m.shape (by omega))]
  simp only [RsaSsaPssKeyFormat.fields, foldlM_append']
  rw [foldlM_msgField RsaSsaPssKeyFormat.mergeField {} 1 m.params RsaSsaPssParams.fields (RsaSsaPssParams.merge {}) (fun s => { params := s })
      (fun _ => rfl) rfl (fun x hx => RsaSsaPssParams.merge_fields x (by
        refine Nat.lt_of_le_of_lt (len_le_encodeFields (num := 1) ?_) h
        simp [RsaSsaPssKeyFormat.fields, hx, msgField])), Option.bind_some]
  rw [foldlM_uint32Field RsaSsaPssKeyFormat.mergeField _ 2 m.modulusSizeInBits (fun s => { params := m.params, modulusSizeInBits := s })
      (fun _ => rfl) rfl, Option.bind_some]
  exact foldlM_bytesField RsaSsaPssKeyFormat.mergeField _ 3 m.publicExponent (fun s => { params := m.params, modulusSizeInBits := m.modulusSizeInBits, publicExponent := s })
      (fun _ => rfl) rfl

theorem RsaSsaPssKeyFormat.fromString_serializeToString {m : RsaSsaPssKeyFormat} {b : Bytes}
    (h : m.serializeToString = .ok b) : RsaSsaPssKeyFormat.fromString b = .ok m := by
  obtain ⟨h2, h1⟩ := serializeFields_ok h
  subst h2
  unfold RsaSsaPssKeyFormat.fromString
  rw [RsaSsaPssKeyFormat.merge_fields m h1]
  rfl

theorem AesCmacPrfKeyFormat.shape (m : AesCmacPrfKeyFormat) : ∀ f ∈ m.fields, f.Shape :=
  shape_append (shape_uint32Field _ (by decide)) (shape_uint32Field _ (by decide))

theorem AesCmacPrfKeyFormat.merge_fields (m : AesCmacPrfKeyFormat) (h : (encodeFields m.fields).length < 2147483648) :
    AesCmacPrfKeyFormat.merge {} (encodeFields m.fields) = some m := by
  rw [AesCmacPrfKeyFormat.merge, parseFields_encode _ (wf_of_shape m.shape (by omega))]
  simp only [AesCmacPrfKeyFormat.fields, foldlM_append']
  rw [foldlM_uint32Field AesCmacPrfKeyFormat.mergeField {} 1 m.keySize (fun s => { keySize := s })
      (fun _ => rfl) rfl, Option.bind_some]
  exact foldlM_uint32Field AesCmacPrfKeyFormat.mergeField _ 2 m.version (fun s => { keySize := m.keySize, version := s })
      (fun _ => rfl) rfl

theorem AesCmacPrfKeyFormat.fromString_serializeToString {m : AesCmacPrfKeyFormat} {b : Bytes}
    (h : m.serializeToString = .ok b) : AesCmacPrfKeyFormat.fromString b = .ok m := by
  obtain ⟨h2, h1⟩ := serializeFields_ok h
  subst h2
  unfold AesCmacPrfKeyFormat.fromString
  rw [AesCmacPrfKeyFormat.merge_fields m h1]
  rfl

theorem HmacPrfParams.shape (m : HmacPrfParams) : ∀ f ∈ m.fields, f.Shape :=
  shape_enumField _ (by decide)

theorem HmacPrfParams.merge_fields (m : HmacPrfParams) (h : (encodeFields m.fields).length < 2147483648) :
    HmacPrfParams.merge {} (encodeFields m.fields) = some m := by
  rw [HmacPrfParams.merge, parseFields_encode _ (wf_of_shape m.shape (by omega))]
  simp only [HmacPrfParams.fields, foldlM_append']
  exact foldlM_enumField HmacPrfParams.mergeField {} 1 m.hash (fun s => { hash := s })
      (fun _ => rfl) rfl

theorem HmacPrfParams.fromString_serializeToString {m : HmacPrfParams} {b : Bytes}
    (h : m.serializeToString = .ok b) : HmacPrfParams.fromString b = .ok m := by
  obtain ⟨h2, h1⟩ := serializeFields_ok h
  subst h2
  unfold HmacPrfParams.fromString
  rw [HmacPrfParams.merge_fields m h1]
  rfl

theorem HmacPrfKeyFormat.shape (m : HmacPrfKeyFormat) : ∀ f ∈ m.fields, f.Shape :=
  shape_append (shape_append (shape_msgField _ (by decide)) (shape_uint32Field _ (by decide))) (shape_uint32Field _ (by decide))

theorem HmacPrfKeyFormat.merge_fields (m : HmacPrfKeyFormat) (h : (encodeFields m.fields).length < 2147483648) :
    HmacPrfKeyFormat.merge {} (encodeFields m.fields) = some m := by
  rw [HmacPrfKeyFormat.merge, parseFields_encode _ (wf_of_shape m.shape (by omega))]
  simp only [HmacPrfKeyFormat.fields, foldlM_append']
  rw [foldlM_msgField HmacPrfKeyFormat.mergeField {} 1 m.params HmacPrfParams.fields (HmacPrfParams.merge {}) (fun s => { params := s })
      (fun _ => rfl) rfl (fun x hx => HmacPrfParams.merge_fields x (by
        refine Nat.lt_of_le_of_lt (len_le_encodeFields (num := 1) ?_) h
        simp [HmacPrfKeyFormat.fields, hx, msgField])), Option.bind_some]
  rw [foldlM_uint32Field HmacPrfKeyFormat.mergeField _ 2 m.keySize (fun s => { params := m.params, keySize := s })
      (fun _ => rfl) rfl, Option.bind_some]
  exact foldlM_uint32Field HmacPrfKeyFormat.mergeField _ 3 m.version (fun s => { params := m.params, keySize := m.keySize, version := s })
      (fun _ => rfl) rfl

theorem HmacPrfKeyFormat.fromString_serializeToString {m : HmacPrfKeyFormat} {b : Bytes}
    (h : m.serializeToString = .ok b) : HmacPrfKeyFormat.fromString b = .ok m := by
  obtain ⟨h2, h1⟩ := serializeFields_ok h
  subst h2
  unfold HmacPrfKeyFormat.fromString
  rw [HmacPrfKeyFormat.merge_fields m h1]
  rfl

theorem HkdfPrfParams.shape (m : HkdfPrfParams) : ∀ f ∈ m.fields, f.Shape :=
  shape_append (shape_enumField _ (by decide)) (shape_bytesField _ (by decide))

theorem HkdfPrfParams.merge_fields (m : HkdfPrfParams) (h : (encodeFields m.fields).length < 2147483648) :
    HkdfPrfParams.merge {} (encodeFields m.fields) = some m := by
  rw [HkdfPrfParams.merge, parseFields_encode _ (wf_of_shape m.shape (by omega))]
  simp only [HkdfPrfParams.fields, foldlM_append']
  rw [foldlM_enumField HkdfPrfParams.mergeField {} 1 m.hash (fun s => { hash := s })
      (fun _ => rfl) rfl, Option.bind_some]
  exact foldlM_bytesField HkdfPrfParams.mergeField _ 2 m.salt (fun s => { hash := m.hash, salt := s })
      (fun _ => rfl) rfl

theorem HkdfPrfParams.fromString_serializeToString {m : HkdfPrfParams} {b : Bytes}
    (h : m.serializeToString = .ok b) : HkdfPrfParams.fromString b = .ok m := by
  obtain ⟨h2, h1⟩ := serializeFields_ok h
  subst h2
  unfold HkdfPrfParams.fromString
  rw [HkdfPrfParams.merge_fields m h1]
  rfl

theorem HkdfPrfKeyFormat.shape (m : HkdfPrfKeyFormat) : ∀ f ∈ m.fields, f.Shape :=
  shape_append (shape_append (shape_msgField _ (by decide)) (shape_uint32Field _ (by decide))) (shape_uint32Field _ (by decide))

theorem HkdfPrfKeyFormat.merge_fields (m : HkdfPrfKeyFormat) (h : (encodeFields m.fields).length < 2147483648) :
    HkdfPrfKeyFormat.merge {} (encodeFields m.fields) = some m := by
  rw [HkdfPrfKeyFormat.merge, parseFields_encode _ (wf_of_shape m.shape (by omega))]
  simp only [HkdfPrfKeyFormat.fields, foldlM_append']
  rw [foldlM_msgField HkdfPrfKeyFormat.mergeField {} 1 m.params HkdfPrfParams.fields (HkdfPrfParams.merge {}) (fun s => { params := s })
      (fun _ => rfl) rfl (fun x hx => HkdfPrfParams.merge_fields x (by
        refine Nat.lt_of_le_of_lt (len_le_encodeFields (num := 1) ?_) h
        simp [HkdfPrfKeyFormat.fields, hx, msgField])), Option.bind_some]
  rw [foldlM_uint32Field HkdfPrfKeyFormat.mergeField _ 2 m.keySize (fun s => { params := m.params, keySize := s })
      (fun _ => rfl) rfl, Option.bind_some]
  exact foldlM_uint32Field HkdfPrfKeyFormat.mergeField _ 3 m.version (fun s => { params := m.params, keySize := m.keySize, version := s })
      (fun _ => rfl) rfl

theorem HkdfPrfKeyFormat.fromString_serializeToString {m : HkdfPrfKeyFormat} {b : Bytes}
    (h : m.serializeToString = .ok b) : HkdfPrfKeyFormat.fromString b = .ok m := by
  obtain ⟨h2, h1⟩ := serializeFields_ok h
  subst h2
  unfold HkdfPrfKeyFormat.fromString
  rw [HkdfPrfKeyFormat.merge_fields m h1]
  rfl

theorem AesGcmHkdfStreamingParams.shape (m : AesGcmHkdfStreamingParams) : ∀ f ∈ m.fields, f.Shape :=
  shape_append (shape_append (shape_uint32Field _ (by decide)) (shape_uint32Field _ (by decide))) (shape_enumField _ (by decide))

theorem AesGcmHkdfStreamingParams.merge_fields (m : AesGcmHkdfStreamingParams) (h : (encodeFields m.fields).length < 2147483648) :
    AesGcmHkdfStreamingParams.merge {} (encodeFields m.fields) = some m := by
  rw [AesGcmHkdfStreamingParams.merge, parseFields_encode _ (wf_of_shape m.shape (by omega))]
  simp only [AesGcmHkdfStreamingParams.fields, foldlM_append']
  rw [foldlM_uint32Field AesGcmHkdfStreamingParams.mergeField {} 1 m.ciphertextSegmentSize (fun s => { ciphertextSegmentSize := s })
      (fun _ => rfl) rfl, Option.bind_some]
  rw [foldlM_uint32Field AesGcmHkdfStreamingParams.mergeField _ 2 m.derivedKeySize (fun s => { ciphertextSegmentSize := m.ciphertextSegmentSize, derivedKeySize := s })
      (fun _ => rfl) rfl, Option.bind_some]
  exact foldlM_enumField AesGcmHkdfStreamingParams.mergeField _ 3 m.hkdfHashType (fun s => { ciphertextSegmentSize := m.ciphertextSegmentSize, derivedKeySize := m.derivedKeySize, hkdfHashType := s })
      (fun _ => rfl) rfl

theorem AesGcmHkdfStreamingParams.fromString_serializeToString {m : AesGcmHkdfStreamingParams} {b : Bytes}
    (h : m.serializeToString = .ok b) : AesGcmHkdfStreamingParams.fromString b = .ok m := by
  obtain ⟨h2, h1⟩ := serializeFields_ok h
  subst h2
  unfold AesGcmHkdfStreamingParams.fromString
  rw [AesGcmHkdfStreamingParams.merge_fields m h1]
  rfl

theorem AesGcmHkdfStreamingKeyFormat.shape (m : AesGcmHkdfStreamingKeyFormat) : ∀ f ∈ m.fields, f.Shape :=
  shape_append (shape_append (shape_msgField _ (by decide)) (shape_uint32Field _ (by decide))) (shape_uint32Field _ (by decide))

theorem AesGcmHkdfStreamingKeyFormat.merge_fields (m : AesGcmHkdfStreamingKeyFormat) (h : (encodeFields m.fields).length < 2147483648) :
    AesGcmHkdfStreamingKeyFormat.merge {} (encodeFields m.fields) = some m := by
  rw [AesGcmHkdfStreamingKeyFormat.merge, parseFields_encode _ (wf_of_shape m.shape (by omega))]
  simp only [AesGcmHkdfStreamingKeyFormat.fields, foldlM_append']
  rw [foldlM_msgField AesGcmHkdfStreamingKeyFormat.mergeField {} 1 m.params AesGcmHkdfStreamingParams.fields (AesGcmHkdfStreamingParams.merge {}) (fun s => { params := s })
      (fun _ => rfl) rfl (fun x hx => AesGcmHkdfStreamingParams.merge_fields x (by
        refine Nat.lt_of_le_of_lt (len_le_encodeFields (num := 1) ?_) h
        simp [AesGcmHkdfStreamingKeyFormat.fields, hx, msgField])), Option.bind_some]
  rw [foldlM_uint32Field AesGcmHkdfStreamingKeyFormat.mergeField _ 2 m.keySize (fun s => { params := m.params, keySize := s })
      (fun _ => rfl) rfl, Option.bind_some]
  exact foldlM_uint32Field AesGcmHkdfStreamingKeyFormat.mergeField _ 3 m.version (fun s => { params := m.params, keySize := m.keySize, version := s })
      (fun _ => rfl) rfl

theorem AesGcmHkdfStreamingKeyFormat.fromString_serializeToString {m : AesGcmHkdfStreamingKeyFormat} {b : Bytes}
    (h : m.serializeToString = .ok b) : AesGcmHkdfStreamingKeyFormat.fromString b = .ok m := by
  obtain ⟨h2, h1⟩ := serializeFields_ok h
  subst h2
  unfold AesGcmHkdfStreamingKeyFormat.fromString
  rw [AesGcmHkdfStreamingKeyFormat.merge_fields m h1]
  rfl

theorem AesGcmHkdfStreamingKey.shape (m : AesGcmHkdfStreamingKey) : ∀ f ∈ m.fields, f.Shape :=
  shape_append (shape_append (shape_uint32Field _ (by decide)) (shape_msgField _ (by decide))) (shape_bytesField _ (by decide))

theorem AesGcmHkdfStreamingKey.merge_fields (m : AesGcmHkdfStreamingKey) (h : (encodeFields m.fields).length < 2147483648) :
    AesGcmHkdfStreamingKey.merge {} (encodeFields m.fields) = some m := by
  rw [AesGcmHkdfStreamingKey.merge, parseFields_encode _ (wf_of_shape m.shape (by omega))]
  simp only [AesGcmHkdfStreamingKey.fields, foldlM_append']
  rw [foldlM_uint32Field AesGcmHkdfStreamingKey.mergeField {} 1 m.version (fun s => { version := s })
      (fun _ => rfl) rfl, Option.bind_some]
  rw [foldlM_msgField AesGcmHkdfStreamingKey.mergeField _ 2 m.params AesGcmHkdfStreamingParams.fields (AesGcmHkdfStreamingParams.merge {}) (fun s => { version := m.version, params := s })
      (fun _ => rfl) rfl (fun x hx => AesGcmHkdfStreamingParams.merge_fields x (by
        refine Nat.lt_of_le_of_lt (len_le_encodeFields (num := 2) ?_) h
        simp [AesGcmHkdfStreamingKey.fields, hx, msgField])), Option.bind_some]
  exact foldlM_bytesField AesGcmHkdfStreamingKey.mergeField _ 3 m.keyValue (fun s => { version := m.version, params := m.params, keyValue := s })
      (fun _ => rfl) rfl

theorem AesGcmHkdfStreamingKey.fromString_serializeToString {m : AesGcmHkdfStreamingKey} {b : Bytes}
    (h : m.serializeToString = .ok b) : AesGcmHkdfStreamingKey.fromString b = .ok m := by
  obtain ⟨h2, h1⟩ := serializeFields_ok h
  subst h2
  unfold AesGcmHkdfStreamingKey.fromString
  rw [AesGcmHkdfStreamingKey.merge_fields m h1]
  rfl

theorem AesCtrHmacStreamingParams.shape (m : AesCtrHmacStreamingParams) : ∀ f ∈ m.fields, f.Shape :=
  shape_append (shape_append (shape_append (shape_uint32Field _ (by decide)) (shape_uint32Field _ (by decide))) (shape_enumField _ (by decide))) (shape_msgField _ (by decide))

theorem AesCtrHmacStreamingParams.merge_fields (m : AesCtrHmacStreamingParams) (h : (encodeFields m.fields).length < 2147483648) :
    AesCtrHmacStreamingParams.merge {} (encodeFields m.fields) = some m := by
  rw [AesCtrHmacStreamingParams.merge, parseFields_encode _ (wf_of_shape m.shape (by omega))]
  simp only [AesCtrHmacStreamingParams.fields, foldlM_append']
  rw [foldlM_uint32Field AesCtrHmacStreamingParams.mergeField {} 1 m.ciphertextSegmentSize (fun s => { ciphertextSegmentSize := s })
      (fun _ => rfl) rfl, Option.bind_some]
  rw [foldlM_uint32Field AesCtrHmacStreamingParams.mergeField _ 2 m.derivedKeySize (fun s => { ciphertextSegmentSize := m.ciphertextSegmentSize, derivedKeySize := s })
      (fun _ => rfl) rfl, Option.bind_some]
  rw [foldlM_enumField AesCtrHmacStreamingParams.mergeField _ 3 m.hkdfHashType (fun s => { ciphertextSegmentSize := m.ciphertextSegmentSize, derivedKeySize := m.derivedKeySize, hkdfHashType := s })
      (fun _ => rfl) rfl, Option.bind_some]
  exact foldlM_msgField AesCtrHmacStreamingParams.mergeField _ 4 m.hmacParams HmacParams.fields (HmacParams.merge {}) (fun s => { ciphertextSegmentSize := m.ciphertextSegmentSize, derivedKeySize := m.derivedKeySize, hkdfHashType := m.hkdfHashType, hmacParams := s })
      (fun _ => rfl) rfl (fun x hx => HmacParams.merge_fields x (by
        refine Nat.lt_of_le_of_lt (len_le_encodeFields (num := 4) ?_) h
        simp [AesCtrHmacStreamingParams.fields, hx, msgField]))

theorem AesCtrHmacStreamingParams.fromString_serializeToString {m : AesCtrHmacStreamingParams} {b : Bytes}
    (h : m.serializeToString = .ok b) : AesCtrHmacStreamingParams.fromString b = .ok m := by
  obtain ⟨h2, h1⟩ := serializeFields_ok h
  subst h2
  unfold AesCtrHmacStreamingParams.fromString
  rw [AesCtrHmacStreamingParams.merge_fields m h1]
  rfl

theorem AesCtrHmacStreamingKeyFormat.shape (m : AesCtrHmacStreamingKeyFormat) : ∀ f ∈ m.fields, f.Shape :=
  shape_append (shape_append (shape_msgField _ (by decide)) (shape_uint32Field _ (by decide))) (shape_uint32Field _ (by decide))

theorem AesCtrHmacStreamingKeyFormat.merge_fields (m : AesCtrHmacStreamingKeyFormat) (h : (encodeFields m.fields).length < 2147483648) :
    AesCtrHmacStreamingKeyFormat.merge {} (encodeFields m.fields) = some m := by
  rw [AesCtrHmacStreamingKeyFormat.merge, parseFields_encode _ (wf_of_shape m.shape (by omega))]
  simp only [AesCtrHmacStreamingKeyFormat.fields, foldlM_append']
  rw [foldlM_msgField AesCtrHmacStreamingKeyFormat.mergeField {} 1 m.params AesCtrHmacStreamingParams.fields (AesCtrHmacStreamingParams.merge {}) (fun s => { params := s })
      (fun _ => rfl) rfl (fun x hx => AesCtrHmacStreamingParams.merge_fields x (by
        refine Nat.lt_of_le_of_lt (len_le_encodeFields (num := 1) ?_) h
        simp [AesCtrHmacStreamingKeyFormat.fields, hx, msgField])), Option.bind_some]
  rw [foldlM_uint32Field AesCtrHmacStreamingKeyFormat.mergeField _ 2 m.keySize (fun s => { params := m.params, keySize := s })
      (fun _ => rfl) rfl, Option.bind_some]
  exact foldlM_uint32Field AesCtrHmacStreamingKeyFormat.mergeField _ 3 m.version (fun s => { params := m.params, keySize := m.keySize, version := s })
      (fun _ => rfl) rfl

theorem AesCtrHmacStreamingKeyFormat.fromString_serializeToString {m : AesCtrHmacStreamingKeyFormat} {b : Bytes}
    (h : m.serializeToString = .ok b) : AesCtrHmacStreamingKeyFormat.fromString b = .ok m := by
  obtain ⟨h2, h1⟩ := serializeFields_ok h
  subst h2
  unfold AesCtrHmacStreamingKeyFormat.fromString
  rw [AesCtrHmacStreamingKeyFormat.merge_fields m h1]
  rfl

theorem AesCtrHmacStreamingKey.shape (m : AesCtrHmacStreamingKey) : ∀ f ∈ m.fields, f.Shape :=
  shape_append (shape_append (shape_uint32Field _ (by decide)) (shape_msgField _ (by decide))) (shape_bytesField _ (by decide))

theorem AesCtrHmacStreamingKey.merge_fields (m : AesCtrHmacStreamingKey) (h : (encodeFields m.fields).length < 2147483648) :
    AesCtrHmacStreamingKey.merge {} (encodeFields m.fields) = some m := by
  rw [AesCtrHmacStreamingKey.merge, parseFields_encode _ (wf_of_shape m.shape (by omega))]
  simp only [AesCtrHmacStreamingKey.fields, foldlM_append']
  rw [foldlM_uint32Field AesCtrHmacStreamingKey.mergeField {} 1 m.version (fun s => { version := s })
      (fun _ => rfl) rfl, Option.bind_some]
  rw [foldlM_msgField AesCtrHmacStreamingKey.mergeField _ 2 m.params AesCtrHmacStreamingParams.fields (AesCtrHmacStreamingParams.merge {}) (fun s => { version := m.version, params := s })
      (fun _ => rfl) rfl (fun x hx => AesCtrHmacStreamingParams.merge_fields x (by
        refine Nat.lt_of_le_of_lt (len_le_encodeFields (num := 2) ?_) h
        simp [AesCtrHmacStreamingKey.fields, hx, msgField])), Option.bind_some]
  exact foldlM_bytesField AesCtrHmacStreamingKey.mergeField _ 3 m.keyValue (fun s => { version := m.version, params := m.params, keyValue := s })
      (fun _ => rfl) rfl

theorem AesCtrHmacStreamingKey.fromString_serializeToString {m : AesCtrHmacStreamingKey} {b : Bytes}
    (h : m.serializeToString = .ok b) : AesCtrHmacStreamingKey.fromString b = .ok m := by
  obtain ⟨h2, h1⟩ := serializeFields_ok h
  subst h2
  unfold AesCtrHmacStreamingKey.fromString
  rw [AesCtrHmacStreamingKey.merge_fields m h1]
  rfl

theorem JwtHmacKey.CustomKid.shape (m : JwtHmacKey.CustomKid) : ∀ f ∈ m.fields, f.Shape :=
  shape_strField _ (by decide)

theorem JwtHmacKey.CustomKid.merge_fields (m : JwtHmacKey.CustomKid) (h : (encodeFields m.fields).length < 2147483648) :
    JwtHmacKey.CustomKid.merge {} (encodeFields m.fields) = some m := by
  rw [JwtHmacKey.CustomKid.merge, parseFields_encode _ (wf_of_shape m.shape (by omega))]
  simp only [JwtHmacKey.CustomKid.fields, foldlM_append']
  exact foldlM_strField JwtHmacKey.CustomKid.mergeField {} 1 m.value (fun s => { value := s })
      (fun _ => rfl) rfl

theorem JwtHmacKey.CustomKid.fromString_serializeToString {m : JwtHmacKey.CustomKid} {b : Bytes}
    (h : m.serializeToString = .ok b) : JwtHmacKey.CustomKid.fromString b = .ok m := by
  obtain ⟨h2, h1⟩ := serializeFields_ok h
  subst h2
  unfold JwtHmacKey.CustomKid.fromString
  rw [JwtHmacKey.CustomKid.merge_fields m h1]
  rfl

theorem JwtHmacKey.shape (m : JwtHmacKey) : ∀ f ∈ m.fields, f.Shape :=
  shape_append (shape_append (shape_append (shape_uint32Field _ (by decide)) (shape_enumField _ (by decide))) (shape_bytesField _ (by decide))) (shape_msgField _ (by decide))

theorem JwtHmacKey.merge_fields (m : JwtHmacKey) (h : (encodeFields m.fields).length < 2147483648) :
    JwtHmacKey.merge {} (encodeFields m.fields) = some m := by
  rw [JwtHmacKey.merge, parseFields_encode _ (wf_of_shape m.shape (by omega))]
  simp only [JwtHmacKey.fields, foldlM_append']
  rw [foldlM_uint32Field JwtHmacKey.mergeField {} 1 m.version (fun s => { version := s })
      (fun _ => rfl) rfl, Option.bind_some]
  rw [foldlM_enumField JwtHmacKey.mergeField _ 2 m.algorithm (fun s => { version := m.version, algorithm := s })
      (fun _ => rfl) rfl, Option.bind_some]
  rw [foldlM_bytesField JwtHmacKey.mergeField _ 3 m.keyValue (fun s => { version := m.version, algorithm := m.algorithm, keyValue := s })
      (fun _ => rfl) rfl, Option.bind_some]
  exact foldlM_msgField JwtHmacKey.mergeField _ 4 m.customKid JwtHmacKey.CustomKid.fields (JwtHmacKey.CustomKid.merge {}) (fun s => { version := m.version, algorithm := m.algorithm, keyValue := m.keyValue, customKid := s })
      (fun _ => rfl) rfl (fun x hx => JwtHmacKey.CustomKid.merge_fields x (by
        refine Nat.lt_of_le_of_lt (len_le_encodeFields (num := 4) ?_) h
        simp [JwtHmacKey.fields, hx, msgField]))

theorem JwtHmacKey.fromString_serializeToString {m : JwtHmacKey} {b : Bytes}
    (h : m.serializeToString = .ok b) : JwtHmacKey.fromString b = .ok m := by
  obtain ⟨h2, h1⟩ := serializeFields_ok h
  subst h2
  unfold JwtHmacKey.fromString
  rw [JwtHmacKey.merge_fields m h1]
  rfl

theorem JwtHmacKeyFormat.shape (m : JwtHmacKeyFormat) : ∀ f ∈ m.fields, f.Shape :=
  shape_append (shape_append (shape_uint32Field _ (by decide)) (shape_enumField _ (by decide))) (shape_uint32Field _ (by decide))

theorem JwtHmacKeyFormat.merge_fields (m : JwtHmacKeyFormat) (h : (encodeFields m.fields).length < 2147483648) :
    JwtHmacKeyFormat.merge {} (encodeFields m.fields) = some m := by
  rw [JwtHmacKeyFormat.merge, parseFields_encode _ (wf_of_shape m.shape (by omega))]
  simp only [JwtHmacKeyFormat.fields, foldlM_append']
  rw [foldlM_uint32Field JwtHmacKeyFormat.mergeField {} 1 m.version (fun s => { version := s })
      (fun _ => rfl) rfl, Option.bind_some]
  rw [foldlM_enumField JwtHmacKeyFormat.mergeField _ 2 m.algorithm (fun s => { version := m.version, algorithm := s })
      (fun _ => rfl) rfl, Option.bind_some]
  exact foldlM_uint32Field JwtHmacKeyFormat.mergeField _ 3 m.keySize (fun s => { version := m.version, algorithm := m.algorithm, keySize := s })
      (fun _ => rfl) rfl

theorem JwtHmacKeyFormat.fromString_serializeToString {m : JwtHmacKeyFormat} {b : Bytes}
    (h : m.serializeToString = .ok b) : JwtHmacKeyFormat.fromString b = .ok m := by
  obtain ⟨h2, h1⟩ := serializeFields_ok h
  subst h2
  unfold JwtHmacKeyFormat.fromString
  rw [JwtHmacKeyFormat.merge_fields m h1]
  rfl

theorem JwtEcdsaPublicKey.CustomKid.shape (m : JwtEcdsaPublicKey.CustomKid) : ∀ f ∈ m.fields, f.Shape :=
  shape_strField _ (by decide)

theorem JwtEcdsaPublicKey.CustomKid.merge_fields (m : JwtEcdsaPublicKey.CustomKid) (h : (encodeFields m.fields).length < 2147483648) :
    JwtEcdsaPublicKey.CustomKid.merge {} (encodeFields m.fields) = some m := by
  rw [JwtEcdsaPublicKey.CustomKid.merge, parseFields_encode _ (wf_of_shape m.shape (by omega))]
  simp only [JwtEcdsaPublicKey.CustomKid.fields, foldlM_append']
  exact foldlM_strField JwtEcdsaPublicKey.CustomKid.mergeField {} 1 m.value (fun s => { value := s })
      (fun _ => rfl) rfl

theorem JwtEcdsaPublicKey.CustomKid.fromString_serializeToString {m : JwtEcdsaPublicKey.CustomKid} {b : Bytes}
    (h : m.serializeToString = .ok b) : JwtEcdsaPublicKey.CustomKid.fromString b = .ok m := by
  obtain ⟨h2, h1⟩ := serializeFields_ok h
  subst h2
  unfold JwtEcdsaPublicKey.CustomKid.fromString
  rw [JwtEcdsaPublicKey.CustomKid.merge_fields m h1]
  rfl

theorem JwtEcdsaPublicKey.shape (m : JwtEcdsaPublicKey) : ∀ f ∈ m.fields, f.Shape :=
  shape_append (shape_append (shape_append (shape_append (shape_uint32Field _ (by decide)) (shape_enumField _ (by decide))) (shape_bytesField _ (by decide))) (shape_bytesField _ (by decide))) (shape_msgField _ (by decide))

theorem JwtEcdsaPublicKey.merge_fields (m : JwtEcdsaPublicKey) (h : (encodeFields m.fields).length < 2147483648) :
    JwtEcdsaPublicKey.merge {} (encodeFields m.fields) = some m := by
  rw [JwtEcdsaPublicKey.merge, parseFields_encode _ (wf_of_shape m.shape (by omega))]
  simp only [JwtEcdsaPublicKey.fields, foldlM_append']
  rw [foldlM_uint32Field JwtEcdsaPublicKey.mergeField {} 1 m.version (fun s => { version := s })
      (fun _ => rfl) rfl, Option.bind_some]
  rw [foldlM_enumField JwtEcdsaPublicKey.mergeField _ 2 m.algorithm (fun s => { version := m.version, algorithm := s })
      (fun _ => rfl) rfl, Option.bind_some]
  rw [foldlM_bytesField JwtEcdsaPublicKey.mergeField _ 3 m.x (fun s => { version := m.version, algorithm := m.algorithm, x := s })
      (fun _ => rfl) rfl, Option.bind_some]
  rw [foldlM_bytesField JwtEcdsaPublicKey.mergeField _ 4 m.y (fun s => { version := m.version, algorithm := m.algorithm, x := m.x, y := s })
      (fun _ => rfl) rfl, Option.bind_some]
  exact foldlM_msgField JwtEcdsaPublicKey.mergeField _ 5 m.customKid JwtEcdsaPublicKey.CustomKid.fields (JwtEcdsaPublicKey.CustomKid.merge {}) (fun s => { version := m.version, algorithm := m.algorithm, x := m.x, y := m.y, customKid := s })
      (fun _ => rfl) rfl (fun x hx => JwtEcdsaPublicKey.CustomKid.merge_fields x (by
        refine Nat.lt_of_le_of_lt (len_le_encodeFields (num := 5) ?_) h
        simp [JwtEcdsaPublicKey.fields, hx, msgField]))

theorem JwtEcdsaPublicKey.fromString_serializeToString {m : JwtEcdsaPublicKey} {b : Bytes}
    (h : m.serializeToString = .ok b) : JwtEcdsaPublicKey.fromString b = .ok m := by
  obtain ⟨h2, h1⟩ := serializeFields_ok h
  subst h2
  unfold JwtEcdsaPublicKey.fromString
  rw [JwtEcdsaPublicKey.merge_fields m h1]
  rfl

theorem JwtEcdsaPrivateKey.shape (m : JwtEcdsaPrivateKey) : ∀ f ∈ m.fields, f.Shape :=
  shape_append (shape_append (shape_uint32Field _ (by decide)) (shape_msgField _ (by decide))) (shape_bytesField _ (by decide))

theorem JwtEcdsaPrivateKey.merge_fields (m : JwtEcdsaPrivateKey) (h : (encodeFields m.fields).length < 2147483648) :
    JwtEcdsaPrivateKey.merge {} (encodeFields m.fields) = some m := by
  rw [JwtEcdsaPrivateKey.merge, parseFields_encode _ (wf_of_shape m.shape (by omega))]
  simp only [JwtEcdsaPrivateKey.fields, foldlM_append']
  rw [foldlM_uint32Field JwtEcdsaPrivateKey.mergeField {} 1 m.version (fun s => { version := s })
      (fun _ => rfl) rfl, Option.bind_some]
  rw [foldlM_msgField JwtEcdsaPrivateKey.mergeField _ 2 m.publicKey JwtEcdsaPublicKey.fields (JwtEcdsaPublicKey.merge {}) (fun s => { version := m.version, publicKey := s })
      (fun _ => rfl) rfl (fun x hx => JwtEcdsaPublicKey.merge_fields x (by
        refine Nat.lt_of_le_of_lt (len_le_encodeFields (num := 2) ?_) h
        simp [JwtEcdsaPrivateKey.fields, hx, msgField])), Option.bind_some]
  exact foldlM_bytesField JwtEcdsaPrivateKey.mergeField _ 3 m.keyValue (fun s => { version := m.version, publicKey := m.publicKey, keyValue := s })
      (fun _ => rfl) rfl

theorem JwtEcdsaPrivateKey.fromString_serializeToString {m : JwtEcdsaPrivateKey} {b : Bytes}
    (h : m.serializeToString = .ok b) : JwtEcdsaPrivateKey.fromString b = .ok m := by
  obtain ⟨h2, h1⟩ := serializeFields_ok h
  subst h2
  unfold JwtEcdsaPrivateKey.fromString
  rw [JwtEcdsaPrivateKey.merge_fields m h1]
  rfl

theorem JwtEcdsaKeyFormat.shape (m : JwtEcdsaKeyFormat) : ∀ f ∈ m.fields, f.Shape :=
  shape_append (shape_uint32Field _ (by decide)) (shape_enumField _ (by decide))

theorem JwtEcdsaKeyFormat.merge_fields (m : JwtEcdsaKeyFormat) (h : (encodeFields m.fields).length < 2147483648) :
    JwtEcdsaKeyFormat.merge {} (encodeFields m.fields) = some m := by
  rw [JwtEcdsaKeyFormat.merge, parseFields_encode _ (wf_of_shape m.shape (by omega))]
  simp only [JwtEcdsaKeyFormat.fields, foldlM_append']
  rw [foldlM_uint32Field JwtEcdsaKeyFormat.mergeField {} 1 m.version (fun s => { version := s })
      (fun _ => rfl) rfl, Option.bind_some]
  exact foldlM_enumField JwtEcdsaKeyFormat.mergeField _ 2 m.algorithm (fun s => { version := m.version, algorithm := s })
      (fun _ => rfl) rfl

theorem JwtEcdsaKeyFormat.fromString_serializeToString {m : JwtEcdsaKeyFormat} {b : Bytes}
    (h : m.serializeToString = .ok b) : JwtEcdsaKeyFormat.fromString b = .ok m := by
  obtain ⟨h2, h1⟩ := serializeFields_ok h
  subst h2
  unfold JwtEcdsaKeyFormat.fromString
  rw [JwtEcdsaKeyFormat.merge_fields m h1]
  rfl

theorem JwtRsaSsaPkcs1PublicKey.CustomKid.shape (m : JwtRsaSsaPkcs1PublicKey.CustomKid) : ∀ f ∈ m.fields, f.Shape :=
  shape_strField _ (by decide)

theorem JwtRsaSsaPkcs1PublicKey.CustomKid.merge_fields (m : JwtRsaSsaPkcs1PublicKey.CustomKid) (h : (encodeFields m.fields).length < 2147483648) :
    JwtRsaSsaPkcs1PublicKey.CustomKid.merge {} (encodeFields m.fields) = some m := by
  rw [JwtRsaSsaPkcs1PublicKey.CustomKid.merge, parseFields_encode _ (wf_of_shape m.shape (by omega))]
  simp only [JwtRsaSsaPkcs1PublicKey.CustomKid.fields, foldlM_append']
  exact foldlM_strField JwtRsaSsaPkcs1PublicKey.CustomKid.mergeField {} 1 m.value (fun s => { value := s })
      (fun _ => rfl) rfl

theorem JwtRsaSsaPkcs1PublicKey.CustomKid.fromString_serializeToString {m : JwtRsaSsaPkcs1PublicKey.CustomKid} {b : Bytes}
    (h : m.serializeToString = .ok b) : JwtRsaSsaPkcs1PublicKey.CustomKid.fromString b = .ok m := by
  obtain ⟨h2, h1⟩ := serializeFields_ok h
  subst h2
  unfold JwtRsaSsaPkcs1PublicKey.CustomKid.fromString
  rw [JwtRsaSsaPkcs1PublicKey.CustomKid.merge_fields m h1]
  rfl

theorem JwtRsaSsaPkcs1PublicKey.shape (m : JwtRsaSsaPkcs1PublicKey) : ∀ f ∈ m.fields, f.Shape :=
  shape_append (shape_append (shape_append (shape_append (shape_uint32Field _ (by decide)) (shape_enumField _ (by decide))) (shape_bytesField _ (by decide))) (shape_bytesField _ (by decide))) (shape_msgField _ (by decide))

theorem JwtRsaSsaPkcs1PublicKey.merge_fields (m : JwtRsaSsaPkcs1PublicKey) (h : (encodeFields m.fields).length < 2147483648) :
    JwtRsaSsaPkcs1PublicKey.merge {} (encodeFields m.fields) = some m := by
  rw [JwtRsaSsaPkcs1PublicKey.merge, parseFields_encode _ (wf_of_shape m.shape (by omega))]
  simp only [JwtRsaSsaPkcs1PublicKey.fields, foldlM_append']
  rw [foldlM_uint32Field JwtRsaSsaPkcs1PublicKey.mergeField {} 1 m.version (fun s => { version := s })
      (fun _ => rfl) rfl, Option.bind_some]
  rw [foldlM_enumField JwtRsaSsaPkcs1PublicKey.mergeField _ 2 m.algorithm (fun s => { version := m.version, algorithm := s })
      (fun _ => rfl) rfl, Option.bind_some]
  rw [foldlM_bytesField JwtRsaSsaPkcs1PublicKey.mergeField _ 3 m.n (fun s => { version := m.version, algorithm := m.algorithm, n := s })
      (fun _ => rfl) rfl, Option.bind_some]
  rw [foldlM_bytesField JwtRsaSsaPkcs1PublicKey.mergeField _ 4 m.e (fun s => { version := m.version, algorithm := m.algorithm, n := m.n, e := s })
      (fun _ => rfl) rfl, Option.bind_some]
  exact foldlM_msgField JwtRsaSsaPkcs1PublicKey.mergeField _ 5 m.customKid JwtRsaSsaPkcs1PublicKey.CustomKid.fields (JwtRsaSsaPkcs1PublicKey.CustomKid.merge {}) (fun s => { version := m.version, algorithm := m.algorithm, n := m.n, e := m.e, customKid := s })
      (fun _ => rfl) rfl (fun x hx => JwtRsaSsaPkcs1PublicKey.CustomKid.merge_fields x (by
        refine Nat.lt_of_le_of_lt (len_le_encodeFields (num := 5) ?_) h
        simp [JwtRsaSsaPkcs1PublicKey.fields, hx, msgField]))

theorem JwtRsaSsaPkcs1PublicKey.fromString_serializeToString {m : JwtRsaSsaPkcs1PublicKey} {b : Bytes}
    (h : m.serializeToString = .ok b) : JwtRsaSsaPkcs1PublicKey.fromString b = .ok m := by
  obtain ⟨h2, h1⟩ := serializeFields_ok h
  subst h2
  unfold JwtRsaSsaPkcs1PublicKey.fromString
  rw [JwtRsaSsaPkcs1PublicKey.merge_fields m h1]
  rfl

theorem JwtRsaSsaPkcs1PrivateKey.shape (m : JwtRsaSsaPkcs1PrivateKey) : ∀ f ∈ m.fields, f.Shape :=
  shape_append (shape_append (shape_append (shape_append (shape_append (shape_append (shape_append (shape_uint32Field _ (by decide)) (shape_msgField _ (by decide))) (shape_bytesField _ (by decide))) (shape_bytesField _ (by decide))) (shape_bytesField _ (by decide))) (shape_bytesField _ (by decide))) (shape_bytesField _ (by decide))) (shape_bytesField _ (by decide))

theorem JwtRsaSsaPkcs1PrivateKey.merge_fields (m : JwtRsaSsaPkcs1PrivateKey) (h : (encodeFields m.fields).length < 2147483648) :
    JwtRsaSsaPkcs1PrivateKey.merge {} (encodeFields m.fields) = some m := by
  rw [JwtRsaSsaPkcs1PrivateKey.merge, parseFields_encode _ (wf_of_shape m.shape (by omega))]
  simp only [JwtRsaSsaPkcs1PrivateKey.fields, foldlM_append']
  rw [foldlM_uint32Field JwtRsaSsaPkcs1PrivateKey.mergeField {} 1 m.version (fun s => { version := s })
      (fun _ => rfl) rfl, Option.bind_some]
  rw [foldlM_msgField JwtRsaSsaPkcs1PrivateKey.mergeField _ 2 m.publicKey JwtRsaSsaPkcs1PublicKey.fields (JwtRsaSsaPkcs1PublicKey.merge {}) (fun s => { version := m.version, publicKey := s })
      (fun _ => rfl) rfl (fun x hx => JwtRsaSsaPkcs1PublicKey.merge_fields x (by
        refine Nat.lt_of_le_of_lt (len_le_encodeFields (num := 2) ?_) h
        simp [JwtRsaSsaPkcs1PrivateKey.fields, hx, msgField])), Option.bind_some]
  rw [foldlM_bytesField JwtRsaSsaPkcs1PrivateKey.mergeField _ 3 m.d (fun s => { version := m.version, publicKey := m.publicKey, d := s })
      (fun _ => rfl) rfl, Option.bind_some]
  rw [foldlM_bytesField JwtRsaSsaPkcs1PrivateKey.mergeField _ 4 m.p (fun s => { version := m.version, publicKey := m.publicKey, d := m.d, p := s })
      (fun _ => rfl) rfl, Option.bind_some]
  rw [foldlM_bytesField JwtRsaSsaPkcs1PrivateKey.mergeField _ 5 m.q (fun s => { version := m.version, publicKey := m.publicKey, d := m.d, p := m.p, q := s })
      (fun _ => rfl) rfl, Option.bind_some]
  rw [foldlM_bytesField JwtRsaSsaPkcs1PrivateKey.mergeField _ 6 m.dp (fun s => { version := m.version, publicKey := m.publicKey, d := m.d, p := m.p, q := m.q, dp := s })
      (fun _ => rfl) rfl, Option.bind_some]
  rw [foldlM_bytesField JwtRsaSsaPkcs1PrivateKey.mergeField _ 7 m.dq (fun s => { version := m.version, publicKey := m.publicKey, d := m.d, p := m.p, q := m.q, dp := m.dp, dq := s })
      (fun _ => rfl) rfl, Option.bind_some]
  exact foldlM_bytesField JwtRsaSsaPkcs1PrivateKey.mergeField _ 8 m.crt (fun s => { version := m.version, publicKey := m.publicKey, d := m.d, p := m.p, q := m.q, dp := m.dp, dq := m.dq, crt := s })
      (fun _ => rfl) rfl

theorem JwtRsaSsaPkcs1PrivateKey.fromString_serializeToString {m : JwtRsaSsaPkcs1PrivateKey} {b : Bytes}
    (h : m.serializeToString = .ok b) : JwtRsaSsaPkcs1PrivateKey.fromString b = .ok m := by
  obtain ⟨h2, h1⟩ := serializeFields_ok h
  subst h2
  unfold JwtRsaSsaPkcs1PrivateKey.fromString
  rw [JwtRsaSsaPkcs1PrivateKey.merge_fields m h1]
  rfl

theorem JwtRsaSsaPkcs1KeyFormat.shape (m : JwtRsaSsaPkcs1KeyFormat) : ∀ f ∈ m.fields, f.Shape :=
  shape_append (shape_append (shape_append (shape_uint32Field _ (by decide)) (shape_enumField _ (by decide))) (shape_uint32Field _ (by decide))) (shape_bytesField _ (by decide))

theorem JwtRsaSsaPkcs1KeyFormat.merge_fields (m : JwtRsaSsaPkcs1KeyFormat) (h : (encodeFields m.fields).length < 2147483648) :
    JwtRsaSsaPkcs1KeyFormat.merge {} (encodeFields m.fields) = some m := by
  rw [JwtRsaSsaPkcs1KeyFormat.merge, parseFields_encode _ (wf_of_shape m.shape (by omega))]
  simp only [JwtRsaSsaPkcs1KeyFormat.fields, foldlM_append']
  rw [foldlM_uint32Field JwtRsaSsaPkcs1KeyFormat.mergeField {} 1 m.version (fun s => { version := s })
      (fun _ => rfl) rfl, Option.bind_some]
  rw [foldlM_enumField JwtRsaSsaPkcs1KeyFormat.mergeField _ 2 m.algorithm (fun s => { version := m.version, algorithm := s })
      (fun _ => rfl) rfl, Option.bind_some]
  rw [foldlM_uint32Field JwtRsaSsaPkcs1KeyFormat.mergeField _ 3 m.modulusSizeInBits (fun s => { version := m.version, algorithm := m.algorithm, modulusSizeInBits := s })
      (fun _ => rfl) rfl, Option.bind_some]
  exact foldlM_bytesField JwtRsaSsaPkcs1KeyFormat.mergeField _ 4 m.publicExponent (fun s => { version := m.version, algorithm := m.algorithm, modulusSizeInBits := m.modulusSizeInBits, publicExponent := s })
      (fun _ => rfl) rfl

theorem JwtRsaSsaPkcs1KeyFormat.fromString_serializeToString {m : JwtRsaSsaPkcs1KeyFormat} {b : Bytes}
    (h : m.serializeToString = .ok b) : JwtRsaSsaPkcs1KeyFormat.fromString b = .ok m := by
  obtain ⟨h2, h1⟩ := serializeFields_ok h
  subst h2
  unfold JwtRsaSsaPkcs1KeyFormat.fromString
  rw [JwtRsaSsaPkcs1KeyFormat.merge_fields m h1]
  rfl

theorem JwtRsaSsaPssPublicKey.CustomKid.shape (m : JwtRsaSsaPssPublicKey.CustomKid) : ∀ f ∈ m.fields, f.Shape :=
  shape_strField _ (by decide)

theorem JwtRsaSsaPssPublicKey.CustomKid.merge_fields (m : JwtRsaSsaPssPublicKey.CustomKid) (h : (encodeFields m.fields).length < 2147483648) :
    JwtRsaSsaPssPublicKey.CustomKid.merge {} (encodeFields m.fields) = some m := by
  rw [JwtRsaSsaPssPublicKey.CustomKid.merge, parseFields_encode _ (wf_of_shape m.shape (by omega))]
  simp only [JwtRsaSsaPssPublicKey.CustomKid.fields, foldlM_append']
  exact foldlM_strField JwtRsaSsaPssPublicKey.CustomKid.mergeField {} 1 m.value (fun s => { value := s })
      (fun _ => rfl) rfl

theorem JwtRsaSsaPssPublicKey.CustomKid.fromString_serializeToString {m : JwtRsaSsaPssPublicKey.CustomKid} {b : Bytes}
    (h : m.serializeToString = .ok b) : JwtRsaSsaPssPublicKey.CustomKid.fromString b = .ok m := by
  obtain ⟨h2, h1⟩ := serializeFields_ok h
  subst h2
  unfold JwtRsaSsaPssPublicKey.CustomKid.fromString
  rw [JwtRsaSsaPssPublicKey.CustomKid.merge_fields m h1]
  rfl

theorem JwtRsaSsaPssPublicKey.shape (m : JwtRsaSsaPssPublicKey) : ∀ f ∈ m.fields, f.Shape :=
  shape_append (shape_append (shape_append (shape_append (shape_uint32Field _ (by decide)) (shape_enumField _ (by decide))) (shape_bytesField _ (by decide))) (shape_bytesField _ (by decide))) (shape_msgField _ (by decide))

theorem JwtRsaSsaPssPublicKey.merge_fields (m : JwtRsaSsaPssPublicKey) (h : (encodeFields m.fields).length < 2147483648) :
    JwtRsaSsaPssPublicKey.merge {} (encodeFields m.fields) = some m := by
  rw [JwtRsaSsaPssPublicKey.merge, parseFields_encode _ (wf_of_shape m.shape (by omega))]
  simp only [JwtRsaSsaPssPublicKey.fields, foldlM_append']
  rw [foldlM_uint32Field JwtRsaSsaPssPublicKey.mergeField {} 1 m.version (fun s => { version := s })
      (fun _ => rfl) rfl, Option.bind_some]
  rw [foldlM_enumField JwtRsaSsaPssPublicKey.mergeField _ 2 m.algorithm (fun s => { version := m.version, algorithm := s })
      (fun _ => rfl) rfl, Option.bind_some]
  rw [foldlM_bytesField JwtRsaSsaPssPublicKey.mergeField _ 3 m.n (fun s => { version := m.version, algorithm := m.algorithm, n := s })
      (fun _ => rfl) rfl, Option.bind_some]
  rw [foldlM_bytesField JwtRsaSsaPssPublicKey.mergeField _ 4 m.e (fun s => { version := m.version, algorithm := m.algorithm, n := m.n, e := s })
      (fun _ => rfl) rfl, Option.bind_some]
  exact foldlM_msgField JwtRsaSsaPssPublicKey.mergeField _ 5 m.customKid JwtRsaSsaPssPublicKey.CustomKid.fields (JwtRsaSsaPssPublicKey.CustomKid.merge {}) (fun s => { version := m.version, algorithm := m.algorithm, n := m.n, e := m.e, customKid := s })
      (fun _ => rfl) rfl (fun x hx => JwtRsaSsaPssPublicKey.CustomKid.merge_fields x (by
        refine Nat.lt_of_le_of_lt (len_le_encodeFields (num := 5) ?_) h
        simp [JwtRsaSsaPssPublicKey.fields, hx, msgField]))

theorem JwtRsaSsaPssPublicKey.fromString_serializeToString {m : JwtRsaSsaPssPublicKey} {b : Bytes}
    (h : m.serializeToString = .ok b) : JwtRsaSsaPssPublicKey.fromString b = .ok m := by
  obtain ⟨h2, h1⟩ := serializeFields_ok h
  subst h2
  unfold JwtRsaSsaPssPublicKey.fromString
  rw [JwtRsaSsaPssPublicKey.merge_fields m h1]
  rfl

theorem JwtRsaSsaPssPrivateKey.shape (m : JwtRsaSsaPssPrivateKey) : ∀ f ∈ m.fields, f.Shape :=
  shape_append (shape_append (shape_append (shape_append (shape_append (shape_append (shape_append (shape_uint32Field _ (by decide)) (shape_msgField _ (by decide))) (shape_bytesField _ (by decide))) (shape_bytesField _ (by decide))) (shape_bytesField _ (by decide))) (shape_bytesField _ (by decide))) (shape_bytesField _ (by decide))) (shape_bytesField _ (by decide))

theorem JwtRsaSsaPssPrivateKey.merge_fields (m : JwtRsaSsaPssPrivateKey) (h : (encodeFields m.fields).length < 2147483648) :
    JwtRsaSsaPssPrivateKey.merge {} (encodeFields m.fields) = some m := by
  rw [JwtRsaSsaPssPrivateKey.merge, parseFields_encode _ (wf_of_shape m.shape (by omega))]
  simp only [JwtRsaSsaPssPrivateKey.fields, foldlM_append']
  rw [foldlM_uint32Field JwtRsaSsaPssPrivateKey.mergeField {} 1 m.version (fun s => { version := s })
      (fun _ => rfl) rfl, Option.bind_some]
  rw [foldlM_msgField JwtRsaSsaPssPrivateKey.mergeField _ 2 m.publicKey JwtRsaSsaPssPublicKey.fields (JwtRsaSsaPssPublicKey.merge {}) (fun s => { version := m.version, publicKey := s })
      (fun _ => rfl) rfl (fun x hx => JwtRsaSsaPssPublicKey.merge_fields x (by
        refine Nat.lt_of_le_of_lt (len_le_encodeFields (num := 2) ?_) h
        simp [JwtRsaSsaPssPrivateKey.fields, hx, msgField])), Option.bind_some]
  rw [foldlM_bytesField JwtRsaSsaPssPrivateKey.mergeField _ 3 m.d (fun s => { version := m.version, publicKey := m.publicKey, d := s })
      (fun _ => rfl) rfl, Option.bind_some]
  rw [foldlM_bytesField JwtRsaSsaPssPrivateKey.mergeField _ 4 m.p (fun s => { version := m.version, publicKey := m.publicKey, d := m.d, p := s })
      (fun _ => rfl) rfl, Option.bind_some]
  rw [foldlM_bytesField JwtRsaSsaPssPrivateKey.mergeField _ 5 m.q (fun s => { version := m.version, publicKey := m.publicKey, d := m.d, p := m.p, q := s })
      (fun _ => rfl) rfl, Option.bind_some]
  rw [foldlM_bytesField JwtRsaSsaPssPrivateKey.mergeField _ 6 m.dp (fun s => { version := m.version, publicKey := m.publicKey, d := m.d, p := m.p, q := m.q, dp := s })
      (fun _ => rfl) rfl, Option.bind_some]
  rw [foldlM_bytesField JwtRsaSsaPssPrivateKey.mergeField _ 7 m.dq (fun s => { version := m.version, publicKey := m.publicKey, d := m.d, p := m.p, q := m.q, dp := m.dp, dq := s })
      (fun _ => rfl) rfl, Option.bind_some]
  exact foldlM_bytesField JwtRsaSsaPssPrivateKey.mergeField _ 8 m.crt (fun s => { version := m.version, publicKey := m.publicKey, d := m.d, p := m.p, q := m.q, dp := m.dp, dq := m.dq, crt := s })
      (fun _ => rfl) rfl

theorem JwtRsaSsaPssPrivateKey.fromString_serializeToString {m : JwtRsaSsaPssPrivateKey} {b : Bytes}
    (h : m.serializeToString = .ok b) : JwtRsaSsaPssPrivateKey.fromString b = .ok m := by
  obtain ⟨h2, h1⟩ := serializeFields_ok h
  subst h2
  unfold JwtRsaSsaPssPrivateKey.fromString
  rw [JwtRsaSsaPssPrivateKey.merge_fields m h1]
  rfl

theorem JwtRsaSsaPssKeyFormat.shape (m : JwtRsaSsaPssKeyFormat) : ∀ f ∈ m.fields, f.Shape :=
  shape_append (shape_append (shape_append (shape_uint32Field _ (by decide)) (shape_enumField _ (by decide))) (shape_uint32Field _ (by decide))) (shape_bytesField _ (by decide))

theorem JwtRsaSsaPssKeyFormat.merge_fields (m : JwtRsaSsaPssKeyFormat) (h : (encodeFields m.fields).length < 2147483648) :
    JwtRsaSsaPssKeyFormat.merge {} (encodeFields m.fields) = some m := by
  rw [JwtRsaSsaPssKeyFormat.merge, parseFields_encode _ (wf_of_shape m.shape (by omega))]
  simp only [JwtRsaSsaPssKeyFormat.fields, foldlM_append']
  rw [foldlM_uint32Field JwtRsaSsaPssKeyFormat.mergeField {} 1 m.version (fun s => { version := s })
      (fun _ => rfl) rfl, Option.bind_some]
  rw [foldlM_enumField JwtRsaSsaPssKeyFormat.mergeField _ 2 m.algorithm (fun s => { version := m.version, algorithm := s })
      (fun _ => rfl) rfl, Option.bind_some]
  rw [foldlM_uint32Field JwtRsaSsaPssKeyFormat.mergeField _ 3 m.modulusSizeInBits (fun s => { version := m.version, algorithm := m.algorithm, modulusSizeInBits := s })
      (fun _ => rfl) rfl, Option.bind_some]
  exact foldlM_bytesField JwtRsaSsaPssKeyFormat.mergeField _ 4 m.publicExponent (fun s => { version := m.version, algorithm := m.algorithm, modulusSizeInBits := m.modulusSizeInBits, publicExponent := s })
      (fun _ => rfl) rfl

theorem JwtRsaSsaPssKeyFormat.fromString_serializeToString {m : JwtRsaSsaPssKeyFormat} {b : Bytes}
    (h : m.serializeToString = .ok b) : JwtRsaSsaPssKeyFormat.fromString b = .ok m := by
  obtain ⟨h2, h1⟩ := serializeFields_ok h
  subst h2
  unfold JwtRsaSsaPssKeyFormat.fromString
  rw [JwtRsaSsaPssKeyFormat.merge_fields m h1]
  rfl

theorem AesGcmKey.shape (m : AesGcmKey) : ∀ f ∈ m.fields, f.Shape :=
  shape_append (shape_uint32Field _ (by decide)) (shape_bytesField _ (by decide))

theorem AesGcmKey.merge_fields (m : AesGcmKey) (h : (encodeFields m.fields).length < 2147483648) :
    AesGcmKey.merge {} (encodeFields m.fields) = some m := by
  rw [AesGcmKey.merge, parseFields_encode _ (wf_of_shape m.shape (by omega))]
  simp only [AesGcmKey.fields, foldlM_append']
  rw [foldlM_uint32Field AesGcmKey.mergeField {} 1 m.version (fun s => { version := s })
      (fun _ => rfl) rfl, Option.bind_some]
  exact foldlM_bytesField AesGcmKey.mergeField _ 3 m.keyValue (fun s => { version := m.version, keyValue := s })
      (fun _ => rfl) rfl

theorem AesGcmKey.fromString_serializeToString {m : AesGcmKey} {b : Bytes}
    (h : m.serializeToString = .ok b) : AesGcmKey.fromString b = .ok m := by
  obtain ⟨h2, h1⟩ := serializeFields_ok h
  subst h2
  unfold AesGcmKey.fromString
  rw [AesGcmKey.merge_fields m h1]
  rfl

theorem AesGcmSivKey.shape (m : AesGcmSivKey) : ∀ f ∈ m.fields, f.Shape :=
  shape_append (shape_uint32Field _ (by decide)) (shape_bytesField _ (by decide))

theorem AesGcmSivKey.merge_fields (m : AesGcmSivKey) (h : (encodeFields m.fields).length < 2147483648) :
    AesGcmSivKey.merge {} (encodeFields m.fields) = some m := by
  rw [AesGcmSivKey.merge, parseFields_encode _ (wf_of_shape m.shape (by omega))]
  simp only [AesGcmSivKey.fields, foldlM_append']
  rw [foldlM_uint32Field AesGcmSivKey.mergeField {} 1 m.version (fun s => { version := s })
      (fun _ => rfl) rfl, Option.bind_some]
  exact foldlM_bytesField AesGcmSivKey.mergeField _ 3 m.keyValue (fun s => { version := m.version, keyValue := s })
      (fun _ => rfl) rfl

theorem AesGcmSivKey.fromString_serializeToString {m : AesGcmSivKey} {b : Bytes}
    (h : m.serializeToString = .ok b) : AesGcmSivKey.fromString b = .ok m := by
  obtain ⟨h2, h1⟩ := serializeFields_ok h
  subst h2
  unfold AesGcmSivKey.fromString
  rw [AesGcmSivKey.merge_fields m h1]
  rfl

theorem AesEaxKey.shape (m : AesEaxKey) : ∀ f ∈ m.fields, f.Shape :=
  shape_append (shape_append (shape_uint32Field _ (by decide)) (shape_msgField _ (by decide))) (shape_bytesField _ (by decide))

theorem AesEaxKey.merge_fields (m : AesEaxKey) (h : (encodeFields m.fields).length < 2147483648) :
    AesEaxKey.merge {} (encodeFields m.fields) = some m := by
  rw [AesEaxKey.merge, parseFields_encode _ (wf_of_shape m.shape (by omega))]
  simp only [AesEaxKey.fields, foldlM_append']
  rw [foldlM_uint32Field AesEaxKey.mergeField {} 1 m.version (fun s => { version := s })
      (fun _ => rfl) rfl, Option.bind_some]
  rw [foldlM_msgField AesEaxKey.mergeField _ 2 m.params AesEaxParams.fields (AesEaxParams.merge {}) (fun s => { version := m.version, params := s })
      (fun _ => rfl) rfl (fun x hx => AesEaxParams.merge_fields x (by
        refine Nat.lt_of_le_of_lt (len_le_encodeFields (num := 2) ?_) h
        simp [AesEaxKey.fields, hx, msgField])), Option.bind_some]
  exact foldlM_bytesField AesEaxKey.mergeField _ 3 m.keyValue (fun s => { version := m.version, params := m.params, keyValue := s })
      (fun _ => rfl) rfl

theorem AesEaxKey.fromString_serializeToString {m : AesEaxKey} {b : Bytes}
    (h : m.serializeToString = .ok b) : AesEaxKey.fromString b = .ok m := by
  obtain ⟨h2, h1⟩ := serializeFields_ok h
  subst h2
  unfold AesEaxKey.fromString
  rw [AesEaxKey.merge_fields m h1]
  rfl

theorem XChaCha20Poly1305KeyFormat.shape (m : XChaCha20Poly1305KeyFormat) : ∀ f ∈ m.fields, f.Shape :=
  shape_uint32Field _ (by decide)

theorem XChaCha20Poly1305KeyFormat.merge_fields (m : XChaCha20Poly1305KeyFormat) (h : (encodeFields m.fields).length < 2147483648) :
    XChaCha20Poly1305KeyFormat.merge {} (encodeFields m.fields) = some m := by
  rw [XChaCha20Poly1305KeyFormat.merge, parseFields_encode _ (wf_of_shape m.shape (by omega))]
  simp only [XChaCha20Poly1305KeyFormat.fields, foldlM_append']
  exact foldlM_uint32Field XChaCha20Poly1305KeyFormat.mergeField {} 1 m.version (fun s => { version := s })
      (fun _ => rfl) rfl

theorem XChaCha20Poly1305KeyFormat.fromString_serializeToString {m : XChaCha20Poly1305KeyFormat} {b : Bytes}
    (h : m.serializeToString = .ok b) : XChaCha20Poly1305KeyFormat.fromString b = .ok m := by
  obtain ⟨h2, h1⟩ := serializeFields_ok h
  subst h2
  unfold XChaCha20Poly1305KeyFormat.fromString
  rw [XChaCha20Poly1305KeyFormat.merge_fields m h1]
  rfl

theorem XChaCha20Poly1305Key.shape (m : XChaCha20Poly1305Key) : ∀ f ∈ m.fields, f.Shape :=
  shape_append (shape_uint32Field _ (by decide)) (shape_bytesField _ (by decide))

theorem XChaCha20Poly1305Key.merge_fields (m : XChaCha20Poly1305Key) (h : (encodeFields m.fields).length < 2147483648) :
    XChaCha20Poly1305Key.merge {} (encodeFields m.fields) = some m := by
  rw [XChaCha20Poly1305Key.merge, parseFields_encode _ (wf_of_shape m.shape (by omega))]
  simp only [XChaCha20Poly1305Key.fields, foldlM_append']
  rw [foldlM_uint32Field XChaCha20Poly1305Key.mergeField {} 1 m.version (fun s => { version := s })
      (fun _ => rfl) rfl, Option.bind_some]
  exact foldlM_bytesField XChaCha20Poly1305Key.mergeField _ 3 m.keyValue (fun s => { version := m.version, keyValue := s })
      (fun _ => rfl) rfl

theorem XChaCha20Poly1305Key.fromString_serializeToString {m : XChaCha20Poly1305Key} {b : Bytes}
    (h : m.serializeToString = .ok b) : XChaCha20Poly1305Key.fromString b = .ok m := by
  obtain ⟨h2, h1⟩ := serializeFields_ok h
  subst h2
  unfold XChaCha20Poly1305Key.fromString
  rw [XChaCha20Poly1305Key.merge_fields m h1]
  rfl

theorem AesCtrKey.shape (m : AesCtrKey) : ∀ f ∈ m.fields, f.Shape :=
  shape_append (shape_append (shape_uint32Field _ (by decide)) (shape_msgField _ (by decide))) (shape_bytesField _ (by decide))

theorem AesCtrKey.merge_fields (m : AesCtrKey) (h : (encodeFields m.fields).length < 2147483648) :
    AesCtrKey.merge {} (encodeFields m.fields) = some m := by
  rw [AesCtrKey.merge, parseFields_encode _ (wf_of_shape m.shape (by omega))]
  simp only [AesCtrKey.fields, foldlM_append']
  rw [foldlM_uint32Field AesCtrKey.mergeField {} 1 m.version (fun s => { version := s })
      (fun _ => rfl) rfl, Option.bind_some]
  rw [foldlM_msgField AesCtrKey.mergeField _ 2 m.params AesCtrParams.fields (AesCtrParams.merge {}) (fun s => { version := m.version, params := s })
      (fun _ => rfl) rfl (fun x hx => AesCtrParams.merge_fields x (by
        refine Nat.lt_of_le_of_lt (len_le_encodeFields (num := 2) ?_) h
        simp [AesCtrKey.fields, hx, msgField])), Option.bind_some]
  exact foldlM_bytesField AesCtrKey.mergeField _ 3 m.keyValue (fun s => { version := m.version, params := m.params, keyValue := s })
      (fun _ => rfl) rfl

theorem AesCtrKey.fromString_serializeToString {m : AesCtrKey} {b : Bytes}
    (h : m.serializeToString = .ok b) : AesCtrKey.fromString b = .ok m := by
  obtain ⟨h2, h1⟩ := serializeFields_ok h
  subst h2
  unfold AesCtrKey.fromString
  rw [AesCtrKey.merge_fields m h1]
  rfl

theorem HmacKey.shape (m : HmacKey) : ∀ f ∈ m.fields, f.Shape :=
  shape_append (shape_append (shape_uint32Field _ (by decide)) (shape_msgField _ (by decide))) (shape_bytesField _ (by decide))

theorem HmacKey.merge_fields (m : HmacKey) (h : (encodeFields m.fields).length < 2147483648) :
    HmacKey.merge {} (encodeFields m.fields) = some m := by
  rw [HmacKey.merge, parseFields_encode _ (wf_of_shape m.shape (by omega))]
  simp only [HmacKey.fields, foldlM_append']
  rw [foldlM_uint32Field HmacKey.mergeField {} 1 m.version (fun s => { version := s })
      (fun _ => rfl) rfl, Option.bind_some]
  rw [foldlM_msgField HmacKey.mergeField _ 2 m.params HmacParams.fields (HmacParams.merge {}) (fun s => { version := m.version, params := s })
      (fun _ => rfl) rfl (fun x hx => HmacParams.merge_fields x (by
        refine Nat.lt_of_le_of_lt (len_le_encodeFields (num := 2) ?_) h
        simp [HmacKey.fields, hx, msgField])), Option.bind_some]
  exact foldlM_bytesField HmacKey.mergeField _ 3 m.keyValue (fun s => { version := m.version, params := m.params, keyValue := s })
      (fun _ => rfl) rfl

theorem HmacKey.fromString_serializeToString {m : HmacKey} {b : Bytes}
    (h : m.serializeToString = .ok b) : HmacKey.fromString b = .ok m := by
  obtain ⟨h2, h1⟩ := serializeFields_ok h
  subst h2
  unfold HmacKey.fromString
  rw [HmacKey.merge_fields m h1]
  rfl

theorem AesCtrHmacAeadKey.shape (m : AesCtrHmacAeadKey) : ∀ f ∈ m.fields, f.Shape :=
  shape_append (shape_append (shape_uint32Field _ (by decide)) (shape_msgField _ (by decide))) (shape_msgField _ (by decide))

theorem AesCtrHmacAeadKey.merge_fields (m : AesCtrHmacAeadKey) (h : (encodeFields m.fields).length < 2147483648) :
    AesCtrHmacAeadKey.merge {} (encodeFields m.fields) = some m := by
  rw [AesCtrHmacAeadKey.merge, parseFields_encode _ (wf_of_shape m.shape (by omega))]
  simp only [AesCtrHmacAeadKey.fields, foldlM_append']
  rw [foldlM_uint32Field AesCtrHmacAeadKey.mergeField {} 1 m.version (fun s => { version := s })
      (fun _ => rfl) rfl, Option.bind_some]
  rw [foldlM_msgField AesCtrHmacAeadKey.mergeField _ 2 m.aesCtrKey AesCtrKey.fields (AesCtrKey.merge {}) (fun s => { version := m.version, aesCtrKey := s })
      (fun _ => rfl) rfl (fun x hx => AesCtrKey.merge_fields x (by
        refine Nat.lt_of_le_of_lt (len_le_encodeFields (num := 2) ?_) h
        simp [AesCtrHmacAeadKey.fields, hx, msgField])), Option.bind_some]
  exact foldlM_msgField AesCtrHmacAeadKey.mergeField _ 3 m.hmacKey HmacKey.fields (HmacKey.merge {}) (fun s => { version := m.version, aesCtrKey := m.aesCtrKey, hmacKey := s })
      (fun _ => rfl) rfl (fun x hx => HmacKey.merge_fields x (by
        refine Nat.lt_of_le_of_lt (len_le_encodeFields (num := 3) ?_) h
        simp [AesCtrHmacAeadKey.fields, hx, msgField]))

theorem AesCtrHmacAeadKey.fromString_serializeToString {m : AesCtrHmacAeadKey} {b : Bytes}
    (h : m.serializeToString = .ok b) : AesCtrHmacAeadKey.fromString b = .ok m := by
  obtain ⟨h2, h1⟩ := serializeFields_ok h
  subst h2
  unfold AesCtrHmacAeadKey.fromString
  rw [AesCtrHmacAeadKey.merge_fields m h1]
  rfl

theorem AesSivKey.shape (m : AesSivKey) : ∀ f ∈ m.fields, f.Shape :=
  shape_append (shape_uint32Field _ (by decide)) (shape_bytesField _ (by decide))

theorem AesSivKey.merge_fields (m : AesSivKey) (h : (encodeFields m.fields).length < 2147483648) :
    AesSivKey.merge {} (encodeFields m.fields) = some m := by
  rw [AesSivKey.merge, parseFields_encode _ (wf_of_shape m.shape (by omega))]
  simp only [AesSivKey.fields, foldlM_append']
  rw [foldlM_uint32Field AesSivKey.mergeField {} 1 m.version (fun s => { version := s })
      (fun _ => rfl) rfl, Option.bind_some]
  exact foldlM_bytesField AesSivKey.mergeField _ 2 m.keyValue (fun s => { version := m.version, keyValue := s })
      (fun _ => rfl) rfl

theorem AesSivKey.fromString_serializeToString {m : AesSivKey} {b : Bytes}
    (h : m.serializeToString = .ok b) : AesSivKey.fromString b = .ok m := by
  obtain ⟨h2, h1⟩ := serializeFields_ok h
  subst h2
  unfold AesSivKey.fromString
  rw [AesSivKey.merge_fields m h1]
  rfl

theorem AesCmacKey.shape (m : AesCmacKey) : ∀ f ∈ m.fields, f.Shape :=
  shape_append (shape_append (shape_uint32Field _ (by decide)) (shape_bytesField _ (by decide))) (shape_msgField _ (by decide))

theorem AesCmacKey.merge_fields (m : AesCmacKey) (h : (encodeFields m.fields).length < 2147483648) :
    AesCmacKey.merge {} (encodeFields m.fields) = some m := by
  rw [AesCmacKey.merge, parseFields_encode _ (wf_of_shape m.shape (by omega))]
  simp only [AesCmacKey.fields, foldlM_append']
  rw [foldlM_uint32Field AesCmacKey.mergeField {} 1 m.version (fun s => { version := s })
      (fun _ => rfl) rfl, Option.bind_some]
  rw [foldlM_bytesField AesCmacKey.mergeField _ 2 m.keyValue (fun s => { version := m.version, keyValue := s })
      (fun _ => rfl) rfl, Option.bind_some]
  exact foldlM_msgField AesCmacKey.mergeField _ 3 m.params AesCmacParams.fields (AesCmacParams.merge {}) (fun s => { version := m.version, keyValue := m.keyValue, params := s })
      (fun _ => rfl) rfl (fun x hx => AesCmacParams.merge_fields x (by
        refine Nat.lt_of_le_of_lt (len_le_encodeFields (num := 3) ?_) h
        simp [AesCmacKey.fields, hx, msgField]))

theorem AesCmacKey.fromString_serializeToString {m : AesCmacKey} {b : Bytes}
    (h : m.serializeToString = .ok b) : AesCmacKey.fromString b = .ok m := by
  obtain ⟨h2, h1⟩ := serializeFields_ok h
  subst h2
  unfold AesCmacKey.fromString
  rw [AesCmacKey.merge_fields m h1]
  rfl

theorem AesCmacPrfKey.shape (m : AesCmacPrfKey) : ∀ f ∈ m.fields, f.Shape :=
  shape_append (shape_uint32Field _ (by decide)) (shape_bytesField _ (by decide))

theorem AesCmacPrfKey.merge_fields (m : AesCmacPrfKey) (h : (encodeFields m.fields).length < 2147483648) :
    AesCmacPrfKey.merge {} (encodeFields m.fields) = some m := by
  rw [AesCmacPrfKey.merge, parseFields_encode _ (wf_of_shape m.shape (by omega))]
  simp only [AesCmacPrfKey.fields, foldlM_append']
  rw [foldlM_uint32Field AesCmacPrfKey.mergeField {} 1 m.version (fun s => { version := s })
      (fun _ => rfl) rfl, Option.bind_some]
  exact foldlM_bytesField AesCmacPrfKey.mergeField _ 2 m.keyValue (fun s => { version := m.version, keyValue := s })
      (fun _ => rfl) rfl

theorem AesCmacPrfKey.fromString_serializeToString {m : AesCmacPrfKey} {b : Bytes}
    (h : m.serializeToString = .ok b) : AesCmacPrfKey.fromString b = .ok m := by
  obtain ⟨h2, h1⟩ := serializeFields_ok h
  subst h2
  unfold AesCmacPrfKey.fromString
  rw [AesCmacPrfKey.merge_fields m h1]
  rfl

theorem HmacPrfKey.shape (m : HmacPrfKey) : ∀ f ∈ m.fields, f.Shape :=
  shape_append (shape_append (shape_uint32Field _ (by decide)) (shape_msgField _ (by decide))) (shape_bytesField _ (by decide))

theorem HmacPrfKey.merge_fields (m : HmacPrfKey) (h : (encodeFields m.fields).length < 2147483648) :
    HmacPrfKey.merge {} (encodeFields m.fields) = some m := by
  rw [HmacPrfKey.merge, parseFields_encode _ (wf_of_shape m.shape (by omega))]
  simp only [HmacPrfKey.fields, foldlM_append']
  rw [foldlM_uint32Field HmacPrfKey.mergeField {} 1 m.version (fun s => { version := s })
      (fun _ => rfl) rfl, Option.bind_some]
  rw [foldlM_msgField HmacPrfKey.mergeField _ 2 m.params HmacPrfParams.fields (HmacPrfParams.merge {}) (fun s => { version := m.version, params := s })
      (fun _ => rfl) rfl (fun x hx => HmacPrfParams.merge_fields x (by
        refine Nat.lt_of_le_of_lt (len_le_encodeFields (num := 2) ?_) h
        simp [HmacPrfKey.fields, hx, msgField])), Option.bind_some]
  exact foldlM_bytesField HmacPrfKey.mergeField _ 3 m.keyValue (fun s => { version := m.version, params := m.params, keyValue := s })
      (fun _ => rfl) rfl

theorem HmacPrfKey.fromString_serializeToString {m : HmacPrfKey} {b : Bytes}
    (h : m.serializeToString = .ok b) : HmacPrfKey.fromString b = .ok m := by
  obtain ⟨h2, h1⟩ := serializeFields_ok h
  subst h2
  unfold HmacPrfKey.fromString
  rw [HmacPrfKey.merge_fields m h1]
  rfl

theorem HkdfPrfKey.shape (m : HkdfPrfKey) : ∀ f ∈ m.fields, f.Shape :=
  shape_append (shape_append (shape_uint32Field _ (by decide)) (shape_msgField _ (by decide))) (shape_bytesField _ (by decide))

theorem HkdfPrfKey.merge_fields (m : HkdfPrfKey) (h : (encodeFields m.fields).length < 2147483648) :
    HkdfPrfKey.merge {} (encodeFields m.fields) = some m := by
  rw [HkdfPrfKey.merge, parseFields_encode _ (wf_of_shape m.shape (by omega))]
  simp only [HkdfPrfKey.fields, foldlM_append']
  rw [foldlM_uint32Field HkdfPrfKey.mergeField {} 1 m.version (fun s => { version := s })
      (fun _ => rfl) rfl, Option.bind_some]
  rw [foldlM_msgField HkdfPrfKey.mergeField _ 2 m.params HkdfPrfParams.fields (HkdfPrfParams.merge {}) (fun s => { version := m.version, params := s })
      (fun _ => rfl) rfl (fun x hx => HkdfPrfParams.merge_fields x (by
        refine Nat.lt_of_le_of_lt (len_le_encodeFields (num := 2) ?_) h
        simp [HkdfPrfKey.fields, hx, msgField])), Option.bind_some]
  exact foldlM_bytesField HkdfPrfKey.mergeField _ 3 m.keyValue (fun s => { version := m.version, params := m.params, keyValue := s })
      (fun _ => rfl) rfl

theorem HkdfPrfKey.fromString_serializeToString {m : HkdfPrfKey} {b : Bytes}
    (h : m.serializeToString = .ok b) : HkdfPrfKey.fromString b = .ok m := by
  obtain ⟨h2, h1⟩ := serializeFields_ok h
  subst h2
  unfold HkdfPrfKey.fromString
  rw [HkdfPrfKey.merge_fields m h1]
  rfl

end Tink
