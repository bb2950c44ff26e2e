import Verif.Proto.GenHybrid
import Verif.Proto.GenLemmas

/-!
# Parsing inverts serializing, for the messages of `Proto/GenHybrid.lean`

Generated by `/verif/tools/protogen.py`.
-/

namespace Tink

theorem EciesAeadHkdfPublicKey.shape (m : EciesAeadHkdfPublicKey) : ∀ f ∈ m.fields, f.Shape :=
  shape_append (shape_append (shape_append (shape_uint32Field _ (by decide)) (shape_msgField _ (by decide))) (shape_bytesField _ (by decide))) (shape_bytesField _ (by decide))

theorem EciesAeadHkdfPublicKey.merge_fields (m : EciesAeadHkdfPublicKey) (h : (encodeFields m.fields).length < 2147483648) :
    EciesAeadHkdfPublicKey.merge {} (encodeFields m.fields) = some m := by
  rw [EciesAeadHkdfPublicKey.merge, parseFields_encode _ (wf_of_shape m.shape (by omega))]
  simp only [EciesAeadHkdfPublicKey.fields, foldlM_append']
  rw [foldlM_uint32Field EciesAeadHkdfPublicKey.mergeField {} 1 m.version (fun s => { version := s })
      (fun _ => rfl) rfl, Option.bind_some]
  rw [foldlM_msgField EciesAeadHkdfPublicKey.mergeField _ 2 m.params EciesAeadHkdfParams.fields (EciesAeadHkdfParams.merge {}) (fun s => { version := m.version, params := s })
      (fun _ => rfl) rfl (fun x hx => EciesAeadHkdfParams.merge_fields x (by
        refine Nat.lt_of_le_of_lt (len_le_encodeFields (num := 2) ?_) h
        simp [EciesAeadHkdfPublicKey.fields, hx, msgField])), Option.bind_some]
  rw [foldlM_bytesField EciesAeadHkdfPublicKey.mergeField _ 3 m.x (fun s => { version := m.version, params := m.params, x := s })
      (fun _ => rfl) rfl, Option.bind_some]
  exact foldlM_bytesField EciesAeadHkdfPublicKey.mergeField _ 4 m.y (fun s => { version := m.version, params := m.params, x := m.x, y := s })
      (fun _ => rfl) rfl

theorem EciesAeadHkdfPublicKey.fromString_serializeToString {m : EciesAeadHkdfPublicKey} {b : Bytes}
    (h : m.serializeToString = .ok b) : EciesAeadHkdfPublicKey.fromString b = .ok m := by
  obtain ⟨h2, h1⟩ := serializeFields_ok h
  subst h2
  unfold EciesAeadHkdfPublicKey.fromString
  rw [EciesAeadHkdfPublicKey.merge_fields m h1]
  rfl

theorem EciesAeadHkdfPrivateKey.shape (m : EciesAeadHkdfPrivateKey) : ∀ f ∈ m.fields, f.Shape :=
  shape_append (shape_append (shape_uint32Field _ (by decide)) (shape_msgField _ (by decide))) (shape_bytesField _ (by decide))

theorem EciesAeadHkdfPrivateKey.merge_fields (m : EciesAeadHkdfPrivateKey) (h : (encodeFields m.fields).length < 2147483648) :
    EciesAeadHkdfPrivateKey.merge {} (encodeFields m.fields) = some m := by
  rw [EciesAeadHkdfPrivateKey.merge, parseFields_encode _ (wf_of_shape m.shape (by omega))]
  simp only [EciesAeadHkdfPrivateKey.fields, foldlM_append']
  rw [foldlM_uint32Field EciesAeadHkdfPrivateKey.mergeField {} 1 m.version (fun s => { version := s })
      (fun _ => rfl) rfl, Option.bind_some]
  rw [foldlM_msgField EciesAeadHkdfPrivateKey.mergeField _ 2 m.publicKey EciesAeadHkdfPublicKey.fields (EciesAeadHkdfPublicKey.merge {}) (fun s => { version := m.version, publicKey := s })
      (fun _ => rfl) rfl (fun x hx => EciesAeadHkdfPublicKey.merge_fields x (by
        refine Nat.lt_of_le_of_lt (len_le_encodeFields (num := 2) ?_) h
        simp [EciesAeadHkdfPrivateKey.fields, hx, msgField])), Option.bind_some]
  exact foldlM_bytesField EciesAeadHkdfPrivateKey.mergeField _ 3 m.keyValue (fun s => { version := m.version, publicKey := m.publicKey, keyValue := s })
      (fun _ => rfl) rfl

theorem EciesAeadHkdfPrivateKey.fromString_serializeToString {m : EciesAeadHkdfPrivateKey} {b : Bytes}
    (h : m.serializeToString = .ok b) : EciesAeadHkdfPrivateKey.fromString b = .ok m := by
  obtain ⟨h2, h1⟩ := serializeFields_ok h
  subst h2
  unfold EciesAeadHkdfPrivateKey.fromString
  rw [EciesAeadHkdfPrivateKey.merge_fields m h1]
  rfl

theorem HpkePublicKey.shape (m : HpkePublicKey) : ∀ f ∈ m.fields, f.Shape :=
  shape_append (shape_append (shape_uint32Field _ (by decide)) (shape_msgField _ (by decide))) (shape_bytesField _ (by decide))

theorem HpkePublicKey.merge_fields (m : HpkePublicKey) (h : (encodeFields m.fields).length < 2147483648) :
    HpkePublicKey.merge {} (encodeFields m.fields) = some m := by
  rw [HpkePublicKey.merge, parseFields_encode _ (wf_of_shape m.shape (by omega))]
  simp only [HpkePublicKey.fields, foldlM_append']
  rw [foldlM_uint32Field HpkePublicKey.mergeField {} 1 m.version (fun s => { version := s })
      (fun _ => rfl) rfl, Option.bind_some]
  rw [foldlM_msgField HpkePublicKey.mergeField _ 2 m.params HpkeParams.fields (HpkeParams.merge {}) (fun s => { version := m.version, params := s })
      (fun _ => rfl) rfl (fun x hx => HpkeParams.merge_fields x (by
        refine Nat.lt_of_le_of_lt (len_le_encodeFields (num := 2) ?_) h
        simp [HpkePublicKey.fields, hx, msgField])), Option.bind_some]
  exact foldlM_bytesField HpkePublicKey.mergeField _ 3 m.publicKey (fun s => { version := m.version, params := m.params, publicKey := s })
      (fun _ => rfl) rfl

theorem HpkePublicKey.fromString_serializeToString {m : HpkePublicKey} {b : Bytes}
    (h : m.serializeToString = .ok b) : HpkePublicKey.fromString b = .ok m := by
  obtain ⟨h2, h1⟩ := serializeFields_ok h
  subst h2
  unfold HpkePublicKey.fromString
  rw [HpkePublicKey.merge_fields m h1]
  rfl

theorem HpkePrivateKey.shape (m : HpkePrivateKey) : ∀ f ∈ m.fields, f.Shape :=
  shape_append (shape_append (shape_uint32Field _ (by decide)) (shape_msgField _ (by decide))) (shape_bytesField _ (by decide))

theorem HpkePrivateKey.merge_fields (m : HpkePrivateKey) (h : (encodeFields m.fields).length < 2147483648) :
    HpkePrivateKey.merge {} (encodeFields m.fields) = some m := by
  rw [HpkePrivateKey.merge, parseFields_encode _ (wf_of_shape m.shape (by omega))]
  simp only [HpkePrivateKey.fields, foldlM_append']
  rw [foldlM_uint32Field HpkePrivateKey.mergeField {} 1 m.version (fun s => { version := s })
      (fun _ => rfl) rfl, Option.bind_some]
  rw [foldlM_msgField HpkePrivateKey.mergeField _ 2 m.publicKey HpkePublicKey.fields (HpkePublicKey.merge {}) (fun s => { version := m.version, publicKey := s })
      (fun _ => rfl) rfl (fun x hx => HpkePublicKey.merge_fields x (by
        refine Nat.lt_of_le_of_lt (len_le_encodeFields (num := 2) ?_) h
        simp [HpkePrivateKey.fields, hx, msgField])), Option.bind_some]
  exact foldlM_bytesField HpkePrivateKey.mergeField _ 3 m.privateKey (fun s => { version := m.version, publicKey := m.publicKey, privateKey := s })
      (fun _ => rfl) rfl

theorem HpkePrivateKey.fromString_serializeToString {m : HpkePrivateKey} {b : Bytes}
    (h : m.serializeToString = .ok b) : HpkePrivateKey.fromString b = .ok m := by
  obtain ⟨h2, h1⟩ := serializeFields_ok h
  subst h2
  unfold HpkePrivateKey.fromString
  rw [HpkePrivateKey.merge_fields m h1]
  rfl

end Tink
