import Verif.Proto.GenSignature
import Verif.Proto.GenLemmas

/-!
# Parsing inverts serializing, for the messages of `Proto/GenSignature.lean`

Generated by `/verif/tools/protogen.py`.
-/

namespace Tink

theorem EcdsaPublicKey.shape (m : EcdsaPublicKey) : ∀ f ∈ m.fields, f.Shape :=
  shape_append (shape_append (shape_append (shape_uint32Field _ (by decide)) (shape_msgField _ (by decide))) (shape_bytesField _ (by decide))) (shape_bytesField _ (by decide))

theorem EcdsaPublicKey.merge_fields (m : EcdsaPublicKey) (h : (encodeFields m.fields).length < 2147483648) :
    EcdsaPublicKey.merge {} (encodeFields m.fields) = some m := by
  rw [EcdsaPublicKey.merge, parseFields_encode _ (wf_of_shape m.shape (by omega))]
  simp only [EcdsaPublicKey.fields, foldlM_append']
  rw [foldlM_uint32Field EcdsaPublicKey.mergeField {} 1 m.version (fun s => { version := s })
      (fun _ => rfl) rfl, Option.bind_some]
  rw [foldlM_msgField EcdsaPublicKey.mergeField _ 2 m.params EcdsaParams.fields (EcdsaParams.merge {}) (fun s => { version := m.version, params := s })
      (fun _ => rfl) rfl (fun x hx => EcdsaParams.merge_fields x (by
        refine Nat.lt_of_le_of_lt (len_le_encodeFields (num := 2) ?_) h
        simp [EcdsaPublicKey.fields, hx, msgField])), Option.bind_some]
  rw [foldlM_bytesField EcdsaPublicKey.mergeField _ 3 m.x (fun s => { version := m.version, params := m.params, x := s })
      (fun _ => rfl) rfl, Option.bind_some]
  exact foldlM_bytesField EcdsaPublicKey.mergeField _ 4 m.y (fun s => { version := m.version, params := m.params, x := m.x, y := s })
      (fun _ => rfl) rfl

theorem EcdsaPublicKey.fromString_serializeToString {m : EcdsaPublicKey} {b : Bytes}
    (h : m.serializeToString = .ok b) : EcdsaPublicKey.fromString b = .ok m := by
  obtain ⟨h2, h1⟩ := serializeFields_ok h
  subst h2
  unfold EcdsaPublicKey.fromString
  rw [EcdsaPublicKey.merge_fields m h1]
  rfl

theorem EcdsaPrivateKey.shape (m : EcdsaPrivateKey) : ∀ f ∈ m.fields, f.Shape :=
  shape_append (shape_append (shape_uint32Field _ (by decide)) (shape_msgField _ (by decide))) (shape_bytesField _ (by decide))

theorem EcdsaPrivateKey.merge_fields (m : EcdsaPrivateKey) (h : (encodeFields m.fields).length < 2147483648) :
    EcdsaPrivateKey.merge {} (encodeFields m.fields) = some m := by
  rw [EcdsaPrivateKey.merge, parseFields_encode _ (wf_of_shape m.shape (by omega))]
  simp only [EcdsaPrivateKey.fields, foldlM_append']
  rw [foldlM_uint32Field EcdsaPrivateKey.mergeField {} 1 m.version (fun s => { version := s })
      (fun _ => rfl) rfl, Option.bind_some]
  rw [foldlM_msgField EcdsaPrivateKey.mergeField _ 2 m.publicKey EcdsaPublicKey.fields (EcdsaPublicKey.merge {}) (fun s => { version := m.version, publicKey := s })
      (fun _ => rfl) rfl (fun x hx => EcdsaPublicKey.merge_fields x (by
        refine Nat.lt_of_le_of_lt (len_le_encodeFields (num := 2) ?_) h
        simp [EcdsaPrivateKey.fields, hx, msgField])), Option.bind_some]
  exact foldlM_bytesField EcdsaPrivateKey.mergeField _ 3 m.keyValue (fun s => { version := m.version, publicKey := m.publicKey, keyValue := s })
      (fun _ => rfl) rfl

theorem EcdsaPrivateKey.fromString_serializeToString {m : EcdsaPrivateKey} {b : Bytes}
    (h : m.serializeToString = .ok b) : EcdsaPrivateKey.fromString b = .ok m := by
  obtain ⟨h2, h1⟩ := serializeFields_ok h
  subst h2
  unfold EcdsaPrivateKey.fromString
  rw [EcdsaPrivateKey.merge_fields m h1]
  rfl

theorem Ed25519KeyFormat.shape (m : Ed25519KeyFormat) : ∀ f ∈ m.fields, f.Shape :=
  shape_uint32Field _ (by decide)

theorem Ed25519KeyFormat.merge_fields (m : Ed25519KeyFormat) (h : (encodeFields m.fields).length < 2147483648) :
    Ed25519KeyFormat.merge {} (encodeFields m.fields) = some m := by
  rw [Ed25519KeyFormat.merge, parseFields_encode _ (wf_of_shape m.shape (by omega))]
  simp only [Ed25519KeyFormat.fields, foldlM_append']
  exact foldlM_uint32Field Ed25519KeyFormat.mergeField {} 1 m.version (fun s => { version := s })
      (fun _ => rfl) rfl

theorem Ed25519KeyFormat.fromString_serializeToString {m : Ed25519KeyFormat} {b : Bytes}
    (h : m.serializeToString = .ok b) : Ed25519KeyFormat.fromString b = .ok m := by
  obtain ⟨h2, h1⟩ := serializeFields_ok h
  subst h2
  unfold Ed25519KeyFormat.fromString
  rw [Ed25519KeyFormat.merge_fields m h1]
  rfl

theorem Ed25519PublicKey.shape (m : Ed25519PublicKey) : ∀ f ∈ m.fields, f.Shape :=
  shape_append (shape_uint32Field _ (by decide)) (shape_bytesField _ (by decide))

theorem Ed25519PublicKey.merge_fields (m : Ed25519PublicKey) (h : (encodeFields m.fields).length < 2147483648) :
    Ed25519PublicKey.merge {} (encodeFields m.fields) = some m := by
  rw [Ed25519PublicKey.merge, parseFields_encode _ (wf_of_shape m.shape (by omega))]
  simp only [Ed25519PublicKey.fields, foldlM_append']
  rw [foldlM_uint32Field Ed25519PublicKey.mergeField {} 1 m.version (fun s => { version := s })
      (fun _ => rfl) rfl, Option.bind_some]
  exact foldlM_bytesField Ed25519PublicKey.mergeField _ 2 m.keyValue (fun s => { version := m.version, keyValue := s })
      (fun _ => rfl) rfl

theorem Ed25519PublicKey.fromString_serializeToString {m : Ed25519PublicKey} {b : Bytes}
    (h : m.serializeToString = .ok b) : Ed25519PublicKey.fromString b = .ok m := by
  obtain ⟨h2, h1⟩ := serializeFields_ok h
  subst h2
  unfold Ed25519PublicKey.fromString
  rw [Ed25519PublicKey.merge_fields m h1]
  rfl

theorem Ed25519PrivateKey.shape (m : Ed25519PrivateKey) : ∀ f ∈ m.fields, f.Shape :=
  shape_append (shape_append (shape_uint32Field _ (by decide)) (shape_bytesField _ (by decide))) (shape_msgField _ (by decide))

theorem Ed25519PrivateKey.merge_fields (m : Ed25519PrivateKey) (h : (encodeFields m.fields).length < 2147483648) :
    Ed25519PrivateKey.merge {} (encodeFields m.fields) = some m := by
  rw [Ed25519PrivateKey.merge, parseFields_encode _ (wf_of_shape m.shape (by omega))]
  simp only [Ed25519PrivateKey.fields, foldlM_append']
  rw [foldlM_uint32Field Ed25519PrivateKey.mergeField {} 1 m.version (fun s => { version := s })
      (fun _ => rfl) rfl, Option.bind_some]
  rw [foldlM_bytesField Ed25519PrivateKey.mergeField _ 2 m.keyValue (fun s => { version := m.version, keyValue := s })
      (fun _ => rfl) rfl, Option.bind_some]
  exact foldlM_msgField Ed25519PrivateKey.mergeField _ 3 m.publicKey Ed25519PublicKey.fields (Ed25519PublicKey.merge {}) (fun s => { version := m.version, keyValue := m.keyValue, publicKey := s })
      (fun _ => rfl) rfl (fun x hx => Ed25519PublicKey.merge_fields x (by
        refine Nat.lt_of_le_of_lt (len_le_encodeFields (num := 3) ?_) h
        simp [Ed25519PrivateKey.fields, hx, msgField]))

theorem Ed25519PrivateKey.fromString_serializeToString {m : Ed25519PrivateKey} {b : Bytes}
    (h : m.serializeToString = .ok b) : Ed25519PrivateKey.fromString b = .ok m := by
  obtain ⟨h2, h1⟩ := serializeFields_ok h
  subst h2
  unfold Ed25519PrivateKey.fromString
  rw [Ed25519PrivateKey.merge_fields m h1]
  rfl

theorem RsaSsaPkcs1PublicKey.shape (m : RsaSsaPkcs1PublicKey) : ∀ f ∈ m.fields, f.Shape :=
  shape_append (shape_append (shape_append (shape_uint32Field _ (by decide)) (shape_msgField _ (by decide))) (shape_bytesField _ (by decide))) (shape_bytesField _ (by decide))

theorem RsaSsaPkcs1PublicKey.merge_fields (m : RsaSsaPkcs1PublicKey) (h : (encodeFields m.fields).length < 2147483648) :
    RsaSsaPkcs1PublicKey.merge {} (encodeFields m.fields) = some m := by
  rw [RsaSsaPkcs1PublicKey.merge, parseFields_encode _ (wf_of_shape m.shape (by omega))]
  simp only [RsaSsaPkcs1PublicKey.fields, foldlM_append']
  rw [foldlM_uint32Field RsaSsaPkcs1PublicKey.mergeField {} 1 m.version (fun s => { version := s })
      (fun _ => rfl) rfl, Option.bind_some]
  rw [foldlM_msgField RsaSsaPkcs1PublicKey.mergeField _ 2 m.params RsaSsaPkcs1Params.fields (RsaSsaPkcs1Params.merge {}) (fun s => { version := m.version, params := s })
      (fun _ => rfl) rfl (fun x hx => RsaSsaPkcs1Params.merge_fields x (by
        refine Nat.lt_of_le_of_lt (len_le_encodeFields (num := 2) ?_) h
        simp [RsaSsaPkcs1PublicKey.fields, hx, msgField])), Option.bind_some]
  rw [foldlM_bytesField RsaSsaPkcs1PublicKey.mergeField _ 3 m.n (fun s => { version := m.version, params := m.params, n := s })
      (fun _ => rfl) rfl, Option.bind_some]
  exact foldlM_bytesField RsaSsaPkcs1PublicKey.mergeField _ 4 m.e (fun s => { version := m.version, params := m.params, n := m.n, e := s })
      (fun _ => rfl) rfl

theorem RsaSsaPkcs1PublicKey.fromString_serializeToString {m : RsaSsaPkcs1PublicKey} {b : Bytes}
    (h : m.serializeToString = .ok b) : RsaSsaPkcs1PublicKey.fromString b = .ok m := by
  obtain ⟨h2, h1⟩ := serializeFields_ok h
  subst h2
  unfold RsaSsaPkcs1PublicKey.fromString
  rw [RsaSsaPkcs1PublicKey.merge_fields m h1]
  rfl

theorem RsaSsaPkcs1PrivateKey.shape (m : RsaSsaPkcs1PrivateKey) : ∀ f ∈ m.fields, f.Shape :=
  shape_append (shape_append (shape_append (shape_append (shape_append (shape_append (shape_append (shape_uint32Field _ (by decide)) (shape_msgField _ (by decide))) (shape_bytesField _ (by decide))) (shape_bytesField _ (by decide))) (shape_bytesField _ (by decide))) (shape_bytesField _ (by decide))) (shape_bytesField _ (by decide))) (shape_bytesField _ (by decide))

theorem RsaSsaPkcs1PrivateKey.merge_fields (m : RsaSsaPkcs1PrivateKey) (h : (encodeFields m.fields).length < 2147483648) :
    RsaSsaPkcs1PrivateKey.merge {} (encodeFields m.fields) = some m := by
  rw [RsaSsaPkcs1PrivateKey.merge, parseFields_encode _ (wf_of_shape m.shape (by omega))]
  simp only [RsaSsaPkcs1PrivateKey.fields, foldlM_append']
  rw [foldlM_uint32Field RsaSsaPkcs1PrivateKey.mergeField {} 1 m.version (fun s => { version := s })
      (fun _ => rfl) rfl, Option.bind_some]
  rw [foldlM_msgField RsaSsaPkcs1PrivateKey.mergeField _ 2 m.publicKey RsaSsaPkcs1PublicKey.fields (RsaSsaPkcs1PublicKey.merge {}) (fun s => { version := m.version, publicKey := s })
      (fun _ => rfl) rfl (fun x hx => RsaSsaPkcs1PublicKey.merge_fields x (by
        refine Nat.lt_of_le_of_lt (len_le_encodeFields (num := 2) ?_) h
        simp [RsaSsaPkcs1PrivateKey.fields, hx, msgField])), Option.bind_some]
  rw [foldlM_bytesField RsaSsaPkcs1PrivateKey.mergeField _ 3 m.d (fun s => { version := m.version, publicKey := m.publicKey, d := s })
      (fun _ => rfl) rfl, Option.bind_some]
  rw [foldlM_bytesField RsaSsaPkcs1PrivateKey.mergeField _ 4 m.p (fun s => { version := m.version, publicKey := m.publicKey, d := m.d, p := s })
      (fun _ => rfl) rfl, Option.bind_some]
  rw [foldlM_bytesField RsaSsaPkcs1PrivateKey.mergeField _ 5 m.q (fun s => { version := m.version, publicKey := m.publicKey, d := m.d, p := m.p, q := s })
      (fun _ => rfl) rfl, Option.bind_some]
  rw [foldlM_bytesField RsaSsaPkcs1PrivateKey.mergeField _ 6 m.dp (fun s => { version := m.version, publicKey := m.publicKey, d := m.d, p := m.p, q := m.q, dp := s })
      (fun _ => rfl) rfl, Option.bind_some]
  rw [foldlM_bytesField RsaSsaPkcs1PrivateKey.mergeField _ 7 m.dq (fun s => { version := m.version, publicKey := m.publicKey, d := m.d, p := m.p, q := m.q, dp := m.dp, dq := s })
      (fun _ => rfl) rfl, Option.bind_some]
  exact foldlM_bytesField RsaSsaPkcs1PrivateKey.mergeField _ 8 m.crt (fun s => { version := m.version, publicKey := m.publicKey, d := m.d, p := m.p, q := m.q, dp := m.dp, dq := m.dq, crt := s })
      (fun _ => rfl) rfl

theorem RsaSsaPkcs1PrivateKey.fromString_serializeToString {m : RsaSsaPkcs1PrivateKey} {b : Bytes}
    (h : m.serializeToString = .ok b) : RsaSsaPkcs1PrivateKey.fromString b = .ok m := by
  obtain ⟨h2, h1⟩ := serializeFields_ok h
  subst h2
  unfold RsaSsaPkcs1PrivateKey.fromString
  rw [RsaSsaPkcs1PrivateKey.merge_fields m h1]
  rfl

theorem RsaSsaPssPublicKey.shape (m : RsaSsaPssPublicKey) : ∀ f ∈ m.fields, f.Shape :=
  shape_append (shape_append (shape_append (shape_uint32Field _ (by decide)) (shape_msgField _ (by decide))) (shape_bytesField _ (by decide))) (shape_bytesField _ (by decide))

theorem RsaSsaPssPublicKey.merge_fields (m : RsaSsaPssPublicKey) (h : (encodeFields m.fields).length < 2147483648) :
    RsaSsaPssPublicKey.merge {} (encodeFields m.fields) = some m := by
  rw [RsaSsaPssPublicKey.merge, parseFields_encode _ (wf_of_shape m.shape (by omega))]
  simp only [RsaSsaPssPublicKey.fields, foldlM_append']
  rw [foldlM_uint32Field RsaSsaPssPublicKey.mergeField {} 1 m.version (fun s => { version := s })
      (fun _ => rfl) rfl, Option.bind_some]
  rw [foldlM_msgField RsaSsaPssPublicKey.mergeField _ 2 m.params RsaSsaPssParams.fields (RsaSsaPssParams.merge {}) (fun s => { version := m.version, params := s })
      (fun _ => rfl) rfl (fun x hx => RsaSsaPssParams.merge_fields x (by
        refine Nat.lt_of_le_of_lt (len_le_encodeFields (num := 2) ?_) h
        simp [RsaSsaPssPublicKey.fields, hx, msgField])), Option.bind_some]
  rw [foldlM_bytesField RsaSsaPssPublicKey.mergeField _ 3 m.n (fun s => { version := m.version, params := m.params, n := s })
      (fun _ => rfl) rfl, Option.bind_some]
  exact foldlM_bytesField RsaSsaPssPublicKey.mergeField _ 4 m.e (fun s => { version := m.version, params := m.params, n := m.n, e := s })
      (fun _ => rfl) rfl

theorem RsaSsaPssPublicKey.fromString_serializeToString {m : RsaSsaPssPublicKey} {b : Bytes}
    (h : m.serializeToString = .ok b) : RsaSsaPssPublicKey.fromString b = .ok m := by
  obtain ⟨h2, h1⟩ := serializeFields_ok h
  subst h2
  unfold RsaSsaPssPublicKey.fromString
  rw [RsaSsaPssPublicKey.merge_fields m h1]
  rfl

theorem RsaSsaPssPrivateKey.shape (m : RsaSsaPssPrivateKey) : ∀ f ∈ m.fields, f.Shape :=
  shape_append (shape_append (shape_append (shape_append (shape_append (shape_append (shape_append (shape_uint32Field _ (by decide)) (shape_msgField _ (by decide))) (shape_bytesField _ (by decide))) (shape_bytesField _ (by decide))) (shape_bytesField _ (by decide))) (shape_bytesField _ (by decide))) (shape_bytesField _ (by decide))) (shape_bytesField _ (by decide))

theorem RsaSsaPssPrivateKey.merge_fields (m : RsaSsaPssPrivateKey) (h : (encodeFields m.fields).length < 2147483648) :
    RsaSsaPssPrivateKey.merge {} (encodeFields m.fields) = some m := by
  rw [RsaSsaPssPrivateKey.merge, parseFields_encode _ (wf_of_shape m.shape (by omega))]
  simp only [RsaSsaPssPrivateKey.fields, foldlM_append']
  rw [foldlM_uint32Field RsaSsaPssPrivateKey.mergeField {} 1 m.version (fun s => { version := s })
      (fun _ => rfl) rfl, Option.bind_some]
  rw [foldlM_msgField RsaSsaPssPrivateKey.mergeField _ 2 m.publicKey RsaSsaPssPublicKey.fields (RsaSsaPssPublicKey.merge {}) (fun s => { version := m.version, publicKey := s })
      (fun _ => rfl) rfl (fun x hx => RsaSsaPssPublicKey.merge_fields x (by
        refine Nat.lt_of_le_of_lt (len_le_encodeFields (num := 2) ?_) h
        simp [RsaSsaPssPrivateKey.fields, hx, msgField])), Option.bind_some]
  rw [foldlM_bytesField RsaSsaPssPrivateKey.mergeField _ 3 m.d (fun s => { version := m.version, publicKey := m.publicKey, d := s })
      (fun _ => rfl) rfl, Option.bind_some]
  rw [foldlM_bytesField RsaSsaPssPrivateKey.mergeField _ 4 m.p (fun s => { version := m.version, publicKey := m.publicKey, d := m.d, p := s })
      (fun _ => rfl) rfl, Option.bind_some]
  rw [foldlM_bytesField RsaSsaPssPrivateKey.mergeField _ 5 m.q (fun s => { version := m.version, publicKey := m.publicKey, d := m.d, p := m.p, q := s })
      (fun _ => rfl) rfl, Option.bind_some]
  rw [foldlM_bytesField RsaSsaPssPrivateKey.mergeField _ 6 m.dp (fun s => { version := m.version, publicKey := m.publicKey, d := m.d, p := m.p, q := m.q, dp := s })
      (fun _ => rfl) rfl, Option.bind_some]
  rw [foldlM_bytesField RsaSsaPssPrivateKey.mergeField _ 7 m.dq (fun s => { version := m.version, publicKey := m.publicKey, d := m.d, p := m.p, q := m.q, dp := m.dp, dq := s })
      (fun _ => rfl) rfl, Option.bind_some]
  exact foldlM_bytesField RsaSsaPssPrivateKey.mergeField _ 8 m.crt (fun s => { version := m.version, publicKey := m.publicKey, d := m.d, p := m.p, q := m.q, dp := m.dp, dq := m.dq, crt := s })
      (fun _ => rfl) rfl

theorem RsaSsaPssPrivateKey.fromString_serializeToString {m : RsaSsaPssPrivateKey} {b : Bytes}
    (h : m.serializeToString = .ok b) : RsaSsaPssPrivateKey.fromString b = .ok m := by
  obtain ⟨h2, h1⟩ := serializeFields_ok h
  subst h2
  unfold RsaSsaPssPrivateKey.fromString
  rw [RsaSsaPssPrivateKey.merge_fields m h1]
  rfl

end Tink
