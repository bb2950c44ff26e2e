import Verif.Spec.SymmetricKeys

/-!
# A parsed message is not longer than its bytes

So a key is not longer than the key data that hold it.
-/

namespace Tink

/-- The number of bytes of a field with bytes. -/
def Field.size (f : Field) : Nat :=
  match f.val with
  | .len b => b.length
  | _ => 0

theorem decodeVarintAux_length {k : Nat} {b r : Bytes} {v : Nat} (h : decodeVarintAux k b = some (v, r)) :
    r.length ≤ b.length := by
  induction k generalizing b v r with
  | zero => cases h
  | succ k ih =>
    cases b with
    | nil => cases h
    | cons x b =>
      simp only [decodeVarintAux] at h
      split at h
      · cases h; simp
      · cases g : decodeVarintAux k b with
        | none => rw [g] at h; cases h
        | some p =>
          rw [g] at h
          cases h
          have := ih g
          simp only [List.length_cons]
          omega

theorem decodeVarint_length {b r : Bytes} {v : Nat} (h : decodeVarint b = some (v, r)) :
    r.length ≤ b.length := by
  unfold decodeVarint at h
  cases g : decodeVarintAux 10 b with
  | none => rw [g] at h; cases h
  | some p => rw [g] at h; cases h; exact decodeVarintAux_length g

theorem splitBytes_length {n : Nat} {b v r : Bytes} (h : splitBytes n b = some (v, r)) :
    v.length + r.length = b.length := by
  unfold splitBytes at h
  split at h
  · cases h
    simp only [List.length_take, List.length_drop]
    omega
  · cases h

theorem parseFieldsAux_size {fuel : Nat} {stack : List Nat} {b : Bytes} {fs : List Field}
    (h : parseFieldsAux fuel stack b = some fs) : (fs.map Field.size).sum ≤ b.length := by
  induction fuel generalizing stack b fs with
  | zero => cases h
  | succ fuel ih =>
    cases b with
    | nil =>
      simp only [parseFieldsAux] at h
      split at h <;> cases h
      simp
    | cons x b =>
      rw [parseFieldsAux] at h
      cases g : decodeVarint (x :: b) with
      | none => rw [g] at h; cases h
      | some p =>
        obtain ⟨tag, r⟩ := p
        rw [g] at h
        dsimp only at h
        have hr := decodeVarint_length g
        have emit : ∀ (v : WireVal) (r' : Bytes) (num : Nat), Field.size ⟨num, v⟩ + r'.length ≤ (x :: b).length →
            (match parseFieldsAux fuel stack r' with
              | none => none
              | some rest => some (if stack = [] then (⟨num, v⟩ : Field) :: rest else rest)) = some fs →
            (fs.map Field.size).sum ≤ (x :: b).length := by
          intro v r' num hv he
          cases g' : parseFieldsAux fuel stack r' with
          | none => rw [g'] at he; cases he
          | some rest =>
            rw [g'] at he
            have := ih g'
            dsimp only at he
            split at he <;> cases he
            · simp only [List.map_cons, List.sum_cons]; omega
            · omega
        split at h
        · cases h
        split at h
        · cases g2 : decodeVarint r with
          | none => rw [g2] at h; cases h
          | some p =>
            rw [g2] at h
            have := decodeVarint_length g2
            exact emit _ _ _ (by simp only [Field.size]; omega) h
        split at h
        · cases g2 : splitBytes 8 r with
          | none => rw [g2] at h; cases h
          | some p =>
            rw [g2] at h
            have := splitBytes_length g2
            exact emit _ _ _ (by simp only [Field.size]; omega) h
        split at h
        · cases g2 : decodeVarint r with
          | none => rw [g2] at h; cases h
          | some p =>
            rw [g2] at h
            dsimp only at h
            have := decodeVarint_length g2
            cases g3 : splitBytes p.1 p.2 with
            | none => rw [g3] at h; cases h
            | some q =>
              rw [g3] at h
              have := splitBytes_length g3
              exact emit _ _ _ (by simp only [Field.size]; omega) h
        split at h
        · have := ih h; omega
        split at h
        · cases stack with
          | nil => cases h
          | cons t s =>
            dsimp only at h
            split at h
            · have := ih h; omega
            · cases h
        split at h
        · cases g2 : splitBytes 4 r with
          | none => rw [g2] at h; cases h
          | some p =>
            rw [g2] at h
            have := splitBytes_length g2
            exact emit _ _ _ (by simp only [Field.size]; omega) h
        · cases h

theorem parseFields_size {b : Bytes} {fs : List Field} (h : parseFields b = some fs) :
    (fs.map Field.size).sum ≤ b.length := parseFieldsAux_size h

/-- If each field adds at most its size, then so do all the fields of a message. -/
theorem merge_size {M : Type} {mergeField : M → Field → Option M} {size : M → Nat}
    (hf : ∀ m f m', mergeField m f = some m' → size m' ≤ size m + f.size)
    {m m' : M} {b : Bytes} (h : (match parseFields b with
      | none => none
      | some fs => fs.foldlM mergeField m) = some m') : size m' ≤ size m + b.length := by
  cases hp : parseFields b with
  | none => rw [hp] at h; cases h
  | some fs =>
    rw [hp] at h
    have hs := parseFields_size hp
    dsimp only at h
    suffices H : ∀ (fs : List Field) (m : M), fs.foldlM mergeField m = some m' →
        size m' ≤ size m + (fs.map Field.size).sum by
      have := H fs m h
      omega
    intro fs
    induction fs with
    | nil => intro m h; cases h; simp
    | cons f fs ih =>
      intro m h
      rw [List.foldlM_cons] at h
      obtain ⟨m1, h1, h2⟩ := Option.bind_eq_some_iff.1 h
      have := ih m1 h2
      have := hf m f m1 h1
      simp only [List.map_cons, List.sum_cons]
      omega

theorem ofMerge_ok {α : Type} {o : Option α} {x : α} (h : ofMerge o = .ok x) : o = some x := by
  cases o with
  | none => cases h
  | some y => cases h; rfl

section
open Lean.Parser.Tactic

/-- Each field of a message with a key in one of its fields adds at most its size. -/
macro "field_size " d:ident : tactic => `(tactic|
  (intro m f m' h
   obtain ⟨num, val⟩ := f
   unfold $d at h
   dsimp only at h
   split at h <;>
     first
       | (cases h; simp [Field.size]; done)
       | (obtain ⟨x, _, h⟩ := Option.map_eq_some_iff.1 h
          cases h
          exact Nat.le_add_right _ _)
       | skip))
end

theorem AesGcmKey.size_le {b : Bytes} {k : AesGcmKey} (h : AesGcmKey.fromString b = .ok k) :
    k.keyValue.length ≤ b.length := by
  have := merge_size (size := fun k : AesGcmKey => k.keyValue.length) (by field_size AesGcmKey.mergeField)
    (ofMerge_ok h)
  simpa using this

theorem AesGcmSivKey.size_le {b : Bytes} {k : AesGcmSivKey} (h : AesGcmSivKey.fromString b = .ok k) :
    k.keyValue.length ≤ b.length := by
  have := merge_size (size := fun k : AesGcmSivKey => k.keyValue.length) (by field_size AesGcmSivKey.mergeField)
    (ofMerge_ok h)
  simpa using this

theorem AesEaxKey.size_le {b : Bytes} {k : AesEaxKey} (h : AesEaxKey.fromString b = .ok k) :
    k.keyValue.length ≤ b.length := by
  have := merge_size (size := fun k : AesEaxKey => k.keyValue.length) (by field_size AesEaxKey.mergeField)
    (ofMerge_ok h)
  simpa using this

theorem XChaCha20Poly1305Key.size_le {b : Bytes} {k : XChaCha20Poly1305Key} (h : XChaCha20Poly1305Key.fromString b = .ok k) :
    k.keyValue.length ≤ b.length := by
  have := merge_size (size := fun k : XChaCha20Poly1305Key => k.keyValue.length) (by field_size XChaCha20Poly1305Key.mergeField)
    (ofMerge_ok h)
  simpa using this

theorem AesSivKey.size_le {b : Bytes} {k : AesSivKey} (h : AesSivKey.fromString b = .ok k) :
    k.keyValue.length ≤ b.length := by
  have := merge_size (size := fun k : AesSivKey => k.keyValue.length) (by field_size AesSivKey.mergeField)
    (ofMerge_ok h)
  simpa using this

theorem AesCmacKey.size_le {b : Bytes} {k : AesCmacKey} (h : AesCmacKey.fromString b = .ok k) :
    k.keyValue.length ≤ b.length := by
  have := merge_size (size := fun k : AesCmacKey => k.keyValue.length) (by field_size AesCmacKey.mergeField)
    (ofMerge_ok h)
  simpa using this

theorem HmacPrfKey.size_le {b : Bytes} {k : HmacPrfKey} (h : HmacPrfKey.fromString b = .ok k) :
    k.keyValue.length ≤ b.length := by
  have := merge_size (size := fun k : HmacPrfKey => k.keyValue.length) (by field_size HmacPrfKey.mergeField)
    (ofMerge_ok h)
  simpa using this

theorem AesCmacPrfKey.size_le {b : Bytes} {k : AesCmacPrfKey} (h : AesCmacPrfKey.fromString b = .ok k) :
    k.keyValue.length ≤ b.length := by
  have := merge_size (size := fun k : AesCmacPrfKey => k.keyValue.length) (by field_size AesCmacPrfKey.mergeField)
    (ofMerge_ok h)
  simpa using this

theorem AesCtrKey.merge_size {b : Bytes} {m k : AesCtrKey} (h : AesCtrKey.merge m b = some k) :
    k.keyValue.length ≤ m.keyValue.length + b.length :=
  Tink.merge_size (size := fun k : AesCtrKey => k.keyValue.length) (by field_size AesCtrKey.mergeField) h

theorem HmacKey.merge_size {b : Bytes} {m k : HmacKey} (h : HmacKey.merge m b = some k) :
    k.keyValue.length ≤ m.keyValue.length + b.length :=
  Tink.merge_size (size := fun k : HmacKey => k.keyValue.length) (by field_size HmacKey.mergeField) h

theorem HmacKey.size_le {b : Bytes} {k : HmacKey} (h : HmacKey.fromString b = .ok k) :
    k.keyValue.length ≤ b.length := by
  simpa using HmacKey.merge_size (ofMerge_ok h)

theorem HkdfPrfParams.merge_size {b : Bytes} {m k : HkdfPrfParams} (h : HkdfPrfParams.merge m b = some k) :
    k.salt.length ≤ m.salt.length + b.length :=
  Tink.merge_size (size := fun k : HkdfPrfParams => k.salt.length) (by field_size HkdfPrfParams.mergeField) h

theorem HkdfPrfKey.size_le {b : Bytes} {k : HkdfPrfKey} (h : HkdfPrfKey.fromString b = .ok k) :
    k.keyValue.length + k.getParams.salt.length ≤ b.length := by
  have := merge_size (size := fun k : HkdfPrfKey => k.keyValue.length + k.getParams.salt.length)
    (by
      intro m f m' h
      obtain ⟨num, val⟩ := f
      unfold HkdfPrfKey.mergeField at h
      dsimp only at h
      split at h
      · cases h; simp [HkdfPrfKey.getParams]
      · obtain ⟨x, hx, rfl⟩ := Option.map_eq_some_iff.1 h
        have := HkdfPrfParams.merge_size hx
        simp only [HkdfPrfKey.getParams, Option.getD_some, Field.size] at this ⊢
        omega
      · cases h
        simp only [HkdfPrfKey.getParams, Field.size]
        omega
      · cases h; simp)
    (ofMerge_ok h)
  simpa [HkdfPrfKey.getParams] using this

theorem AesCtrHmacAeadKey.size_le {b : Bytes} {k : AesCtrHmacAeadKey} (h : AesCtrHmacAeadKey.fromString b = .ok k) :
    k.getAesCtrKey.keyValue.length + k.getHmacKey.keyValue.length ≤ b.length := by
  have := merge_size
    (size := fun k : AesCtrHmacAeadKey => k.getAesCtrKey.keyValue.length + k.getHmacKey.keyValue.length)
    (by
      intro m f m' h
      obtain ⟨num, val⟩ := f
      unfold AesCtrHmacAeadKey.mergeField at h
      dsimp only at h
      split at h
      · cases h; simp [AesCtrHmacAeadKey.getAesCtrKey, AesCtrHmacAeadKey.getHmacKey]
      · obtain ⟨x, hx, rfl⟩ := Option.map_eq_some_iff.1 h
        have := AesCtrKey.merge_size hx
        simp only [AesCtrHmacAeadKey.getAesCtrKey, AesCtrHmacAeadKey.getHmacKey, Option.getD_some,
          Field.size] at this ⊢
        omega
      · obtain ⟨x, hx, rfl⟩ := Option.map_eq_some_iff.1 h
        have := HmacKey.merge_size hx
        simp only [AesCtrHmacAeadKey.getAesCtrKey, AesCtrHmacAeadKey.getHmacKey, Option.getD_some,
          Field.size] at this ⊢
        omega
      · cases h; simp)
    (ofMerge_ok h)
  simpa [AesCtrHmacAeadKey.getAesCtrKey, AesCtrHmacAeadKey.getHmacKey] using this

namespace Spec

theorem AeadKey.size_le {url : PStr} {b : Bytes} {k : AeadKey} (h : AeadKey.StoredIn url b k) :
    k.size ≤ b.length := by
  cases h with
  | aesGcm h _ => exact AesGcmKey.size_le h
  | aesGcmSiv h _ => exact AesGcmSivKey.size_le h
  | aesEax h _ => exact AesEaxKey.size_le h
  | xChaCha20Poly1305 h _ => exact XChaCha20Poly1305Key.size_le h
  | aesCtrHmac h _ _ _ => exact AesCtrHmacAeadKey.size_le h

theorem SivKey.size_le {url : PStr} {b : Bytes} {k : SivKey} (h : SivKey.StoredIn url b k) :
    k.size ≤ b.length := by
  cases h with
  | aesSiv h _ => exact AesSivKey.size_le h

theorem MacKey.size_le {url : PStr} {b : Bytes} {k : MacKey} (h : MacKey.StoredIn url b k) :
    k.size ≤ b.length := by
  cases h with
  | hmac h _ => exact HmacKey.size_le h
  | aesCmac h _ => exact AesCmacKey.size_le h

theorem PrfKey.size_le {url : PStr} {b : Bytes} {k : PrfKey} (h : PrfKey.StoredIn url b k) :
    k.size ≤ b.length := by
  cases h with
  | hmac h _ => exact HmacPrfKey.size_le h
  | aesCmac h _ => exact AesCmacPrfKey.size_le h
  | hkdf h _ => exact HkdfPrfKey.size_le h

end Spec

end Tink
