import Verif.Kms.Envelope
import Verif.Spec.Envelope
import Verif.Keyset.HandleLemmas
import Verif.Py.Base64Lemmas

namespace Tink
open Spec
variable {P C σ : Type} [DecidableEq C]

theorem ofBe32_lt (a b c d : UInt8) : ofBe32 a b c d < 4294967296 := by
  have := a.toNat_lt; have := b.toNat_lt; have := c.toNat_lt; have := d.toNat_lt
  unfold ofBe32; omega

theorem be32_ofBe32 (a b c d : UInt8) : be32 (ofBe32 a b c d) = [a, b, c, d] := by
  have := a.toNat_lt; have := b.toNat_lt; have := c.toNat_lt; have := d.toNat_lt
  have h (x : UInt8) (n : Nat) (h : n % 256 = x.toNat) : UInt8.ofNat n = x := by
    apply UInt8.toNat_inj.1; simpa using h
  unfold be32 ofBe32
  rw [h a _ (by omega), h b _ (by omega), h c _ (by omega), h d _ (by omega)]

theorem ofBe32_be32 {n : Nat} (h : n < 4294967296) :
    ofBe32 (UInt8.ofNat (n / 16777216)) (UInt8.ofNat (n / 65536)) (UInt8.ofNat (n / 256))
      (UInt8.ofNat n) = n := by
  unfold ofBe32; simp only [UInt8.toNat_ofNat']; omega

namespace KmsEnvelopeAead

theorem encrypt_ok_iff {V : View P Aead} {c : C} {r : Registry P C} {env : KmsEnvelopeAead σ}
    {s s' : σ} {sd se : Seed} {pt ad ct : Bytes} :
    env.encrypt V c r s sd se pt ad = (s', .ok ct) ↔
      ∃ dek p body ed, r.newKeyData sd env.keyTemplate = .ok dek ∧ r.primitive dek c = .ok p ∧
        (V.view p).encrypt se pt ad = .ok body ∧
        env.remoteAead.encrypt s dek.value [] = (s', .ok ed) ∧ Framed ct ed body := by
  unfold encrypt
  cases h1 : r.newKeyData sd env.keyTemplate with
  | error e => simp
  | ok dek =>
    simp only
    cases h2 : r.primitive dek c with
    | error e =>
      simp only [Prod.mk.injEq, reduceCtorEq, and_false, false_iff]
      rintro ⟨_, _, _, _, hd, hp, _⟩
      cases hd; rw [h2] at hp; cases hp
    | ok p =>
      simp only
      cases h3 : (V.view p).encrypt se pt ad with
      | error e =>
        simp only [Prod.mk.injEq, reduceCtorEq, and_false, false_iff]
        rintro ⟨_, _, _, _, hd, hp, he, _⟩
        cases hd; rw [h2] at hp; cases hp; rw [h3] at he; cases he
      | ok body =>
        simp only
        rcases h4 : env.remoteAead.encrypt s dek.value [] with ⟨s2, x⟩
        cases x with
        | error e =>
          simp only [Prod.mk.injEq, reduceCtorEq, and_false, false_iff]
          rintro ⟨_, _, _, _, hd, hp, he, hr, _⟩
          cases hd; rw [h4] at hr; cases hr
        | ok ed =>
          simp only [packLen]
          constructor
          · intro h
            split at h
            · rename_i hl
              split at hl <;> cases hl
              cases h
            · rename_i hl
              split at hl <;> cases hl
              cases h
              exact ⟨dek, p, body, ed, rfl, h2, h3, h4, by assumption, rfl⟩
          · rintro ⟨_, _, _, _, hd, hp, he, hr, hf⟩
            cases hd; rw [h2] at hp; cases hp; rw [h3] at he; cases he; rw [h4] at hr; cases hr
            rw [if_pos hf.1]
            simp [hf.2]

theorem decrypt_framed (V : View P Aead) (c : C) (r : Registry P C) (env : KmsEnvelopeAead σ)
    (s : σ) {bs dek body : Bytes} (h : Framed bs dek body) (ad : Bytes) :
    env.decrypt V c r s bs ad =
      openEnvelope V c r env.keyTemplate.typeUrl env.remoteAead s dek body ad := by
  obtain ⟨hl, rfl⟩ := h
  have ht : (be32 dek.length ++ dek ++ body).take DEK_LEN_BYTES = be32 dek.length := by
    simp [be32, DEK_LEN_BYTES]
  have hd : (be32 dek.length ++ dek ++ body).drop DEK_LEN_BYTES = dek ++ body := by
    simp [be32, DEK_LEN_BYTES]
  have hlen : (be32 dek.length ++ dek ++ body).length = 4 + (dek.length + body.length) := by
    simp [be32]; omega
  unfold decrypt
  simp only [ht, hlen]
  rw [if_neg (by simp [DEK_LEN_BYTES])]
  rw [show unpackLen (be32 dek.length) = .ok dek.length by
    simp only [be32, unpackLen, ofBe32_be32 hl]]
  simp only
  rw [if_neg (by simp [DEK_LEN_BYTES]), ← List.drop_drop, hd]
  simp only [List.take_left, List.drop_left, openEnvelope]
  rcases env.remoteAead.decrypt s dek [] with ⟨s2, x⟩
  cases x with
  | error e => rfl
  | ok k =>
    simp only [bind, Except.bind]
    cases r.primitive ⟨env.keyTemplate.typeUrl, k, KeyMaterialType.SYMMETRIC⟩ c <;> rfl

theorem framed_unique {bs d1 b1 d2 b2 : Bytes} (h1 : Framed bs d1 b1) (h2 : Framed bs d2 b2) :
    d1 = d2 ∧ b1 = b2 := by
  obtain ⟨l1, rfl⟩ := h1
  obtain ⟨l2, h⟩ := h2
  rw [List.append_assoc, List.append_assoc] at h
  obtain ⟨ha, hb⟩ := List.append_inj h (by simp [be32])
  have : d1.length = d2.length := by
    rw [← ofBe32_be32 l1, ← ofBe32_be32 l2]
    simp only [be32, List.cons.injEq, and_true] at ha
    simp only [ha]
  exact List.append_inj hb this

theorem framed_of_le (a b c d : UInt8) (rest : Bytes) (h : ofBe32 a b c d ≤ rest.length) :
    Framed (a :: b :: c :: d :: rest) (rest.take (ofBe32 a b c d)) (rest.drop (ofBe32 a b c d)) := by
  have hl : (rest.take (ofBe32 a b c d)).length = ofBe32 a b c d := by
    rw [List.length_take]; exact Nat.min_eq_left h
  constructor
  · rw [hl]; exact ofBe32_lt a b c d
  · rw [hl, be32_ofBe32, List.append_assoc, List.take_append_drop]; rfl

theorem decrypt_short (V : View P Aead) (c : C) (r : Registry P C) (env : KmsEnvelopeAead σ)
    (s : σ) {bs : Bytes} (h : bs.length < 4) (ad : Bytes) :
    env.decrypt V c r s bs ad = (s, .error .tinkError) := by
  unfold decrypt
  exact if_pos h

theorem decrypt_unframed (V : View P Aead) (c : C) (r : Registry P C) (env : KmsEnvelopeAead σ)
    (s : σ) {bs : Bytes} (h : ¬ ∃ dek body, Framed bs dek body) (ad : Bytes) :
    env.decrypt V c r s bs ad = (s, .error .tinkError) := by
  match bs, h with
  | [], _ => exact decrypt_short _ _ _ _ _ (by simp) _
  | [_], _ => exact decrypt_short _ _ _ _ _ (by simp) _
  | [_, _], _ => exact decrypt_short _ _ _ _ _ (by simp) _
  | [_, _, _], _ => exact decrypt_short _ _ _ _ _ (by simp) _
  | a :: b :: c' :: d :: rest, h =>
    unfold decrypt
    rw [if_neg (by simp [DEK_LEN_BYTES])]
    rw [show unpackLen (List.take DEK_LEN_BYTES (a :: b :: c' :: d :: rest)) =
      .ok (ofBe32 a b c' d) by simp [DEK_LEN_BYTES, unpackLen]]
    simp only
    by_cases hle : ofBe32 a b c' d > rest.length
    · rw [if_pos (by simpa [DEK_LEN_BYTES] using hle)]
    · exact absurd ⟨_, _, framed_of_le a b c' d rest (Nat.le_of_not_gt hle)⟩ h

end KmsEnvelopeAead
end Tink
