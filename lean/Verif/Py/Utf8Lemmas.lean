import Verif.Py.Utf8

namespace Tink

theorem toNat_ofNat8 {n : Nat} (h : n < 256) : (UInt8.ofNat n).toNat = n := by
  simp [UInt8.toNat_ofNat']; omega

theorem isScalar_iff (c : Nat) : isScalar c = true ↔ c < 0xD800 ∨ (0xE000 ≤ c ∧ c < 0x110000) := by
  simp [isScalar]

theorem utf8Decode?_cons_encode (c : Nat) (h : isScalar c = true) (r : Bytes) :
    utf8Decode? (utf8EncodeCp c ++ r) = (utf8Decode? r).map (c :: ·) := by
  have hs := (isScalar_iff c).1 h
  unfold utf8EncodeCp
  split
  · rename_i h1
    have e : (UInt8.ofNat c).toNat = c := toNat_ofNat8 (by omega)
    rw [List.cons_append, List.nil_append, utf8Decode?.eq_def]
    simp only [e, h1, if_true]
  · split
    · rename_i h1 h2
      have e0 : (UInt8.ofNat (0xC0 + c / 64)).toNat = 0xC0 + c / 64 := toNat_ofNat8 (by omega)
      have e1 : (UInt8.ofNat (0x80 + c % 64)).toNat = 0x80 + c % 64 := toNat_ofNat8 (by omega)
      have hc : isCont (UInt8.ofNat (0x80 + c % 64)) = true := by
        unfold isCont; rw [e1]; simp; omega
      rw [List.cons_append, List.cons_append, List.nil_append, utf8Decode?.eq_def]
      simp only [e0]
      rw [if_neg (by omega), if_neg (by omega), if_pos (by omega)]
      have ec : (0xC0 + c / 64 - 0xC0) * 64 + (0x80 + c % 64 - 0x80) = c := by omega
      simp only [hc, if_true, e1, ec]
    · split
      · rename_i h1 h2 h3
        have e0 : (UInt8.ofNat (0xE0 + c / 4096)).toNat = 0xE0 + c / 4096 :=
          toNat_ofNat8 (by omega)
        have e1 : (UInt8.ofNat (0x80 + c / 64 % 64)).toNat = 0x80 + c / 64 % 64 :=
          toNat_ofNat8 (by omega)
        have e2 : (UInt8.ofNat (0x80 + c % 64)).toNat = 0x80 + c % 64 := toNat_ofNat8 (by omega)
        have hc1 : isCont (UInt8.ofNat (0x80 + c / 64 % 64)) = true := by
          unfold isCont; rw [e1]; simp; omega
        have hc2 : isCont (UInt8.ofNat (0x80 + c % 64)) = true := by
          unfold isCont; rw [e2]; simp; omega
        rw [List.cons_append, List.cons_append, List.cons_append, List.nil_append,
          utf8Decode?.eq_def]
        simp only [e0]
        rw [
          if_neg (by omega), if_neg (by omega), if_neg (by omega), if_pos (by omega)]
        have ec : (0xE0 + c / 4096 - 0xE0) * 4096 + (0x80 + c / 64 % 64 - 0x80) * 64
            + (0x80 + c % 64 - 0x80) = c := by omega
        simp only [hc1, hc2, e1, e2, ec, h]
        rw [if_pos (by simp; omega)]
      · rename_i h1 h2 h3
        have e0 : (UInt8.ofNat (0xF0 + c / 262144)).toNat = 0xF0 + c / 262144 :=
          toNat_ofNat8 (by omega)
        have e1 : (UInt8.ofNat (0x80 + c / 4096 % 64)).toNat = 0x80 + c / 4096 % 64 :=
          toNat_ofNat8 (by omega)
        have e2 : (UInt8.ofNat (0x80 + c / 64 % 64)).toNat = 0x80 + c / 64 % 64 :=
          toNat_ofNat8 (by omega)
        have e3 : (UInt8.ofNat (0x80 + c % 64)).toNat = 0x80 + c % 64 := toNat_ofNat8 (by omega)
        have hc1 : isCont (UInt8.ofNat (0x80 + c / 4096 % 64)) = true := by
          unfold isCont; rw [e1]; simp; omega
        have hc2 : isCont (UInt8.ofNat (0x80 + c / 64 % 64)) = true := by
          unfold isCont; rw [e2]; simp; omega
        have hc3 : isCont (UInt8.ofNat (0x80 + c % 64)) = true := by
          unfold isCont; rw [e3]; simp; omega
        rw [List.cons_append, List.cons_append, List.cons_append, List.cons_append,
          List.nil_append, utf8Decode?.eq_def]
        simp only [e0]
        rw [
          if_neg (by omega), if_neg (by omega), if_neg (by omega), if_neg (by omega),
          if_pos (by omega)]
        have ec : (0xF0 + c / 262144 - 0xF0) * 262144 + (0x80 + c / 4096 % 64 - 0x80) * 4096
            + (0x80 + c / 64 % 64 - 0x80) * 64 + (0x80 + c % 64 - 0x80) = c := by omega
        simp only [hc1, hc2, hc3, e1, e2, e3, ec, h]
        rw [if_pos (by simp; omega)]

theorem utf8Decode?_encode (s : PyStr) (h : s.all isScalar = true) :
    utf8Decode? (s.flatMap utf8EncodeCp) = some s := by
  induction s with
  | nil => rfl
  | cons c s ih =>
    simp only [List.all_cons, Bool.and_eq_true] at h
    rw [List.flatMap_cons, utf8Decode?_cons_encode c h.1, ih h.2]; rfl

/-- Decoding what `encode` produced gives the string back. -/
theorem utf8Decode_encode (s : PyStr) (b : Bytes) (h : utf8Encode s = .ok b) :
    utf8Decode b = .ok s := by
  unfold utf8Encode at h
  split at h
  · rename_i hs
    cases h
    simp [utf8Decode, utf8Decode?_encode s hs]
  · cases h

theorem u8_ext {a b : UInt8} (h : a.toNat = b.toNat) : a = b := UInt8.toNat_inj.1 h

theorem isCont_iff (b : UInt8) : isCont b = true ↔ 0x80 ≤ b.toNat ∧ b.toNat < 0xC0 := by
  simp [isCont]

/-- Whatever decodes is the encoding of the result. -/
theorem utf8Encode_decode? (b : Bytes) : ∀ (s : PyStr), utf8Decode? b = some s →
    s.all isScalar = true ∧ s.flatMap utf8EncodeCp = b := by
  fun_induction utf8Decode? b with
  | case1 => intro s h; cases h; simp
  | case2 b0 rest h0 ih =>
    intro s h
    obtain ⟨t, ht, rfl⟩ := Option.map_eq_some_iff.1 h
    obtain ⟨h1, h2⟩ := ih t ht
    refine ⟨?_, ?_⟩
    · simp [h1, isScalar]; omega
    · rw [List.flatMap_cons, h2, utf8EncodeCp, if_pos h0]; simp
  | case4 b0 h0 h1 h2 b1 r hc ih =>
    intro s h
    obtain ⟨t, ht, rfl⟩ := Option.map_eq_some_iff.1 h
    obtain ⟨i1, i2⟩ := ih t ht
    have hc' := (isCont_iff _).1 hc
    have hb := b0.toNat_lt
    refine ⟨?_, ?_⟩
    · simp [i1, isScalar]; omega
    · rw [List.flatMap_cons, i2, utf8EncodeCp, if_neg (by omega), if_pos (by omega)]
      simp only [List.cons_append, List.nil_append, List.cons.injEq, and_true]
      refine ⟨u8_ext ?_, u8_ext ?_⟩
      · rw [toNat_ofNat8 (by omega)]; omega
      · rw [toNat_ofNat8 (by omega)]; omega
  | case7 b0 h0 h1 h2 h3 b1 b2 r c hc ih =>
    intro s h
    obtain ⟨t, ht, rfl⟩ := Option.map_eq_some_iff.1 h
    obtain ⟨i1, i2⟩ := ih t ht
    simp only [Bool.and_eq_true, decide_eq_true_eq] at hc
    obtain ⟨⟨⟨hc1, hc2⟩, hc3⟩, hc4⟩ := hc
    have hc1 := (isCont_iff _).1 hc1
    have hc2 := (isCont_iff _).1 hc2
    have hce : c = (b0.toNat - 0xE0) * 4096 + (b1.toNat - 0x80) * 64 + (b2.toNat - 0x80) := rfl
    refine ⟨by simp [i1, hc4], ?_⟩
    rw [List.flatMap_cons, i2, utf8EncodeCp, if_neg (by omega), if_neg (by omega),
      if_pos (by omega)]
    simp only [List.cons_append, List.nil_append, List.cons.injEq, and_true]
    refine ⟨u8_ext ?_, u8_ext ?_, u8_ext ?_⟩ <;> rw [toNat_ofNat8 (by omega)] <;> omega
  | case10 b0 h0 h1 h2 h3 h4 b1 b2 b3 r c hc ih =>
    intro s h
    obtain ⟨t, ht, rfl⟩ := Option.map_eq_some_iff.1 h
    obtain ⟨i1, i2⟩ := ih t ht
    simp only [Bool.and_eq_true, decide_eq_true_eq] at hc
    obtain ⟨⟨⟨⟨hc1, hc2⟩, hc3⟩, hc5⟩, hc4⟩ := hc
    have hc1 := (isCont_iff _).1 hc1
    have hc2 := (isCont_iff _).1 hc2
    have hc3 := (isCont_iff _).1 hc3
    have hsc := (isScalar_iff _).1 hc4
    have hce : c = (b0.toNat - 0xF0) * 262144 + (b1.toNat - 0x80) * 4096
      + (b2.toNat - 0x80) * 64 + (b3.toNat - 0x80) := rfl
    refine ⟨by simp [i1, hc4], ?_⟩
    rw [List.flatMap_cons, i2, utf8EncodeCp, if_neg (by omega), if_neg (by omega),
      if_neg (by omega)]
    simp only [List.cons_append, List.nil_append, List.cons.injEq, and_true]
    refine ⟨u8_ext ?_, u8_ext ?_, u8_ext ?_, u8_ext ?_⟩ <;> rw [toNat_ofNat8 (by omega)] <;> omega
  | _ => intro s h; cases h

/-- Strict decoding is injective: the bytes are the encoding of the result. -/
theorem utf8Encode_decode (b : Bytes) (s : PyStr) (h : utf8Decode b = .ok s) :
    utf8Encode s = .ok b := by
  unfold utf8Decode at h
  split at h
  · rename_i t ht
    cases h
    obtain ⟨h1, h2⟩ := utf8Encode_decode? b _ ht
    simp [utf8Encode, h1, h2]
  · cases h

theorem Char.isScalar_toNat (c : Char) : isScalar c.toNat = true := by
  rw [isScalar_iff]
  have h := c.valid
  simp only [UInt32.isValidChar, Nat.isValidChar] at h
  change c.val.toNat < _ ∨ _ ≤ c.val.toNat ∧ c.val.toNat < _
  omega

theorem Char.ofNat_toNat' (c : Char) : Char.ofNat c.toNat = c := by
  exact Char.ofNat_toNat c

theorem pstrEncode_eq (s : PStr) : pstrEncode s = (s.map Char.toNat).flatMap utf8EncodeCp := by
  simp [pstrEncode, List.flatMap_map]

theorem toPy_scalar (s : PStr) : (PStr.toPy s).all isScalar = true := by
  simp [PStr.toPy, Char.isScalar_toNat]

theorem pstrDecode_encode (s : PStr) : pstrDecode? (pstrEncode s) = some s := by
  rw [pstrEncode_eq, pstrDecode?, utf8Decode?_encode _ (by exact toPy_scalar s)]
  simp [Function.comp_def]

theorem toNat_ofNat_scalar (c : Nat) (h : isScalar c = true) : (Char.ofNat c).toNat = c := by
  have h' := (isScalar_iff c).1 h
  have hv : c.isValidChar := by
    unfold Nat.isValidChar; omega
  simp [Char.ofNat, hv, Char.toNat, Char.ofNatAux]

theorem toProto_toPy (s : PStr) : PyStr.toProto (PStr.toPy s) = .ok s := by
  unfold PyStr.toProto
  rw [if_pos (toPy_scalar s)]
  simp [PStr.toPy, Function.comp_def]

theorem toPy_toProto (s : PyStr) (t : PStr) (h : PyStr.toProto s = .ok t) : PStr.toPy t = s := by
  unfold PyStr.toProto at h
  split at h
  · rename_i hs
    cases h
    simp only [PStr.toPy, List.map_map]
    conv => rhs; rw [← List.map_id s]
    apply List.map_congr_left
    intro c hc
    exact toNat_ofNat_scalar c (List.all_eq_true.1 hs c hc)
  · cases h

end Tink
