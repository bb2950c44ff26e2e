import Verif.Jwt.Codec
import Verif.Spec.Base64
import Verif.Py.Base64Lemmas
import Verif.Py.Utf8Lemmas

namespace Tink
namespace Jwt
open Spec

instance (c : UInt8) : Decidable (UrlChar c) := by unfold UrlChar; infer_instance

theorem char_table : ∀ n < 256, validChar (UInt8.ofNat n) = decide (UrlChar (UInt8.ofNat n)) ∧
    (UrlChar (UInt8.ofNat n) → b64Val (stdChar (UInt8.ofNat n)) = some (urlValue (UInt8.ofNat n)) ∧
      stdChar (UInt8.ofNat n) ≠ 61 ∧ urlValue (UInt8.ofNat n) < 64) := by
  decide +kernel

theorem char_facts (c : UInt8) : validChar c = decide (UrlChar c) ∧
    (UrlChar c → b64Val (stdChar c) = some (urlValue c) ∧ stdChar c ≠ 61 ∧ urlValue c < 64) := by
  have := char_table c.toNat c.toNat_lt
  rwa [UInt8.ofNat_toNat] at this

theorem value_table : ∀ v < 64, UrlChar (urlsafeChar (b64Char v)) ∧ urlsafeChar (b64Char v) ≠ 61 ∧
    stdChar (urlsafeChar (b64Char v)) = b64Char v ∧ urlValue (urlsafeChar (b64Char v)) = v := by
  decide +kernel

theorem all_valid_iff (s : Bytes) : s.all validChar = true ↔ ∀ c ∈ s, UrlChar c := by
  rw [List.all_eq_true]
  constructor
  · intro h c hc
    have := h c hc
    rw [(char_facts c).1] at this
    simpa using this
  · intro h c hc
    rw [(char_facts c).1]
    simpa using h c hc

theorem a2b_0 {c : UInt8} (h : UrlChar c) (left pads : Nat) (r : Bytes) :
    a2bBase64 0 left pads (stdChar c :: r) = a2bBase64 1 (urlValue c) 0 r := by
  have := (char_facts c).2 h
  simp [a2bBase64, this.1, this.2.1]

theorem a2b_1 {c : UInt8} (h : UrlChar c) (left pads : Nat) (r : Bytes) :
    a2bBase64 1 left pads (stdChar c :: r) =
      (do let rest ← a2bBase64 2 (urlValue c % 16) 0 r
          return UInt8.ofNat (left * 4 + urlValue c / 16) :: rest) := by
  have := (char_facts c).2 h
  simp [a2bBase64, this.1, this.2.1]

theorem a2b_2 {c : UInt8} (h : UrlChar c) (left pads : Nat) (r : Bytes) :
    a2bBase64 2 left pads (stdChar c :: r) =
      (do let rest ← a2bBase64 3 (urlValue c % 4) 0 r
          return UInt8.ofNat (left * 16 + urlValue c / 4) :: rest) := by
  have := (char_facts c).2 h
  simp [a2bBase64, this.1, this.2.1]

theorem a2b_3 {c : UInt8} (h : UrlChar c) (left pads : Nat) (r : Bytes) :
    a2bBase64 3 left pads (stdChar c :: r) =
      (do let rest ← a2bBase64 0 0 0 r
          return UInt8.ofNat (left * 64 + urlValue c) :: rest) := by
  have := (char_facts c).2 h
  simp [a2bBase64, this.1, this.2.1]

/-- The three padding characters. -/
abbrev pads3 : Bytes := [61, 61, 61]

theorem decode1 {a : UInt8} (ha : UrlChar a) :
    a2bBase64 0 0 0 (stdChar a :: pads3) = .error .valueError := by
  rw [a2b_0 ha]; rfl

theorem decode2 {a b : UInt8} (ha : UrlChar a) (hb : UrlChar b) :
    a2bBase64 0 0 0 (stdChar a :: stdChar b :: pads3) =
      .ok [UInt8.ofNat (urlValue a * 4 + urlValue b / 16)] := by
  rw [a2b_0 ha, a2b_1 hb]; rfl

theorem decode3 {a b c : UInt8} (ha : UrlChar a) (hb : UrlChar b) (hc : UrlChar c) :
    a2bBase64 0 0 0 (stdChar a :: stdChar b :: stdChar c :: pads3) =
      .ok [UInt8.ofNat (urlValue a * 4 + urlValue b / 16),
        UInt8.ofNat (urlValue b % 16 * 16 + urlValue c / 4)] := by
  rw [a2b_0 ha, a2b_1 hb, a2b_2 hc]; rfl

theorem decode4 {a b c d : UInt8} (ha : UrlChar a) (hb : UrlChar b) (hc : UrlChar c)
    (hd : UrlChar d) (r : Bytes) :
    a2bBase64 0 0 0 (stdChar a :: stdChar b :: stdChar c :: stdChar d :: r) =
      (do let rest ← a2bBase64 0 0 0 r
          return UInt8.ofNat (urlValue a * 4 + urlValue b / 16) ::
            UInt8.ofNat (urlValue b % 16 * 16 + urlValue c / 4) ::
            UInt8.ofNat (urlValue c % 4 * 64 + urlValue d) :: rest) := by
  rw [a2b_0 ha, a2b_1 hb, a2b_2 hc, a2b_3 hd]
  cases a2bBase64 0 0 0 r <;> rfl

theorem bits_ext {w m n : Nat} (h : ∀ k < w, m.testBit k = n.testBit k) : bits w m = bits w n := by
  induction w with
  | zero => rfl
  | succ w ih =>
    unfold bits
    rw [h w (by omega), ih fun k hk => h k (by omega)]

theorem bits_length (w n : Nat) : (bits w n).length = w := by
  induction w with
  | zero => rfl
  | succ w ih => simp [bits, ih]

theorem two_sextets {a b : Nat} (ha : a < 64) (hb : b < 64) :
    bits 6 a ++ (bits 6 b).take 2 = bits 8 (a * 4 + b / 16) := by
  have : ∀ a < 64, ∀ b < 64, bits 6 a ++ (bits 6 b).take 2 = bits 8 (a * 4 + b / 16) := by
    decide +kernel
  exact this a ha b hb

theorem mid_sextets {b c : Nat} (hb : b < 64) (hc : c < 64) :
    (bits 6 b).drop 2 ++ (bits 6 c).take 4 = bits 8 (b % 16 * 16 + c / 4) := by
  have : ∀ b < 64, ∀ c < 64,
      (bits 6 b).drop 2 ++ (bits 6 c).take 4 = bits 8 (b % 16 * 16 + c / 4) := by
    decide +kernel
  exact this b hb c hc

theorem last_sextets {c d : Nat} (hc : c < 64) (hd : d < 64) :
    (bits 6 c).drop 4 ++ bits 6 d = bits 8 (c % 4 * 64 + d) := by
  have : ∀ c < 64, ∀ d < 64, (bits 6 c).drop 4 ++ bits 6 d = bits 8 (c % 4 * 64 + d) := by
    decide +kernel
  exact this c hc d hd

theorem bits_split (n k : Nat) : bits 6 n = (bits 6 n).take k ++ (bits 6 n).drop k :=
  (List.take_append_drop k _).symm

/-- What is decoded, and when. -/
theorem decode_spec (s : Bytes) (hs : ∀ c ∈ s, UrlChar c) :
    if s.length % 4 = 1 then a2bBase64 0 0 0 (s.map stdChar ++ pads3) = .error .valueError
    else ∃ b, a2bBase64 0 0 0 (s.map stdChar ++ pads3) = .ok b ∧
      octetBits b = (sextetBits s).take (8 * (6 * s.length / 8)) := by
  match s, hs with
  | [], _ => rw [if_neg (by simp)]; exact ⟨[], rfl, rfl⟩
  | [a], hs => rw [if_pos (by simp)]; exact decode1 (hs a (by simp))
  | [a, b], hs =>
    rw [if_neg (by simp)]
    have ha := hs a (by simp)
    have hb := hs b (by simp)
    have va := ((char_facts a).2 ha).2.2
    have vb := ((char_facts b).2 hb).2.2
    refine ⟨_, decode2 ha hb, ?_⟩
    simp only [octetBits, sextetBits, List.flatMap_cons, List.flatMap_nil, List.append_nil]
    rw [toNat_ofNat8 (by omega), ← two_sextets va vb]
    simp [bits]
  | [a, b, c], hs =>
    rw [if_neg (by simp)]
    have ha := hs a (by simp)
    have hb := hs b (by simp)
    have hc := hs c (by simp)
    have va := ((char_facts a).2 ha).2.2
    have vb := ((char_facts b).2 hb).2.2
    have vc := ((char_facts c).2 hc).2.2
    refine ⟨_, decode3 ha hb hc, ?_⟩
    simp only [octetBits, sextetBits, List.flatMap_cons, List.flatMap_nil, List.append_nil]
    rw [toNat_ofNat8 (by omega), toNat_ofNat8 (by omega), ← two_sextets va vb, ← mid_sextets vb vc]
    simp [bits]
  | a :: b :: c :: d :: r, hs =>
    have ha := hs a (by simp)
    have hb := hs b (by simp)
    have hc := hs c (by simp)
    have hd := hs d (by simp)
    have va := ((char_facts a).2 ha).2.2
    have vb := ((char_facts b).2 hb).2.2
    have vc := ((char_facts c).2 hc).2.2
    have vd := ((char_facts d).2 hd).2.2
    have ih := decode_spec r (fun x hx => hs x (by simp [hx]))
    have hlen : (a :: b :: c :: d :: r).length = r.length + 4 := rfl
    simp only [List.map_cons, List.cons_append, decode4 ha hb hc hd, hlen]
    have hmod : (r.length + 4) % 4 = r.length % 4 := by omega
    rw [hmod]
    by_cases h : r.length % 4 = 1
    · rw [if_pos h] at ih
      rw [if_pos h, ih]
      rfl
    · rw [if_neg h] at ih
      obtain ⟨t, h1, h2⟩ := ih
      rw [if_neg h, h1]
      refine ⟨_, rfl, ?_⟩
      have h24 : 8 * (6 * (r.length + 4) / 8) = 24 + 8 * (6 * r.length / 8) := by omega
      rw [h24]
      have e1 : octetBits (UInt8.ofNat (urlValue a * 4 + urlValue b / 16) ::
          UInt8.ofNat (urlValue b % 16 * 16 + urlValue c / 4) ::
          UInt8.ofNat (urlValue c % 4 * 64 + urlValue d) :: t) =
          (bits 6 (urlValue a) ++ (bits 6 (urlValue b) ++ (bits 6 (urlValue c) ++ bits 6 (urlValue d))))
            ++ octetBits t := by
        simp only [octetBits, List.flatMap_cons]
        rw [toNat_ofNat8 (by omega), toNat_ofNat8 (by omega), toNat_ofNat8 (by omega),
          ← two_sextets va vb, ← mid_sextets vb vc, ← last_sextets vc vd]
        simp [bits]
      have e2 : sextetBits (a :: b :: c :: d :: r) =
          (bits 6 (urlValue a) ++ (bits 6 (urlValue b) ++ (bits 6 (urlValue c) ++ bits 6 (urlValue d))))
            ++ sextetBits r := by
        simp only [sextetBits, List.flatMap_cons, List.append_assoc]
      rw [e1, e2, h2]
      obtain ⟨x, hx⟩ : ∃ x, x = bits 6 (urlValue a) ++ (bits 6 (urlValue b) ++
        (bits 6 (urlValue c) ++ bits 6 (urlValue d))) := ⟨_, rfl⟩
      have hxl : x.length = 24 := by simp [hx, bits_length]
      rw [← hx, ← hxl, List.take_length_add_append]

/-- `rstrip` leaves what does not end in `=`. -/
theorem rstrip_append (x y : Bytes) (hx : ∀ c ∈ x, c ≠ 61) :
    ((x ++ y).reverse.dropWhile (· = 61)).reverse = x ++ (y.reverse.dropWhile (· = 61)).reverse := by
  rw [List.reverse_append, List.dropWhile_append]
  split
  · rename_i h
    have hxr : x.reverse.dropWhile (· = 61) = x.reverse := by
      cases hr : x.reverse with
      | nil => rfl
      | cons c r =>
        have : c ∈ x := by rw [← List.mem_reverse, hr]; simp
        rw [List.dropWhile_cons, if_neg (by simpa using hx c this)]
    rw [hxr, List.isEmpty_iff.1 h, List.reverse_reverse]
    simp
  · rw [List.reverse_append, List.reverse_reverse]

theorem base64Encode_nil : base64Encode [] = [] := rfl

/-- One, two and three bytes. -/
theorem base64Encode_1 (a : UInt8) : base64Encode [a] =
    [urlsafeChar (b64Char (a.toNat / 4)), urlsafeChar (b64Char (a.toNat % 4 * 16))] := by
  have ha := a.toNat_lt
  have h1 := value_table (a.toNat / 4) (by omega)
  have h2 := value_table (a.toNat % 4 * 16) (by omega)
  unfold base64Encode urlsafeB64encode
  exact rstrip_append [urlsafeChar (b64Char (a.toNat / 4)), urlsafeChar (b64Char (a.toNat % 4 * 16))]
    [61, 61] (by
      intro c hc
      simp only [List.mem_cons, List.not_mem_nil, or_false] at hc
      rcases hc with rfl | rfl
      · exact h1.2.1
      · exact h2.2.1)

theorem base64Encode_2 (a b : UInt8) : base64Encode [a, b] =
    [urlsafeChar (b64Char (a.toNat / 4)), urlsafeChar (b64Char (a.toNat % 4 * 16 + b.toNat / 16)),
      urlsafeChar (b64Char (b.toNat % 16 * 4))] := by
  have ha := a.toNat_lt
  have hb := b.toNat_lt
  have h1 := value_table (a.toNat / 4) (by omega)
  have h2 := value_table (a.toNat % 4 * 16 + b.toNat / 16) (by omega)
  have h3 := value_table (b.toNat % 16 * 4) (by omega)
  unfold base64Encode urlsafeB64encode
  exact rstrip_append [urlsafeChar (b64Char (a.toNat / 4)),
      urlsafeChar (b64Char (a.toNat % 4 * 16 + b.toNat / 16)),
      urlsafeChar (b64Char (b.toNat % 16 * 4))] [61] (by
      intro c hc
      simp only [List.mem_cons, List.not_mem_nil, or_false] at hc
      rcases hc with rfl | rfl | rfl
      · exact h1.2.1
      · exact h2.2.1
      · exact h3.2.1)

theorem base64Encode_3 (a b c : UInt8) (r : Bytes) : base64Encode (a :: b :: c :: r) =
    urlsafeChar (b64Char (a.toNat / 4)) :: urlsafeChar (b64Char (a.toNat % 4 * 16 + b.toNat / 16)) ::
      urlsafeChar (b64Char (b.toNat % 16 * 4 + c.toNat / 64)) :: urlsafeChar (b64Char (c.toNat % 64)) ::
      base64Encode r := by
  have ha := a.toNat_lt
  have hb := b.toNat_lt
  have hc := c.toNat_lt
  have h1 := value_table (a.toNat / 4) (by omega)
  have h2 := value_table (a.toNat % 4 * 16 + b.toNat / 16) (by omega)
  have h3 := value_table (b.toNat % 16 * 4 + c.toNat / 64) (by omega)
  have h4 := value_table (c.toNat % 64) (by omega)
  unfold base64Encode urlsafeB64encode
  exact rstrip_append [urlsafeChar (b64Char (a.toNat / 4)),
      urlsafeChar (b64Char (a.toNat % 4 * 16 + b.toNat / 16)),
      urlsafeChar (b64Char (b.toNat % 16 * 4 + c.toNat / 64)), urlsafeChar (b64Char (c.toNat % 64))]
      ((b64encode r).map urlsafeChar) (by
      intro c hc
      simp only [List.mem_cons, List.not_mem_nil, or_false] at hc
      rcases hc with rfl | rfl | rfl | rfl
      · exact h1.2.1
      · exact h2.2.1
      · exact h3.2.1
      · exact h4.2.1)

/-- An encoding has the right characters, the right length, and the bits of the data followed by
zeros. -/
theorem encode_spec (b : Bytes) : (∀ c ∈ base64Encode b, UrlChar c) ∧
    (base64Encode b).length = (8 * b.length + 5) / 6 ∧
    a2bBase64 0 0 0 ((base64Encode b).map stdChar ++ pads3) = .ok b := by
  match b with
  | [] => exact ⟨by simp [base64Encode_nil], rfl, rfl⟩
  | [a] =>
    have ha := a.toNat_lt
    have h1 := value_table (a.toNat / 4) (by omega)
    have h2 := value_table (a.toNat % 4 * 16) (by omega)
    rw [base64Encode_1]
    refine ⟨?_, by simp, ?_⟩
    · intro c hc
      simp only [List.mem_cons, List.not_mem_nil, or_false] at hc
      rcases hc with rfl | rfl
      · exact h1.1
      · exact h2.1
    · refine (decode2 h1.1 h2.1).trans ?_
      rw [h1.2.2.2, h2.2.2.2, ofNat_eq (a := a) (by omega)]
  | [a, b] =>
    have ha := a.toNat_lt
    have hb := b.toNat_lt
    have h1 := value_table (a.toNat / 4) (by omega)
    have h2 := value_table (a.toNat % 4 * 16 + b.toNat / 16) (by omega)
    have h3 := value_table (b.toNat % 16 * 4) (by omega)
    rw [base64Encode_2]
    refine ⟨?_, by simp, ?_⟩
    · intro c hc
      simp only [List.mem_cons, List.not_mem_nil, or_false] at hc
      rcases hc with rfl | rfl | rfl
      · exact h1.1
      · exact h2.1
      · exact h3.1
    · refine (decode3 h1.1 h2.1 h3.1).trans ?_
      rw [h1.2.2.2, h2.2.2.2, h3.2.2.2, ofNat_eq (a := a) (by omega), ofNat_eq (a := b) (by omega)]
  | a :: b :: c :: r =>
    have ha := a.toNat_lt
    have hb := b.toNat_lt
    have hc := c.toNat_lt
    have h1 := value_table (a.toNat / 4) (by omega)
    have h2 := value_table (a.toNat % 4 * 16 + b.toNat / 16) (by omega)
    have h3 := value_table (b.toNat % 16 * 4 + c.toNat / 64) (by omega)
    have h4 := value_table (c.toNat % 64) (by omega)
    obtain ⟨i1, i2, i3⟩ := encode_spec r
    rw [base64Encode_3]
    refine ⟨?_, ?_, ?_⟩
    · intro x hx
      simp only [List.mem_cons] at hx
      rcases hx with rfl | rfl | rfl | rfl | hx
      · exact h1.1
      · exact h2.1
      · exact h3.1
      · exact h4.1
      · exact i1 x hx
    · simp only [List.length_cons, i2]; omega
    · simp only [List.map_cons, List.cons_append]
      rw [decode4 h1.1 h2.1 h3.1 h4.1, i3, h1.2.2.2, h2.2.2.2, h3.2.2.2, h4.2.2.2,
        ofNat_eq (a := a) (by omega), ofNat_eq (a := b) (by omega), ofNat_eq (a := c) (by omega)]
      rfl

theorem urlsafe_pads (s : Bytes) :
    urlsafeB64decode (s ++ [61, 61, 61]) = a2bBase64 0 0 0 (s.map stdChar ++ pads3) := by
  unfold urlsafeB64decode b64decode
  rw [List.map_append]
  rfl

theorem base64Decode_encode (b : Bytes) : base64Decode (base64Encode b) = .ok b := by
  obtain ⟨h1, _, h3⟩ := encode_spec b
  unfold base64Decode
  rw [if_pos ((all_valid_iff _).2 h1), urlsafe_pads, h3]

theorem base64Decode_cases (s : Bytes) :
    (base64Decode s = .error .jwtInvalidError ∧ ¬ ((∀ c ∈ s, UrlChar c) ∧ s.length % 4 ≠ 1)) ∨
    ((∀ c ∈ s, UrlChar c) ∧ s.length % 4 ≠ 1 ∧ ∃ b, base64Decode s = .ok b ∧
      octetBits b = (sextetBits s).take (8 * (6 * s.length / 8))) := by
  unfold base64Decode
  by_cases hv : s.all validChar = true
  · rw [if_pos hv, urlsafe_pads]
    have hv := (all_valid_iff s).1 hv
    have := decode_spec s hv
    by_cases hl : s.length % 4 = 1
    · rw [if_pos hl] at this
      rw [this]
      exact .inl ⟨rfl, fun h => h.2 hl⟩
    · rw [if_neg hl] at this
      obtain ⟨b, h1, h2⟩ := this
      rw [h1]
      exact .inr ⟨hv, hl, b, rfl, h2⟩
  · rw [if_neg hv]
    exact .inl ⟨rfl, fun h => hv ((all_valid_iff s).2 h.1)⟩

/-- ASCII bytes are decoded one by one. -/
theorem utf8Decode_ascii (s : Bytes) (h : ∀ c ∈ s, c.toNat < 0x80) :
    utf8Decode s = .ok (s.map UInt8.toNat) := by
  have : utf8Decode? s = some (s.map UInt8.toNat) := by
    induction s with
    | nil => rfl
    | cons c s ih =>
      unfold utf8Decode?
      rw [if_pos (h c (by simp)), ih fun x hx => h x (by simp [hx])]
      rfl
  unfold utf8Decode
  rw [this]

theorem UrlChar.ascii {c : UInt8} (h : UrlChar c) : c.toNat < 0x80 := by
  unfold UrlChar at h; omega

theorem utf8Encode_ascii (s : Bytes) (h : ∀ c ∈ s, c.toNat < 0x80) :
    utf8Encode (s.map UInt8.toNat) = .ok s :=
  utf8Encode_decode s _ (utf8Decode_ascii s h)

end Jwt
end Tink
