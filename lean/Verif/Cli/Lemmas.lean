import Verif.Spec.Cli
import Verif.Py.Utf8Lemmas
import Verif.Json.Text
import Verif.Json.Indent
import Verif.Keyset.JsonFormatLemmas
import Verif.Keyset.HandleLemmas

/-!
# Lemmas about files, texts and hexadecimal
-/

namespace Tink
open Spec Cli

/-! ## Texts -/

theorem universalNewlines_spec (s : PyStr) : LineFeeds s (universalNewlines s) := by
  fun_induction universalNewlines s with
  | case1 => exact .nil
  | case2 s ih => exact .crlf ih
  | case3 s h ih => exact .cr (fun r hr => h r hr) ih
  | case4 c s _ h ih => exact .other (fun h' => h h') ih

theorem lineFeeds_eq {s t : PyStr} (h : LineFeeds s t) : universalNewlines s = t := by
  induction h with
  | nil => rfl
  | crlf _ ih => rw [universalNewlines, ih]
  | @cr s t hn _ ih =>
    cases s with
    | nil => rw [← ih]; rfl
    | cons c r =>
      have hc : c ≠ 10 := fun h => hn r (by rw [h])
      rw [universalNewlines, ih]
      exact fun r' h => hc (by cases h; rfl)
  | @other c s t hn _ ih =>
    rw [universalNewlines, ih]
    · intro s' h; exact absurd h hn
    · exact fun h => hn h

theorem textOf_iff (b : Bytes) (text : PyStr) : TextOf b text ↔ decodeText b = .ok text := by
  unfold TextOf decodeText
  constructor
  · rintro ⟨s, h1, h2⟩
    rw [utf8Decode_encode s b h1]
    show Except.ok (universalNewlines s) = _
    rw [lineFeeds_eq h2]
  · intro h
    obtain ⟨s, h1, h2⟩ := bind_ok_iff.1 h
    cases h2
    exact ⟨s, utf8Encode_decode b s h1, universalNewlines_spec s⟩

/-- A character other than a carriage return, in ASCII. -/
def TextChar (x : Nat) : Prop := x < 128 ∧ x ≠ 13

theorem lineFeeds_textChar {s : PyStr} (h : ∀ x ∈ s, TextChar x) : LineFeeds s s := by
  induction s with
  | nil => exact .nil
  | cons c s ih => exact .other (h c (by simp)).2 (ih fun x hx => h x (by simp [hx]))

/-- Such a text is read as it was written. -/
theorem textChar_text {s : PyStr} (h : ∀ x ∈ s, TextChar x) : ∃ b, utf8Encode s = .ok b ∧ TextOf b s := by
  have : utf8Encode s = .ok (s.flatMap utf8EncodeCp) := by
    unfold utf8Encode
    rw [if_pos]
    rw [List.all_eq_true]
    intro x hx
    have := (h x hx).1
    exact (isScalar_iff x).2 (.inl (by omega))
  exact ⟨_, this, s, this, lineFeeds_textChar h⟩

namespace Json
variable {F : Type}

theorem escapeChar_textChar (c x : Nat) (h : x ∈ escapeChar c) : TextChar x := by
  refine ⟨escapeChar_ascii c x h, ?_⟩
  have hex : ∀ n, hexDigit (n % 16) ≠ 13 := by
    intro n; unfold hexDigit; split <;> omega
  have u : ∀ c x, x ∈ uEscape c → x ≠ 13 := by
    intro c x h
    unfold uEscape at h
    simp only [List.mem_cons, List.not_mem_nil, or_false] at h
    rcases h with rfl | rfl | rfl | rfl | rfl | rfl
    · omega
    · omega
    all_goals exact hex _
  unfold escapeChar at h
  repeat' split at h
  all_goals try (simp only [List.mem_cons, List.not_mem_nil, or_false] at h; omega)
  · exact u _ _ h
  · rcases List.mem_append.1 h with h | h <;> exact u _ _ h

theorem encodeString_textChar (s : PyStr) (x : Nat) (h : x ∈ encodeString s) : TextChar x := by
  unfold encodeString at h
  simp only [List.cons_append, List.mem_cons, List.mem_append, List.mem_flatMap, List.not_mem_nil,
    or_false] at h
  rcases h with rfl | ⟨c, _, h⟩ | rfl
  · exact ⟨by omega, by omega⟩
  · exact escapeChar_textChar c x h
  · exact ⟨by omega, by omega⟩

theorem intPart_textChar {s : PyStr} (h : IntPart s) (x : Nat) (hx : x ∈ s) : TextChar x := by
  refine ⟨intPart_ascii h x hx, ?_⟩
  rcases h with rfl | ⟨c, r, rfl, h1, h2, h3⟩
  · simp only [List.mem_singleton] at hx; omega
  · rcases List.mem_cons.1 hx with rfl | hx
    · omega
    · have := h3 x hx; omega

theorem numeral_textChar {s : PyStr} (h : FloatNumeral s) (x : Nat) (hx : x ∈ s) : TextChar x := by
  refine ⟨numeral_ascii h x hx, ?_⟩
  obtain ⟨sg, i, f, e, rfl, h1, h2, h3, h4, _⟩ := h
  simp only [List.mem_append] at hx
  rcases hx with ((hx | hx) | hx) | hx
  · rcases h1 with rfl | rfl
    · simp at hx
    · simp only [List.mem_singleton] at hx; omega
  · exact (intPart_textChar h2 x hx).2
  · rcases h3 with rfl | ⟨r, rfl, _, h3⟩
    · simp at hx
    · rcases List.mem_cons.1 hx with rfl | hx
      · omega
      · have := h3 x hx; omega
  · rcases h4 with rfl | ⟨e, sg, r, rfl, he, hs, _, h4⟩
    · simp at hx
    · rcases List.mem_cons.1 hx with rfl | hx
      · omega
      · rcases List.mem_append.1 hx with hx | hx
        · rcases hs with rfl | rfl | rfl
          · simp at hx
          · simp only [List.mem_singleton] at hx; omega
          · simp only [List.mem_singleton] at hx; omega
        · have := h4 x hx; omega

theorem commas_textChar {pad : PyStr} (hp : ∀ c ∈ pad, TextChar c) (ts : List PyStr)
    (h : ∀ t ∈ ts, ∀ x ∈ t, TextChar x) : ∀ x ∈ commas pad ts, TextChar x := by
  induction ts with
  | nil => intro x hx; simp [commas] at hx
  | cons t ts ih =>
    cases ts with
    | nil => exact h t (by simp)
    | cons u us =>
      rw [commas_cons]
      intro x hx
      simp only [List.mem_append, List.mem_cons] at hx
      rcases hx with hx | rfl | hx | hx
      · exact h t (by simp) x hx
      · exact ⟨by omega, by omega⟩
      · exact hp x hx
      · exact ih (fun t ht => h t (by simp [ht])) x hx

theorem newline_textChar (n : Nat) : ∀ c ∈ newline n, TextChar c := by
  intro c hc
  unfold newline at hc
  rcases List.mem_cons.1 hc with rfl | hc
  · exact ⟨by omega, by omega⟩
  · rw [List.eq_of_mem_replicate hc]; exact ⟨by omega, by omega⟩

/-- Indented JSON texts are ASCII without carriage returns. -/
theorem dumpsIndentDepth_textChar (env : JsonEnv F) (hl : LawfulFloats env.floats) (depth level : Nat)
    (v : JVal F) (t : PyStr) (h : dumpsIndentDepth env depth level v = .ok t) : ∀ x ∈ t, TextChar x := by
  have lit : ∀ (l : PyStr), (l.all fun c => decide (c < 128) && decide (c ≠ 13)) = true →
      ∀ x ∈ l, TextChar x := by
    intro l hl x hx
    have := (List.all_eq_true.1 hl) x hx
    simpa [TextChar] using this
  have int : ∀ n t, encodeInt env n = .ok t → ∀ x ∈ t, TextChar x := by
    intro n t h
    unfold encodeInt at h
    cases hd : env.digitsOk (decimal n.natAbs).length with
    | false => rw [hd] at h; simp at h
    | true =>
      rw [hd, if_pos rfl, Except.ok.injEq] at h
      subst h
      intro x hx
      split at hx
      · rcases List.mem_cons.1 hx with rfl | hx
        · exact ⟨by omega, by omega⟩
        · exact intPart_textChar (decimal_intPart _) x hx
      · exact intPart_textChar (decimal_intPart _) x hx
  have float : ∀ x, ∀ c ∈ encodeFloat env x, TextChar c := by
    intro x
    cases x with
    | fin x => exact numeral_textChar (hl.numeral x)
    | _ => exact lit _ rfl
  have br : ∀ (level a b : Nat) (m : Py (List PyStr)) (t : PyStr), TextChar a → TextChar b →
      (∀ ts, m = .ok ts → ∀ t ∈ ts, ∀ x ∈ t, TextChar x) → bracketIndent level a b m = .ok t →
      ∀ x ∈ t, TextChar x := by
    intro level a b m t ha hb hm h
    unfold bracketIndent at h
    cases m with
    | error e => cases h
    | ok ts =>
      cases ts with
      | nil =>
        cases h
        intro x hx
        simp only [List.mem_cons, List.not_mem_nil, or_false] at hx
        rcases hx with rfl | rfl
        · exact ha
        · exact hb
      | cons t ts =>
        cases h
        intro x hx
        simp only [List.mem_cons, List.mem_append, List.not_mem_nil, or_false] at hx
        rcases hx with rfl | hx | hx | hx | rfl
        · exact ha
        · exact newline_textChar _ x hx
        · exact commas_textChar (newline_textChar _) _ (hm _ rfl) x hx
        · exact newline_textChar _ x hx
        · exact hb
  induction depth generalizing level v t with
  | zero =>
    cases v with
    | null => cases h; exact lit _ rfl
    | bool b => cases b <;> cases h <;> exact lit _ rfl
    | int n => exact int n t h
    | float x => cases h; exact float x
    | str s => cases h; exact encodeString_textChar s
    | list l => cases h
    | dict d => cases h
  | succ depth ih =>
    cases v with
    | null => cases h; exact lit _ rfl
    | bool b => cases b <;> cases h <;> exact lit _ rfl
    | int n => exact int n t h
    | float x => cases h; exact float x
    | str s => cases h; exact encodeString_textChar s
    | list l =>
      refine br level 91 93 _ t ⟨by omega, by omega⟩ ⟨by omega, by omega⟩ ?_ h
      intro ts hts t ht
      obtain ⟨v, _, hv⟩ := (mapPy_length hts).2 t ht
      exact ih _ v t hv
    | dict d =>
      refine br level 123 125 _ t ⟨by omega, by omega⟩ ⟨by omega, by omega⟩ ?_ h
      intro ts hts t ht
      obtain ⟨p, _, hv⟩ := (mapPy_length hts).2 t ht
      obtain ⟨u, hu, rfl⟩ := encodePair_ok hv
      intro x hx
      simp only [List.mem_append, List.mem_cons, List.not_mem_nil, or_false] at hx
      rcases hx with hx | rfl | rfl | hx
      · exact encodeString_textChar _ x hx
      · exact ⟨by omega, by omega⟩
      · exact ⟨by omega, by omega⟩
      · exact ih _ p.2 u hu x hx

end Json

/-! ## Hexadecimal -/

theorem hexValue_iff (c : UInt8) (n : Nat) : hexValue c = some n ↔ HexDigitByte c n := by
  unfold hexValue
  have hof : ∀ k, k < 256 → (UInt8.ofNat k).toNat = k := fun k h => toNat_ofNat8 h
  constructor
  · intro h
    split at h
    · rename_i hc
      cases h
      have : c = UInt8.ofNat (48 + (c.toNat - 48)) := u8_ext (by rw [hof _ (by omega)]; omega)
      rw [this, hof _ (by omega)]
      have e : 48 + (c.toNat - 48) - 48 = c.toNat - 48 := by omega
      rw [e]
      exact .decimal (by omega)
    · split at h
      · rename_i hc
        cases h
        have : c = UInt8.ofNat (97 + (c.toNat - 97)) := u8_ext (by rw [hof _ (by omega)]; omega)
        have e : c.toNat - 87 = 10 + (c.toNat - 97) := by omega
        rw [e]
        have hd : HexDigitByte _ _ := .lower (n := c.toNat - 97) (by omega)
        rwa [← this] at hd
      · split at h
        · rename_i hc
          cases h
          have : c = UInt8.ofNat (65 + (c.toNat - 65)) := u8_ext (by rw [hof _ (by omega)]; omega)
          have e : c.toNat - 55 = 10 + (c.toNat - 65) := by omega
          rw [e]
          have hd : HexDigitByte _ _ := .upper (n := c.toNat - 65) (by omega)
          rwa [← this] at hd
        · cases h
  · intro h
    cases h with
    | decimal h => rw [hof _ (by omega), if_pos (by omega)]; congr 1; omega
    | lower h => rw [hof _ (by omega), if_neg (by omega), if_pos (by omega)]; congr 1; omega
    | upper h =>
      rw [hof _ (by omega), if_neg (by omega), if_neg (by omega), if_pos (by omega)]; congr 1; omega

theorem unhexlify_iff (s b : Bytes) : unhexlify s = some b ↔ HexOf s b := by
  constructor
  · intro h
    fun_induction unhexlify s generalizing b with
    | case1 => cases h; exact .nil
    | case2 => cases h
    | case3 x y r i j t hi hj ht ih =>
      cases h
      exact .cons ((hexValue_iff _ _).1 ‹_›) ((hexValue_iff _ _).1 ‹_›) rfl (ih _ ‹_›)
    | case4 => cases h
  · intro h
    induction h with
    | nil => rfl
    | cons h1 h2 h3 _ ih =>
      rw [unhexlify, (hexValue_iff _ _).2 h1, (hexValue_iff _ _).2 h2, ih, h3]

theorem white_iff (c : UInt8) : White c ↔ isSpace c = true := by
  unfold White isSpace
  simp only [List.mem_cons, List.not_mem_nil, or_false, Bool.or_eq_true, beq_iff_eq, Bool.and_eq_true,
    decide_eq_true_eq]
  have h : ∀ n : Nat, (hn : n < 256) → (c = UInt8.ofNat n ↔ c.toNat = n) := fun n hn =>
    ⟨fun h => by rw [h, toNat_ofNat8 hn], fun h => u8_ext (by rw [h, toNat_ofNat8 hn])⟩
  have h32 := h 32 (by omega)
  have h9 := h 9 (by omega)
  have h10 := h 10 (by omega)
  have h11 := h 11 (by omega)
  have h12 := h 12 (by omega)
  have h13 := h 13 (by omega)
  constructor
  · rintro (h | h | h | h | h | h) <;> subst h <;> decide
  · rintro (h | ⟨h1, h2⟩)
    · exact .inl (h32.2 h)
    · have : c.toNat = 9 ∨ c.toNat = 10 ∨ c.toNat = 11 ∨ c.toNat = 12 ∨ c.toNat = 13 := by omega
      rcases this with h | h | h | h | h
      · exact .inr (.inl (h9.2 h))
      · exact .inr (.inr (.inl (h10.2 h)))
      · exact .inr (.inr (.inr (.inl (h11.2 h))))
      · exact .inr (.inr (.inr (.inr (.inl (h12.2 h)))))
      · exact .inr (.inr (.inr (.inr (.inr (h13.2 h)))))

theorem hexDigit_not_space {c : UInt8} {n : Nat} (h : HexDigitByte c n) : isSpace c = false := by
  have hof : ∀ k, k < 256 → (UInt8.ofNat k).toNat = k := fun k h => toNat_ofNat8 h
  cases h with
  | decimal h => unfold isSpace; rw [hof _ (by omega)]; simp; omega
  | lower h => unfold isSpace; rw [hof _ (by omega)]; simp; omega
  | upper h => unfold isSpace; rw [hof _ (by omega)]; simp; omega

theorem hexOf_not_space {s b : Bytes} (h : HexOf s b) : ∀ c ∈ s, isSpace c = false := by
  induction h with
  | nil => intro c hc; cases hc
  | cons h1 h2 _ _ ih =>
    intro c hc
    simp only [List.mem_cons] at hc
    rcases hc with rfl | rfl | hc
    · exact hexDigit_not_space h1
    · exact hexDigit_not_space h2
    · exact ih c hc

theorem dropWhile_all {p : UInt8 → Bool} {a b : Bytes} (ha : ∀ c ∈ a, p c = true)
    (hb : ∀ c ∈ b, p c = false) : (a ++ b).dropWhile p = b := by
  induction a with
  | nil =>
    cases b with
    | nil => rfl
    | cons c b =>
      rw [List.nil_append, List.dropWhile_cons, if_neg]
      rw [hb c (by simp)]; simp
  | cons c a ih =>
    rw [List.cons_append, List.dropWhile_cons, if_pos (ha c (by simp))]
    exact ih fun c hc => ha c (by simp [hc])

theorem strip_hex {before digits after : Bytes} (h1 : ∀ c ∈ before, isSpace c = true)
    (h2 : ∀ c ∈ after, isSpace c = true) (h3 : ∀ c ∈ digits, isSpace c = false) :
    strip (before ++ digits ++ after) = digits := by
  unfold strip
  cases digits with
  | nil =>
    have : (before ++ [] ++ after).dropWhile isSpace = [] := by
      have := dropWhile_all (p := isSpace) (a := before ++ [] ++ after) (b := []) (by
        intro c hc
        simp only [List.append_nil, List.mem_append] at hc
        rcases hc with hc | hc
        · exact h1 c hc
        · exact h2 c hc) (by simp)
      rwa [List.append_nil] at this
    rw [this]; rfl
  | cons d ds =>
    have hl : (before ++ (d :: ds) ++ after).dropWhile isSpace = (d :: ds) ++ after := by
      rw [List.append_assoc]
      clear h2
      induction before with
      | nil =>
        rw [List.nil_append, List.cons_append, List.dropWhile_cons, if_neg]
        rw [h3 d (by simp)]; simp
      | cons c a ih =>
        rw [List.cons_append, List.dropWhile_cons, if_pos (h1 c (by simp))]
        exact ih fun c hc => h1 c (by simp [hc])
    rw [hl, List.reverse_append, dropWhile_all (p := isSpace) (fun c hc => h2 c (by simpa using hc))
      (fun c hc => h3 c (List.mem_reverse.1 hc)), List.reverse_reverse]

theorem takeWhile_all {p : UInt8 → Bool} (a : Bytes) : ∀ c ∈ a.takeWhile p, p c = true := by
  induction a with
  | nil => intro c hc; cases hc
  | cons x a ih =>
    intro c hc
    rw [List.takeWhile_cons] at hc
    split at hc
    · rcases List.mem_cons.1 hc with rfl | hc
      · assumption
      · exact ih c hc
    · cases hc

theorem hexText_iff (text code : Bytes) :
    HexText text code ↔ unhexlify (strip text) = some code := by
  rw [unhexlify_iff]
  constructor
  · rintro ⟨b, d, a, rfl, hb, ha, hd⟩
    rwa [strip_hex (fun c hc => (white_iff c).1 (hb c hc)) (fun c hc => (white_iff c).1 (ha c hc))
      (hexOf_not_space hd)]
  · intro h
    refine ⟨text.takeWhile isSpace, strip text,
      ((text.dropWhile isSpace).reverse.takeWhile isSpace).reverse, ?_, ?_, ?_, h⟩
    · unfold strip
      rw [List.append_assoc, ← List.reverse_append, List.takeWhile_append_dropWhile, List.reverse_reverse,
        List.takeWhile_append_dropWhile]
    · exact fun c hc => (white_iff c).2 (takeWhile_all _ c hc)
    · exact fun c hc => (white_iff c).2 (takeWhile_all _ c (by simpa using hc))

theorem hexDigit_spec {n : Nat} (h : n < 16) : HexDigitByte (Cli.hexDigit n) n := by
  unfold Cli.hexDigit
  split
  · exact .decimal ‹_›
  · have e : 87 + n = 97 + (n - 10) := by omega
    have e' : n = 10 + (n - 10) := by omega
    rw [e]
    have hd : HexDigitByte _ _ := .lower (n := n - 10) (by omega)
    rwa [← e'] at hd

theorem hexlify_spec (b : Bytes) : HexOf (hexlify b) b := by
  induction b with
  | nil => exact .nil
  | cons x b ih =>
    have hx : x.toNat < 256 := UInt8.toNat_lt x
    refine .cons (hexDigit_spec (by omega)) (hexDigit_spec (by omega)) ?_ ih
    refine u8_ext ?_
    rw [toNat_ofNat8 (by omega)]; omega

theorem hexlify_text (b : Bytes) : HexText (hexlify b) b :=
  ⟨[], hexlify b, [], by simp, by simp, by simp, hexlify_spec b⟩

theorem hexDigit_lower {n : Nat} (h : n < 16) : ¬ (65 ≤ hexDigit n ∧ hexDigit n ≤ 70) := by
  rw [UInt8.le_iff_toNat_le, UInt8.le_iff_toNat_le]
  unfold hexDigit
  split
  · rw [toNat_ofNat8 (by omega)]
    rintro ⟨h1, _⟩
    change 65 ≤ _ at h1
    omega
  · rw [toNat_ofNat8 (by omega)]
    rintro ⟨_, h1⟩
    change _ ≤ 70 at h1
    omega

theorem hexlify_lower (b : Bytes) : LowerHex (hexlify b) b := by
  refine ⟨hexlify_spec b, fun c hc => ?_⟩
  unfold hexlify at hc
  obtain ⟨x, _, hx⟩ := List.mem_flatMap.1 hc
  have : x.toNat < 256 := UInt8.toNat_lt x
  simp only [List.mem_cons, List.not_mem_nil, or_false] at hx
  rcases hx with rfl | rfl <;> exact hexDigit_lower (by omega)

theorem digit_eq {c : UInt8} {n : Nat} (h : HexDigitByte c n) (hc : ¬ (65 ≤ c ∧ c ≤ 70)) :
    n < 16 ∧ c = hexDigit n := by
  unfold hexDigit
  cases h with
  | decimal h => exact ⟨by omega, by rw [if_pos h]⟩
  | lower h =>
    rename_i k
    refine ⟨by omega, ?_⟩
    rw [if_neg (by omega)]
    congr 1
    omega
  | upper h =>
    refine absurd ?_ hc
    rw [UInt8.le_iff_toNat_le, UInt8.le_iff_toNat_le, toNat_ofNat8 (by omega)]
    show 65 ≤ _ ∧ _ ≤ 70
    omega

theorem lowerHex_eq {s t : Bytes} (h : LowerHex s t) : s = hexlify t := by
  obtain ⟨h, hc⟩ := h
  induction h with
  | nil => rfl
  | cons hx hy hb _ ih =>
    rename_i x y i j s b t _
    obtain ⟨hi, hx⟩ := digit_eq hx (hc _ (by simp))
    obtain ⟨hj, hy⟩ := digit_eq hy (hc _ (by simp))
    have : b.toNat = 16 * i + j := by rw [hb, toNat_ofNat8 (by omega)]
    have e1 : b.toNat / 16 = i := by omega
    have e2 : b.toNat % 16 = j := by omega
    show _ = [hexDigit (b.toNat / 16), hexDigit (b.toNat % 16)] ++ hexlify t
    rw [e1, e2, ← hx, ← hy, ← ih fun c h => hc c (by simp [h])]
    rfl

/-! ## Runs -/

section
variable {κ α β : Type}

theorem run_bind (x : Run κ α) (f : α → Run κ β) (w : World κ) :
    (x >>= f) w = match x w with
      | (.error e, w') => (.error e, w')
      | (.ok a, w') => f a w' := rfl

theorem run_pure (a : α) (w : World κ) : (pure a : Run κ α) w = (.ok a, w) := rfl

theorem run_lift (x : Py α) (w : World κ) : (Run.lift x : Run κ α) w = (x, w) := rfl

theorem lift_bind (x : Py α) (f : α → Run κ β) (w : World κ) :
    (Run.lift x >>= f) w = match x with
      | .error e => (.error e, w)
      | .ok a => f a w := by
  rw [run_bind, run_lift]
  cases x <;> rfl

theorem put_updated (w : World κ) (f : Nat) (b : Bytes) : Updated f b w.files (w.put f b).files :=
  ⟨if_pos rfl, fun _ hg => if_neg hg⟩

/-- Reading a file. -/
theorem read_cases (os : Os) (path : Path) (f : Bytes → Run κ β) (w : World κ) :
    (∃ b, FileHolds os w.files path b ∧ (∀ b', FileHolds os w.files path b' → b' = b) ∧
      (readBytes os path >>= f) w = f b w) ∨
    ((∀ b, ¬ FileHolds os w.files path b) ∧ (readBytes os path >>= f) w = (.error .osError, w)) := by
  rw [run_bind]
  unfold readBytes FileHolds
  cases h : w.files (os.file path) with
  | none => exact .inr ⟨fun b hb => by simp at hb, rfl⟩
  | some b =>
    cases hr : os.readable path with
    | false => exact .inr ⟨fun b hb => by simp at hb, rfl⟩
    | true =>
      refine .inl ⟨b, ⟨rfl, rfl⟩, ?_, rfl⟩
      rintro b' ⟨_, h'⟩
      cases h'; rfl

/-- A step that may raise an exception. -/
theorem lift_cases (x : Py α) (f : α → Run κ Exit) (w : World κ) :
    (∃ a, x = .ok a ∧ (Run.lift x >>= f) w = f a w) ∨
    ((∀ a, x ≠ .ok a) ∧ ∃ r, status r = 1 ∧ (Run.lift x >>= f) w = (r, w)) := by
  rw [lift_bind]
  cases x with
  | ok a => exact .inl ⟨a, rfl, rfl⟩
  | error e => exact .inr ⟨fun a h => (by cases h), .error e, rfl, rfl⟩

/-- The same, in a `try` block. -/
theorem try_cases (x : Py α) (f : α → Run κ Exit) (w : World κ) :
    (∃ a, x = .ok a ∧ tryTink x f w = f a w) ∨
    ((∀ a, x ≠ .ok a) ∧ ∃ r, status r = 1 ∧ tryTink x f w = (r, w)) := by
  unfold tryTink
  cases x with
  | ok a => exact .inl ⟨a, rfl, rfl⟩
  | error e =>
    refine .inr ⟨fun a h => (by cases h), ?_⟩
    cases h : e.isTink with
    | true => exact ⟨.ok (some 1), rfl, by simp only [h, if_true]; rfl⟩
    | false => exact ⟨.error e, rfl, by simp only [h]; rfl⟩

/-- Writing a file. -/
theorem write_cases (os : Os) (path : Path) (b : Bytes) (x : Exit) (hx : status (.ok x) = 0) (w : World κ) :
    let r := (do openWrite os path; writeBytes os path b; return x : Run κ Exit) w
    r.2.kms = w.kms ∧ r.2.blobs = w.blobs ∧
    ((status r.1 = 0 ∧ os.writable path = true ∧ os.stored path b = none ∧
        Updated (os.file path) b w.files r.2.files) ∨
     (status r.1 = 1 ∧ os.writable path = false ∧ r.2.files = w.files) ∨
     (∃ k, status r.1 = 1 ∧ os.writable path = true ∧ os.stored path b = some k ∧
        Updated (os.file path) (b.take k) w.files r.2.files)) := by
  simp only [run_bind, openWrite, writeBytes]
  have hu : ∀ c, Updated (os.file path) c w.files ((w.put (os.file path) []).put (os.file path) c).files :=
    fun c => ⟨if_pos rfl, fun g hg => by simp only [World.put]; rw [if_neg hg, if_neg hg]⟩
  cases hw : os.writable path with
  | false => exact ⟨rfl, rfl, .inr (.inl ⟨rfl, rfl, rfl⟩)⟩
  | true =>
    cases hs : os.stored path b with
    | none => exact ⟨rfl, rfl, .inl ⟨hx, rfl, rfl, hu b⟩⟩
    | some k => exact ⟨rfl, rfl, .inr (.inr ⟨k, rfl, rfl, rfl, hu _⟩)⟩

end

end Tink
