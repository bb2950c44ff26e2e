import Verif.Setup.Setup

/-!
# Lemmas about replacing text
-/

namespace Tink.Setup

/-- Of two prefixes of one list, one is a prefix of the other. -/
theorem prefix_comparable {a b c d : PyStr} (h : a ++ c = b ++ d) : a <+: b ∨ b <+: a := by
  induction a generalizing b with
  | nil => exact .inl (List.nil_prefix)
  | cons x a ih =>
    cases b with
    | nil => exact .inr List.nil_prefix
    | cons y b =>
      simp only [List.cons_append, List.cons.injEq] at h
      obtain ⟨rfl, h⟩ := h
      rcases ih h with h | h
      · exact .inl (by simpa using h)
      · exact .inr (by simpa using h)

/-- No part of `s` at its end is comparable with `t` (as prefixes). -/
def EndsApart (s t : PyStr) : Prop := ∀ v, v ≠ [] → v <:+ s → ¬ v <+: t ∧ ¬ t <+: v

theorem EndsApart.tail {c : Nat} {s t : PyStr} (h : EndsApart (c :: s) t) : EndsApart s t :=
  fun v hv hs => h v hv (hs.trans (List.suffix_cons c s))

/-- Occurrences of `s` and `t` do not overlap. -/
def Apart (s t : PyStr) : Prop := EndsApart s t ∧ EndsApart t s

theorem replaceFrom_skip (old new : PyStr) (k : Nat) (s : PyStr) :
    replaceFrom old new k s = replace old new (s.drop k) := by
  induction s generalizing k with
  | nil => cases k <;> rfl
  | cons c s ih =>
    cases k with
    | zero => rfl
    | succ k => exact ih k

theorem replace_nil (old new : PyStr) : replace old new [] = [] := rfl

theorem replace_occurrence {old : PyStr} (h0 : old ≠ []) (new s : PyStr) :
    replace old new (old ++ s) = new ++ replace old new s := by
  cases old with
  | nil => exact absurd rfl h0
  | cons c old =>
    show replaceFrom (c :: old) new 0 (c :: (old ++ s)) = _
    rw [replaceFrom, if_pos (by simp [List.isPrefixOf_iff_prefix]), replaceFrom_skip]
    simp

theorem replace_cons {old new : PyStr} {c : Nat} {s : PyStr} (h : ¬ old <+: c :: s) :
    replace old new (c :: s) = c :: replace old new s := by
  show replaceFrom old new 0 (c :: s) = _
  rw [replaceFrom, if_neg (by simpa [List.isPrefixOf_iff_prefix] using h)]
  rfl

/-- What ends apart from `old` is left as it is. -/
theorem replace_append {old new v y : PyStr} (h : EndsApart v old) :
    replace old new (v ++ y) = v ++ replace old new y := by
  induction v with
  | nil => rfl
  | cons c v ih =>
    rw [List.cons_append, replace_cons, ih h.tail, List.cons_append]
    rintro ⟨z, hz⟩
    have := h (c :: v) (by simp) (List.suffix_refl _)
    rcases prefix_comparable (a := old) (b := c :: v) (by simpa using hz) with h' | h'
    · exact this.2 h'
    · exact this.1 h'

/-- Text that does not overlap with `old` stays. -/
theorem replace_keeps {old new u : PyStr} (h0 : old ≠ []) (hu : Apart u old) {n : Nat} {s : PyStr} (hn : s.length ≤ n)
    (h : u <:+: s) : u <:+: replace old new s := by
  induction n generalizing s with
  | zero =>
    have : s = [] := List.eq_nil_of_length_eq_zero (by omega)
    subst this
    exact h
  | succ n ih =>
    obtain ⟨x, y, rfl⟩ := h
    by_cases hp : old <+: x ++ u ++ y
    · obtain ⟨t, ht⟩ := hp
      have hlen : t.length ≤ n := by
        have := congrArg List.length ht
        have : 0 < old.length := List.length_pos_iff.2 h0
        simp only [List.length_append] at *
        omega
      rw [← ht, replace_occurrence h0]
      have hin : u <:+: t := by
        rw [List.append_assoc] at ht
        rcases prefix_comparable ht with hox | hxo
        · obtain ⟨x', rfl⟩ := hox
          rw [List.append_assoc] at ht
          exact ⟨x', y, by rw [List.append_assoc]; exact (List.append_cancel_left ht).symm⟩
        · obtain ⟨o, rfl⟩ := hxo
          rw [List.append_assoc] at ht
          have ht := List.append_cancel_left ht
          by_cases ho : o = []
          · subst ho
            exact ⟨[], y, by simpa using ht.symm⟩
          · have := hu.2 o ho (List.suffix_append _ _)
            rcases prefix_comparable ht with h' | h'
            · exact absurd h' this.1
            · exact absurd h' this.2
      obtain ⟨x', y', e⟩ := ih hlen hin
      exact ⟨new ++ x', y', by rw [← e]; simp⟩
    · cases x with
      | nil =>
        rw [List.nil_append, replace_append hu.1]
        exact ⟨[], replace old new y, by simp⟩
      | cons c x =>
        simp only [List.cons_append, List.length_cons] at hn hp ⊢
        rw [replace_cons hp]
        obtain ⟨x', y', e⟩ := ih (s := x ++ u ++ y) (by omega) ⟨x, y, rfl⟩
        exact ⟨c :: x', y', by rw [← e]; simp⟩

/-- A part of `old` at its end that is found after the replacement was there before. -/
theorem replace_prefix {old new : PyStr} (h0 : old ≠ []) (hn : EndsApart old new) {n : Nat} {s p : PyStr}
    (hl : s.length ≤ n) (hs : p <:+ old) (h : p <+: replace old new s) : p <+: s := by
  induction n generalizing s p with
  | zero =>
    have : s = [] := List.eq_nil_of_length_eq_zero (by omega)
    subst this
    exact h
  | succ n ih =>
    by_cases hp : p = []
    · subst hp; exact List.nil_prefix
    by_cases ho : old <+: s
    · obtain ⟨t, rfl⟩ := ho
      rw [replace_occurrence h0] at h
      obtain ⟨z, hz⟩ := h
      have := hn p hp hs
      rcases prefix_comparable hz with h' | h'
      · exact absurd h' this.1
      · exact absurd h' this.2
    · cases s with
      | nil => exact h
      | cons c s =>
        rw [replace_cons ho] at h
        cases p with
        | nil => exact absurd rfl hp
        | cons d p =>
          rw [List.cons_prefix_cons] at h ⊢
          exact ⟨h.1, ih (by simpa using hl) ((List.suffix_cons d p).trans hs) h.2⟩

/-- After the replacement there is no occurrence left. -/
theorem replace_gone {old new : PyStr} (h0 : old ≠ []) (hn : Apart new old) {n : Nat} {s : PyStr} (hl : s.length ≤ n) :
    ¬ old <:+: replace old new s := by
  induction n generalizing s with
  | zero =>
    have : s = [] := List.eq_nil_of_length_eq_zero (by omega)
    subst this
    rw [replace_nil]
    intro h
    exact h0 (by simpa using h)
  | succ n ih =>
    by_cases ho : old <+: s
    · obtain ⟨t, rfl⟩ := ho
      rw [replace_occurrence h0]
      have hlen : t.length ≤ n := by
        have : 0 < old.length := List.length_pos_iff.2 h0
        simp only [List.length_append] at hl
        omega
      rintro ⟨x, y, e⟩
      rw [List.append_assoc] at e
      rcases prefix_comparable e with hx | hx
      · obtain ⟨v, rfl⟩ := hx
        rw [List.append_assoc] at e
        have e := List.append_cancel_left e
        by_cases hv : v = []
        · subst hv
          exact ih hlen ⟨[], y, by simpa using e⟩
        · have := hn.1 v hv (List.suffix_append _ _)
          rcases prefix_comparable e with h' | h'
          · exact this.2 h'
          · exact this.1 h'
      · obtain ⟨x', rfl⟩ := hx
        rw [List.append_assoc] at e
        exact ih hlen ⟨x', y, by rw [List.append_assoc]; exact List.append_cancel_left e⟩
    · cases s with
      | nil =>
        rw [replace_nil]
        intro h
        exact h0 (by simpa using h)
      | cons c s =>
        rw [replace_cons ho, List.infix_cons_iff]
        rintro (h | h)
        · apply ho
          rw [← replace_cons (new := new) ho] at h
          exact replace_prefix h0 hn.2 (Nat.le_refl _) (List.suffix_refl _) h
        · exact ih (by simpa using hl) h

theorem replace_absent {old new s : PyStr} (h : ¬ old <:+: s) : replace old new s = s := by
  induction s with
  | nil => rfl
  | cons c s ih =>
    rw [List.infix_cons_iff, not_or] at h
    rw [replace_cons h.1, ih h.2]

theorem isIn_iff {u s : PyStr} : isIn u s = true ↔ u <:+: s := by
  induction s with
  | nil => simp [isIn]
  | cons c s ih => rw [isIn, Bool.or_eq_true, ih, List.isPrefixOf_iff_prefix, List.infix_cons_iff]

/-! ## Lines -/

theorem splitFrom_skip (sep : PyStr) (k : Nat) (s : PyStr) : splitFrom sep k s = split sep (s.drop k) := by
  induction s generalizing k with
  | nil => cases k <;> rfl
  | cons c s ih =>
    cases k with
    | zero => rfl
    | succ k => exact ih k

theorem split_ne_nil (sep s : PyStr) : split sep s ≠ [] := by
  cases s with
  | nil => simp [split, splitFrom]
  | cons c s =>
    unfold split
    rw [splitFrom]
    split
    · simp
    · split <;> simp

/-- The first line, and what follows it. -/
theorem split_lines (s : PyStr) : ∃ l ls, split [10] s = l :: ls ∧ (∀ c ∈ l, c ≠ 10) ∧
    ((ls = [] ∧ s = l) ∨ (ls ≠ [] ∧ s = l ++ 10 :: join [10] ls)) := by
  induction s with
  | nil => exact ⟨[], [], rfl, by simp, .inl ⟨rfl, rfl⟩⟩
  | cons c s ih =>
    obtain ⟨l, ls, h1, h2, h3⟩ := ih
    by_cases hc : c = 10
    · subst hc
      have e : split [10] (10 :: s) = [] :: split [10] s := by
        show splitFrom [10] 0 (10 :: s) = _
        rw [splitFrom, if_pos (by simp)]
        rfl
      refine ⟨[], split [10] s, e, by simp, .inr ⟨split_ne_nil _ _, ?_⟩⟩
      rw [List.nil_append, h1]
      rcases h3 with ⟨rfl, rfl⟩ | ⟨hne, rfl⟩
      · rfl
      · cases ls with
        | nil => exact absurd rfl hne
        | cons m ms => simp [join]
    · have e : split [10] (c :: s) = (c :: l) :: ls := by
        show splitFrom [10] 0 (c :: s) = _
        rw [splitFrom, if_neg (by simp [List.isPrefixOf_iff_prefix]; omega)]
        rw [show splitFrom [10] 0 s = l :: ls from h1]
      refine ⟨c :: l, ls, e, ?_, ?_⟩
      · intro d hd
        rcases List.mem_cons.1 hd with rfl | hd
        · exact hc
        · exact h2 d hd
      · rcases h3 with ⟨rfl, rfl⟩ | ⟨hne, rfl⟩
        · exact .inl ⟨rfl, rfl⟩
        · exact .inr ⟨hne, rfl⟩

theorem join_cons {sep p : PyStr} {ps : List PyStr} (h : ps ≠ []) : join sep (p :: ps) = p ++ sep ++ join sep ps := by
  cases ps with
  | nil => exact absurd rfl h
  | cons q qs => rfl

end Tink.Setup

namespace Tink.Setup

/-! ## The two rules -/

/-- A suffix of a line and of what follows it. -/
theorem line_suffix {x y l r : PyStr} (hx : 10 ∉ x) (hl : 10 ∉ l) (h : x ++ 10 :: y <:+ l ++ 10 :: r) :
    (x <:+ l ∧ y = r) ∨ x ++ 10 :: y <:+ r := by
  induction l with
  | nil =>
    rw [List.nil_append, List.suffix_cons_iff] at h
    rcases h with h | h
    · cases x with
      | nil => simp only [List.nil_append, List.cons.injEq] at h; exact .inl ⟨List.suffix_refl _, h.2⟩
      | cons c x =>
        simp only [List.cons_append, List.cons.injEq] at h
        exact absurd h.1 (fun e => hx (by simp [e]))
    · exact .inr h
  | cons c l ih =>
    rw [List.cons_append, List.suffix_cons_iff] at h
    rcases h with h | h
    · cases x with
      | nil =>
        simp only [List.nil_append, List.cons.injEq] at h
        exact absurd h.1.symm (fun e => hl (by simp [e]))
      | cons d x =>
        simp only [List.cons_append, List.cons.injEq] at h
        obtain ⟨rfl, h⟩ := h
        have : x = l ∧ y = r := by
          have hx' : 10 ∉ x := fun e => hx (List.mem_cons_of_mem _ e)
          have hl' : 10 ∉ l := fun e => hl (List.mem_cons_of_mem _ e)
          clear ih hx hl
          induction x generalizing l with
          | nil =>
            cases l with
            | nil => simpa using h
            | cons e l =>
              simp only [List.nil_append, List.cons_append, List.cons.injEq] at h
              exact absurd h.1.symm (fun e' => hl' (by simp [e']))
          | cons a x ih =>
            cases l with
            | nil =>
              simp only [List.nil_append, List.cons_append, List.cons.injEq] at h
              exact absurd h.1 (fun e' => hx' (by simp [e']))
            | cons e l =>
              simp only [List.cons_append, List.cons.injEq] at h
              obtain ⟨rfl, h⟩ := h
              obtain ⟨rfl, rfl⟩ := ih l h (fun e => hx' (List.mem_cons_of_mem _ e))
                (fun e => hl' (List.mem_cons_of_mem _ e))
              exact ⟨rfl, rfl⟩
        obtain ⟨rfl, rfl⟩ := this
        exact .inl ⟨List.suffix_refl _, rfl⟩
    · rcases ih (fun e => hl (List.mem_cons_of_mem _ e)) h with h | h
      · exact .inl ⟨h.1.trans (List.suffix_cons _ _), h.2⟩
      · exact .inr h

theorem cc_ne_nil : cc ≠ [] := by decide +kernel

instance (s t : PyStr) : Decidable (EndsApart s t) :=
  decidable_of_iff (∀ n, n < s.length → ¬ s.drop n <+: t ∧ ¬ t <+: s.drop n) <| by
    constructor
    · intro h v hv hs
      have := h (s.length - v.length) (by
        have := hs.length_le; have := List.length_pos_iff.2 hv; omega)
      rwa [← List.suffix_iff_eq_drop.1 hs] at this
    · intro h n hn
      exact h _ (by intro e; have := congrArg List.length e; simp at this; omega) (List.drop_suffix _ _)

theorem load_apart : Apart httpArchiveLoad cc := by
  constructor <;> decide +kernel

/-- Where the archive is entered. -/
theorem ccPatched_lines (f p : PyStr) : ccPatched f p =
    py! "# Modified by setup.py" ++ 10 :: (py! "http_archive(" ++ 10 :: (py! "    name = \"tink_cc\"," ++ 10 ::
      ((py! "    urls = [\"https://github.com/google/tink/archive/" ++ f ++ py! "\"],") ++ 10 ::
        ((py! "    strip_prefix = \"" ++ p ++ py! "/cc\",") ++ 10 :: (py! ")" ++ 10 :: []))))) := by
  simp only [ccPatched, List.append_assoc, List.cons_append, List.nil_append]

theorem not_suffix_last {x l : PyStr} {a b : Nat} (hab : a ≠ b) : ¬ x ++ [a] <:+ l ++ [b] := by
  rintro ⟨z, hz⟩
  rw [← List.append_assoc] at hz
  have := (List.append_inj' hz rfl).2
  simp at this
  exact hab this

theorem not_cc_prefix {f p : PyStr} (hf : 10 ∉ f) (hp : 10 ∉ p) {v : PyStr} (hv : v <:+ ccPatched f p) : ¬ cc <+: v := by
  rintro ⟨z, rfl⟩
  have e : cc ++ z = (py! "local_repository" ++ [40]) ++ 10 ::
      (py! "    name = \"tink_cc\",\n    path = \"../cc\",\n)\n" ++ z) := rfl
  rw [e, ccPatched_lines] at hv
  have hx : 10 ∉ py! "local_repository" ++ [40] := by decide
  rcases line_suffix hx (by decide) hv with h | h
  · exact absurd h.1 (by decide)
  rcases line_suffix hx (by decide) h with h | h
  · exact absurd h.1 (by decide)
  rcases line_suffix hx (by decide) h with h | h
  · exact absurd h.1 (by decide)
  rcases line_suffix hx (by simp [hf]) h with h | h
  · exact not_suffix_last (x := py! "local_repository") (a := 40) (l := py! "    urls = [\"https://github.com/google/tink/archive/" ++ f ++ py! "\"]") (b := 44)
      (by decide) (by simpa only [List.append_assoc, List.cons_append, List.nil_append] using h.1)
  rcases line_suffix hx (by simp [hp]) h with h | h
  · exact not_suffix_last (x := py! "local_repository") (a := 40) (l := py! "    strip_prefix = \"" ++ p ++ py! "/cc\"") (b := 44)
      (by decide) (by simpa only [List.append_assoc, List.cons_append, List.nil_append] using h.1)
  rcases line_suffix hx (by decide) h with h | h
  · exact absurd h.1 (by decide)
  · simpa using h.length_le

theorem cc_prefixes : ∀ n, n ≤ cc.length → cc.take n = [] ∨ cc.take n = cc ∨
    (¬ [41, 10] <:+ cc.take n ∧ ¬ cc.take n <:+ [41, 10]) := by decide +kernel

theorem ccPatched_apart {f p : PyStr} (hf : 10 ∉ f) (hp : 10 ∉ p) : Apart (ccPatched f p) cc := by
  constructor
  · intro v hv hs
    refine ⟨fun h => ?_, not_cc_prefix hf hp hs⟩
    have e := List.prefix_iff_eq_take.1 h
    have hl := h.length_le
    have h2 : [41, 10] <:+ ccPatched f p :=
      ⟨py! "# Modified by setup.py\nhttp_archive(\n    name = \"tink_cc\",\n    urls = [\"https://github.com/google/tink/archive/" ++
    f ++ py! "\"],\n    strip_prefix = \"" ++ p ++ py! "/cc\",\n", by simp [ccPatched]⟩
    rcases cc_prefixes _ hl with h' | h' | h'
    · rw [← e] at h'; exact hv h'
    · rw [← e] at h'
      subst h'
      exact not_cc_prefix hf hp hs (List.prefix_refl _)
    · rw [← e] at h'
      rcases Nat.le_total v.length 2 with hl2 | hl2
      · exact h'.2 (List.suffix_of_suffix_length_le hs h2 hl2)
      · exact h'.1 (List.suffix_of_suffix_length_le h2 hs hl2)
  · intro o ho hs
    have hd : ∃ r, ccPatched f p = 35 :: r := ⟨_, rfl⟩
    obtain ⟨r, hr⟩ := hd
    have h35 : 35 ∉ cc := by decide +kernel
    rw [hr]
    cases o with
    | nil => exact absurd rfl ho
    | cons c o =>
      have hc : c ≠ 35 := by rintro rfl; exact h35 (hs.subset (by simp))
      rw [List.cons_prefix_cons, List.cons_prefix_cons]
      exact ⟨fun h => hc h.1, fun h => hc h.1.symm⟩

/-- No end of `s` but `s` itself is at its beginning. -/
def Borderless (s : PyStr) : Prop := ∀ v, v ≠ [] → v <:+ s → v <+: s → v = s

theorem cc_borderless : Borderless cc := by
  intro v hv hs hp
  have e := List.prefix_iff_eq_take.1 hp
  have h2 : [41, 10] <:+ cc := by decide +kernel
  rcases cc_prefixes _ hp.length_le with h' | h' | h'
  · rw [← e] at h'; exact absurd h' hv
  · rw [← e] at h'; exact h'
  · rw [← e] at h'
    rcases Nat.le_total v.length 2 with hl2 | hl2
    · exact absurd (List.suffix_of_suffix_length_le hs h2 hl2) h'.2
    · exact absurd (List.suffix_of_suffix_length_le h2 hs hl2) h'.1

/-- The first occurrence is replaced. -/
theorem replace_first {old new p t : PyStr} (h0 : old ≠ []) (hb : Borderless old) (hp : ¬ old <:+: p) :
    replace old new (p ++ old ++ t) = p ++ new ++ replace old new t := by
  induction p with
  | nil => simpa using replace_occurrence h0 new t
  | cons c p ih =>
    rw [List.infix_cons_iff, not_or] at hp
    have : ¬ old <+: c :: (p ++ old ++ t) := by
      rintro ⟨z, hz⟩
      have hz' : old ++ z = (c :: p) ++ (old ++ t) := by simpa using hz
      rcases prefix_comparable hz' with h | h
      · exact hp.1 h
      · obtain ⟨o, ho⟩ := h
        rw [← ho, List.append_assoc] at hz'
        have hz' := List.append_cancel_left hz'
        rw [ho] at hz'
        have ho' : o <:+ old := ⟨_, ho⟩
        have hlt : o.length < old.length := by rw [← ho]; simp; omega
        rcases prefix_comparable hz' with h | h
        · by_cases hn : o = []
          · subst hn
            exact hp.1 ⟨[], by simpa using ho.symm⟩
          · exact absurd (congrArg List.length (hb o hn ho' h)) (Nat.ne_of_lt hlt)
        · have := h.length_le
          omega
    simp only [List.cons_append]
    rw [replace_cons this, ih hp.2]

/-- Where `u` does not overlap with `old`, an occurrence of `old` is before or after it. -/
theorem infix_around {old u x y : PyStr} (hu : Apart u old) (h : old <:+: x ++ u ++ y) : old <:+: x ∨ old <:+: y := by
  induction x with
  | nil =>
    right
    rw [List.nil_append] at h
    have : ∀ v, v <:+ u → old <:+: v ++ y → old <:+: y := by
      intro v
      induction v with
      | nil => exact fun _ h => h
      | cons c v ih =>
        intro hv h
        rw [List.cons_append, List.infix_cons_iff] at h
        rcases h with ⟨z, hz⟩ | h
        · have := hu.1 (c :: v) (by simp) hv
          rcases prefix_comparable (b := c :: v) (by simpa using hz) with h' | h'
          · exact absurd h' this.2
          · exact absurd h' this.1
        · exact ih ((List.suffix_cons c v).trans hv) h
    exact this u (List.suffix_refl _) h
  | cons c x ih =>
    simp only [List.cons_append] at h
    rw [List.infix_cons_iff] at h
    rcases h with ⟨z, hz⟩ | h
    · have hz' : old ++ z = (c :: x) ++ (u ++ y) := by simpa using hz
      rcases prefix_comparable hz' with h' | h'
      · exact .inl h'.isInfix
      · obtain ⟨o, rfl⟩ := h'
        rw [List.append_assoc] at hz'
        have hz' := List.append_cancel_left hz'
        by_cases ho : o = []
        · subst ho
          exact .inl (by simp)
        · have := hu.2 o ho (List.suffix_append _ _)
          rcases prefix_comparable hz' with h'' | h''
          · exact absurd h'' this.1
          · exact absurd h'' this.2
    · rcases ih h with h | h
      · exact .inl (h.trans (List.suffix_cons c x).isInfix)
      · exact .inr h

end Tink.Setup
