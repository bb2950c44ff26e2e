import Verif.Props.Setup

/-!
# C110: the version, the requirements and the protocol buffers
-/

namespace Tink.Props
open Spec Cli Setup Packaging

namespace Packaging

/-! ## Lines of a file -/

theorem fileLines_line {l : PyStr} (r : PyStr) (hl : 10 ∉ l) : fileLines (l ++ 10 :: r) = (l ++ [10]) :: fileLines r := by
  induction l with
  | nil => rfl
  | cons c l ih =>
    simp only [List.mem_cons, not_or] at hl
    rw [List.cons_append, fileLines, if_neg (Ne.symm hl.1), ih hl.2]
    rfl

theorem fileLines_last {l : PyStr} (h0 : l ≠ []) (hl : 10 ∉ l) : fileLines l = [l] := by
  induction l with
  | nil => exact absurd rfl h0
  | cons c l ih =>
    simp only [List.mem_cons, not_or] at hl
    rw [fileLines, if_neg (Ne.symm hl.1)]
    by_cases h : l = []
    · subst h; rfl
    · rw [ih h hl.2]

theorem fileLines_append (s t : PyStr) : fileLines (s ++ 10 :: t) = fileLines (s ++ [10]) ++ fileLines t := by
  induction s with
  | nil => rfl
  | cons c s ih =>
    simp only [List.cons_append, fileLines]
    by_cases hc : c = 10
    · rw [if_pos hc, if_pos hc, ih]; rfl
    · rw [if_neg hc, if_neg hc, ih]
      cases h : fileLines (s ++ [10]) with
      | nil =>
        rcases line_cases (s ++ [10]) with h' | ⟨l, r, hl, e⟩
        · exact absurd (by simp) h'
        · rw [e, fileLines_line r hl] at h
          cases h
      | cons l ls => rfl

/-- Every text is made of lines. -/
theorem lines_induction {P : PyStr → Prop} (nil : P []) (last : ∀ l, l ≠ [] → 10 ∉ l → P l)
    (line : ∀ l r, 10 ∉ l → P r → P (l ++ 10 :: r)) (s : PyStr) : P s := by
  have : ∀ n (s : PyStr), s.length ≤ n → P s := by
    intro n
    induction n with
    | zero =>
      intro s hs
      have : s = [] := List.eq_nil_of_length_eq_zero (by omega)
      subst this
      exact nil
    | succ n ih =>
      intro s hs
      rcases line_cases s with h | ⟨l, r, hl, rfl⟩
      · by_cases h0 : s = []
        · subst h0; exact nil
        · exact last s h0 h
      · refine line l r hl (ih r ?_)
        simp only [List.length_append, List.length_cons] at hs
        omega
  exact this _ s (Nat.le_refl _)

theorem lineFeed_infix {x l r : PyStr} (hl : 10 ∉ l) : 10 :: x <:+: l ++ 10 :: r ↔ x <+: r ∨ 10 :: x <:+: r := by
  induction l with
  | nil => rw [List.nil_append, List.infix_cons_iff, List.cons_prefix_cons]; simp
  | cons c l ih =>
    simp only [List.mem_cons, not_or] at hl
    rw [List.cons_append, List.infix_cons_iff, ih hl.2, List.cons_prefix_cons]
    constructor
    · rintro (h | h)
      · exact absurd h.1 hl.1
      · exact h
    · exact .inr

theorem prefix_line {x l r : PyStr} (hx : 10 ∉ x) : x <+: l ++ 10 :: r ↔ x <+: l := by
  constructor
  · rintro ⟨z, h⟩
    rcases prefix_comparable h with h' | ⟨o, rfl⟩
    · exact h'
    · rw [List.append_assoc] at h
      have h := List.append_cancel_left h
      cases o with
      | nil => simp
      | cons c o =>
        simp only [List.cons_append, List.cons.injEq] at h
        exact absurd (by simp [h.1]) hx
  · exact fun h => h.trans (List.prefix_append _ _)

/-- A line of the file begins like this. -/
theorem line_starts {x : PyStr} (h0 : x ≠ []) (hx : 10 ∉ x) (s : PyStr) :
    (∃ l ∈ fileLines s, x <+: l) ↔ x <+: s ∨ 10 :: x <:+: s := by
  induction s using lines_induction with
  | nil => simp [fileLines, h0]
  | last l hn hl =>
    rw [fileLines_last hn hl]
    constructor
    · rintro ⟨_, h, h'⟩
      rw [List.mem_singleton] at h
      subst h
      exact .inl h'
    · rintro (h | h)
      · exact ⟨l, by simp, h⟩
      · exact absurd (h.subset (by simp)) hl
  | line l r hl ih =>
    rw [fileLines_line r hl, lineFeed_infix hl, ← ih, prefix_line hx]
    constructor
    · rintro ⟨l', h, h'⟩
      rcases List.mem_cons.1 h with rfl | h
      · exact .inl ((prefix_line (r := []) hx).1 h')
      · exact .inr ⟨l', h, h'⟩
    · rintro (h | ⟨l', h, h'⟩)
      · exact ⟨l ++ [10], by simp, h.trans (List.prefix_append _ _)⟩
      · exact ⟨l', List.mem_cons_of_mem _ h, h'⟩

theorem split_absent {sep s : PyStr} (h : ¬ sep <:+: s) : split sep s = [s] := by
  induction s with
  | nil => rfl
  | cons c s ih =>
    rw [List.infix_cons_iff, not_or] at h
    show splitFrom sep 0 (c :: s) = _
    rw [splitFrom, if_neg (by simpa [List.isPrefixOf_iff_prefix] using h.1),
      show splitFrom sep 0 s = [s] from ih h.2]

theorem dropWhile_around {q : Nat → Bool} {a v z : PyStr} (ha : ∀ c ∈ a, q c = true) (hv : ∀ c ∈ v, q c = false) :
    (a ++ (v ++ z)).dropWhile q = v ++ (if v = [] then z.dropWhile q else z) := by
  induction a with
  | nil =>
    cases v with
    | nil => rfl
    | cons c v => simp [hv c (by simp)]
  | cons c a ih =>
    rw [List.cons_append, List.dropWhile_cons, if_pos (ha c (by simp)), ih fun d hd => ha d (by simp [hd])]

theorem strip_around {chars a v z : PyStr} (ha : ∀ c ∈ a, c ∈ chars) (hv : ∀ c ∈ v, c ∉ chars) (hz : ∀ c ∈ z, c ∈ chars) :
    stripChars chars (a ++ (v ++ z)) = v := by
  unfold stripChars
  have e1 := dropWhile_around (q := (chars.contains ·)) (a := a) (v := v) (z := z) (by simpa using ha) (by simpa using hv)
  rw [e1]
  by_cases h : v = []
  · subst h
    have := dropWhile_around (q := (chars.contains ·)) (a := z) (v := []) (z := []) (by simpa using hz) (by simp)
    simp only [List.nil_append, List.append_nil, if_true, List.dropWhile_nil] at this ⊢
    rw [this]
    rfl
  · rw [if_neg h, List.reverse_append]
    have := dropWhile_around (q := (chars.contains ·)) (a := z.reverse) (v := v.reverse) (z := []) (by simpa using hz)
      (by simpa using hv)
    simp only [List.append_nil, List.dropWhile_nil, ite_self] at this
    rw [this, List.reverse_reverse]

/-- The version in a line of the file. -/
theorem version_line {v z : PyStr} (hv : ∀ c ∈ v, c ∉ py! "\n '\"") (hz : z = [] ∨ z = [10]) :
    stripChars (py! "\n '\"") ((split (py! " = ") (py! "TINK_VERSION_LABEL = \"" ++ v ++ py! "\"" ++ z)).getLastD []) = v := by
  have e : split (py! " = ") (py! "TINK_VERSION_LABEL = \"" ++ v ++ py! "\"" ++ z) =
      py! "TINK_VERSION_LABEL" :: split (py! " = ") (py! "\"" ++ (v ++ (py! "\"" ++ z))) := by
    simp only [List.append_assoc]
    rfl
  rw [e, split_absent]
  · show stripChars (py! "\n '\"") (py! "\"" ++ (v ++ (py! "\"" ++ z))) = v
    refine strip_around (by decide) hv ?_
    rcases hz with rfl | rfl <;> decide
  · intro h
    have := h.subset (show 32 ∈ py! " = " by decide)
    simp only [List.mem_append] at this
    rcases this with h | h | h | h
    · exact absurd h (by decide)
    · exact hv 32 h (by decide)
    · exact absurd h (by decide)
    · rcases hz with rfl | rfl <;> exact absurd h (by decide)

end Packaging

/-! ## The version -/

/-- The version is that of the first line that begins with the label. -/
theorem C110_version {before v after : PyStr} (hb : BeforeLine before)
    (h1 : ¬ py! "TINK_VERSION_LABEL" <+: before) (h2 : ¬ 10 :: py! "TINK_VERSION_LABEL" <:+: before)
    (hv : ∀ c ∈ v, c ∉ py! "\n '\"") (ha : after = [] ∨ ∃ r, after = 10 :: r) :
    getTinkVersion (before ++ (py! "TINK_VERSION_LABEL = \"" ++ v ++ py! "\"" ++ after)) = .ok v := by
  have hsplit : ∀ t, fileLines (before ++ t) = fileLines before ++ fileLines t := by
    intro t
    rcases hb with rfl | ⟨s, rfl⟩
    · rfl
    · rw [List.append_assoc]; exact fileLines_append s t
  have hnone : (fileLines before).find? (fun line => startsWith line (py! "TINK_VERSION_LABEL")) = none := by
    rw [List.find?_eq_none]
    intro l hl hs
    have := (line_starts (by decide) (by decide) before).1 ⟨l, hl, List.isPrefixOf_iff_prefix.1 hs⟩
    rcases this with h | h
    · exact h1 h
    · exact h2 h
  have h10 : 10 ∉ py! "TINK_VERSION_LABEL = \"" ++ v ++ py! "\"" := by
    have : 10 ∉ v := fun h => hv 10 h (by decide)
    simp [this]
  have hline : ∃ z ls, (z = [] ∨ z = [10]) ∧ fileLines (py! "TINK_VERSION_LABEL = \"" ++ v ++ py! "\"" ++ after) =
      (py! "TINK_VERSION_LABEL = \"" ++ v ++ py! "\"" ++ z) :: ls := by
    rcases ha with rfl | ⟨r, rfl⟩
    · refine ⟨[], [], .inl rfl, ?_⟩
      rw [List.append_nil]
      exact fileLines_last (by simp) h10
    · exact ⟨[10], fileLines r, .inr rfl, fileLines_line r h10⟩
  obtain ⟨z, ls, hz, hl⟩ := hline
  unfold getTinkVersion
  rw [hsplit, List.find?_append, hnone, hl, List.find?_cons_of_pos (by simp [startsWith])]
  show Except.ok _ = _
  rw [version_line hv hz]

/-- There is an error, a `ValueError`, just if no line begins with the label. -/
theorem C110_version_error (text : PyStr) (e : Exc) : getTinkVersion text = .error e ↔
    e = .valueError ∧ ¬ py! "TINK_VERSION_LABEL" <+: text ∧ ¬ 10 :: py! "TINK_VERSION_LABEL" <:+: text := by
  rw [← not_or, ← line_starts (by decide) (by decide) text]
  unfold getTinkVersion
  cases h : (fileLines text).find? fun line => startsWith line (py! "TINK_VERSION_LABEL") with
  | none =>
    rw [List.find?_eq_none] at h
    constructor
    · intro h'
      cases h'
      exact ⟨rfl, fun ⟨l, hl, hs⟩ => h l hl (List.isPrefixOf_iff_prefix.2 hs)⟩
    · rintro ⟨rfl, _⟩; rfl
  | some l =>
    constructor
    · intro h'; cases h'
    · rintro ⟨_, hn⟩
      exact absurd ⟨l, List.mem_of_find?_eq_some h, List.isPrefixOf_iff_prefix.1 (by simpa [startsWith] using List.find?_some h)⟩ hn

/-! ## Requirements -/

namespace Packaging

theorem kept_cons (line : PyStr) (ls : List PyStr) :
    ((line :: ls).filter fun line => !(isspace line || startsWith line (py! "#"))).map rstrip =
      if isspace line || startsWith line (py! "#") then
        (ls.filter fun line => !(isspace line || startsWith line (py! "#"))).map rstrip
      else rstrip line :: (ls.filter fun line => !(isspace line || startsWith line (py! "#"))).map rstrip := by
  rw [List.filter_cons]
  cases isspace line || startsWith line (py! "#") <;> rfl

theorem parse_line {l : PyStr} (r : PyStr) (hl : 10 ∉ l) : parseRequirements (l ++ 10 :: r) =
    if isspace (l ++ [10]) || startsWith (l ++ [10]) (py! "#") then parseRequirements r
    else rstrip (l ++ [10]) :: parseRequirements r := by
  unfold parseRequirements
  rw [fileLines_line r hl, kept_cons]

theorem parse_last {l : PyStr} (h0 : l ≠ []) (hl : 10 ∉ l) : parseRequirements l =
    if isspace l || startsWith l (py! "#") then [] else [rstrip l] := by
  unfold parseRequirements
  rw [fileLines_last h0 hl, kept_cons]
  rfl

theorem blank_isspace {l : PyStr} (h0 : l ≠ []) (h : OnlySpace l) : isspace l = true := by
  unfold isspace
  rw [Bool.and_eq_true, List.all_eq_true]
  exact ⟨by simpa using h0, h⟩

theorem requirement_not {r l : PyStr} {c : Nat} (hh : (r ++ [c]).head? ≠ some 35) (hc : Setup.isSpace c = false) :
    (isspace (r ++ c :: l) || startsWith (r ++ c :: l) (py! "#")) = false := by
  rw [Bool.or_eq_false_iff]
  constructor
  · rw [← Bool.not_eq_true]
    intro h
    unfold isspace at h
    rw [Bool.and_eq_true, List.all_eq_true] at h
    rw [h.2 c (by simp)] at hc
    cases hc
  · rw [← Bool.not_eq_true]
    intro h
    have h := List.isPrefixOf_iff_prefix.1 h
    cases r with
    | nil =>
      simp only [List.nil_append, List.cons_prefix_cons] at h
      exact hh (by simp [← h.1])
    | cons d r =>
      simp only [List.cons_append, List.cons_prefix_cons] at h
      exact hh (by simp [← h.1])

theorem rstrip_blank {r l : PyStr} {c : Nat} (hc : Setup.isSpace c = false) (hl : OnlySpace l) :
    rstrip (r ++ c :: l) = r ++ [c] := by
  unfold rstrip
  have e : (r ++ c :: l).reverse = l.reverse ++ ([c] ++ r.reverse) := by simp
  have := dropWhile_around (q := Setup.isSpace) (a := l.reverse) (v := [c]) (z := r.reverse)
    (by intro d hd; exact hl d (by simpa using hd)) (by simpa using hc)
  rw [e, this]
  simp

theorem blank_lineFeed {l : PyStr} (h : OnlySpace l) : OnlySpace (l ++ [10]) := by
  intro c hc
  rcases List.mem_append.1 hc with hc | hc
  · exact h c hc
  · simp only [List.mem_singleton] at hc
    subst hc
    rfl

theorem requirements_parse {text : PyStr} {rs : List PyStr} (h : Requirements text rs) : parseRequirements text = rs := by
  induction h with
  | nil => rfl
  | @blank l s rs hl hb _ ih =>
    rw [parse_line s hl, blank_isspace (by simp) (blank_lineFeed hb), Bool.true_or, if_pos rfl, ih]
  | @comment l s rs hl _ ih =>
    rw [parse_line s (by simpa using hl)]
    have : startsWith (35 :: l ++ [10]) (py! "#") = true := by simp [startsWith]
    rw [this, Bool.or_true, if_pos rfl, ih]
  | @requirement r c l s rs hl hh hc hb _ ih =>
    rw [parse_line s hl, List.append_assoc, List.cons_append, requirement_not hh hc, rstrip_blank hc (blank_lineFeed hb), ih]
    rfl
  | @lastBlank l h0 hl hb => rw [parse_last h0 hl, blank_isspace h0 hb, Bool.true_or, if_pos rfl]
  | @lastComment l hl =>
    rw [parse_last (by simp) (by simpa using hl)]
    have : startsWith (35 :: l) (py! "#") = true := by simp [startsWith]
    rw [this, Bool.or_true, if_pos rfl]
  | @lastRequirement r c l hl hh hc hb =>
    rw [parse_last (by simp) hl, requirement_not hh hc, rstrip_blank hc hb]
    rfl

theorem line_kinds (l : PyStr) : OnlySpace l ∨ (∃ l', l = 35 :: l') ∨
    ∃ r c z, l = r ++ c :: z ∧ (r ++ [c]).head? ≠ some 35 ∧ Setup.isSpace c = false ∧ OnlySpace z := by
  have last : ∀ l : PyStr, OnlySpace l ∨ ∃ r c z, l = r ++ c :: z ∧ Setup.isSpace c = false ∧ OnlySpace z := by
    intro l
    induction l with
    | nil => exact .inl (by simp [OnlySpace])
    | cons d l ih =>
      rcases ih with ih | ⟨r, c, z, rfl, h1, h2⟩
      · cases hd : Setup.isSpace d with
        | true =>
          left
          intro c hc
          rcases List.mem_cons.1 hc with rfl | hc
          · exact hd
          · exact ih c hc
        | false => exact .inr ⟨[], d, l, rfl, hd, ih⟩
      · exact .inr ⟨d :: r, c, z, rfl, h1, h2⟩
  rcases last l with h | ⟨r, c, z, rfl, h1, h2⟩
  · exact .inl h
  · by_cases hh : (r ++ [c]).head? = some 35
    · right; left
      cases r with
      | nil => simp at hh; subst hh; exact ⟨z, rfl⟩
      | cons d r => simp at hh; subst hh; exact ⟨r ++ c :: z, rfl⟩
    · exact .inr (.inr ⟨r, c, z, rfl, hh, h1, h2⟩)

theorem exists_requirements (text : PyStr) : ∃ rs, Requirements text rs := by
  induction text using lines_induction with
  | nil => exact ⟨[], .nil⟩
  | last l h0 hl =>
    rcases line_kinds l with h | ⟨l', rfl⟩ | ⟨r, c, z, rfl, h1, h2, h3⟩
    · exact ⟨[], .lastBlank h0 hl h⟩
    · exact ⟨[], .lastComment (fun h => hl (List.mem_cons_of_mem _ h))⟩
    · exact ⟨_, .lastRequirement hl h1 h2 h3⟩
  | line l r hl ih =>
    obtain ⟨rs, ih⟩ := ih
    rcases line_kinds l with h | ⟨l', rfl⟩ | ⟨r, c, z, rfl, h1, h2, h3⟩
    · exact ⟨rs, .blank hl h ih⟩
    · exact ⟨rs, .comment (fun h => hl (List.mem_cons_of_mem _ h)) ih⟩
    · exact ⟨_, .requirement hl h1 h2 h3 ih⟩

end Packaging

/-- The requirements that are read are those in the file, in their order. -/
theorem C110_requirements (text : PyStr) (rs : List PyStr) : parseRequirements text = rs ↔ Requirements text rs := by
  constructor
  · rintro rfl
    obtain ⟨rs, h⟩ := exists_requirements text
    rw [requirements_parse h]
    exact h
  · exact requirements_parse

/-! ## Protocol buffers -/

namespace Packaging

theorem proto_borderless : Borderless (py! ".proto") := by
  intro v hv hs hp
  have : ∀ n, n < 6 → (py! ".proto").drop n <+: py! ".proto" → n = 0 := by decide
  have e := List.suffix_iff_eq_drop.1 hs
  have h6 : (py! ".proto").length = 6 := rfl
  have hl := hs.length_le
  have hpos := List.length_pos_iff.2 hv
  have := this ((py! ".proto").length - v.length) (by omega) (by rw [← e]; exact hp)
  rw [this] at e
  exact e

theorem output_eq {source stem : PyStr} (h : ProtoSource source stem) : protoOutput source = stem ++ py! "_pb2.py" := by
  obtain ⟨rfl, h⟩ := h
  have := replace_first (new := py! "_pb2.py") (t := []) (by decide) proto_borderless h
  rw [List.append_nil, replace_nil, List.append_nil] at this
  exact this

/-- The output is there and not older than the source. -/
def Current (t : Times) (source stem : PyStr) : Prop :=
  ∃ k k', t source = some k ∧ t (stem ++ py! "_pb2.py") = some k' ∧ k ≤ k'

theorem source_ne_output {source stem stem' : PyStr} (h : ProtoSource source stem) : source ≠ stem' ++ py! "_pb2.py" := by
  rintro rfl
  have := List.append_inj_right' (show stem' ++ py! "_pb2.p" ++ [121] = stem ++ py! ".prot" ++ [111] by simpa using h.1) rfl
  exact absurd this (by decide)

/-- One source. -/
theorem generate_step {protoc : PyStr → Times → Py Times} (hc : Compiles protoc) {source stem : PyStr}
    (hs : ProtoSource source stem) {t t' : Times} (h : generateProto protoc source t = .ok t') :
    Current t' source stem ∧ ∀ p, p ≠ stem ++ py! "_pb2.py" → t' p = t p := by
  have run : ∀ k, t source = some k → protoc source t = .ok t' →
      Current t' source stem ∧ ∀ p, p ≠ stem ++ py! "_pb2.py" → t' p = t p := by
    intro k hk h
    obtain ⟨⟨k', h1, h2⟩, h3⟩ := hc source stem t t' hs h
    exact ⟨⟨k, k', by rw [h3 source (source_ne_output hs), hk], h1, h2 k hk⟩, h3⟩
  unfold generateProto at h
  rw [output_eq hs] at h
  cases hk : t source with
  | none => rw [hk] at h; cases h
  | some k =>
    rw [hk] at h
    dsimp only at h
    cases ho : t (stem ++ py! "_pb2.py") with
    | none => rw [ho] at h; exact run k hk h
    | some k' =>
      rw [ho] at h
      dsimp only at h
      split at h
      · next hlt =>
        cases h
        exact ⟨⟨k, k', hk, ho, Nat.le_of_lt hlt⟩, fun p _ => rfl⟩
      · exact run k hk h

theorem current_keeps {protoc : PyStr → Times → Py Times} (hc : Compiles protoc) {source stem source' stem' : PyStr}
    (hs : ProtoSource source stem) (hs' : ProtoSource source' stem') {t t' : Times} (h : generateProto protoc source' t = .ok t')
    (hcur : Current t source stem) : Current t' source stem := by
  obtain ⟨h1, h2⟩ := generate_step hc hs' h
  by_cases he : stem = stem'
  · subst he
    rw [hs.1, ← hs'.1]
    exact h1
  · obtain ⟨k, k', e1, e2, e3⟩ := hcur
    refine ⟨k, k', ?_, ?_, e3⟩
    · rw [h2 _ (source_ne_output hs), e1]
    · rw [h2 _ (fun e => he (List.append_cancel_right e)), e2]

theorem current_all {protoc : PyStr → Times → Py Times} (hc : Compiles protoc) {sources : List PyStr}
    (hs : ∀ s ∈ sources, ∃ stem, ProtoSource s stem) {t t' : Times} (h : generateProtos protoc sources t = .ok t')
    {source stem : PyStr} (hso : ProtoSource source stem) (hcur : Current t source stem) : Current t' source stem := by
  induction sources generalizing t with
  | nil => cases h; exact hcur
  | cons s ss ih =>
    obtain ⟨t1, h1, h2⟩ := bind_ok_iff.1 h
    obtain ⟨stem', hs'⟩ := hs s (by simp)
    exact ih (fun s hm => hs s (List.mem_cons_of_mem _ hm)) h2 (current_keeps hc hso hs' h1 hcur)

end Packaging

/-- If the loop over the sources succeeds, every one of them has its output, and it is not older than the source. -/
theorem C110_protos {protoc : PyStr → Times → Py Times} (hc : Compiles protoc) {sources : List PyStr}
    (hs : ∀ s ∈ sources, ∃ stem, ProtoSource s stem) {t t' : Times} (h : generateProtos protoc sources t = .ok t') :
    ∀ source ∈ sources, ∀ stem, ProtoSource source stem →
      ∃ k k', t' source = some k ∧ t' (stem ++ py! "_pb2.py") = some k' ∧ k ≤ k' := by
  induction sources generalizing t with
  | nil => intro s hm; cases hm
  | cons s ss ih =>
    obtain ⟨t1, h1, h2⟩ := bind_ok_iff.1 h
    have hss : ∀ s ∈ ss, ∃ stem, ProtoSource s stem := fun s hm => hs s (List.mem_cons_of_mem _ hm)
    intro source hm stem hso
    rcases List.mem_cons.1 hm with rfl | hm
    · exact current_all hc hss h2 hso (generate_step hc hso h1).1
    · exact ih hss h2 source hm stem hso

/-- Nothing but outputs of the sources is changed by it. -/
theorem C110_protos_only {protoc : PyStr → Times → Py Times} (hc : Compiles protoc) {sources : List PyStr}
    (hs : ∀ s ∈ sources, ∃ stem, ProtoSource s stem) {t t' : Times} (h : generateProtos protoc sources t = .ok t')
    {p : PyStr} (hp : ∀ source ∈ sources, ∀ stem, ProtoSource source stem → p ≠ stem ++ py! "_pb2.py") : t' p = t p := by
  induction sources generalizing t with
  | nil => cases h; rfl
  | cons s ss ih =>
    obtain ⟨t1, h1, h2⟩ := bind_ok_iff.1 h
    obtain ⟨stem, hso⟩ := hs s (by simp)
    rw [ih (fun s hm => hs s (List.mem_cons_of_mem _ hm)) h2 fun s hm => hp s (List.mem_cons_of_mem _ hm)]
    exact (generate_step hc hso h1).2 p (hp s (by simp) stem hso)

/-- If every output is newer than its source, the compiler is not run. -/
theorem C110_protos_newer (protoc : PyStr → Times → Py Times) {sources : List PyStr} {t : Times}
    (h : ∀ source ∈ sources, ∃ stem k k', ProtoSource source stem ∧ t source = some k ∧
      t (stem ++ py! "_pb2.py") = some k' ∧ k < k') : generateProtos protoc sources t = .ok t := by
  induction sources with
  | nil => rfl
  | cons s ss ih =>
    obtain ⟨stem, k, k', hs, e1, e2, hlt⟩ := h s (by simp)
    have : generateProto protoc s t = .ok t := by
      unfold generateProto
      rw [output_eq hs, e1]
      dsimp only
      rw [e2]
      dsimp only
      rw [if_pos hlt]
    exact bind_ok_iff.2 ⟨t, this, ih fun s hm => h s (List.mem_cons_of_mem _ hm)⟩

/-- If a source is missing the loop fails. -/
theorem C110_protos_missing {protoc : PyStr → Times → Py Times} (hc : Compiles protoc) {sources : List PyStr}
    (hs : ∀ s ∈ sources, ∃ stem, ProtoSource s stem) {t : Times} {source : PyStr} (hm : source ∈ sources)
    (hn : t source = none) : ∃ e, generateProtos protoc sources t = .error e := by
  cases h : generateProtos protoc sources t with
  | error e => exact ⟨e, rfl⟩
  | ok t' =>
    obtain ⟨stem, hso⟩ := hs source hm
    obtain ⟨k, _, h1, _⟩ := C110_protos hc hs h source hm stem hso
    rw [C110_protos_only hc hs h (fun _ _ _ _ => source_ne_output hso), hn] at h1
    cases h1

end Tink.Props
