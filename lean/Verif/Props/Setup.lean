import Verif.Setup.Lemmas
import Verif.Spec.Setup
import Verif.Cli.Lemmas

/-!
# C110: what `setup.py` makes of the files of the package
-/

namespace Tink.Props
open Spec Cli Setup

namespace Packaging

/-! ## The line that loads the rule -/

/-- The text with the line that makes the rule known. -/
def inserted (s : PyStr) : PyStr :=
  if !isIn httpArchiveLoad s then join [10] ([(split [10] s).headD [], httpArchiveLoad] ++ (split [10] s).tail) else s

theorem patch_eq (s f p : PyStr) : patchWithHttpArchive s f p = replace cc (ccPatched f p) (inserted s) := rfl

theorem inserted_present {s : PyStr} (h : httpArchiveLoad <:+: s) : inserted s = s := by
  unfold inserted
  rw [isIn_iff.2 h]
  rfl

theorem line_unique {l l' r r' : PyStr} (h : 10 ∉ l) (h' : 10 ∉ l') (e : l ++ 10 :: r = l' ++ 10 :: r') :
    l = l' ∧ r = r' := by
  induction l generalizing l' with
  | nil =>
    cases l' with
    | nil => simpa using e
    | cons c l' =>
      simp only [List.nil_append, List.cons_append, List.cons.injEq] at e
      exact absurd e.1.symm (fun e' => h' (by simp [e']))
  | cons c l ih =>
    cases l' with
    | nil =>
      simp only [List.nil_append, List.cons_append, List.cons.injEq] at e
      exact absurd e.1 (fun e' => h (by simp [e']))
    | cons d l' =>
      simp only [List.cons_append, List.cons.injEq] at e
      obtain ⟨rfl, e⟩ := e
      obtain ⟨rfl, rfl⟩ := ih (fun e => h (List.mem_cons_of_mem _ e)) (fun e => h' (List.mem_cons_of_mem _ e)) e
      exact ⟨rfl, rfl⟩

theorem inserted_absent {l r : PyStr} (hl : 10 ∉ l) (h : ¬ httpArchiveLoad <:+: l ++ 10 :: r) :
    inserted (l ++ 10 :: r) = l ++ 10 :: (httpArchiveLoad ++ 10 :: r) := by
  unfold inserted
  rw [if_pos (by simpa [← isIn_iff] using h)]
  obtain ⟨l', ls, h1, h2, h3⟩ := split_lines (l ++ 10 :: r)
  rw [h1]
  rcases h3 with ⟨rfl, e⟩ | ⟨hne, e⟩
  · exact absurd rfl (h2 10 (by rw [← e]; simp))
  · obtain ⟨rfl, rfl⟩ := line_unique hl (fun m => h2 10 m rfl) e
    show join [10] (l :: httpArchiveLoad :: ls) = _
    rw [join_cons (by simp), join_cons hne]
    simp

theorem inserted_oneLine {l : PyStr} (hl : 10 ∉ l) (h : ¬ httpArchiveLoad <:+: l) :
    inserted l = l ++ 10 :: httpArchiveLoad := by
  unfold inserted
  rw [if_pos (by simpa [← isIn_iff] using h)]
  obtain ⟨l', ls, h1, h2, h3⟩ := split_lines l
  rw [h1]
  rcases h3 with ⟨rfl, rfl⟩ | ⟨hne, e⟩
  · simp [join]
  · exact absurd (by rw [e]; simp) hl

/-- A text is one line, or a first line and more. -/
theorem line_cases (s : PyStr) : 10 ∉ s ∨ ∃ l r, 10 ∉ l ∧ s = l ++ 10 :: r := by
  obtain ⟨l, ls, _, h2, h3⟩ := split_lines s
  rcases h3 with ⟨rfl, rfl⟩ | ⟨_, e⟩
  · exact .inl fun m => h2 10 m rfl
  · exact .inr ⟨l, _, fun m => h2 10 m rfl, e⟩

theorem inserted_has (s : PyStr) : httpArchiveLoad <:+: inserted s := by
  by_cases h : httpArchiveLoad <:+: s
  · rw [inserted_present h]; exact h
  rcases line_cases s with hs | ⟨l, r, hl, rfl⟩
  · rw [inserted_oneLine hs h]
    exact ⟨s ++ [10], [], by simp⟩
  · rw [inserted_absent hl h]
    exact ⟨l ++ [10], 10 :: r, by simp⟩

/-! ## The rules -/

theorem rule_eq (f p : PyStr) : ccPatched f p = archiveRule f p := by
  simp only [ccPatched, archiveRule, List.append_assoc, List.cons_append, List.nil_append]

/-- The names that the environment asks for. -/
theorem patchText_cases (env : Environ) {rule : PyStr} (h : RuleFor env rule) (s : PyStr) :
    patchText env s = replace cc rule (inserted s) := by
  cases h with
  | @tagged v h =>
    have : patchText env s = patchWithHttpArchive s (py! "v" ++ v ++ py! ".zip") (py! "tink-" ++ v) := by
      unfold patchText
      rw [show env (py! "TINK_PYTHON_SETUPTOOLS_TAGGED_VERSION") = some v from h]
    rw [this, patch_eq, rule_eq]
  | master h =>
    have : patchText env s = patchWithHttpArchive s (py! "master.zip") (py! "tink-master") := by
      unfold patchText
      rw [show env (py! "TINK_PYTHON_SETUPTOOLS_TAGGED_VERSION") = none from h]
    rw [this, patch_eq, rule_eq]

theorem exists_rule (env : Environ) : ∃ rule, RuleFor env rule := by
  cases h : env taggedVersion with
  | none => exact ⟨_, .master h⟩
  | some v => exact ⟨_, .tagged h⟩

theorem rule_apart {env : Environ} (hp : PlainTag env) {rule : PyStr} (h : RuleFor env rule) : Apart rule cc := by
  cases h with
  | @tagged v h =>
    rw [← rule_eq]
    have := (hp v h).1
    exact ccPatched_apart (by simp [this]) (by simp [this])
  | master h =>
    rw [← rule_eq]
    exact ccPatched_apart (by decide) (by decide)

theorem rule_plain {env : Environ} (hp : PlainTag env) {rule : PyStr} (h : RuleFor env rule) : 13 ∉ rule := by
  cases h with
  | @tagged v h =>
    have := (hp v h).2
    simp [archiveRule, this]
  | master h => decide

theorem mem_replace {old new s : PyStr} {c : Nat} {k : Nat} (h : c ∈ replaceFrom old new k s) : c ∈ s ∨ c ∈ new := by
  induction s generalizing k with
  | nil => cases k <;> simp [replaceFrom] at h
  | cons d s ih =>
    cases k with
    | succ k =>
      rcases ih h with h | h
      · exact .inl (List.mem_cons_of_mem _ h)
      · exact .inr h
    | zero =>
      rw [replaceFrom] at h
      split at h
      · rcases List.mem_append.1 h with h | h
        · exact .inr h
        · rcases ih h with h | h
          · exact .inl (List.mem_cons_of_mem _ h)
          · exact .inr h
      · rcases List.mem_cons.1 h with rfl | h
        · exact .inl (by simp)
        · rcases ih h with h | h
          · exact .inl (List.mem_cons_of_mem _ h)
          · exact .inr h

theorem mem_inserted {s : PyStr} {c : Nat} (h : c ∈ inserted s) : c ∈ s ∨ c = 10 ∨ c ∈ httpArchiveLoad := by
  by_cases hl : httpArchiveLoad <:+: s
  · rw [inserted_present hl] at h; exact .inl h
  rcases line_cases s with hs | ⟨l, r, hr, rfl⟩
  · rw [inserted_oneLine hs hl] at h
    simp only [List.mem_append, List.mem_cons] at h
    exact h
  · rw [inserted_absent hr hl] at h
    simp only [List.mem_append, List.mem_cons] at h ⊢
    rcases h with h | h | h | h | h
    · exact .inl (.inl h)
    · exact .inr (.inl h)
    · exact .inr (.inr h)
    · exact .inr (.inl h)
    · exact .inl (.inr (.inr h))

theorem patched_plain {env : Environ} (hp : PlainTag env) {s : PyStr} (hs : 13 ∉ s) : 13 ∉ patchText env s := by
  obtain ⟨rule, hr⟩ := exists_rule env
  rw [patchText_cases env hr]
  intro h
  rcases mem_replace h with h | h
  · rcases mem_inserted h with h | h | h
    · exact hs h
    · cases h
    · exact absurd h (by decide)
  · exact rule_plain hp hr h

theorem replace_pieces {rule : PyStr} {ps : List PyStr} {s : PyStr} (h : WithRules localRule ps s)
    (hp : ∀ p ∈ ps, ¬ localRule <:+: p) : WithRules rule ps (replace cc rule s) := by
  induction h with
  | @last p => rw [show replace cc rule p = p from replace_absent (hp p (by simp))]; exact .last
  | @more p ps s _ ih =>
    have := replace_first (new := rule) (t := s) cc_ne_nil cc_borderless (hp p (by simp))
    rw [show p ++ localRule ++ s = p ++ cc ++ s from rfl, this]
    exact .more (ih fun q hq => hp q (List.mem_cons_of_mem _ hq))

theorem mem_pieces {rule p q s : PyStr} {ps : List PyStr} (h : WithRules rule (p :: q :: ps) s) {c : Nat} (hc : c ∈ rule) :
    c ∈ s := by
  cases h with
  | more => simp [hc]

end Packaging
open Packaging

/-! ## The text -/

/-- Every local rule for the C++ library becomes the rule for the archive that the environment asks for; after the first
line there is a new line that makes that rule known.  Nothing else changes. -/
theorem C110_archive (env : Environ) (_plain : PlainTag env) {rule : PyStr} (hr : RuleFor env rule)
    {line rest content : PyStr} {pieces : List PyStr} (hl : 10 ∉ line)
    (hw : WithRules localRule ((line ++ 10 :: rest) :: pieces) content)
    (hp : ∀ p ∈ (line ++ 10 :: rest) :: pieces, ¬ localRule <:+: p) (hn : ¬ loadLine <:+: content) :
    WithRules rule ((line ++ 10 :: (loadLine ++ 10 :: rest)) :: pieces) (patchText env content) := by
  rw [patchText_cases env hr]
  have first : ∃ t, content = line ++ 10 :: (rest ++ t) ∧
      WithRules localRule ((line ++ 10 :: (loadLine ++ 10 :: rest)) :: pieces) (line ++ 10 :: (loadLine ++ 10 :: (rest ++ t))) := by
    cases hw with
    | last => exact ⟨[], by simp, by simpa using WithRules.last⟩
    | @more p ps s h =>
      refine ⟨localRule ++ s, by simp, ?_⟩
      have : line ++ 10 :: (loadLine ++ 10 :: (rest ++ (localRule ++ s))) =
          (line ++ 10 :: (loadLine ++ 10 :: rest)) ++ localRule ++ s := by simp
      rw [this]
      exact .more h
  obtain ⟨t, rfl, ht⟩ := first
  rw [inserted_absent hl hn]
  apply replace_pieces ht
  intro p hm
  rcases List.mem_cons.1 hm with rfl | hm
  · intro h
    have e : line ++ 10 :: (loadLine ++ 10 :: rest) = (line ++ [10]) ++ httpArchiveLoad ++ (10 :: rest) := by
      show _ = (line ++ [10]) ++ loadLine ++ (10 :: rest)
      simp
    rw [e] at h
    apply hp (line ++ 10 :: rest) (by simp)
    rcases infix_around load_apart h with h | h
    · exact List.IsInfix.trans h ⟨[], rest, by simp⟩
    · exact List.IsInfix.trans h ⟨line, [], by simp⟩
  · exact hp p (List.mem_cons_of_mem _ hm)

/-- If the rule is known already, only the local rules change. -/
theorem C110_archive_known (env : Environ) (_plain : PlainTag env) {rule : PyStr} (hr : RuleFor env rule)
    {content : PyStr} {pieces : List PyStr} (hw : WithRules localRule pieces content)
    (hp : ∀ p ∈ pieces, ¬ localRule <:+: p) (hn : loadLine <:+: content) :
    WithRules rule pieces (patchText env content) := by
  rw [patchText_cases env hr, inserted_present hn]
  exact replace_pieces hw hp

/-- A text that has been patched has the line that makes the rule known and no local rule, whatever it was before. -/
theorem C110_patched (env : Environ) (plain : PlainTag env) (content : PyStr) :
    loadLine <:+: patchText env content ∧ ¬ localRule <:+: patchText env content := by
  obtain ⟨rule, hr⟩ := exists_rule env
  rw [patchText_cases env hr]
  exact ⟨replace_keeps cc_ne_nil load_apart (Nat.le_refl _) (inserted_has content),
    replace_gone cc_ne_nil (rule_apart plain hr) (Nat.le_refl _)⟩

/-- Patching it again, in whatever environment, changes nothing. -/
theorem C110_patched_again (env env' : Environ) (plain : PlainTag env) (content : PyStr) :
    patchText env' (patchText env content) = patchText env content := by
  obtain ⟨h1, h2⟩ := C110_patched env plain content
  obtain ⟨rule, hr⟩ := exists_rule env'
  rw [patchText_cases env' hr, inserted_present h1]
  exact replace_absent h2

/-! ## The file -/

namespace Packaging
variable {κ : Type}

theorem lineFeeds_plain {s t : PyStr} (h : LineFeeds s t) : 13 ∉ t := by
  induction h with
  | nil => simp
  | crlf _ ih => simpa using ih
  | cr _ _ ih => simpa using ih
  | @other c s t hc _ ih => simpa [ih] using Ne.symm hc

theorem lineFeeds_refl {s : PyStr} (h : 13 ∉ s) : LineFeeds s s := by
  induction s with
  | nil => exact .nil
  | cons c s ih =>
    simp only [List.mem_cons, not_or] at h
    exact .other (Ne.symm h.1) (ih h.2)

theorem textOf_plain {b : Bytes} {text : PyStr} (h : TextOf b text) : 13 ∉ text := by
  obtain ⟨s, _, h⟩ := h
  exact lineFeeds_plain h

theorem read_ok {os : Os} {path : Path} {w : World κ} {b : Bytes} {text : PyStr}
    (hb : FileHolds os w.files path b) (ht : TextOf b text) : (readText os path : Run κ PyStr) w = (.ok text, w) := by
  unfold readText
  rw [run_bind]
  unfold readBytes
  simp only [hb.2, hb.1, if_true]
  rw [run_lift, (textOf_iff b text).1 ht]

theorem put_put (w : World κ) (f : Nat) (a b : Bytes) : (w.put f a).put f b = w.put f b := by
  unfold World.put
  simp only [World.mk.injEq, and_true]
  funext g
  split <;> rfl

/-- Patching a file that can be read and opened. -/
theorem patch_file {os : Os} {path : Path} {w : World κ} {b : Bytes} {text : PyStr}
    (hb : FileHolds os w.files path b) (ht : TextOf b text) (hw : os.writable path = true) (env : Environ) :
    (patchWorkspace os env path : Run κ Unit) w =
      match utf8Encode (patchText env text) with
      | .error e => (.error e, w.put (os.file path) [])
      | .ok b' =>
        match os.stored path b' with
        | none => (.ok (), w.put (os.file path) b')
        | some k => (.error .osError, w.put (os.file path) (b'.take k)) := by
  unfold patchWorkspace
  rw [run_bind, read_ok hb ht]
  dsimp only
  rw [run_bind]
  unfold openWrite
  rw [if_pos hw]
  dsimp only
  unfold writeText
  rw [lift_bind]
  cases h : utf8Encode (patchText env text) with
  | error e => rfl
  | ok b' =>
    dsimp only
    unfold writeBytes
    cases os.stored path b' with
    | none => dsimp only; rw [put_put]
    | some k => dsimp only; rw [put_put]

theorem patch_rest {os : Os} {path : Path} {b : Bytes} {text : PyStr} (hr : os.readable path = true)
    (hw : os.writable path = true) (hs : ∀ d, os.stored path d = none) (he : utf8Encode text = .ok b) (hn : 13 ∉ text)
    (hp : ∀ env, patchText env text = text) (envs : List Environ) (w : World κ) :
    (patchAll os path envs : Run κ Unit) (w.put (os.file path) b) = (.ok (), w.put (os.file path) b) := by
  induction envs with
  | nil => rfl
  | cons env envs ih =>
    unfold patchAll
    have hb : FileHolds os (w.put (os.file path) b).files path b := ⟨hr, by simp [World.put]⟩
    rw [run_bind, patch_file hb ⟨text, he, lineFeeds_refl hn⟩ hw, hp env, he]
    dsimp only
    rw [hs]
    dsimp only
    rw [put_put]
    exact ih

end Packaging

/-- The first run decides: after it has patched the workspace, further runs, in whatever environments, succeed and leave
the file as it is.  So a source distribution made for a tagged version is built against that version wherever it is
built. -/
theorem C110_first_decides {κ : Type} (os : Os) (path : Path) (w : World κ) {b b' : Bytes} {text : PyStr}
    (hb : FileHolds os w.files path b) (ht : TextOf b text) (hw : os.writable path = true)
    (hs : ∀ d, os.stored path d = none) (env : Environ) (plain : PlainTag env)
    (he : utf8Encode (patchText env text) = .ok b') (envs : List Environ) :
    ∃ w', (patchAll os path (env :: envs) : Run κ Unit) w = (.ok (), w') ∧
      Updated (os.file path) b' w.files w'.files ∧ w'.kms = w.kms ∧ w'.blobs = w.blobs := by
  refine ⟨w.put (os.file path) b', ?_, put_updated w _ _, rfl, rfl⟩
  unfold patchAll
  rw [run_bind, patch_file hb ht hw, he]
  dsimp only
  rw [hs]
  dsimp only
  exact patch_rest hb.1 hw hs he (patched_plain plain (textOf_plain ht)) (fun env' => C110_patched_again env env' plain text)
    envs w

/-- A version that cannot be encoded (such as a variable of the environment that is not UTF-8) destroys the workspace:
the run fails, and leaves an empty file. -/
theorem C110_lost {κ : Type} (os : Os) (path : Path) (w : World κ) {b : Bytes} {line rest last text : PyStr}
    {pieces : List PyStr} (hb : FileHolds os w.files path b) (ht : TextOf b text) (hw : os.writable path = true)
    (hl : 10 ∉ line) (hp : ∀ p ∈ (line ++ 10 :: rest) :: last :: pieces, ¬ localRule <:+: p)
    (hr : WithRules localRule ((line ++ 10 :: rest) :: last :: pieces) text)
    (env : Environ) (plain : PlainTag env) {v : PyStr} (hv : env taggedVersion = some v)
    {c : Nat} (hc : c ∈ v) (hs : isScalar c = false) :
    ∃ w', (patchWorkspace os env path : Run κ Unit) w = (.error .unicodeError, w') ∧
      Updated (os.file path) [] w.files w'.files := by
  refine ⟨w.put (os.file path) [], ?_, put_updated w _ _⟩
  have hin : c ∈ patchText env text := by
    have hc' : c ∈ archiveRule (py! "v" ++ v ++ py! ".zip") (py! "tink-" ++ v) := by simp [archiveRule, hc]
    by_cases hn : loadLine <:+: text
    · exact mem_pieces (C110_archive_known env plain (.tagged hv) hr hp hn) hc'
    · exact mem_pieces (C110_archive env plain (.tagged hv) hl hr hp hn) hc'
  have he : utf8Encode (patchText env text) = .error .unicodeError := by
    unfold utf8Encode
    rw [if_neg]
    intro h
    rw [List.all_eq_true] at h
    rw [h c hin] at hs
    cases hs
  rw [patch_file hb ht hw, he]

/-- And the next run does not notice: it makes a workspace of one line of the empty file. -/
theorem C110_lost_unnoticed {κ : Type} (os : Os) (path : Path) (w : World κ) (hb : FileHolds os w.files path [])
    (hw : os.writable path = true) (hs : ∀ d, os.stored path d = none) (env : Environ) :
    ∃ w' b', (patchWorkspace os env path : Run κ Unit) w = (.ok (), w') ∧
      Updated (os.file path) b' w.files w'.files ∧ TextOf b' (10 :: loadLine) := by
  have hp : patchText env [] = 10 :: loadLine := by
    obtain ⟨rule, hr⟩ := exists_rule env
    rw [patchText_cases env hr, inserted_oneLine (by simp) (by decide +kernel)]
    exact replace_absent (by rw [← isIn_iff]; decide +kernel)
  obtain ⟨b', h1, h2⟩ := textChar_text (s := 10 :: loadLine) (by unfold TextChar; decide +kernel)
  refine ⟨w.put (os.file path) b', b', ?_, put_updated w _ _, h2⟩
  rw [patch_file hb ⟨[], rfl, .nil⟩ hw, hp, h1]
  dsimp only
  rw [hs]

/-! ## The variable with a path -/

/-- The variable that according to the documentation takes precedence is not looked at. -/
theorem C110_override_ignored (env env' : Environ) (h : ∀ x, x ≠ overridePath → env' x = env x) (content : PyStr) :
    patchText env' content = patchText env content := by
  have : env' (py! "TINK_PYTHON_SETUPTOOLS_TAGGED_VERSION") = env (py! "TINK_PYTHON_SETUPTOOLS_TAGGED_VERSION") :=
    h _ (by decide)
  unfold patchText
  rw [this]

/-- So the documentation is wrong about it. -/
theorem C110_override_violated : ¬ HonoursOverride patchText := by
  intro h
  have := h (fun x => if x = overridePath then some (py! "/home/tink") else none) (py! "/home/tink") localRule (by simp)
    (List.infix_refl _)
  rw [← isIn_iff] at this
  revert this
  decide +kernel

end Tink.Props
