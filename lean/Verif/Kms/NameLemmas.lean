import Verif.Kms.ClientLemmas

namespace Tink
open Spec

/-! ## Google Cloud KMS key names -/

namespace Gcp

theorem takeWhile_drop (f : Nat → Bool) (s : PyStr) :
    s.takeWhile f ++ s.drop (s.takeWhile f).length = s := by
  induction s with
  | nil => rfl
  | cons c s ih =>
    rw [List.takeWhile_cons]
    split
    · simpa using ih
    · simp

theorem takeWhile_all (f : Nat → Bool) (s : PyStr) : ∀ c ∈ s.takeWhile f, f c = true := by
  intro c hc
  exact List.all_eq_true.1 List.all_takeWhile c hc

theorem takeWhile_stop {f : Nat → Bool} {p r : PyStr} (hp : ∀ c ∈ p, f c = true)
    (hr : ∀ c ∈ r.head?, f c = false) : (p ++ r).takeWhile f = p := by
  induction p with
  | nil =>
    cases r with
    | nil => rfl
    | cons c r => simp [hr c (by simp)]
  | cons c p ih =>
    rw [List.cons_append, List.takeWhile_cons, if_pos (hp c (by simp)),
      ih fun d hd => hp d (by simp [hd])]

theorem lit_iff {p s r : PyStr} : lit p s = some r ↔ s = p ++ r := by
  unfold lit
  by_cases h : startsWith s p = true
  · rw [if_pos h]
    obtain ⟨r', rfl⟩ := startsWith_iff.1 h
    simp
  · rw [if_neg h]
    constructor
    · intro h; cases h
    · rintro rfl; exact absurd (startsWith_iff.2 ⟨r, rfl⟩) h

theorem isIdChar_iff (c : Nat) : isIdChar c = true ↔
    (97 ≤ c ∧ c ≤ 122) ∨ (65 ≤ c ∧ c ≤ 90) ∨ (48 ≤ c ∧ c ≤ 57) ∨ c = 95 ∨ c = 45 := by
  simp [isIdChar, or_assoc]

theorem matchProject_iff {s rest : PyStr} : matchProject s = some rest ↔
    ∃ p, s = p ++ 47 :: rest ∧ p ≠ [] ∧ 47 ∉ p := by
  unfold matchProject
  simp only
  constructor
  · intro h
    split at h
    · cases h
    · rename_i hp
      have h := lit_iff.1 h
      refine ⟨s.takeWhile (· ≠ 47), ?_, hp, ?_⟩
      · have e := takeWhile_drop (fun c => decide (c ≠ 47)) s
        rw [h] at e
        exact e.symm
      · intro hm
        have := takeWhile_all _ s 47 hm
        simp at this
  · rintro ⟨p, rfl, hn, hp⟩
    have : (p ++ 47 :: rest).takeWhile (fun c => decide (c ≠ 47)) = p := by
      refine takeWhile_stop ?_ (by simp)
      intro c hc
      simp only [ne_eq, decide_not, Bool.not_eq_true', decide_eq_false_iff_not]
      rintro rfl
      exact hp hc
    rw [this, if_neg hn, List.drop_left]
    exact lit_iff.2 rfl

theorem gcpId_iff {p : PyStr} :
    GcpId p ↔ ¬ (p = [] ∨ p.length > 63) ∧ ∀ c ∈ p, isIdChar c = true := by
  constructor
  · rintro ⟨h1, h2, h3⟩
    refine ⟨?_, fun c hc => (isIdChar_iff c).2 (h3 c hc)⟩
    rintro (h | h)
    · exact h1 h
    · omega
  · rintro ⟨h1, h2⟩
    exact ⟨fun h => h1 (.inl h), Nat.not_lt.1 fun h => h1 (.inr h),
      fun c hc => (isIdChar_iff c).1 (h2 c hc)⟩

theorem matchIdSlash_iff {s rest : PyStr} : matchIdSlash s = some rest ↔
    ∃ p, s = p ++ 47 :: rest ∧ GcpId p := by
  unfold matchIdSlash
  simp only
  constructor
  · intro h
    split at h
    · cases h
    · rename_i hp
      have h := lit_iff.1 h
      refine ⟨s.takeWhile isIdChar, ?_, gcpId_iff.2 ⟨hp, takeWhile_all _ s⟩⟩
      have e := takeWhile_drop isIdChar s
      rw [h] at e
      exact e.symm
  · rintro ⟨p, rfl, hp⟩
    obtain ⟨hp, hc⟩ := gcpId_iff.1 hp
    have : (p ++ 47 :: rest).takeWhile isIdChar = p := by
      refine takeWhile_stop hc ?_
      intro c hc
      simp at hc
      subst hc
      decide
    rw [this, if_neg hp, List.drop_left]
    exact lit_iff.2 rfl

theorem matchIdEnd_iff {s : PyStr} : matchIdEnd s = true ↔
    ∃ p, (s = p ∨ s = p ++ [10]) ∧ GcpId p := by
  unfold matchIdEnd
  simp only
  constructor
  · intro h
    split at h
    · cases h
    · rename_i hp
      refine ⟨s.takeWhile isIdChar, ?_, gcpId_iff.2 ⟨hp, takeWhile_all _ s⟩⟩
      have e := takeWhile_drop isIdChar s
      rcases of_decide_eq_true h with h | h
      · rw [h] at e; exact .inl (by simpa using e.symm)
      · rw [h] at e; exact .inr e.symm
  · rintro ⟨p, hs, hp⟩
    obtain ⟨hp, hc⟩ := gcpId_iff.1 hp
    obtain ⟨r, rfl, hr⟩ : ∃ r, s = p ++ r ∧ (r = [] ∨ r = [10]) := by
      rcases hs with rfl | rfl
      · exact ⟨[], by simp, .inl rfl⟩
      · exact ⟨[10], rfl, .inr rfl⟩
    have : (p ++ r).takeWhile isIdChar = p := by
      refine takeWhile_stop hc ?_
      rcases hr with rfl | rfl
      · simp
      · intro c hc
        simp at hc
        subst hc
        decide
    rw [this, if_neg hp, List.drop_left]
    simpa using hr

theorem matchKeyName_iff (name : PyStr) : matchKeyName name = true ↔
    ∃ n project loc ring key, (name = n ∨ name = n ++ [10]) ∧
      GcpKeyName n project loc ring key := by
  unfold matchKeyName
  constructor
  · intro h
    split at h
    · cases h
    · rename_i s hs
      simp only [bind, Option.bind_eq_some_iff] at hs
      obtain ⟨s1, h1, s2, h2, s3, h3, s4, h4, s5, h5, s6, h6, h7⟩ := hs
      obtain rfl := lit_iff.1 h1
      obtain ⟨project, rfl, hp1, hp2⟩ := matchProject_iff.1 h2
      obtain rfl := lit_iff.1 h3
      obtain ⟨loc, rfl, hl⟩ := matchIdSlash_iff.1 h4
      obtain rfl := lit_iff.1 h5
      obtain ⟨ring, rfl, hr⟩ := matchIdSlash_iff.1 h6
      obtain rfl := lit_iff.1 h7
      obtain ⟨key, hk, hid⟩ := matchIdEnd_iff.1 h
      refine ⟨_, project, loc, ring, key, ?_, rfl, hp1, hp2, hl, hr, hid⟩
      rcases hk with rfl | rfl
      · left; simp
      · right; simp
  · rintro ⟨n, project, loc, ring, key, hn, rfl, hp1, hp2, hl, hr, hk⟩
    obtain ⟨k, rfl, hke⟩ : ∃ k, name = py! "projects/" ++ (project ++ 47 :: (py! "locations/" ++
        (loc ++ 47 :: (py! "keyRings/" ++ (ring ++ 47 :: (py! "cryptoKeys/" ++ k)))))) ∧
        matchIdEnd k = true := by
      rcases hn with rfl | rfl
      · exact ⟨key, by simp, matchIdEnd_iff.2 ⟨key, .inl rfl, hk⟩⟩
      · exact ⟨key ++ [10], by simp, matchIdEnd_iff.2 ⟨key, .inr rfl, hk⟩⟩
    simp only [bind, Option.bind, lit_iff.2 rfl, matchProject_iff.2 ⟨project, rfl, hp1, hp2⟩,
      matchIdSlash_iff.2 ⟨loc, rfl, hl⟩, matchIdSlash_iff.2 ⟨ring, rfl, hr⟩, hke]

end Gcp

/-! ## Vault key paths -/

namespace Vault

theorem splitSlash_append (p r : PyStr) (hp : 47 ∉ p) :
    splitSlash (p ++ 47 :: r) = p :: splitSlash r := by
  induction p with
  | nil => simp [splitSlash]
  | cons c p ih =>
    have h1 : c ≠ 47 := fun h => hp (by simp [h])
    have h2 : 47 ∉ p := fun h => hp (by simp [h])
    rw [List.cons_append, splitSlash, if_neg h1, ih h2]

theorem splitSlash_none {s : PyStr} (h : 47 ∉ s) : splitSlash s = [s] := by
  induction s with
  | nil => rfl
  | cons c s ih =>
    have h1 : c ≠ 47 := fun e => h (by simp [e])
    rw [splitSlash, if_neg h1, ih (fun e => h (by simp [e]))]

theorem splitSlash_ne_nil (s : PyStr) : splitSlash s ≠ [] := by
  cases s with
  | nil => simp [splitSlash]
  | cons c r =>
    unfold splitSlash
    split
    · simp
    · split <;> simp

theorem joinSlash_cons (p : PyStr) {ps : List PyStr} (h : ps ≠ []) :
    joinSlash (p :: ps) = p ++ 47 :: joinSlash ps := by
  cases ps with
  | nil => exact absurd rfl h
  | cons q ps => rfl

theorem joinSlash_eq (segs : List PyStr) : joinSlash segs = List.intercalate [47] segs := by
  induction segs with
  | nil => rfl
  | cons p ps ih =>
    cases ps with
    | nil => simp [joinSlash, List.intercalate]
    | cons q qs =>
      rw [joinSlash_cons p (by simp), ih]
      simp [List.intercalate]

theorem joinSlash_append {l r : List PyStr} (hl : l ≠ []) (hr : r ≠ []) :
    joinSlash (l ++ r) = joinSlash l ++ 47 :: joinSlash r := by
  induction l with
  | nil => exact absurd rfl hl
  | cons p l ih =>
    cases l with
    | nil => rw [List.cons_append, List.nil_append, joinSlash_cons p hr]; rfl
    | cons q l =>
      rw [List.cons_append, joinSlash_cons p (by simp), ih (by simp), joinSlash_cons p (by simp)]
      simp

theorem joinSlash_splitSlash (s : PyStr) : joinSlash (splitSlash s) = s := by
  induction s with
  | nil => rfl
  | cons c s ih =>
    unfold splitSlash
    split
    · rename_i h
      rw [joinSlash_cons _ (splitSlash_ne_nil s), ih, h]; rfl
    · cases hs : splitSlash s with
      | nil => exact absurd hs (splitSlash_ne_nil s)
      | cons p ps =>
        rw [hs] at ih
        simp only
        cases ps with
        | nil => rw [← ih]; rfl
        | cons q qs =>
          rw [joinSlash_cons _ (by simp)] at ih ⊢
          rw [← ih]; rfl

theorem splitSlash_noslash (s : PyStr) : ∀ p ∈ splitSlash s, 47 ∉ p := by
  induction s with
  | nil => simp [splitSlash]
  | cons c s ih =>
    unfold splitSlash
    split
    · intro p hp
      rcases List.mem_cons.1 hp with rfl | hp
      · simp
      · exact ih p hp
    · rename_i hc
      cases hs : splitSlash s with
      | nil => exact absurd hs (splitSlash_ne_nil s)
      | cons q ps =>
        simp only
        intro p hp
        rw [hs] at ih
        rcases List.mem_cons.1 hp with rfl | hp
        · intro hm
          rcases List.mem_cons.1 hm with e | e
          · exact hc e.symm
          · exact ih q (by simp) e
        · exact ih p (by simp [hp])

theorem splitSlash_joinSlash {segs : List PyStr} (hn : segs ≠ []) (h : ∀ p ∈ segs, 47 ∉ p) :
    splitSlash (joinSlash segs) = segs := by
  induction segs with
  | nil => exact absurd rfl hn
  | cons p ps ih =>
    cases ps with
    | nil => exact splitSlash_none (h p (by simp))
    | cons q qs =>
      rw [joinSlash_cons _ (by simp), splitSlash_append _ _ (h p (by simp)),
        ih (by simp) fun x hx => h x (by simp [hx])]

/-- The part of a path after an optional leading slash. -/
def stripSlash (path : PyStr) : PyStr :=
  match path with
  | c :: r => if c = 47 then r else path
  | [] => []

/-- The segments accepted by `matchPath`. -/
def matchSegs (segs : List PyStr) : Option (PyStr × PyStr) :=
  match segs.reverse with
  | name :: keys :: m :: ms =>
    if segs.any (fun s => s = []) then none
    else if keys = py! "keys" then some (joinSlash (m :: ms).reverse, name) else none
  | _ => none

theorem matchPath_eq (path : PyStr) : matchPath path = matchSegs (splitSlash (stripSlash path)) := rfl

theorem matchSegs_iff (segs : List PyStr) (mount name : PyStr) :
    matchSegs segs = some (mount, name) ↔
      ∃ ms, segs = ms ++ [py! "keys", name] ∧ ms ≠ [] ∧ (∀ s ∈ ms, s ≠ []) ∧ name ≠ [] ∧
        mount = joinSlash ms := by
  unfold matchSegs
  constructor
  · intro h
    split at h
    · rename_i nm keys m ms hr
      have hs : segs = (m :: ms).reverse ++ [keys, nm] := by
        rw [← List.reverse_reverse segs, hr]; simp
      split at h
      · cases h
      · rename_i ha
        split at h
        · rename_i hk
          cases h
          have hall : ∀ s ∈ segs, s ≠ [] := fun s hs hn =>
            ha (List.any_eq_true.2 ⟨s, hs, by simp [hn]⟩)
          refine ⟨(m :: ms).reverse, by rw [hs, hk], by simp, ?_, ?_, rfl⟩
          · intro s h; exact hall s (by rw [hs]; exact List.mem_append_left _ h)
          · exact hall _ (by rw [hs]; simp)
        · cases h
    · cases h
  · rintro ⟨ms, rfl, hn, hm, hname, rfl⟩
    obtain ⟨x, xs, hx⟩ : ∃ x xs, ms.reverse = x :: xs := by
      cases h : ms.reverse with
      | nil => exact absurd (List.reverse_eq_nil_iff.1 h) hn
      | cons x xs => exact ⟨x, xs, rfl⟩
    have hms : ms = (x :: xs).reverse := by rw [← hx, List.reverse_reverse]
    have : (ms ++ [py! "keys", name]).reverse = name :: py! "keys" :: x :: xs := by
      rw [hms]; simp
    rw [this]
    simp only
    rw [if_neg, if_pos trivial, ← hms]
    intro ha
    obtain ⟨s, hs, he⟩ := List.any_eq_true.1 ha
    have he : s = [] := by simpa using he
    rcases List.mem_append.1 hs with hs | hs
    · exact hm s hs he
    · subst he
      simp at hs
      exact hname hs

theorem matchPath_iff (path mount name : PyStr) :
    matchPath path = some (mount, name) ↔ VaultPath path mount name := by
  rw [matchPath_eq, matchSegs_iff]
  constructor
  · rintro ⟨ms, hs, hn, hm, hname, rfl⟩
    have hslash := splitSlash_noslash (stripSlash path)
    have hj := joinSlash_splitSlash (stripSlash path)
    rw [hs] at hslash hj
    rw [joinSlash_append hn (by simp)] at hj
    refine ⟨?_, ⟨ms, hn, fun s h => ⟨hm s h, hslash s (by simp [h])⟩, joinSlash_eq ms⟩,
      hname, hslash name (by simp)⟩
    have hform : stripSlash path = joinSlash ms ++ py! "/keys/" ++ name := by
      rw [← hj]; simp [joinSlash]
    cases path with
    | nil => left; exact hform
    | cons c r =>
      by_cases hc : c = 47
      · right
        simp only [stripSlash, hc, if_true] at hform
        rw [hc, hform]; simp
      · left
        simpa only [stripSlash, hc, if_false] using hform
  · rintro ⟨hf, ⟨ms, hn, hm, rfl⟩, hname⟩
    have hstrip : stripSlash path = joinSlash (ms ++ [py! "keys", name]) := by
      rw [joinSlash_append hn (by simp), joinSlash_eq]
      rcases hf with rfl | rfl
      · have hhead : ∃ c r, List.intercalate [47] ms = c :: r ∧ c ≠ 47 := by
          rw [← joinSlash_eq]
          cases ms with
          | nil => exact absurd rfl hn
          | cons p ps =>
            have hp := hm p (by simp)
            cases p with
            | nil => exact absurd rfl hp.nonempty
            | cons c p =>
              have : c ≠ 47 := fun e => hp.chars (by simp [e])
              cases ps with
              | nil => exact ⟨c, p, rfl, this⟩
              | cons q qs => exact ⟨c, _, rfl, this⟩
        obtain ⟨c, r, e, hc⟩ := hhead
        rw [e]
        simp [stripSlash, hc, joinSlash]
      · simp [stripSlash, joinSlash]
    refine ⟨ms, ?_, hn, fun s h => (hm s h).nonempty, hname.nonempty, (joinSlash_eq ms).symm⟩
    rw [hstrip, splitSlash_joinSlash (by simp)]
    intro p hp
    rcases List.mem_append.1 hp with hp | hp
    · exact (hm p hp).chars
    · simp at hp
      rcases hp with rfl | rfl
      · decide
      · exact hname.chars

/-! ### Percent-encoding -/

/-- `urllib.parse.quote` of one character. -/
def quoteCp (c : Nat) : PyStr := (utf8EncodeCp c).flatMap quoteByte

theorem quote_eq (s : PyStr) :
    quote s = if s.all isScalar then .ok (s.flatMap quoteCp) else .error .unicodeError := by
  unfold quote utf8Encode
  split
  · simp [bind, Except.bind, pure, Except.pure, List.flatMap_assoc]; rfl
  · rfl

theorem quote_table : ∀ n < 256, (47 ∈ quoteByte (UInt8.ofNat n) ↔ n = 47) ∧
    (isQuoteSafe (UInt8.ofNat n) = true → n ≠ 37) := by decide +kernel

theorem quoteByte_slash (b : UInt8) : 47 ∈ quoteByte b ↔ b = 47 := by
  have h := (quote_table b.toNat b.toNat_lt).1
  rw [UInt8.ofNat_toNat] at h
  rw [h, ← UInt8.toNat_inj]; rfl

theorem quoteByte_ne_nil (b : UInt8) : quoteByte b ≠ [] := by
  unfold quoteByte; split <;> simp

theorem hexDigit_inj {a b : Nat} (ha : a < 16) (hb : b < 16) (h : hexDigit a = hexDigit b) : a = b := by
  unfold hexDigit at h
  split at h <;> split at h <;> omega

theorem quoteByte_append_inj {x y : UInt8} {r t : PyStr}
    (h : quoteByte x ++ r = quoteByte y ++ t) : x = y ∧ r = t := by
  have h37 : ∀ b : UInt8, isQuoteSafe b = true → b.toNat ≠ 37 := by
    intro b hb
    refine (quote_table b.toNat b.toNat_lt).2 ?_
    rwa [UInt8.ofNat_toNat]
  unfold quoteByte at h
  have hx := x.toNat_lt; have hy := y.toNat_lt
  split at h <;> split at h <;> simp only [List.cons_append, List.nil_append, List.cons.injEq] at h
  · exact ⟨UInt8.toNat_inj.1 h.1, h.2⟩
  · rename_i h1 _; exact absurd h.1 (h37 x h1)
  · rename_i _ h1; exact absurd h.1.symm (h37 y h1)
  · have h1 := hexDigit_inj (by omega) (by omega) h.2.1
    have h2 := hexDigit_inj (by omega) (by omega) h.2.2.1
    exact ⟨UInt8.toNat_inj.1 (by omega), h.2.2.2⟩

theorem quoteBytes_inj {a b : Bytes} (h : a.flatMap quoteByte = b.flatMap quoteByte) : a = b := by
  induction a generalizing b with
  | nil => cases b with
    | nil => rfl
    | cons y b =>
      simp only [List.flatMap_nil, List.flatMap_cons] at h
      exact absurd (List.append_eq_nil_iff.1 h.symm).1 (quoteByte_ne_nil y)
  | cons x a ih => cases b with
    | nil =>
      simp only [List.flatMap_nil, List.flatMap_cons] at h
      exact absurd (List.append_eq_nil_iff.1 h).1 (quoteByte_ne_nil x)
    | cons y b =>
      simp only [List.flatMap_cons] at h
      obtain ⟨hxy, hr⟩ := quoteByte_append_inj h
      rw [hxy, ih hr]

theorem utf8EncodeCp_slash {c : Nat} (h : isScalar c = true) : 47 ∈ utf8EncodeCp c ↔ c = 47 := by
  have hs := (isScalar_iff c).1 h
  have key : ∀ n, n < 256 → ((47 : UInt8) = UInt8.ofNat n ↔ n = 47) := by
    intro n hn
    rw [← UInt8.toNat_inj, toNat_ofNat8 hn]
    exact eq_comm
  unfold utf8EncodeCp
  split
  · simp only [List.mem_singleton]; exact key c (by omega)
  · split
    · simp only [List.mem_cons, List.not_mem_nil, or_false]
      rw [key _ (by omega), key _ (by omega)]; omega
    · split
      · simp only [List.mem_cons, List.not_mem_nil, or_false]
        rw [key _ (by omega), key _ (by omega), key _ (by omega)]; omega
      · simp only [List.mem_cons, List.not_mem_nil, or_false]
        rw [key _ (by omega), key _ (by omega), key _ (by omega), key _ (by omega)]; omega

theorem utf8EncodeCp_ne_nil (c : Nat) : utf8EncodeCp c ≠ [] := by
  unfold utf8EncodeCp
  split
  · simp
  · split
    · simp
    · split <;> simp

theorem quoteCp_slash {c : Nat} (h : isScalar c = true) : 47 ∈ quoteCp c ↔ c = 47 := by
  unfold quoteCp
  rw [List.mem_flatMap, ← utf8EncodeCp_slash h]
  constructor
  · rintro ⟨b, hb, h⟩; rwa [(quoteByte_slash b).1 h] at hb
  · intro h; exact ⟨47, h, (quoteByte_slash 47).2 rfl⟩

theorem quoteCp_47 : quoteCp 47 = [47] := by decide

theorem quoteCp_ne_nil (c : Nat) : quoteCp c ≠ [] := by
  unfold quoteCp
  intro h
  cases hb : utf8EncodeCp c with
  | nil => exact utf8EncodeCp_ne_nil c hb
  | cons b r =>
    rw [hb, List.flatMap_cons] at h
    exact quoteByte_ne_nil b (List.append_eq_nil_iff.1 h).1

/-- The percent-encoded string, for strings without surrogates. -/
def quoted (s : PyStr) : PyStr := s.flatMap quoteCp

theorem quoted_inj {a b : PyStr} (ha : a.all isScalar = true) (hb : b.all isScalar = true)
    (h : quoted a = quoted b) : a = b := by
  unfold quoted at h
  have e : ∀ s : PyStr, s.flatMap quoteCp = (s.flatMap utf8EncodeCp).flatMap quoteByte := by
    intro s; rw [List.flatMap_assoc]; rfl
  rw [e, e] at h
  have h := quoteBytes_inj h
  have d := utf8Decode?_encode a ha
  have d' := utf8Decode?_encode b hb
  rw [h, d'] at d
  exact (Option.some.inj d).symm

theorem quoted_append (a b : PyStr) : quoted (a ++ b) = quoted a ++ quoted b := List.flatMap_append

theorem quoted_nil_iff (s : PyStr) : quoted s = [] ↔ s = [] := by
  constructor
  · intro h
    cases s with
    | nil => rfl
    | cons c s =>
      rw [quoted, List.flatMap_cons] at h
      exact absurd (List.append_eq_nil_iff.1 h).1 (quoteCp_ne_nil c)
  · rintro rfl; rfl

theorem quoted_noslash {s : PyStr} (hs : s.all isScalar = true) : 47 ∈ quoted s ↔ 47 ∈ s := by
  unfold quoted
  rw [List.mem_flatMap]
  constructor
  · rintro ⟨c, hc, h⟩
    rwa [(quoteCp_slash (List.all_eq_true.1 hs c hc)).1 h] at hc
  · intro h; exact ⟨47, h, by rw [quoteCp_47]; simp⟩

theorem quoted_joinSlash (segs : List PyStr) :
    quoted (joinSlash segs) = joinSlash (segs.map quoted) := by
  induction segs with
  | nil => rfl
  | cons p ps ih =>
    cases ps with
    | nil => rfl
    | cons q qs =>
      rw [joinSlash_cons p (by simp), quoted_append, List.map_cons, joinSlash_cons (quoted p) (by simp),
        ← ih]
      show _ ++ quoted ([47] ++ _) = _
      rw [quoted_append]
      rfl

theorem joinSlash_scalar {segs : List PyStr} (h : (joinSlash segs).all isScalar = true) :
    ∀ s ∈ segs, s.all isScalar = true := by
  induction segs with
  | nil => simp
  | cons p ps ih =>
    cases ps with
    | nil => simpa [joinSlash] using h
    | cons q qs =>
      rw [joinSlash_cons _ (by simp), List.all_append, Bool.and_eq_true, List.all_cons,
        Bool.and_eq_true] at h
      intro s hs
      rcases List.mem_cons.1 hs with rfl | hs
      · exact h.1
      · exact ih h.2.2 s hs

theorem splitSlash_quoted {s : PyStr} (hs : s.all isScalar = true) :
    splitSlash (quoted s) = (splitSlash s).map quoted := by
  have hj := joinSlash_splitSlash s
  have hsc : ∀ p ∈ splitSlash s, p.all isScalar = true := by
    apply joinSlash_scalar; rwa [hj]
  have : quoted s = joinSlash ((splitSlash s).map quoted) := by
    rw [← quoted_joinSlash, hj]
  rw [this, splitSlash_joinSlash]
  · simpa using splitSlash_ne_nil s
  · intro p hp
    obtain ⟨q, hq, rfl⟩ := List.mem_map.1 hp
    rw [quoted_noslash (hsc q hq)]
    exact splitSlash_noslash s q hq

theorem stripSlash_quoted {s : PyStr} (hs : s.all isScalar = true) :
    stripSlash (quoted s) = quoted (stripSlash s) := by
  cases s with
  | nil => rfl
  | cons c r =>
    by_cases hc : c = 47
    · subst hc
      simp [stripSlash, quoted, quoteCp_47]
    · simp only [stripSlash, hc, if_false]
      have h47 : 47 ∉ quoteCp c := by
        rw [quoteCp_slash (List.all_eq_true.1 hs c (by simp))]; exact hc
      rw [quoted, List.flatMap_cons]
      cases hq : quoteCp c with
      | nil => exact absurd hq (quoteCp_ne_nil c)
      | cons x q =>
        rw [hq] at h47
        have : x ≠ 47 := fun e => h47 (by simp [e])
        simp [this]

theorem stripSlash_scalar {s : PyStr} (hs : s.all isScalar = true) :
    (stripSlash s).all isScalar = true := by
  cases s with
  | nil => rfl
  | cons c r =>
    by_cases hc : c = 47
    · simp only [stripSlash, hc, if_true]
      rw [List.all_cons, Bool.and_eq_true] at hs; exact hs.2
    · simpa only [stripSlash, hc, if_false] using hs

theorem quoted_keys : quoted (py! "keys") = py! "keys" := by decide

theorem matchPath_quoted {path : PyStr} (hs : path.all isScalar = true) (m n : PyStr) :
    matchPath (quoted path) = some (m, n) ↔
      ∃ mount name, VaultPath path mount name ∧ m = quoted mount ∧ n = quoted name := by
  have hst := stripSlash_scalar hs
  rw [matchPath_eq, stripSlash_quoted hs, splitSlash_quoted hst, matchSegs_iff]
  have hsc : ∀ p ∈ splitSlash (stripSlash path), p.all isScalar = true := by
    apply joinSlash_scalar; rwa [joinSlash_splitSlash]
  constructor
  · rintro ⟨ms, h, hn, hm, hname, rfl⟩
    obtain ⟨a, b, hab, ha, hb⟩ := List.map_eq_append_iff.1 h
    obtain ⟨k, b', rfl, hk, hb'⟩ := List.map_eq_cons_iff.1 hb
    obtain ⟨nm, b'', rfl, hnm, hb''⟩ := List.map_eq_cons_iff.1 hb'
    obtain rfl := List.map_eq_nil_iff.1 hb''
    subst ha hnm
    have hk : k = py! "keys" := by
      apply quoted_inj (hsc k (by rw [hab]; simp)) (by decide)
      rw [hk, quoted_keys]
    subst hk
    refine ⟨joinSlash a, nm, ?_, (quoted_joinSlash a).symm, rfl⟩
    rw [← matchPath_iff, matchPath_eq, matchSegs_iff]
    refine ⟨a, hab, by simpa using hn, fun s hsa he => ?_, fun he => ?_, rfl⟩
    · exact hm (quoted s) (List.mem_map_of_mem hsa) ((quoted_nil_iff s).2 he)
    · exact hname ((quoted_nil_iff nm).2 he)
  · rintro ⟨mount, name, hv, rfl, rfl⟩
    rw [← matchPath_iff, matchPath_eq, matchSegs_iff] at hv
    obtain ⟨ms, h, hn, hm, hname, rfl⟩ := hv
    refine ⟨ms.map quoted, ?_, by simpa using hn, ?_, ?_, quoted_joinSlash ms⟩
    · rw [h]; simp [quoted_keys]
    · intro s hsm
      obtain ⟨q, hq, rfl⟩ := List.mem_map.1 hsm
      rw [ne_eq, quoted_nil_iff]; exact hm q hq
    · rw [ne_eq, quoted_nil_iff]; exact hname

end Vault
end Tink
