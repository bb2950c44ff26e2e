import Verif.Spec.Kms
import Verif.Py.Utf8Lemmas
import Verif.Py.Base64Lemmas

namespace Tink
open Spec

/-! ## The list of clients -/

theorem kmsClientFromUri_ok {A : Type} (cs : KmsClients A) (uri : PyStr) (c : KmsClient A) :
    kmsClientFromUri cs uri = .ok c ↔
      ∃ l r, cs = l ++ c :: r ∧ (∀ d ∈ l, d.doesSupport uri = .ok false) ∧
        c.doesSupport uri = .ok true := by
  induction cs with
  | nil => simp [kmsClientFromUri]
  | cons x xs ih =>
    unfold kmsClientFromUri
    cases hx : x.doesSupport uri with
    | error e =>
      simp only [bind, Except.bind]
      constructor
      · intro h; cases h
      · rintro ⟨l, r, h, hl, hc⟩
        cases l with
        | nil => cases h; rw [hx] at hc; cases hc
        | cons y l => cases h; have := hl x (by simp); rw [hx] at this; cases this
    | ok b =>
      cases b with
      | true =>
        simp only [bind, Except.bind, if_true, pure, Except.pure, Except.ok.injEq]
        constructor
        · rintro rfl; exact ⟨[], xs, rfl, by simp, hx⟩
        · rintro ⟨l, r, h, hl, hc⟩
          cases l with
          | nil => cases h; rfl
          | cons y l => cases h; have := hl x (by simp); rw [hx] at this; cases this
      | false =>
        simp only [bind, Except.bind, Bool.false_eq_true, if_false]
        rw [ih]
        constructor
        · rintro ⟨l, r, rfl, hl, hc⟩
          refine ⟨x :: l, r, rfl, ?_, hc⟩
          intro d hd
          rcases List.mem_cons.1 hd with rfl | hd
          · exact hx
          · exact hl d hd
        · rintro ⟨l, r, h, hl, hc⟩
          cases l with
          | nil => cases h; rw [hx] at hc; cases hc
          | cons y l =>
            cases h
            exact ⟨l, r, rfl, fun d hd => hl d (List.mem_cons_of_mem _ hd), hc⟩

theorem kmsClientFromUri_error {A : Type} (cs : KmsClients A) (uri : PyStr) (e : Exc) :
    kmsClientFromUri cs uri = .error e ↔
      (e = .tinkError ∧ ∀ d ∈ cs, d.doesSupport uri = .ok false) ∨
      ∃ l c r, cs = l ++ c :: r ∧ (∀ d ∈ l, d.doesSupport uri = .ok false) ∧
        c.doesSupport uri = .error e := by
  induction cs with
  | nil =>
    simp only [kmsClientFromUri, Except.error.injEq]
    constructor
    · rintro rfl; exact .inl ⟨rfl, by simp⟩
    · rintro (⟨rfl, _⟩ | ⟨l, c, r, h, _⟩)
      · rfl
      · cases l <;> cases h
  | cons x xs ih =>
    unfold kmsClientFromUri
    cases hx : x.doesSupport uri with
    | error e' =>
      simp only [bind, Except.bind, Except.error.injEq]
      constructor
      · rintro rfl; exact .inr ⟨[], x, xs, rfl, by simp, hx⟩
      · rintro (⟨rfl, h⟩ | ⟨l, c, r, h, hl, hc⟩)
        · have := h x (by simp); rw [hx] at this; cases this
        · cases l with
          | nil => cases h; rw [hx] at hc; cases hc; rfl
          | cons y l => cases h; have := hl x (by simp); rw [hx] at this; cases this
    | ok b =>
      cases b with
      | true =>
        simp only [bind, Except.bind, if_true, pure, Except.pure]
        constructor
        · intro h; cases h
        · rintro (⟨rfl, h⟩ | ⟨l, c, r, h, hl, hc⟩)
          · have := h x (by simp); rw [hx] at this; cases this
          · cases l with
            | nil => cases h; rw [hx] at hc; cases hc
            | cons y l => cases h; have := hl x (by simp); rw [hx] at this; cases this
      | false =>
        simp only [bind, Except.bind, Bool.false_eq_true, if_false]
        rw [ih]
        constructor
        · rintro (⟨rfl, h⟩ | ⟨l, c, r, rfl, hl, hc⟩)
          · refine .inl ⟨rfl, fun d hd => ?_⟩
            rcases List.mem_cons.1 hd with rfl | hd
            · exact hx
            · exact h d hd
          · refine .inr ⟨x :: l, c, r, rfl, fun d hd => ?_, hc⟩
            rcases List.mem_cons.1 hd with rfl | hd
            · exact hx
            · exact hl d hd
        · rintro (⟨rfl, h⟩ | ⟨l, c, r, h, hl, hc⟩)
          · exact .inl ⟨rfl, fun d hd => h d (List.mem_cons_of_mem _ hd)⟩
          · cases l with
            | nil => cases h; rw [hx] at hc; cases hc
            | cons y l =>
              cases h
              exact .inr ⟨l, c, r, rfl, fun d hd => hl d (List.mem_cons_of_mem _ hd), hc⟩

section
variable {A : Type}

/-- The clients registered by a history without resets. -/
def registered (h : List (KmsOp A)) : KmsClients A :=
  h.filterMap fun op => match op with
    | .register c => some c
    | .reset => none

theorem kmsHistory_foldl (h : List (KmsOp A)) (hn : KmsOp.reset ∉ h) (cs : KmsClients A) :
    h.foldl KmsOp.run cs = cs ++ registered h := by
  induction h generalizing cs with
  | nil => simp [registered]
  | cons op h ih =>
    cases op with
    | reset => simp at hn
    | register c =>
      rw [List.foldl_cons, ih (by simpa using hn)]
      simp [registered, KmsOp.run, registerKmsClient]

theorem kmsHistory_since {h old recent : List (KmsOp A)} (hs : SinceReset h old recent) :
    kmsHistory h = registered recent := by
  obtain ⟨rfl, ho, hr⟩ := hs
  unfold kmsHistory
  rw [List.foldl_append, kmsHistory_foldl _ hr]
  rcases ho with rfl | ⟨o, rfl⟩
  · simp
  · rw [List.foldl_append]; simp [KmsOp.run, resetKmsClients]

theorem exists_sinceReset (h : List (KmsOp A)) : ∃ old recent, SinceReset h old recent := by
  have : ∀ g : List (KmsOp A), ∃ old recent, SinceReset g.reverse old recent := by
    intro g
    induction g with
    | nil => exact ⟨[], [], rfl, .inl rfl, by simp⟩
    | cons op g ih =>
      obtain ⟨old, recent, h1, h2, h3⟩ := ih
      cases op with
      | reset => exact ⟨g.reverse ++ [.reset], [], by simp, .inr ⟨_, rfl⟩, by simp⟩
      | register c =>
        refine ⟨old, recent ++ [.register c], by simp [h1], h2, ?_⟩
        simp [h3]
  simpa using this h.reverse

theorem mem_registered {h : List (KmsOp A)} {c : KmsClient A} :
    c ∈ registered h ↔ KmsOp.register c ∈ h := by
  unfold registered
  rw [List.mem_filterMap]
  constructor
  · rintro ⟨op, hop, he⟩
    cases op with
    | register d => cases he; exact hop
    | reset => cases he
  · intro hc; exact ⟨_, hc, rfl⟩

theorem registered_map (l : List (KmsClient A)) : registered (l.map .register) = l := by
  induction l with
  | nil => rfl
  | cons a l ih => simp only [registered, List.map_cons, List.filterMap_cons] at ih ⊢; rw [ih]

theorem eq_map_registered {h : List (KmsOp A)} (hn : KmsOp.reset ∉ h) :
    h = (registered h).map .register := by
  induction h with
  | nil => rfl
  | cons op h ih =>
    cases op with
    | reset => simp at hn
    | register c =>
      have := ih (by simpa using hn)
      simp only [registered, List.filterMap_cons, List.map_cons] at this ⊢
      rw [← this]

theorem registered_append (a b : List (KmsOp A)) :
    registered (a ++ b) = registered a ++ registered b := List.filterMap_append

end

/-! ## Literals -/

theorem startsWith_iff {s p : PyStr} : startsWith s p = true ↔ ∃ r, s = p ++ r := by
  unfold startsWith
  rw [List.isPrefixOf_iff_prefix]
  constructor
  · rintro ⟨r, h⟩; exact ⟨r, h.symm⟩
  · rintro ⟨r, rfl⟩; exact ⟨r, rfl⟩

/-! ## AWS -/

namespace Aws

theorem hexDigit_inj {a b : Nat} (ha : a < 16) (hb : b < 16) (h : hexDigit a = hexDigit b) : a = b := by
  unfold hexDigit at h
  split at h <;> split at h <;> omega

theorem hexlify_inj {a b : Bytes} (h : hexlify a = hexlify b) : a = b := by
  induction a generalizing b with
  | nil => cases b with
    | nil => rfl
    | cons y b => simp [hexlify] at h
  | cons x a ih => cases b with
    | nil => simp [hexlify] at h
    | cons y b =>
      simp only [hexlify, List.flatMap_cons, List.cons_append, List.nil_append, List.cons.injEq] at h
      have hx := x.toNat_lt; have hy := y.toNat_lt
      have h1 := hexDigit_inj (by omega) (by omega) h.1
      have h2 := hexDigit_inj (by omega) (by omega) h.2.1
      have : x = y := UInt8.toNat_inj.1 (by omega)
      rw [this, ih h.2.2]

theorem isRegionChar_iff (c : Nat) :
    isRegionChar c = true ↔ (97 ≤ c ∧ c ≤ 122) ∨ (48 ≤ c ∧ c ≤ 57) ∨ c = 45 := by
  simp [isRegionChar, or_assoc]

theorem matchRegion_iff (seen : Bool) (s : PyStr) : matchRegion seen s = true ↔
    ∃ p rest, s = p ++ 58 :: rest ∧ (∀ c ∈ p, isRegionChar c = true) ∧ (seen = true ∨ p ≠ []) := by
  induction s generalizing seen with
  | nil => simp [matchRegion]
  | cons c r ih =>
    unfold matchRegion
    by_cases hc : c = 58
    · subst hc
      rw [if_pos rfl]
      constructor
      · intro h; exact ⟨[], r, rfl, by simp, .inl h⟩
      · rintro ⟨p, rest, h, hp, hs⟩
        cases p with
        | nil => simpa using hs
        | cons y p => cases h; exact absurd (hp 58 (by simp)) (by decide)
    · rw [if_neg hc]
      by_cases hr : isRegionChar c = true
      · rw [if_pos hr, ih]
        constructor
        · rintro ⟨p, rest, rfl, hp, _⟩
          refine ⟨c :: p, rest, rfl, ?_, .inr (by simp)⟩
          intro d hd
          rcases List.mem_cons.1 hd with rfl | hd
          · exact hr
          · exact hp d hd
        · rintro ⟨p, rest, h, hp, _⟩
          cases p with
          | nil => cases h; exact absurd rfl hc
          | cons y p => cases h; exact ⟨p, rest, rfl, fun d hd => hp d (by simp [hd]), .inl rfl⟩
      · rw [if_neg hr]
        constructor
        · intro h; cases h
        · rintro ⟨p, rest, h, hp, _⟩
          cases p with
          | nil => cases h; exact absurd rfl hc
          | cons y p => cases h; exact absurd (hp c (by simp)) hr

theorem hasAwsKeyUriFormat_iff (uri : PyStr) :
    hasAwsKeyUriFormat uri = true ↔ ∃ region rest, AwsKeyUri uri region rest := by
  unfold hasAwsKeyUriFormat
  rw [Bool.and_eq_true, startsWith_iff, matchRegion_iff]
  constructor
  · rintro ⟨⟨r, rfl⟩, p, rest, h, hp, hs⟩
    rw [List.drop_left] at h
    subst h
    refine ⟨p, rest, by simp, by simpa using hs, fun c hc => (isRegionChar_iff c).1 (hp c hc)⟩
  · rintro ⟨region, rest, rfl, hn, hc⟩
    refine ⟨⟨region ++ py! ":" ++ rest, by simp⟩, region, rest, ?_, fun c h => ?_, .inr hn⟩
    · rw [List.append_assoc, List.append_assoc, List.drop_left]; simp
    · exact (isRegionChar_iff c).2 (hc c h)

theorem doesSupport_iff (bound : Option PyStr) (uri : PyStr) : doesSupport bound uri = true ↔
    (∃ region rest, AwsKeyUri uri region rest) ∧ (bound = none ∨ bound = some uri) := by
  unfold doesSupport
  rw [← hasAwsKeyUriFormat_iff]
  cases hasAwsKeyUriFormat uri
  · simp
  · cases bound with
    | none => simp
    | some b => simp [eq_comm]

theorem splitColon_append (p r : PyStr) (hp : 58 ∉ p) :
    splitColon (p ++ 58 :: r) = p :: splitColon r := by
  induction p with
  | nil => simp [splitColon]
  | cons c p ih =>
    have h1 : c ≠ 58 := fun h => hp (by simp [h])
    have h2 : 58 ∉ p := fun h => hp (by simp [h])
    rw [List.cons_append, splitColon, if_neg h1, ih h2]

theorem splitColon_ne_nil (s : PyStr) : splitColon s ≠ [] := by
  cases s with
  | nil => simp [splitColon]
  | cons c r =>
    unfold splitColon
    split
    · simp
    · split <;> simp

theorem splitColon_none {s : PyStr} (h : 58 ∉ s) : splitColon s = [s] := by
  induction s with
  | nil => rfl
  | cons c s ih =>
    have h1 : c ≠ 58 := fun e => h (by simp [e])
    rw [splitColon, if_neg h1, ih (fun e => h (by simp [e]))]

theorem splitColon_two {s : PyStr} (h : 58 ∈ s) : ∃ a b c, splitColon s = a :: b :: c := by
  induction s with
  | nil => cases h
  | cons c s ih =>
    unfold splitColon
    by_cases hc : c = 58
    · rw [if_pos hc]
      cases hr : splitColon s with
      | nil => exact absurd hr (splitColon_ne_nil s)
      | cons b c => exact ⟨_, _, _, rfl⟩
    · rw [if_neg hc]
      have : 58 ∈ s := by
        rcases List.mem_cons.1 h with e | e
        · exact absurd e.symm hc
        · exact e
      obtain ⟨a, b, d, e⟩ := ih this
      rw [e]
      exact ⟨_, _, _, rfl⟩

end Aws
end Tink
