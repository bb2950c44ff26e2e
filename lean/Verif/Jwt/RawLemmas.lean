import Verif.Jwt.Raw
import Verif.Spec.Jwt
import Verif.Py.DictLemmas
import Verif.Json.RoundTrip

namespace Tink
namespace Jwt
open Spec Json

variable {F : Type}

/-! ## Seconds -/

theorem divRound_bounds (a b : Nat) (hb : 0 < b) :
    2 * (b * divRound a b) ≤ 2 * a + b ∧ 2 * a ≤ 2 * (b * divRound a b) + b := by
  have h1 := Nat.div_add_mod a b
  have h2 := Nat.mod_lt a hb
  have h3 : b * (a / b + 1) = b * (a / b) + b := by rw [Nat.mul_add, Nat.mul_one]
  unfold divRound
  split
  · omega
  · split
    · rw [h3]; omega
    · split
      · omega
      · rw [h3]; omega

/-- The seconds of a quotient `q` and remainder `r`, if the double has `P` units to the second. -/
theorem seconds_aux (q r P : Nat) (hr : r < 1000000) (hP : 0 < P) :
    q ≤ divRound ((q * 1000000 + r) * P) 1000000 / P ∧
      divRound ((q * 1000000 + r) * P) 1000000 / P ≤ q + 1 ∧
      (r = 0 → divRound ((q * 1000000 + r) * P) 1000000 / P = q) ∧
      (1000000 < 2 * P → divRound ((q * 1000000 + r) * P) 1000000 / P = q) := by
  obtain ⟨h1, h2⟩ := divRound_bounds ((q * 1000000 + r) * P) 1000000 (by omega)
  generalize divRound ((q * 1000000 + r) * P) 1000000 = D at h1 h2 ⊢
  have e : (q * 1000000 + r) * P = 1000000 * (q * P) + r * P := by
    rw [Nat.add_mul, Nat.mul_comm q 1000000, Nat.mul_assoc]
  rw [e] at h1 h2
  have hrP : r * P ≤ 999999 * P := Nat.mul_le_mul_right P (by omega)
  generalize hx : q * P = x at h1 h2
  have low : q ≤ D / P := by
    rw [Nat.le_div_iff_mul_le hP, hx]; omega
  have high : D < x + P → D / P = q := by
    intro h
    have : D / P < q + 1 := by
      rw [Nat.div_lt_iff_lt_mul hP, Nat.add_mul, hx]; omega
    omega
  refine ⟨low, ?_, ?_, ?_⟩
  · have : D / P < q + 2 := by
      rw [Nat.div_lt_iff_lt_mul hP, Nat.add_mul, hx]; omega
    omega
  · rintro rfl
    exact high (by omega)
  · intro h
    exact high (by omega)

theorem secondsOf_spec (m : Nat) : m / 1000000 ≤ secondsOf m ∧ secondsOf m ≤ m / 1000000 + 1 ∧
    (m % 1000000 = 0 → secondsOf m = m / 1000000) ∧
    (m / 1000000 < 2 ^ 34 → secondsOf m = m / 1000000) := by
  unfold secondsOf
  by_cases h0 : m / 1000000 = 0
  · rw [if_pos h0]; omega
  · rw [if_neg h0]
    have hP : 0 < 2 ^ (52 - (m / 1000000).log2) := Nat.pow_pos (by omega)
    have h := seconds_aux (m / 1000000) (m % 1000000) _ (Nat.mod_lt _ (by omega)) hP
    have e : m / 1000000 * 1000000 + m % 1000000 = m := by omega
    rw [e] at h
    refine ⟨h.1, h.2.1, h.2.2.1, fun hq => h.2.2.2 ?_⟩
    have hl : (m / 1000000).log2 < 34 := (Nat.log2_lt h0).2 hq
    have : 2 ^ 19 ≤ 2 ^ (52 - (m / 1000000).log2) := Nat.pow_le_pow_right (by omega) (by omega)
    have e19 : 2 ^ 19 = 524288 := rfl
    omega

theorem instant_eq (d : DateTime) : d.instant = moment d := by
  unfold DateTime.instant moment
  cases d.tz with
  | none => simp
  | some _ => rfl

theorem storedAs (d : DateTime) : StoredAs d (intTimestamp d) := by
  unfold intTimestamp
  rw [instant_eq]
  have h := secondsOf_spec (moment d).natAbs
  have e34 : (2 : Nat) ^ 34 = 17179869184 := rfl
  have e34' : (2 : Int) ^ 34 = 17179869184 := rfl
  rw [e34] at h
  obtain ⟨h1, h2, h3, h4⟩ := h
  constructor
  · by_cases hw : (moment d).natAbs % 1000000 = 0
    · have := h3 hw
      split <;> omega
    · split <;> omega
  · intro hw
    have := h3 (by omega)
    split <;> omega
  · intro h0 hlt
    rw [e34'] at hlt
    rw [if_neg (by omega)]
    have := h4 (by omega)
    omega

/-! ## Payloads -/

theorem registered_iff (n : PyStr) : n ∈ registeredNames ↔ Registered n := by
  unfold registeredNames Registered
  simp only [List.mem_cons, List.not_mem_nil, or_false]

theorem putOpt_get (d : List (PyStr × JVal F)) (n k : PyStr) (o : Option (JVal F)) :
    PyDict.get? (putOpt d n o) k = if n = k then o.or (PyDict.get? d k) else PyDict.get? d k := by
  cases o with
  | none => simp [putOpt]
  | some v => simp only [putOpt, PyDict.get?_set, Option.some_or]

theorem putOpt_keys {d : List (PyStr × JVal F)} {n : PyStr} {o : Option (JVal F)}
    (h : (d.map Prod.fst).Nodup) : ((putOpt d n o).map Prod.fst).Nodup := by
  cases o with
  | none => exact h
  | some v => exact set_nodup h

theorem putOpt_mem {d : List (PyStr × JVal F)} {n : PyStr} {o : Option (JVal F)}
    {p : PyStr × JVal F} (h : p ∈ putOpt d n o) : p ∈ d ∨ (p.1 = n ∧ o = some p.2) := by
  cases o with
  | none => exact .inl h
  | some v =>
    rcases set_mem h with h | ⟨h1, h2⟩
    · exact .inl h
    · exact .inr ⟨h1, by rw [h2]⟩

theorem addCustom_keys {env : JsonEnv F} {l : List (ClaimName × ClaimValue F)}
    {d d' : List (PyStr × JVal F)} (h : addCustomClaims env d l = .ok d')
    (hd : (d.map Prod.fst).Nodup) : (d'.map Prod.fst).Nodup := by
  induction l generalizing d with
  | nil => cases h; exact hd
  | cons p l ih =>
    obtain ⟨n, v⟩ := p
    cases n with
    | other => cases h
    | str s =>
      unfold addCustomClaims at h
      by_cases hr : s ∈ registeredNames
      · rw [if_pos hr] at h; cases h
      · rw [if_neg hr] at h
        cases v with
        | other => cases h
        | json w =>
          simp only at h
          cases hs : storedClaim env w with
          | error e => rw [hs] at h; cases h
          | ok w' => rw [hs] at h; exact ih h (set_nodup hd)

/-- A step of the loop. -/
theorem addCustom_cons {env : JsonEnv F} {n : ClaimName} {v : ClaimValue F}
    {l : List (ClaimName × ClaimValue F)} {d d' : List (PyStr × JVal F)}
    (h : addCustomClaims env d ((n, v) :: l) = .ok d') :
    ∃ s w w', n = .str s ∧ v = .json w ∧ s ∉ registeredNames ∧ storedClaim env w = .ok w' ∧
      addCustomClaims env (PyDict.set d s w') l = .ok d' := by
  cases n with
  | other => cases h
  | str s =>
    unfold addCustomClaims at h
    by_cases hr : s ∈ registeredNames
    · rw [if_pos hr] at h; cases h
    · rw [if_neg hr] at h
      cases v with
      | other => cases h
      | json w =>
        simp only at h
        cases hs : storedClaim env w with
        | error e => rw [hs] at h; cases h
        | ok w' => rw [hs] at h; exact ⟨s, w, w', rfl, rfl, hr, hs, h⟩

theorem addCustom_names {env : JsonEnv F} {l : List (ClaimName × ClaimValue F)}
    {d d' : List (PyStr × JVal F)} (h : addCustomClaims env d l = .ok d') (n : ClaimName)
    (v : ClaimValue F) (hm : (n, v) ∈ l) :
    ∃ s w w', n = .str s ∧ v = .json w ∧ s ∉ registeredNames ∧ storedClaim env w = .ok w' := by
  induction l generalizing d with
  | nil => simp at hm
  | cons p l ih =>
    obtain ⟨n', v'⟩ := p
    obtain ⟨s, w, w', h1, h2, h3, h4, h5⟩ := addCustom_cons h
    rcases List.mem_cons.1 hm with e | hm
    · cases e; exact ⟨s, w, w', h1, h2, h3, h4⟩
    · exact ih h5 hm

theorem addCustom_get_other {env : JsonEnv F} {l : List (ClaimName × ClaimValue F)}
    {d d' : List (PyStr × JVal F)} (h : addCustomClaims env d l = .ok d') (k : PyStr)
    (hk : ∀ v, (ClaimName.str k, v) ∉ l) : PyDict.get? d' k = PyDict.get? d k := by
  induction l generalizing d with
  | nil => cases h; rfl
  | cons p l ih =>
    obtain ⟨n', v'⟩ := p
    obtain ⟨s, w, w', rfl, rfl, h3, h4, h5⟩ := addCustom_cons h
    rw [ih h5 fun v hv => hk v (by simp [hv])]
    refine PyDict.get?_set_ne _ _ ?_
    rintro rfl
    exact hk _ List.mem_cons_self

theorem addCustom_get {env : JsonEnv F} {l : List (ClaimName × ClaimValue F)}
    {d d' : List (PyStr × JVal F)} (h : addCustomClaims env d l = .ok d')
    (hn : (l.map Prod.fst).Nodup) (k : PyStr) (w : JVal F) (hm : (ClaimName.str k, ClaimValue.json w) ∈ l) :
    ∃ w', storedClaim env w = .ok w' ∧ PyDict.get? d' k = some w' := by
  induction l generalizing d with
  | nil => simp at hm
  | cons p l ih =>
    obtain ⟨n', v'⟩ := p
    obtain ⟨s, x, w', rfl, rfl, h3, h4, h5⟩ := addCustom_cons h
    simp only [List.map_cons, List.nodup_cons] at hn
    rcases List.mem_cons.1 hm with e | hm
    · cases e
      refine ⟨w', h4, ?_⟩
      rw [addCustom_get_other h5 k ?_, PyDict.get?_set_self]
      intro v hv
      exact hn.1 (List.mem_map.2 ⟨_, hv, rfl⟩)
    · exact ih h5 hn.2 hm

/-- Every entry was there before, or is a stored custom claim. -/
theorem addCustom_mem {env : JsonEnv F} {l : List (ClaimName × ClaimValue F)}
    {d d' : List (PyStr × JVal F)} (h : addCustomClaims env d l = .ok d') (p : PyStr × JVal F)
    (hp : p ∈ d') : p ∈ d ∨ ∃ w, (ClaimName.str p.1, ClaimValue.json w) ∈ l ∧ storedClaim env w = .ok p.2 := by
  induction l generalizing d with
  | nil => cases h; exact .inl hp
  | cons q l ih =>
    obtain ⟨n', v'⟩ := q
    obtain ⟨s, w, w', rfl, rfl, h3, h4, h5⟩ := addCustom_cons h
    rcases ih h5 with hp | ⟨x, hx, hs⟩
    · rcases set_mem hp with hp | ⟨h6, h7⟩
      · exact .inl hp
      · exact .inr ⟨w, by rw [h6]; simp, by rw [h7, h4]⟩
    · exact .inr ⟨x, by simp [hx], hs⟩

theorem addCustom_ok {env : JsonEnv F} {l : List (ClaimName × ClaimValue F)}
    {d : List (PyStr × JVal F)} (h : ∀ n v, (n, v) ∈ l →
      ∃ s w w', n = .str s ∧ s ∉ registeredNames ∧ v = .json w ∧ storedClaim env w = .ok w') :
    ∃ d', addCustomClaims env d l = .ok d' := by
  induction l generalizing d with
  | nil => exact ⟨d, rfl⟩
  | cons p l ih =>
    obtain ⟨n, v⟩ := p
    obtain ⟨s, w, w', rfl, hs, rfl, hw⟩ := h n v (by simp)
    unfold addCustomClaims
    rw [if_neg hs]
    simp only [hw]
    exact ih fun n v hm => h n v (by simp [hm])

/-- A copyable claim is stored as it is. -/
theorem storedClaim_ok {env : JsonEnv F} (hl : LawfulFloats env.floats) {w : JVal F}
    (h : Copyable env w) : storedClaim env w = .ok w := by
  have copy : ∀ text, dumps env w = .ok text → storedClaim.copyOf env w = .ok w := by
    intro text ht
    unfold storedClaim.copyOf
    rw [ht]
    exact loadsHook_dumpsDepth env hl _ [32] (by simp [isWs]) w text ht h.2.1 fun d hd => by
      rw [dictOf_nodup (Decidable.not_not.1 fun hn => h.1 ⟨d, hd, hn⟩)]
  cases w with
  | list l =>
    obtain ⟨text, ht⟩ := h.2.2 l [] (.inl rfl)
    exact copy text ht
  | dict d =>
    obtain ⟨text, ht⟩ := h.2.2 [] d (.inr rfl)
    exact copy text ht
  | _ => rfl

theorem timeClaim_ok (o : Option DateTime) (x : Option (JVal F)) (h : timeClaim o = .ok x) :
    x = o.map (fun d => .int (intTimestamp d)) ∧ ∀ d, o = some d → d.tz ≠ none := by
  cases o with
  | none => cases h; exact ⟨rfl, by simp⟩
  | some d =>
    unfold timeClaim fromDatetime at h
    cases hz : d.tz with
    | none => simp only [hz] at h; cases h
    | some z =>
      simp only [hz] at h; cases h
      refine ⟨rfl, ?_⟩
      rintro _ ⟨⟩
      rw [hz]; simp

theorem timeClaim_of {o : Option DateTime} (h : ∀ d, o = some d → d.tz ≠ none) :
    timeClaim (F := F) o = .ok (o.map fun d => .int (intTimestamp d)) := by
  cases o with
  | none => rfl
  | some d =>
    unfold timeClaim fromDatetime
    cases hz : d.tz with
    | none => exact absurd hz (h d rfl)
    | some z => simp only [hz]; rfl

theorem bind_ok {α β : Type} {m : Py α} {f : α → Py β} {b : β} (h : (m >>= f) = .ok b) :
    ∃ a, m = .ok a ∧ f a = .ok b := by
  cases m with
  | error e => cases h
  | ok a => exact ⟨a, rfl, h⟩

/-- What the checks of the constructor amount to. -/
structure ValidPayload (fl : Floats F) (p : List (PyStr × JVal F)) : Prop where
  iss : ∀ v, PyDict.get? p (py! "iss") = some v → ∃ s, v = .str s
  sub : ∀ v, PyDict.get? p (py! "sub") = some v → ∃ s, v = .str s
  jti : ∀ v, PyDict.get? p (py! "jti") = some v → ∃ s, v = .str s
  times : ∀ n v, n = py! "exp" ∨ n = py! "nbf" ∨ n = py! "iat" → PyDict.get? p n = some v →
    (∃ b, v = .bool b) ∨ (∃ k : Int, v = .int k ∧ 0 ≤ k ∧ k ≤ maxTimestamp) ∨
      ∃ x, v = .float x ∧ outOfRange fl x = false
  aud : ∀ v, PyDict.get? p (py! "aud") = some v →
    (∃ s, v = .str s) ∨ ∃ l, v = .list l ∧ l ≠ [] ∧ ∀ x ∈ l, ∃ s, x = .str s

theorem stringClaim_cases (p : List (PyStr × JVal F)) (n : PyStr) :
    (validateStringClaim p n = .ok () ∧ ∀ v, PyDict.get? p n = some v → ∃ s, v = .str s) ∨
    (validateStringClaim p n = .error .jwtInvalidError ∧
      ¬ ∀ v, PyDict.get? p n = some v → ∃ s, v = .str s) := by
  unfold validateStringClaim
  cases h : PyDict.get? p n with
  | none => exact .inl ⟨rfl, by simp⟩
  | some v =>
    cases v with
    | str s => exact .inl ⟨rfl, by simp⟩
    | _ => exact .inr ⟨rfl, by simp⟩

theorem timeClaim_cases (fl : Floats F) (p : List (PyStr × JVal F)) (n : PyStr) :
    (validateTimestampClaim fl p n = .ok () ∧ ∀ v, PyDict.get? p n = some v →
      (∃ b, v = .bool b) ∨ (∃ k : Int, v = .int k ∧ 0 ≤ k ∧ k ≤ maxTimestamp) ∨
      ∃ x, v = .float x ∧ outOfRange fl x = false) ∨
    (validateTimestampClaim fl p n = .error .jwtInvalidError ∧
      ¬ ∀ v, PyDict.get? p n = some v →
      (∃ b, v = .bool b) ∨ (∃ k : Int, v = .int k ∧ 0 ≤ k ∧ k ≤ maxTimestamp) ∨
      ∃ x, v = .float x ∧ outOfRange fl x = false) := by
  unfold validateTimestampClaim
  cases h : PyDict.get? p n with
  | none => exact .inl ⟨rfl, by simp⟩
  | some v =>
    cases v with
    | bool b => exact .inl ⟨rfl, by simp⟩
    | int k =>
      simp only
      by_cases hk : k > maxTimestamp ∨ k < 0
      · rw [if_pos hk]
        refine .inr ⟨rfl, fun hn => ?_⟩
        rcases hn _ rfl with ⟨b, hb⟩ | ⟨k', hb, h1, h2⟩ | ⟨x, hb, _⟩
        · cases hb
        · cases hb; omega
        · cases hb
      · rw [if_neg hk]
        refine .inl ⟨rfl, ?_⟩
        rintro v ⟨⟩
        exact .inr (.inl ⟨k, rfl, by omega, by omega⟩)
    | float x =>
      simp only
      cases ho : outOfRange fl x with
      | true =>
        rw [if_pos rfl]
        refine .inr ⟨rfl, fun hn => ?_⟩
        rcases hn _ rfl with ⟨b, hb⟩ | ⟨k', hb, h1, h2⟩ | ⟨x', hb, h'⟩
        · cases hb
        · cases hb
        · cases hb; rw [ho] at h'; cases h'
      | false =>
        refine .inl ⟨rfl, ?_⟩
        rintro v ⟨⟩
        exact .inr (.inr ⟨x, rfl, ho⟩)
    | _ => exact .inr ⟨rfl, by simp⟩

theorem all_isStr (l : List (JVal F)) : l.all isStr = true ↔ ∀ x ∈ l, ∃ s, x = .str s := by
  rw [List.all_eq_true]
  constructor
  · intro h x hx
    have := h x hx
    cases x with
    | str s => exact ⟨s, rfl⟩
    | _ => cases this
  · intro h x hx
    obtain ⟨s, rfl⟩ := h x hx
    rfl

theorem audClaim_cases (p : List (PyStr × JVal F)) :
    (validateAudienceClaim p = .ok () ∧ ∀ v, PyDict.get? p (py! "aud") = some v →
      (∃ s, v = .str s) ∨ ∃ l, v = .list l ∧ l ≠ [] ∧ ∀ x ∈ l, ∃ s, x = .str s) ∨
    (validateAudienceClaim p = .error .jwtInvalidError ∧
      ¬ ∀ v, PyDict.get? p (py! "aud") = some v →
      (∃ s, v = .str s) ∨ ∃ l, v = .list l ∧ l ≠ [] ∧ ∀ x ∈ l, ∃ s, x = .str s) := by
  unfold validateAudienceClaim
  cases h : PyDict.get? p (py! "aud") with
  | none => exact .inl ⟨rfl, by simp⟩
  | some v =>
    cases v with
    | str s => exact .inl ⟨rfl, by simp⟩
    | list l =>
      simp only
      cases l with
      | nil => exact .inr ⟨rfl, by simp⟩
      | cons a l =>
        simp only [List.isEmpty_cons, Bool.false_eq_true, if_false]
        by_cases ha : (a :: l).all isStr = true
        · rw [if_pos ha]
          refine .inl ⟨rfl, ?_⟩
          rintro v ⟨⟩
          exact .inr ⟨a :: l, rfl, by simp, (all_isStr _).1 ha⟩
        · rw [if_neg ha]
          refine .inr ⟨rfl, fun hn => ?_⟩
          rcases hn _ rfl with ⟨s, hs⟩ | ⟨l', hs, _, h'⟩
          · cases hs
          · cases hs; exact ha ((all_isStr _).2 h')
    | _ => exact .inr ⟨rfl, by simp⟩

/-- The checks of the constructor decide that. -/
theorem validatePayload_cases (fl : Floats F) (p : List (PyStr × JVal F)) :
    (validatePayload fl p = .ok () ∧ ValidPayload fl p) ∨
      (validatePayload fl p = .error .jwtInvalidError ∧ ¬ ValidPayload fl p) := by
  unfold validatePayload
  rcases stringClaim_cases p (py! "iss") with ⟨h1, k1⟩ | ⟨h1, k1⟩
  case inr => rw [h1]; exact .inr ⟨rfl, fun h => k1 h.iss⟩
  rcases stringClaim_cases p (py! "sub") with ⟨h2, k2⟩ | ⟨h2, k2⟩
  case inr => rw [h1, h2]; exact .inr ⟨rfl, fun h => k2 h.sub⟩
  rcases stringClaim_cases p (py! "jti") with ⟨h3, k3⟩ | ⟨h3, k3⟩
  case inr => rw [h1, h2, h3]; exact .inr ⟨rfl, fun h => k3 h.jti⟩
  rcases timeClaim_cases fl p (py! "exp") with ⟨h4, k4⟩ | ⟨h4, k4⟩
  case inr => rw [h1, h2, h3, h4]; exact .inr ⟨rfl, fun h => k4 fun v => h.times _ v (.inl rfl)⟩
  rcases timeClaim_cases fl p (py! "nbf") with ⟨h5, k5⟩ | ⟨h5, k5⟩
  case inr =>
    rw [h1, h2, h3, h4, h5]; exact .inr ⟨rfl, fun h => k5 fun v => h.times _ v (.inr (.inl rfl))⟩
  rcases timeClaim_cases fl p (py! "iat") with ⟨h6, k6⟩ | ⟨h6, k6⟩
  case inr =>
    rw [h1, h2, h3, h4, h5, h6]; exact .inr ⟨rfl, fun h => k6 fun v => h.times _ v (.inr (.inr rfl))⟩
  rcases audClaim_cases p with ⟨h7, k7⟩ | ⟨h7, k7⟩
  case inr => rw [h1, h2, h3, h4, h5, h6, h7]; exact .inr ⟨rfl, fun h => k7 h.aud⟩
  rw [h1, h2, h3, h4, h5, h6, h7]
  refine .inl ⟨rfl, k1, k2, k3, ?_, k7⟩
  rintro n v (rfl | rfl | rfl) hv
  · exact k4 v hv
  · exact k5 v hv
  · exact k6 v hv

theorem init_ok {fl : Floats F} {th : Option (JVal F)} {v : JVal F} {t : RawJwt F}
    (h : RawJwt.init fl th v = .ok t) :
    v = .dict t.payload ∧ t.typeHeader = th ∧ ValidPayload fl t.payload := by
  cases v with
  | dict p =>
    unfold RawJwt.init at h
    rcases validatePayload_cases fl p with ⟨h1, h2⟩ | ⟨h1, h2⟩
    · simp only [h1] at h; cases h; exact ⟨rfl, rfl, h2⟩
    · simp only [h1] at h; cases h
  | _ => cases h

theorem init_of {fl : Floats F} {th : Option (JVal F)} {p : List (PyStr × JVal F)}
    (h : ValidPayload fl p) : RawJwt.init fl th (.dict p) = .ok ⟨th, p⟩ := by
  unfold RawJwt.init
  rcases validatePayload_cases fl p with ⟨h1, h2⟩ | ⟨h1, h2⟩
  · simp only [h1]
  · exact absurd h h2

/-! ## Creation -/

/-- The payload before the custom claims. -/
def timedPayload (a : RawJwtArgs F) : List (PyStr × JVal F) :=
  putOpt (putOpt (putOpt (basePayload a) (py! "exp") (a.expiration.map fun d => .int (intTimestamp d)))
    (py! "nbf") (a.notBefore.map fun d => .int (intTimestamp d)))
    (py! "iat") (a.issuedAt.map fun d => .int (intTimestamp d))

/-- The inputs pass the first tests. -/
def Opening (a : RawJwtArgs F) : Prop :=
  ((a.expiration.isSome = true ∧ a.withoutExpiration = false) ∨
    (a.expiration = none ∧ a.withoutExpiration = true)) ∧
  (a.audience = none ∨ a.audiences = none) ∧
  ∀ d, some d = a.expiration ∨ some d = a.notBefore ∨ some d = a.issuedAt → d.tz ≠ none

theorem opening_tests (a : RawJwtArgs F) :
    ((a.expiration.isNone && !a.withoutExpiration) = false ∧
      (a.expiration.isSome && a.withoutExpiration) = false) ↔
    ((a.expiration.isSome = true ∧ a.withoutExpiration = false) ∨
    (a.expiration = none ∧ a.withoutExpiration = true)) := by
  cases a.expiration <;> cases a.withoutExpiration <;> simp

theorem newRawJwt_ok {env : JsonEnv F} {a : RawJwtArgs F} {t : RawJwt F}
    (h : newRawJwt env a = .ok t) : Opening a ∧
      addCustomClaims env (timedPayload a) a.customClaims = .ok t.payload ∧
      t.typeHeader = a.typeHeader.map .str ∧ ValidPayload env.floats t.payload := by
  unfold newRawJwt at h
  cases h1 : (a.expiration.isNone && !a.withoutExpiration) with
  | true => rw [h1, if_pos rfl] at h; cases h
  | false =>
    rw [h1, if_neg (by simp)] at h
    cases h2 : (a.expiration.isSome && a.withoutExpiration) with
    | true => rw [h2, if_pos rfl] at h; cases h
    | false =>
      rw [h2, if_neg (by simp)] at h
      cases h3 : (a.audience.isSome && a.audiences.isSome) with
      | true => rw [h3, if_pos rfl] at h; cases h
      | false =>
        rw [h3, if_neg (by simp)] at h
        obtain ⟨exp, he, h⟩ := bind_ok h
        obtain ⟨nbf, hn, h⟩ := bind_ok h
        obtain ⟨iat, hi, h⟩ := bind_ok h
        obtain ⟨payload, hp, h'⟩ := bind_ok h
        obtain ⟨rfl, e1⟩ := timeClaim_ok _ _ he
        obtain ⟨rfl, e2⟩ := timeClaim_ok _ _ hn
        obtain ⟨rfl, e3⟩ := timeClaim_ok _ _ hi
        obtain ⟨hv, ht, hvalid⟩ := init_ok h'
        cases hv
        refine ⟨⟨(opening_tests a).1 ⟨h1, h2⟩, ?_, ?_⟩, hp, ht, hvalid⟩
        · cases ha : a.audience with
          | none => exact .inl rfl
          | some x =>
            cases hb : a.audiences with
            | none => exact .inr rfl
            | some y => rw [ha, hb] at h3; cases h3
        · rintro d (hd | hd | hd)
          · exact e1 d hd.symm
          · exact e2 d hd.symm
          · exact e3 d hd.symm

theorem newRawJwt_of {env : JsonEnv F} {a : RawJwtArgs F} (ho : Opening a)
    {payload : List (PyStr × JVal F)}
    (hp : addCustomClaims env (timedPayload a) a.customClaims = .ok payload)
    (hv : ValidPayload env.floats payload) :
    newRawJwt env a = .ok ⟨a.typeHeader.map .str, payload⟩ := by
  obtain ⟨h1, h2, h3⟩ := ho
  obtain ⟨h1, h1'⟩ := (opening_tests a).2 h1
  have h4 : (a.audience.isSome && a.audiences.isSome) = false := by
    rcases h2 with h | h <;> rw [h] <;> simp
  unfold newRawJwt
  rw [h1, h1', h4, if_neg (by simp), if_neg (by simp), if_neg (by simp),
    timeClaim_of fun d hd => h3 d (.inl hd.symm), timeClaim_of fun d hd => h3 d (.inr (.inl hd.symm)),
    timeClaim_of fun d hd => h3 d (.inr (.inr hd.symm))]
  show (addCustomClaims env (timedPayload a) a.customClaims >>= fun p =>
    RawJwt.init env.floats (a.typeHeader.map .str) (.dict p)) = _
  rw [hp]
  exact init_of hv

theorem nonEmpty_eq (o : Option PyStr) : nonEmpty (F := F) o = (unlessEmpty o).map .str := by
  cases o with
  | none => rfl
  | some s => cases s <;> rfl

theorem timedPayload_get (a : RawJwtArgs F) :
    PyDict.get? (timedPayload a) (py! "iss") = (unlessEmpty a.issuer).map .str ∧
    PyDict.get? (timedPayload a) (py! "sub") = (unlessEmpty a.subject).map .str ∧
    PyDict.get? (timedPayload a) (py! "jti") = a.jwtId.map .str ∧
    PyDict.get? (timedPayload a) (py! "aud") = (a.audiences.map .list).or (a.audience.map .str) ∧
    PyDict.get? (timedPayload a) (py! "exp") = a.expiration.map (fun d => .int (intTimestamp d)) ∧
    PyDict.get? (timedPayload a) (py! "nbf") = a.notBefore.map (fun d => .int (intTimestamp d)) ∧
    PyDict.get? (timedPayload a) (py! "iat") = a.issuedAt.map (fun d => .int (intTimestamp d)) := by
  simp [timedPayload, basePayload, putOpt_get, nonEmpty_eq]

theorem timedPayload_keys (a : RawJwtArgs F) : ((timedPayload a).map Prod.fst).Nodup := by
  unfold timedPayload basePayload
  repeat apply putOpt_keys
  exact List.nodup_nil

theorem timedPayload_mem (a : RawJwtArgs F) (p : PyStr × JVal F) (h : p ∈ timedPayload a) :
    Registered p.1 ∧ ((∃ s, p.2 = .str s) ∨ (∃ n, p.2 = .int n) ∨
      ∃ l, a.audiences = some l ∧ p.1 = py! "aud" ∧ p.2 = .list l) := by
  unfold timedPayload basePayload at h
  have tm : ∀ (o : Option DateTime), o.map (fun d => (JVal.int (intTimestamp d) : JVal F)) = some p.2 →
      ∃ n, p.2 = .int n := by
    intro o ho
    cases o with
    | none => cases ho
    | some d => exact ⟨_, (Option.some.inj ho).symm⟩
  have st : ∀ (o : Option PyStr), o.map (JVal.str (F := F)) = some p.2 → ∃ s, p.2 = .str s := by
    intro o ho
    cases o with
    | none => cases ho
    | some d => exact ⟨_, (Option.some.inj ho).symm⟩
  rcases putOpt_mem h with h | ⟨h1, h2⟩
  case inr => exact ⟨by rw [h1]; simp [Registered], .inr (.inl (tm _ h2))⟩
  rcases putOpt_mem h with h | ⟨h1, h2⟩
  case inr => exact ⟨by rw [h1]; simp [Registered], .inr (.inl (tm _ h2))⟩
  rcases putOpt_mem h with h | ⟨h1, h2⟩
  case inr => exact ⟨by rw [h1]; simp [Registered], .inr (.inl (tm _ h2))⟩
  rcases putOpt_mem h with h | ⟨h1, h2⟩
  case inr =>
    refine ⟨by rw [h1]; simp [Registered], .inr (.inr ?_)⟩
    cases ha : a.audiences with
    | none => rw [ha] at h2; cases h2
    | some l => rw [ha] at h2; exact ⟨l, rfl, h1, (Option.some.inj h2).symm⟩
  rcases putOpt_mem h with h | ⟨h1, h2⟩
  case inr => exact ⟨by rw [h1]; simp [Registered], .inl (st _ h2)⟩
  rcases putOpt_mem h with h | ⟨h1, h2⟩
  case inr => exact ⟨by rw [h1]; simp [Registered], .inl (st _ h2)⟩
  rcases putOpt_mem h with h | ⟨h1, h2⟩
  case inr => exact ⟨by rw [h1]; simp [Registered], .inl (st _ (by rw [← nonEmpty_eq]; exact h2))⟩
  rcases putOpt_mem h with h | ⟨h1, h2⟩
  case inr => exact ⟨by rw [h1]; simp [Registered], .inl (st _ (by rw [← nonEmpty_eq]; exact h2))⟩
  simp at h

end Jwt
end Tink
