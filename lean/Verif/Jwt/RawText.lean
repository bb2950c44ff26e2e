import Verif.Jwt.RawLemmas
import Verif.Jwt.JsonUtilLemmas
import Verif.Json.Text

/-!
# The text of payloads
-/

namespace Tink
namespace Jwt
open Spec Json JsonUtil

variable {F : Type}

/-- No repeated keys, and all text is joined. -/
def Clean (v : JVal F) : Prop := ¬ RepeatsKey v ∧ AllTextJoined v

theorem clean_scalar {v : JVal F} (h1 : ∀ w, Within w v → w = v) (h2 : ∀ s, v ≠ .str s)
    (h3 : ∀ d, v ≠ .dict d) : Clean v := by
  refine ⟨?_, ?_, ?_⟩
  · rintro ⟨d, hd, _⟩; exact h3 d (h1 _ hd).symm
  · intro s hs; exact absurd (h1 _ hs).symm (h2 s)
  · intro d hd; exact absurd (h1 _ hd).symm (h3 d)

theorem clean_null : Clean (.null : JVal F) :=
  clean_scalar (by intro w h; cases h; rfl) (by simp) (by simp)
theorem clean_bool (b : Bool) : Clean (.bool b : JVal F) :=
  clean_scalar (by intro w h; cases h; rfl) (by simp) (by simp)
theorem clean_int (n : Int) : Clean (.int n : JVal F) :=
  clean_scalar (by intro w h; cases h; rfl) (by simp) (by simp)
theorem clean_float (x : PyFloat F) : Clean (.float x : JVal F) :=
  clean_scalar (by intro w h; cases h; rfl) (by simp) (by simp)

theorem clean_str {s : PyStr} (h : Joined s) : Clean (.str s : JVal F) := by
  refine ⟨?_, ?_, ?_⟩
  · rintro ⟨d, hd, _⟩; cases hd
  · intro t ht; cases ht; exact h
  · intro d hd; cases hd

theorem clean_list {l : List (JVal F)} (h : ∀ x ∈ l, Clean x) : Clean (.list l) := by
  refine ⟨?_, ?_, ?_⟩
  · rintro ⟨d, hd, hn⟩
    cases hd with
    | item hx hw => exact (h _ hx).1 ⟨d, hw, hn⟩
  · intro s hs
    cases hs with
    | item hx hw => exact (h _ hx).2.1 s hw
  · intro d hd k x hx
    cases hd with
    | item hy hw => exact (h _ hy).2.2 d hw k x hx

theorem clean_dict {d : List (PyStr × JVal F)} (hn : (d.map Prod.fst).Nodup)
    (h : ∀ p ∈ d, Joined p.1 ∧ Clean p.2) : Clean (.dict d) := by
  refine ⟨?_, ?_, ?_⟩
  · rintro ⟨e, he, hn'⟩
    cases he with
    | here => exact hn' hn
    | value hx hw => exact (h _ hx).2.1 ⟨e, hw, hn'⟩
  · intro s hs
    cases hs with
    | value hx hw => exact (h _ hx).2.2.1 s hw
  · intro e he k x hx
    cases he with
    | here => exact (h _ hx).1
    | value hy hw => exact (h _ hy).2.2.2 e hw k x hx

theorem clean_scanned {env : JsonEnv F} {s r : PyStr} {v : JVal F}
    (h : scanScalar env s = .ok (v, r)) : Clean v := by
  rcases scanScalar_ok h with rfl | ⟨b, rfl⟩ | ⟨i, rfl⟩ | ⟨x, rfl⟩
  · exact clean_null
  · exact clean_bool b
  · exact clean_int i
  · exact clean_float x

theorem loads_clean {env : JsonEnv F} {text : PyStr} {v : JVal F} (ht : ValidText text)
    (h : loads env text = .ok v) : Clean v := by
  refine loadsHook_text (P := Clean) (fun s v r => clean_scanned) (fun s => clean_str)
    (fun l => clean_list) ?_ text v ht h
  intro ps v hv hp
  cases hv
  obtain ⟨h1, h2⟩ := dictOf_distinct ps
  exact clean_dict h1 fun p hm => hp p (h2 p hm)

theorem ascii_valid {s : PyStr} (h : ∀ x ∈ s, x < 128) : ValidText s :=
  fun c hc => isScalar_small (h c hc)

theorem jsonLoads_clean {env : JsonEnv F} {text : PyStr} {v : JVal F} (ht : ValidText text)
    (h : jsonLoads env text = .ok v) : Clean v := by
  have h' : loadsHook env dictWithValidation text = .ok v := by
    unfold jsonLoads at h
    cases hh : loadsHook env dictWithValidation text with
    | ok w => rw [hh] at h; exact h
    | error e => rw [hh] at h; unfold jsonExcept at h; split at h <;> cases h <;> contradiction
  refine loadsHook_text (P := Clean) (fun s v r => clean_scanned) (fun s => clean_str)
    (fun l => clean_list) ?_ text v ht h'
  intro ps v hv hp
  rcases dictWithValidation_iff ps with ⟨h1, h2⟩ | ⟨e, h1, _⟩
  · rw [h1] at hv; cases hv
    exact clean_dict h2.1 hp
  · rw [h1] at hv; cases hv

/-- A custom claim is stored clean, if its text is when it is a string. -/
theorem stored_clean {env : JsonEnv F} (hl : LawfulFloats env.floats) {v w : JVal F}
    (h : storedClaim env v = .ok w) (hs : ∀ s, w = .str s → Joined s) : Clean w := by
  have copy : ∀ v w, storedClaim.copyOf env v = .ok w → Clean w := by
    intro v w h
    unfold storedClaim.copyOf at h
    cases hd : dumps env v with
    | error e => rw [hd] at h; cases h
    | ok text =>
      rw [hd] at h
      exact loads_clean (ascii_valid (dumpsDepth_ascii env hl (by simp) _ _ _ hd)) h
  cases v with
  | null => cases h; exact clean_null
  | bool b => cases h; exact clean_bool b
  | int n => cases h; exact clean_int n
  | float x => cases h; exact clean_float x
  | str s => cases h; exact clean_str (hs s rfl)
  | list l => exact copy _ _ h
  | dict d => exact copy _ _ h

/-- The payload of a created token is clean, if the strings that are looked at are valid. -/
theorem created_clean {env : JsonEnv F} (hl : LawfulFloats env.floats) {a : RawJwtArgs F}
    {t : RawJwt F} (h : newRawJwt env a = .ok t) (hv : ValidObjects (.dict t.payload)) :
    Clean (.dict t.payload) := by
  obtain ⟨_, hp, _, hvalid⟩ := newRawJwt_ok h
  have hn := addCustom_keys hp (timedPayload_keys a)
  refine clean_dict hn fun p hm => ?_
  obtain ⟨k, x⟩ := p
  obtain ⟨v1, v2, v3⟩ := hv _ .here k x hm
  refine ⟨v1.joined, ?_⟩
  rcases addCustom_mem hp _ hm with hb | ⟨w, _, hw⟩
  · obtain ⟨_, ⟨s, hs⟩ | ⟨n, hs⟩ | ⟨l, hl', hk, hs⟩⟩ := timedPayload_mem a _ hb
    · simp only at hs
      subst hs
      exact clean_str (v2 s rfl).joined
    · simp only at hs
      subst hs
      exact clean_int n
    · simp only at hs hk
      subst hs
      have hg := PyDict.mem_get? t.payload hn k _ hm
      rw [hk] at hg
      rcases hvalid.aud _ hg with ⟨s, h'⟩ | ⟨l', h', _, hall⟩
      · cases h'
      · cases h'
        refine clean_list fun y hy => ?_
        obtain ⟨s, rfl⟩ := hall y hy
        exact clean_str (v3 l s rfl hy).joined
  · exact stored_clean hl hw fun s hs => (v2 s hs).joined

end Jwt
end Tink
