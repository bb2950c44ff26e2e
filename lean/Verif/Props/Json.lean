import Verif.Json.Digits
import Verif.Examples.ToyJson

/-!
# C49, C50: JSON in JWTs

`Spec.parseTree` is what a text says: its value with every object as the list of all its pairs.
-/

namespace Tink
namespace Props
open Json JsonUtil Spec

variable {F : Type}

theorem good_iff (v : JVal F) : Good v ↔ ¬ RepeatsKey v ∧ ValidObjects v := by
  constructor
  · exact fun h => ⟨fun ⟨d, hd, hn⟩ => hn (h d hd).1, fun d hd k x hx => (h d hd).2 k x hx⟩
  · rintro ⟨h1, h2⟩ d hd
    exact ⟨Decidable.not_not.1 fun hn => h1 ⟨d, hd, hn⟩, fun k x hx => h2 d hd k x hx⟩

/-- `json_loads` returns a value exactly if the text says that value, no object in it repeats a key,
and the strings of its objects are valid Unicode. -/
theorem C49_accepts (env : JsonEnv F) (text : PyStr) (v : JVal F) :
    jsonLoads env text = .ok v ↔
      parseTree env text = .ok v ∧ ¬ RepeatsKey v ∧ ValidObjects v := by
  unfold jsonLoads
  rw [← good_iff]
  rcases loadsHook_compare env text with ⟨w, h1, h2, h3⟩ | ⟨w, e, h1, h2, h3, h4⟩ |
      ⟨e, e', h1, h2, h3⟩
  · rw [h1, h3]
    unfold jsonExcept
    simp only [Except.ok.injEq]
    constructor
    · rintro rfl; exact ⟨rfl, h2⟩
    · exact fun h => h.1
  · rw [h1, h4]
    constructor
    · intro h; unfold jsonExcept at h; split at h <;> cases h <;> contradiction
    · rintro ⟨h, hg⟩; cases h; exact absurd hg h2
  · rw [h1, h2]
    constructor
    · intro h; unfold jsonExcept at h; split at h <;> cases h <;> contradiction
    · rintro ⟨h, _⟩; cases h

/-- A text in which some object, at any depth, repeats a key is rejected with `JwtInvalidError`. -/
theorem C49_repeated_key_rejected (env : JsonEnv F) (text : PyStr) (v : JVal F)
    (h : parseTree env text = .ok v) (hr : RepeatsKey v) :
    jsonLoads env text = .error .jwtInvalidError := by
  unfold jsonLoads
  rcases loadsHook_compare env text with ⟨w, h1, h2, h3⟩ | ⟨w, e, h1, h2, h3, h4⟩ |
      ⟨e, e', h1, h2, h3⟩
  · rw [h] at h1; cases h1
    exact absurd hr ((good_iff v).1 h2).1
  · rw [h4]
    rcases h3 with rfl | rfl <;> rfl
  · rw [h] at h1; cases h1

/-- Every text is either accepted or rejected with `JwtInvalidError`, except that there may be
`ValueError` if the text contains more digits in a row than the interpreter converts. -/
theorem C49_total (env : JsonEnv F) (text : PyStr) :
    (∃ v, jsonLoads env text = .ok v) ∨ jsonLoads env text = .error .jwtInvalidError ∨
    (jsonLoads env text = .error .valueError ∧ LongInt env text) := by
  unfold jsonLoads
  rcases loadsHook_compare env text with ⟨w, h1, h2, h3⟩ | ⟨w, e, h1, h2, h3, h4⟩ |
      ⟨e, e', h1, h2, h3⟩
  · rw [h3]; exact .inl ⟨w, rfl⟩
  · rw [h4]
    rcases h3 with rfl | rfl <;> exact .inr (.inl rfl)
  · rw [h2]
    right
    rcases h3 with rfl | rfl | rfl
    · rcases parseTree_error env text _ h1 with rfl | rfl | ⟨rfl, h⟩
      · exact .inl rfl
      · exact .inl rfl
      · exact .inr ⟨rfl, loadsHook_long (fun ps h => by cases h) h1⟩
    · exact .inl rfl
    · exact .inl rfl

/-- So before Python 3.11, or with the limit turned off, only `JwtInvalidError`. -/
theorem C49_total_unlimited (env : JsonEnv F) (hd : env.maxDigits = none) (text : PyStr) :
    (∃ v, jsonLoads env text = .ok v) ∨ jsonLoads env text = .error .jwtInvalidError := by
  rcases C49_total env text with h | h | ⟨_, m, _, _, _, h, _⟩
  · exact .inl h
  · exact .inr h
  · rw [hd] at h; cases h

/-- With a limit there are texts that raise `ValueError` instead: integers of more digits. -/
theorem C49_total_violated (env : JsonEnv F) (m : Nat) (hd : env.maxDigits = some m) :
    jsonLoads env (49 :: List.replicate m 48) = .error .valueError := by
  have hi : IntPart (49 :: List.replicate m 48) :=
    .inr ⟨49, _, rfl, by omega, by omega, fun c hc => by rw [List.eq_of_mem_replicate hc]; omega⟩
  have h1 := matchNumber_append (sg := []) (f := []) (e := []) (r := []) (.inl rfl) hi (.inl rfl)
    (.inl rfl) (by intro c hc; simp at hc)
  have h2 := scanScalar_number env (sg := []) (t := []) (.inl rfl) hi
  simp only [List.nil_append, List.append_nil] at h1 h2
  rw [h1] at h2
  have h3 : env.digitsOk (49 :: List.replicate m 48).length = false := by
    unfold JsonEnv.digitsOk
    rw [hd]
    simp
  simp only [numberValue, List.isEmpty_nil, Bool.and_self, if_true, h3, Bool.false_eq_true,
    if_false] at h2
  unfold jsonLoads loadsHook
  rw [skipWs_cons rfl, scanValue_plain env _ _ ⟨49, _, rfl, by omega, by omega, by omega⟩, h2]
  rfl

/-- What `json_dumps` wrote, `json_loads` reads back, if the strings that it checks are valid Unicode
and no string has a high surrogate directly before a low one. -/
theorem C49_round_trip (env : JsonEnv F) (hl : LawfulFloats env.floats) (v : JVal F) (text : PyStr)
    (h : jsonDumps env v = .ok text) (hk : ¬ RepeatsKey v) (hv : ValidObjects v)
    (hj : AllTextJoined v) : jsonLoads env text = .ok v := by
  have good : ∀ d, Within (.dict d) v → dictWithValidation d = .ok (.dict d) := by
    intro d hd
    rcases dictWithValidation_iff d with ⟨h1, _⟩ | ⟨e, _, _, h3⟩
    · exact h1
    · exact absurd ((good_iff v).2 ⟨hk, hv⟩ d hd) h3
  unfold jsonLoads
  rw [loadsHook_dumpsDepth env hl dictWithValidation [] (by simp) v text h hj good]
  rfl

/-- Valid Unicode everywhere is enough. -/
theorem valid_enough {v : JVal F} (h : AllTextValid v) : ValidObjects v ∧ AllTextJoined v := by
  have lift : ∀ {w u : JVal F}, Within u w → ∀ {t}, Within t u → Within t w := by
    intro w u hw t ht
    induction hw with
    | here => exact ht
    | item hx _ ih => exact .item hx ih
    | value hx _ ih => exact .value hx ih
  refine ⟨fun d hd k x hx => ⟨h.2 d hd k x hx, ?_, ?_⟩, fun s hs => (h.1 s hs).joined,
    fun d hd k x hx => (h.2 d hd k x hx).joined⟩
  · rintro s rfl
    exact h.1 s (lift hd (.value hx .here))
  · rintro l s rfl hs
    exact h.1 s (lift hd (.value hx (.item hs .here)))

theorem C49_round_trip_valid (env : JsonEnv F) (hl : LawfulFloats env.floats) (v : JVal F)
    (text : PyStr) (h : jsonDumps env v = .ok text) (hk : ¬ RepeatsKey v) (hv : AllTextValid v) :
    jsonLoads env text = .ok v :=
  C49_round_trip env hl v text h hk (valid_enough hv).1 (valid_enough hv).2

/-- Writing fails only for values nested too deeply and for integers with too many digits. -/
theorem C49_dumps_error (env : JsonEnv F) (v : JVal F) (e : Exc) (h : jsonDumps env v = .error e) :
    e = .recursionError ∨ (e = .valueError ∧ env.maxDigits ≠ none) := by
  have mapE : ∀ {α : Type} (f : α → Py PyStr) (P : Exc → Prop), (∀ a e, f a = .error e → P e) →
      ∀ (l : List α) e, mapPy f l = .error e → P e := by
    intro α f P hf l
    induction l with
    | nil => intro e h; cases h
    | cons a l ih =>
      intro e h
      unfold mapPy at h
      cases h1 : f a with
      | error e' => rw [h1] at h; cases h; exact hf a _ h1
      | ok b =>
        cases h2 : mapPy f l with
        | error e' => rw [h1, h2] at h; cases h; exact ih _ h2
        | ok bs => rw [h1, h2] at h; cases h
  have main : ∀ (depth : Nat) (v : JVal F) (e : Exc), dumpsDepth env [] depth v = .error e →
      e = .recursionError ∨ (e = .valueError ∧ env.maxDigits ≠ none) := by
    have int : ∀ n e, encodeInt env n = .error e →
        e = .recursionError ∨ (e = .valueError ∧ env.maxDigits ≠ none) := by
      intro n e h
      unfold encodeInt at h
      cases hd : env.digitsOk (decimal n.natAbs).length with
      | true => rw [hd, if_pos rfl] at h; cases h
      | false =>
        rw [hd] at h
        simp only [Bool.false_eq_true, if_false, Except.error.injEq] at h
        subst h
        refine .inr ⟨rfl, fun hn => ?_⟩
        unfold JsonEnv.digitsOk at hd
        rw [hn] at hd
        cases hd
    intro depth
    induction depth with
    | zero =>
      intro v e h
      cases v with
      | null => cases h
      | bool b => cases b <;> cases h
      | int n => exact int n e h
      | float x => cases h
      | str s => cases h
      | list l => cases h; exact .inl rfl
      | dict d => cases h; exact .inl rfl
    | succ depth ih =>
      intro v e h
      cases v with
      | null => cases h
      | bool b => cases b <;> cases h
      | int n => exact int n e h
      | float x => cases h
      | str s => cases h
      | list l =>
        unfold dumpsDepth at h
        cases h1 : mapPy (dumpsDepth env [] depth) l with
        | error e' => rw [h1] at h; cases h; exact mapE _ _ ih l e h1
        | ok ts => rw [h1] at h; cases h
      | dict d =>
        unfold dumpsDepth at h
        cases h1 : mapPy (encodePair [] (dumpsDepth env [] depth)) d with
        | error e' =>
          rw [h1] at h; cases h
          refine mapE _ (fun e => e = .recursionError ∨ (e = .valueError ∧ env.maxDigits ≠ none)) ?_ d e h1
          intro p e' hp
          unfold encodePair at hp
          cases h2 : dumpsDepth env [] depth p.2 with
          | error e'' => rw [h2] at hp; cases hp; exact ih _ _ h2
          | ok t => rw [h2] at hp; cases hp
        | ok ts => rw [h1] at h; cases h
  exact main env.depth v e h

/-- In a value that `json_loads` returned, the keys of objects, the strings that are values of
objects, and the strings in arrays that are values of objects, are valid Unicode. -/
theorem C50_objects (env : JsonEnv F) (text : PyStr) (v : JVal F) (h : jsonLoads env text = .ok v) :
    ValidObjects v := ((C49_accepts env text v).1 h).2.2

/-- A text with an unpaired surrogate in one of those places is rejected with `JwtInvalidError`. -/
theorem C50_rejected (env : JsonEnv F) (text : PyStr) (v : JVal F) (h : parseTree env text = .ok v)
    (hv : ¬ ValidObjects v) : jsonLoads env text = .error .jwtInvalidError := by
  unfold jsonLoads
  rcases loadsHook_compare env text with ⟨w, h1, h2, h3⟩ | ⟨w, e, h1, h2, h3, h4⟩ |
      ⟨e, e', h1, h2, h3⟩
  · rw [h] at h1; cases h1
    exact absurd ((good_iff v).1 h2).2 hv
  · rw [h4]
    rcases h3 with rfl | rfl <;> rfl
  · rw [h] at h1; cases h1

/-- Strings elsewhere need not be valid: in arrays of arrays, and outside of objects. -/
theorem C50_nested_violated :
    (∃ v, jsonLoads ToyJson.env (py! "{\"a\":[[\"\\ud800\"]]}") = .ok v ∧ ¬ AllTextValid v) ∧
      ∃ v, jsonLoads ToyJson.env (py! "\"\\ud800\"") = .ok v ∧ ¬ AllTextValid v := by
  refine ⟨⟨.dict [([97], .list [.list [.str [0xD800]]])], rfl, fun h => ?_⟩,
    ⟨.str [0xD800], rfl, fun h => ?_⟩⟩
  · have h := h.1 [0xD800] (.value (k := [97]) (List.mem_singleton.2 rfl)
      (.item (List.mem_singleton.2 rfl) (.item (List.mem_singleton.2 rfl) .here)))
    exact absurd (h 0xD800 (by simp)) (by decide)
  · exact absurd (h.1 [0xD800] .here 0xD800 (by simp)) (by decide)

/-! ## Examples -/

/-- A repeated key, deep inside. -/
example : ∃ v, parseTree ToyJson.env (py! "{\"a\":[{\"b\":1,\"c\":2,\"\\u0062\":3}]}") = .ok v ∧
    RepeatsKey v :=
  ⟨.dict [([97], .list [.dict [([98], .int 1), ([99], .int 2), ([98], .int 3)]])], rfl,
    [([98], .int 1), ([99], .int 2), ([98], .int 3)],
    .value (k := [97]) (List.mem_singleton.2 rfl) (.item (List.mem_singleton.2 rfl) .here), by decide⟩

example : jsonLoads ToyJson.env (py! "{\"a\":[{\"b\":1,\"c\":2,\"\\u0062\":3}]}") =
    .error .jwtInvalidError :=
  C49_repeated_key_rejected _ _ _ rfl
    ⟨[([98], .int 1), ([99], .int 2), ([98], .int 3)],
      .value (k := [97]) (List.mem_singleton.2 rfl) (.item (List.mem_singleton.2 rfl) .here), by decide⟩

/-- White space, escapes, surrogate pairs, numbers and constants are read. -/
example : jsonLoads ToyJson.env (py! " { \"x\" : [ -12 , 0.5 , true , null , \"\\ud83d\\ude00\\n\" ] } ") =
    .ok (.dict [([120], .list [.int (-12), .float (.fin 0), .bool true, .null, .str [0x1F600, 10]])]) :=
  rfl

/-- The same kind of value written and read back. -/
example : ∃ text, jsonDumps ToyJson.env
    (.dict [([120], .list [.int (-12), .float (.fin 5), .bool true, .null, .str [0x1F600, 10, 34]])]) =
      .ok text ∧ text = py! "{\"x\":[-12,5.0,true,null,\"\\ud83d\\ude00\\n\\\"\"]}" ∧
    jsonLoads ToyJson.env text = .ok
      (.dict [([120], .list [.int (-12), .float (.fin 5), .bool true, .null, .str [0x1F600, 10, 34]])]) :=
  ⟨_, rfl, rfl, rfl⟩

/-- The hypotheses of the round trip are met. -/
example : ¬ RepeatsKey (F := Int) (.dict [([120], .list [.str [0x1F600, 10, 34]])]) ∧
    AllTextValid (F := Int) (.dict [([120], .list [.str [0x1F600, 10, 34]])]) := by
  refine ⟨?_, ?_, ?_⟩
  · rintro ⟨d, hd, hn⟩
    cases hd with
    | here => exact hn (by decide)
    | value hx hw =>
      simp only [List.mem_singleton, Prod.mk.injEq] at hx
      obtain ⟨rfl, rfl⟩ := hx
      cases hw with
      | item hx hw => simp only [List.mem_singleton] at hx; subst hx; cases hw
  · intro s hs
    cases hs with
    | value hx hw =>
      simp only [List.mem_singleton, Prod.mk.injEq] at hx
      obtain ⟨rfl, rfl⟩ := hx
      cases hw with
      | item hx hw =>
        simp only [List.mem_singleton] at hx; subst hx
        cases hw with
        | here => unfold ValidText; decide
  · intro d hd k x hx
    cases hd with
    | here =>
      simp only [List.mem_singleton, Prod.mk.injEq] at hx
      obtain ⟨rfl, rfl⟩ := hx
      unfold ValidText; decide
    | value hx hw =>
      simp only [List.mem_singleton, Prod.mk.injEq] at hx
      obtain ⟨rfl, rfl⟩ := hx
      cases hw with
      | item hx hw => simp only [List.mem_singleton] at hx; subst hx; cases hw

/-- An unpaired surrogate in an array that is a value of an object. -/
example : jsonLoads ToyJson.env (py! "{\"a\":[\"\\ud800\"]}") = .error .jwtInvalidError := by
  refine C50_rejected _ _ (.dict [([97], .list [.str [0xD800]])]) rfl fun h => ?_
  have h := (h _ .here [97] _ (List.mem_singleton.2 rfl)).2.2 [.str [0xD800]] [0xD800] rfl
    (List.mem_singleton.2 rfl)
  exact absurd (h 0xD800 (by simp)) (by decide)

end Props
end Tink
