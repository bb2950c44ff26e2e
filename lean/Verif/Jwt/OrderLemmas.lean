import Verif.Props.JwtRoundTrip

/-!
# What the other keys do with a token that one key accepts
-/

namespace Tink
namespace Props
open Jwt Spec Json JsonUtil

variable {F : Type} {env : JwtEnv F}

theorem checkAlg_other {h : List (PyStr × JVal F)} {alg alg' : PyStr} (hc : checkAlg env h alg = .ok ()) :
    checkAlg env h alg' = .ok () ∨ checkAlg env h alg' = .error .jwtInvalidError := by
  unfold checkAlg at hc ⊢
  cases hv : (PyDict.get? h (py! "alg")).getD (.str []) with
  | str s =>
    simp only
    by_cases hs : env.upper s = alg'
    · exact .inl (if_pos hs)
    · exact .inr (if_neg hs)
  | _ => rw [hv] at hc; cases hc

theorem kidIs_cases (v : JVal F) (kid : PyStr) :
    kidIs v kid = .ok () ∨ kidIs v kid = .error .jwtInvalidError := by
  cases v with
  | str s =>
    by_cases hs : s = kid
    · exact .inl (if_pos hs)
    · exact .inr (if_neg hs)
  | _ => exact .inr rfl

theorem checkKid_cases (h : List (PyStr × JVal F)) (kid customKid : Option PyStr) :
    checkKid h kid customKid = .ok () ∨ checkKid h kid customKid = .error .jwtInvalidError := by
  cases kid with
  | none =>
    cases customKid with
    | none => exact .inl rfl
    | some c =>
      unfold checkKid
      simp only
      cases PyDict.get? h (py! "kid") with
      | none => exact .inl rfl
      | some v => exact kidIs_cases v c
  | some k =>
    cases customKid with
    | some c => exact .inr rfl
    | none =>
      unfold checkKid
      simp only
      cases PyDict.get? h (py! "kid") with
      | none => exact .inr rfl
      | some v => exact kidIs_cases v k

theorem validateHeader_other {header : JVal F} {alg alg' : PyStr} {kid customKid kid' customKid' : Option PyStr}
    (h : validateHeader env header alg kid customKid = .ok ()) :
    validateHeader env header alg' kid' customKid' = .ok () ∨
      validateHeader env header alg' kid' customKid' = .error .jwtInvalidError := by
  unfold validateHeader at h ⊢
  obtain ⟨_, _, h⟩ := bind_ok h
  by_cases ha : alg' ∈ validAlgorithms
  · have hv : validateAlgorithm alg' = .ok () := if_pos ha
    simp only [hv, bind, Except.bind]
    cases header with
    | dict d =>
      simp only at h ⊢
      obtain ⟨_, h1, h⟩ := bind_ok h
      rcases checkAlg_other (alg' := alg') h1 with h2 | h2
      · simp only [h2]
        cases hcrit : (PyDict.get? d (py! "crit")).isSome with
        | true => simp
        | false => simpa using checkKid_cases d kid' customKid'
      · simp only [h2]; simp
    | _ => cases h
  · have hv : validateAlgorithm alg' = .error .jwtInvalidError := if_neg ha
    simp only [hv, bind, Except.bind]
    simp

/-- A key either accepts a token that another key accepts, with the same result, or refuses it. -/
theorem decode_other {alg alg' : PyStr} {kid customKid kid' customKid' : Option PyStr}
    {check check' : Bytes → Bytes → Py Unit} {clock : Int} {compact : PyStr} {v : JwtValidator}
    {a : VerifiedJwt F} (h : decodeWithKid env alg customKid check clock compact v kid = .ok a)
    (hc : TinkErrorsOnly check') :
    decodeWithKid env alg' customKid' check' clock compact v kid' = .ok a ∨
      Rejects (decodeWithKid env alg' customKid' check' clock compact v kid') := by
  unfold decodeWithKid at h ⊢
  obtain ⟨parts, h1, h⟩ := bind_ok h
  obtain ⟨_, h2, h⟩ := bind_ok h
  obtain ⟨header, h3, h⟩ := bind_ok h
  obtain ⟨_, h4, h⟩ := bind_ok h
  rcases hc parts.signature parts.unsigned with h5 | ⟨e, h5, he⟩
  · rcases validateHeader_other (alg' := alg') (kid' := kid') (customKid' := customKid') h4 with h6 | h6
    · left
      simp only [h1, h5, h3, h6, bind, Except.bind]
      exact h
    · right
      refine ⟨.jwtInvalidError, ?_, rfl⟩
      simp only [h1, h5, h3, h6, bind, Except.bind]
  · right
    refine ⟨e, ?_, he⟩
    simp only [h1, h5, bind, Except.bind]

/-- The first element of a list that is not refused. -/
theorem exists_first {α β : Type} {f : α → Py β} {b : β} : ∀ {l : List α},
    (∀ x ∈ l, f x = .ok b ∨ Rejects (f x)) → (∃ x ∈ l, f x = .ok b) →
    ∃ pre x post, l = pre ++ x :: post ∧ (∀ y ∈ pre, Rejects (f y)) ∧ f x = .ok b
  | [], _, ⟨_, hx, _⟩ => by cases hx
  | x :: l, hall, hex => by
    rcases hall x (by simp) with h | h
    · exact ⟨[], x, l, rfl, by simp, h⟩
    · obtain ⟨y, hy, hb⟩ := hex
      have hy' : y ∈ l := by
        rcases List.mem_cons.1 hy with rfl | hy
        · exact absurd h (not_rejects_ok hb)
        · exact hy
      obtain ⟨pre, z, post, h1, h2, h3⟩ := exists_first (fun z hz => hall z (by simp [hz])) ⟨y, hy', hb⟩
      exact ⟨x :: pre, z, post, by rw [h1]; rfl, by
        intro w hw
        rcases List.mem_cons.1 hw with rfl | hw
        · exact h
        · exact h2 w hw, h3⟩

end Props
end Tink
