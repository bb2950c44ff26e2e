import Verif.Json.Lemmas

/-!
# A toy interpreter for JSON

Floats are integers, written with `.0`.  Shows that the assumptions about Python's floats can be met,
and runs the examples.
-/

namespace Tink
namespace ToyJson
open Json Spec

/-- Floats that are integers. -/
def floats : Floats Int where
  parse s :=
    match matchNumber s with
    | some (n, _) => .fin (if n.sign.isEmpty then ofDigits 0 n.int else -(ofDigits 0 n.int : Int))
    | none => .nan
  repr x := (if x < 0 then [45] else []) ++ decimal x.natAbs ++ [46, 48] ++ []
  gt x n := x > n
  lt x n := x < n
  micros x := x * 1000000

theorem fraction : Fraction [46, 48] := .inr ⟨[48], rfl, by simp, by intro c hc; simp at hc; omega⟩

theorem sign (x : Int) : (if x < 0 then [45] else [] : PyStr) = [] ∨
    (if x < 0 then [45] else [] : PyStr) = [45] := by
  by_cases h : x < 0
  · rw [if_pos h]; exact .inr rfl
  · rw [if_neg h]; exact .inl rfl

theorem lawful : LawfulFloats floats where
  numeral x := ⟨_, _, _, _, rfl, sign x, decimal_intPart _, fraction, .inl rfl, .inl (by simp)⟩
  parse_repr x := by
    have h := matchNumber_append (r := []) (sign x) (decimal_intPart x.natAbs) fraction (.inl rfl)
      (by intro c hc; simp at hc)
    simp only [List.append_nil] at h
    simp only [floats, List.append_nil, List.append_assoc]
    rw [h]
    simp only [ofDigits_decimal]
    by_cases hx : x < 0
    · rw [if_pos hx]
      simp only [List.isEmpty_cons, Bool.false_eq_true, if_false, PyFloat.fin.injEq]
      omega
    · rw [if_neg hx]
      simp only [List.isEmpty_nil, if_true, PyFloat.fin.injEq]
      omega

/-- At most 20 deep, integers of at most 30 digits. -/
def env : JsonEnv Int := { floats := floats, depth := 20, maxDigits := some 30 }

end ToyJson
end Tink
