import Verif.Json.Decode

/-!
# Vocabulary for the JSON properties
-/

namespace Tink
namespace Spec

variable {F : Type}

/-- `w` is `v`, or occurs somewhere inside it, at any depth. -/
inductive Within (w : JVal F) : JVal F → Prop
  | here : Within w w
  | item {x : JVal F} {l : List (JVal F)} : x ∈ l → Within w x → Within w (.list l)
  | value {k : PyStr} {x : JVal F} {d : List (PyStr × JVal F)} :
      (k, x) ∈ d → Within w x → Within w (.dict d)

/-- Some object in `v`, at any depth, repeats a key. -/
def RepeatsKey (v : JVal F) : Prop := ∃ d, Within (.dict d) v ∧ ¬ (d.map Prod.fst).Nodup

/-- Valid Unicode: no surrogates. -/
def ValidText (s : PyStr) : Prop := ∀ c ∈ s, isScalar c = true

/-- In every object in `v`, at any depth: the keys, the strings that are values, and the strings in
the arrays that are values, are valid Unicode. -/
def ValidObjects (v : JVal F) : Prop :=
  ∀ d, Within (.dict d) v → ∀ k x, (k, x) ∈ d →
    ValidText k ∧ (∀ s, x = .str s → ValidText s) ∧ ∀ l s, x = .list l → .str s ∈ l → ValidText s

/-- Every string in `v`, at any depth, keys included, is valid Unicode. -/
def AllTextValid (v : JVal F) : Prop :=
  (∀ s, Within (.str s) v → ValidText s) ∧
    ∀ d, Within (.dict d) v → ∀ k x, (k, x) ∈ d → ValidText k

/-- The code points of `s` are below 0x110000, and no high surrogate is directly followed by a low one.
(Python has strings with such a pair; written as JSON and read back, they have one character in its
place.) -/
def Joined (s : PyStr) : Prop :=
  (∀ c ∈ s, c < 0x110000) ∧
    ∀ a h l b, s = a ++ h :: l :: b → ¬ (0xD800 ≤ h ∧ h < 0xDC00 ∧ 0xDC00 ≤ l ∧ l < 0xE000)

/-- Every string in `v`, at any depth, keys included, is joined. -/
def AllTextJoined (v : JVal F) : Prop :=
  (∀ s, Within (.str s) v → Joined s) ∧ ∀ d, Within (.dict d) v → ∀ k x, (k, x) ∈ d → Joined k

/-- What the text says, before anything is made of its objects: the value of a JSON text in which
every object is the list of all its pairs, repeated keys and all. -/
def parseTree (env : JsonEnv F) (text : PyStr) : Py (JVal F) :=
  Json.loadsHook env (fun ps => .ok (.dict ps)) text

/-- The decimal digits `0`-`9`. -/
def Digits (s : PyStr) : Prop := ∀ c ∈ s, 48 ≤ c ∧ c ≤ 57

/-- The text contains a run of more digits than may be converted. -/
def LongInt (env : JsonEnv F) (text : PyStr) : Prop :=
  ∃ m pre ds post, env.maxDigits = some m ∧ text = pre ++ ds ++ post ∧ Digits ds ∧ m < ds.length

/-- An integer part: `0`, or digits not beginning with `0`. -/
def IntPart (s : PyStr) : Prop := s = [48] ∨ ∃ c r, s = c :: r ∧ 49 ≤ c ∧ c ≤ 57 ∧ Digits r

/-- A fraction, or nothing. -/
def Fraction (s : PyStr) : Prop := s = [] ∨ ∃ r, s = 46 :: r ∧ r ≠ [] ∧ Digits r

/-- An exponent, or nothing. -/
def Exponent (s : PyStr) : Prop :=
  s = [] ∨ ∃ e sg r, s = e :: (sg ++ r) ∧ (e = 101 ∨ e = 69) ∧ (sg = [] ∨ sg = [45] ∨ sg = [43]) ∧
    r ≠ [] ∧ Digits r

/-- The numerals of JSON that are not integers. -/
def FloatNumeral (s : PyStr) : Prop :=
  ∃ sg i f e, s = sg ++ i ++ f ++ e ∧ (sg = [] ∨ sg = [45]) ∧ IntPart i ∧ Fraction f ∧ Exponent e ∧
    (f ≠ [] ∨ e ≠ [])

/-- What is assumed of Python's floats: `repr` writes a numeral with a fraction or an exponent, and
`float` reads back what it wrote. -/
structure LawfulFloats (fl : Floats F) : Prop where
  numeral : ∀ x, FloatNumeral (fl.repr x)
  parse_repr : ∀ x, fl.parse (fl.repr x) = .fin x

end Spec
end Tink
