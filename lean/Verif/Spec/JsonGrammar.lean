import Verif.Spec.Json

/-!
# The grammar of JSON

RFC 8259, with the three constants that Python's `json` adds, `NaN`, `Infinity` and `-Infinity`.  Every object
is the list of all its pairs.
-/

namespace Tink.Spec
variable {F : Type}

/-- White space: space, tab, line feed, carriage return. -/
def Blank (s : PyStr) : Prop := ∀ c ∈ s, c = 32 ∨ c = 9 ∨ c = 10 ∨ c = 13

/-- A hexadecimal digit and its value. -/
def HexDigit (c n : Nat) : Prop := n < 10 ∧ c = 48 + n ∨ 10 ≤ n ∧ n < 16 ∧ (c = 87 + n ∨ c = 55 + n)

/-- `\uXXXX` and its value. -/
def CodeEscape (s : PyStr) (c : Nat) : Prop :=
  ∃ h1 h2 h3 h4 n1 n2 n3 n4, s = [92, 117, h1, h2, h3, h4] ∧ HexDigit h1 n1 ∧ HexDigit h2 n2 ∧ HexDigit h3 n3 ∧
    HexDigit h4 n4 ∧ c = ((n1 * 16 + n2) * 16 + n3) * 16 + n4

/-- The escapes of one letter: `\"`, `\\`, `\/`, `\b`, `\f`, `\n`, `\r`, `\t`. -/
def letterEscapes : List (Nat × Nat) :=
  [(34, 34), (92, 92), (47, 47), (98, 8), (102, 12), (110, 10), (114, 13), (116, 9)]

def HighSurrogate (c : Nat) : Prop := 0xD800 ≤ c ∧ c ≤ 0xDBFF
def LowSurrogate (c : Nat) : Prop := 0xDC00 ≤ c ∧ c ≤ 0xDFFF

/-- What is between the quotes, and the string that it means.  Two escaped surrogates, a high one and a low
one, mean one character; other surrogates stand for themselves. -/
inductive Chars : PyStr → PyStr → Prop
  | nil : Chars [] []
  | plain {c b x} : 32 ≤ c → c ≠ 34 → c ≠ 92 → Chars b x → Chars (c :: b) (c :: x)
  | letter {e c b x} : (e, c) ∈ letterEscapes → Chars b x → Chars (92 :: e :: b) (c :: x)
  | code {u c b x} : CodeEscape u c →
      ¬ (HighSurrogate c ∧ ∃ u' l b', CodeEscape u' l ∧ LowSurrogate l ∧ b = u' ++ b') →
      Chars b x → Chars (u ++ b) (c :: x)
  | pair {u h u' l b x} : CodeEscape u h → HighSurrogate h → CodeEscape u' l → LowSurrogate l → Chars b x →
      Chars (u ++ u' ++ b) ((0x10000 + (h - 0xD800) * 0x400 + (l - 0xDC00)) :: x)

def StringText (s x : PyStr) : Prop := ∃ b, s = 34 :: (b ++ [34]) ∧ Chars b x

/-- The value of decimal digits. -/
def digitsValue (s : PyStr) : Nat := s.foldl (fun n c => 10 * n + (c - 48)) 0

/-- Values that are not objects or arrays.  What number a numeral with a fraction or an exponent means is up to
`float`; integers may not have too many digits. -/
inductive ScalarText (env : JsonEnv F) : PyStr → JVal F → Prop
  | null : ScalarText env (py! "null") .null
  | true : ScalarText env (py! "true") (.bool true)
  | false : ScalarText env (py! "false") (.bool false)
  | nan : ScalarText env (py! "NaN") (.float .nan)
  | inf : ScalarText env (py! "Infinity") (.float .inf)
  | ninf : ScalarText env (py! "-Infinity") (.float .ninf)
  | int {i} : IntPart i → env.digitsOk i.length = Bool.true → ScalarText env i (.int (digitsValue i))
  | negative {i} : IntPart i → env.digitsOk i.length = Bool.true →
      ScalarText env (45 :: i) (.int (-(digitsValue i : Int)))
  | float {s} : FloatNumeral s → ScalarText env s (.float (env.floats.parse s))
  | str {s x} : StringText s x → ScalarText env s (.str x)

/-- One element or more, with commas between them, and white space. -/
inductive Elements {α : Type} (element : PyStr → α → Prop) : PyStr → List α → Prop
  | one {w1 t a w2} : Blank w1 → element t a → Blank w2 → Elements element (w1 ++ t ++ w2) [a]
  | more {w1 t a w2 u as} : Blank w1 → element t a → Blank w2 → Elements element u as →
      Elements element (w1 ++ t ++ w2 ++ 44 :: u) (a :: as)

/-- A name, a colon and a value, with white space around the colon. -/
def PairText (value : PyStr → JVal F → Prop) (s : PyStr) (p : PyStr × JVal F) : Prop :=
  ∃ k w1 w2 t, s = k ++ w1 ++ 58 :: (w2 ++ t) ∧ StringText k p.1 ∧ Blank w1 ∧ Blank w2 ∧ value t p.2

/-- A value, in which at most so many arrays and objects are nested. -/
def ValueText (env : JsonEnv F) : Nat → PyStr → JVal F → Prop
  | 0 => ScalarText env
  | n + 1 => fun s v => ScalarText env s v ∨
    (∃ t l, s = 91 :: (t ++ [93]) ∧ v = .list l ∧ (l = [] ∧ Blank t ∨ Elements (ValueText env n) t l)) ∨
    ∃ t d, s = 123 :: (t ++ [125]) ∧ v = .dict d ∧
      (d = [] ∧ Blank t ∨ Elements (PairText (ValueText env n)) t d)

/-- A JSON text, nested not deeper than the interpreter allows, and what it says. -/
def JsonText (env : JsonEnv F) (text : PyStr) (v : JVal F) : Prop :=
  ∃ w1 t w2, text = w1 ++ t ++ w2 ∧ Blank w1 ∧ ValueText env env.depth t v ∧ Blank w2

mutual
/-- What `json.loads` makes of a value: of several pairs of an object with the same name the last one counts. -/
def lastWins : JVal F → JVal F
  | .list l => .list (lastWinsList l)
  | .dict d => .dict (Json.dictOf (lastWinsPairs d))
  | v => v
def lastWinsList : List (JVal F) → List (JVal F)
  | [] => []
  | v :: l => lastWins v :: lastWinsList l
def lastWinsPairs : List (PyStr × JVal F) → List (PyStr × JVal F)
  | [] => []
  | (k, v) :: d => (k, lastWins v) :: lastWinsPairs d
end

end Tink.Spec
