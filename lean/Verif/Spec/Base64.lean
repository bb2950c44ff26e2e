import Verif.Py.Basic

/-!
# Vocabulary for base64url (RFC 4648, section 5)
-/

namespace Tink
namespace Spec

/-- The characters `A-Z a-z 0-9 - _`. -/
def UrlChar (c : UInt8) : Prop :=
  (65 ≤ c.toNat ∧ c.toNat ≤ 90) ∨ (97 ≤ c.toNat ∧ c.toNat ≤ 122) ∨ (48 ≤ c.toNat ∧ c.toNat ≤ 57) ∨
    c.toNat = 45 ∨ c.toNat = 95

/-- Their values: `A-Z` are 0-25, `a-z` 26-51, `0-9` 52-61, `-` 62 and `_` 63. -/
def urlValue (c : UInt8) : Nat :=
  if 65 ≤ c.toNat ∧ c.toNat ≤ 90 then c.toNat - 65
  else if 97 ≤ c.toNat ∧ c.toNat ≤ 122 then c.toNat - 97 + 26
  else if 48 ≤ c.toNat ∧ c.toNat ≤ 57 then c.toNat - 48 + 52
  else if c.toNat = 45 then 62
  else 63

/-- The `w` low bits of a number, the most significant first. -/
def bits : Nat → Nat → List Bool
  | 0, _ => []
  | w + 1, n => n.testBit w :: bits w n

/-- The bits of bytes, 8 each. -/
def octetBits (b : Bytes) : List Bool := b.flatMap fun x => bits 8 x.toNat

/-- The bits of base64url characters, 6 each. -/
def sextetBits (s : Bytes) : List Bool := s.flatMap fun c => bits 6 (urlValue c)

end Spec
end Tink
