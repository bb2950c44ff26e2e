import Verif.Py.Lit

/-!
# The Python module `base64`

`b64encode`, `b64decode`, `urlsafe_b64encode` and `urlsafe_b64decode`, following
`Modules/binascii.c` of CPython (`a2b_base64` in its default, non-strict mode).  Characters
are bytes.
-/

namespace Tink

/-- The character of a 6-bit value, standard alphabet. -/
def b64Char (v : Nat) : UInt8 :=
  if v < 26 then UInt8.ofNat (65 + v)
  else if v < 52 then UInt8.ofNat (71 + v)
  else if v < 62 then UInt8.ofNat (v - 4)
  else if v = 62 then 43
  else 47

/-- The 6-bit value of a character, standard alphabet (`table_a2b_base64`). -/
def b64Val (c : UInt8) : Option Nat :=
  let n := c.toNat
  if 65 ≤ n ∧ n ≤ 90 then some (n - 65)
  else if 97 ≤ n ∧ n ≤ 122 then some (n - 71)
  else if 48 ≤ n ∧ n ≤ 57 then some (n + 4)
  else if n = 43 then some 62
  else if n = 47 then some 63
  else none

/-- `base64.b64encode`. -/
def b64encode : Bytes → Bytes
  | [] => []
  | [a] => [b64Char (a.toNat / 4), b64Char (a.toNat % 4 * 16), 61, 61]
  | [a, b] =>
    [b64Char (a.toNat / 4), b64Char (a.toNat % 4 * 16 + b.toNat / 16),
      b64Char (b.toNat % 16 * 4), 61]
  | a :: b :: c :: r =>
    b64Char (a.toNat / 4) :: b64Char (a.toNat % 4 * 16 + b.toNat / 16) ::
      b64Char (b.toNat % 16 * 4 + c.toNat / 64) :: b64Char (c.toNat % 64) :: b64encode r

/-- The loop of `a2b_base64` (non-strict).  `quad` is `quad_pos`, `left` is `leftchar`, `pads`
is `pads`.  Characters outside the alphabet are skipped; `binascii.Error` is a `ValueError`. -/
def a2bBase64 : Nat → Nat → Nat → Bytes → Py Bytes
  | quad, _, _, [] => if quad = 0 then .ok [] else .error .valueError
  | quad, left, pads, ch :: r =>
    if ch = 61 then
      if quad ≥ 2 then
        if quad + (pads + 1) ≥ 4 then .ok [] else a2bBase64 quad left (pads + 1) r
      else a2bBase64 quad left pads r
    else
      match b64Val ch with
      | none => a2bBase64 quad left pads r
      | some v =>
        if quad = 0 then a2bBase64 1 v 0 r
        else if quad = 1 then do
          let rest ← a2bBase64 2 (v % 16) 0 r
          return UInt8.ofNat (left * 4 + v / 16) :: rest
        else if quad = 2 then do
          let rest ← a2bBase64 3 (v % 4) 0 r
          return UInt8.ofNat (left * 16 + v / 4) :: rest
        else do
          let rest ← a2bBase64 0 0 0 r
          return UInt8.ofNat (left * 64 + v) :: rest

/-- `base64.b64decode(s)`. -/
def b64decode (s : Bytes) : Py Bytes := a2bBase64 0 0 0 s

/-- `bytes.translate` of `urlsafe_b64encode`: `+` to `-`, `/` to `_`. -/
def urlsafeChar (c : UInt8) : UInt8 := if c = 43 then 45 else if c = 47 then 95 else c

/-- `bytes.translate` of `urlsafe_b64decode`: `-` to `+`, `_` to `/`. -/
def stdChar (c : UInt8) : UInt8 := if c = 45 then 43 else if c = 95 then 47 else c

/-- `base64.urlsafe_b64encode`. -/
def urlsafeB64encode (b : Bytes) : Bytes := (b64encode b).map urlsafeChar

/-- `base64.urlsafe_b64decode`. -/
def urlsafeB64decode (s : Bytes) : Py Bytes := b64decode (s.map stdChar)

end Tink
