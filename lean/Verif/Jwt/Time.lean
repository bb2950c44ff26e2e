import Verif.Json.Value
import Verif.Py.Basic

/-!
# Times

`datetime.datetime` and `datetime.timedelta`, as far as the JWT code uses them.
-/

namespace Tink
namespace Jwt

/-- A `datetime.datetime`.  `wall` is the time it shows, in microseconds since 1970-01-01 00:00:00; `tz`
is its `tzinfo`, as the function from the time shown to the offset from UTC in microseconds.  (`fold`
is left out.) -/
structure DateTime where
  wall : Int
  tz : Option (Int → Int)

/-- UTC. -/
def utc : Option (Int → Int) := some fun _ => 0

/-- The moment an aware `datetime` stands for, in microseconds since 1970 in UTC. -/
def DateTime.instant (t : DateTime) : Int :=
  match t.tz with
  | none => t.wall
  | some off => t.wall - off t.wall

/-- 0001-01-01 00:00:00 and 9999-12-31 23:59:59.999999. -/
def minWall : Int := -62135596800000000
def maxWall : Int := 253402300799999999

/-- `t + delta`, which changes the time shown and keeps the zone; `OverflowError` outside of the years
1 to 9999. -/
def DateTime.add (t : DateTime) (delta : Int) : Py DateTime :=
  if minWall ≤ t.wall + delta ∧ t.wall + delta ≤ maxWall then .ok { t with wall := t.wall + delta }
  else .error .overflowError

/-- The quotient `a / b`, rounded to the nearest integer, halves to even. -/
def divRound (a b : Nat) : Nat :=
  if 2 * (a % b) < b then a / b
  else if 2 * (a % b) > b then a / b + 1
  else if a / b % 2 = 0 then a / b
  else a / b + 1

/-- `int(m / 10**6)` of a natural number below `2**53 * 10**6`: the quotient is a double, with 53
significant bits, so that its fraction has `52 - log2 (m / 10**6)` bits. -/
def secondsOf (m : Nat) : Nat :=
  if m / 1000000 = 0 then 0
  else divRound (m * 2 ^ (52 - (m / 1000000).log2)) 1000000 / 2 ^ (52 - (m / 1000000).log2)

/-- `int(t.timestamp())` of an aware `datetime`: `timestamp` divides the microseconds since 1970 by
`10**6`; `int` drops the fraction. -/
def intTimestamp (t : DateTime) : Int :=
  if t.instant < 0 then -(secondsOf t.instant.natAbs : Int) else secondsOf t.instant.natAbs

/-- `_from_datetime` (python/tink/jwt/_raw_jwt.py 32-35). -/
def fromDatetime (t : DateTime) : Py Int :=
  match t.tz with
  | none => .error .jwtInvalidError
  | some _ => .ok (intTimestamp t)

/-- `_to_datetime` (python/tink/jwt/_raw_jwt.py 38-39) of the value of a claim.  A `bool` is an `int`;
`nan` is a `ValueError`, infinities an `OverflowError`; of other types a `TypeError`.  For times after the
year 9999 or before 1 it raises `ValueError`. -/
def toDatetime {F : Type} (fl : Floats F) (v : JVal F) : Py DateTime :=
  match v with
  | .bool b => .ok { wall := if b then 1000000 else 0, tz := utc }
  | .int n => inYears (n * 1000000)
  | .float (.fin x) => inYears (fl.micros x)
  | .float .nan => .error .valueError
  | .float _ => .error .overflowError
  | _ => .error .typeError
where
  inYears (m : Int) : Py DateTime :=
    if minWall ≤ m ∧ m ≤ maxWall then .ok { wall := m, tz := utc } else .error .valueError

end Jwt
end Tink
