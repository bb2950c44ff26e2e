import Verif.Py.Basic

/-!
# Big integers

`/repo/python/tink/internal/big_integer_util.py`, the Python methods it uses, and assignment of
Python integers to proto fields.
-/

namespace Tink

/-- `n.bit_length()` for `n ≥ 0`. -/
def bitLength (n : Nat) : Nat := if n = 0 then 0 else n.log2 + 1

/-- The last `len` base-256 digits of `n`, most significant first. -/
def digitsBE : Nat → Nat → Bytes
  | 0, _ => []
  | len + 1, n => digitsBE len (n / 256) ++ [UInt8.ofNat n]

/-- `n.to_bytes(len, byteorder='big')` for `n ≥ 0`: `OverflowError` if it does not fit. -/
def toBytesBE (len n : Nat) : Py Bytes :=
  if n < 256 ^ len then .ok (digitsBE len n) else .error .overflowError

/-- `int.from_bytes(b, byteorder='big')`. -/
def fromBytesBE (b : Bytes) : Nat := b.foldl (fun n d => n * 256 + d.toNat) 0

/-- `num_to_bytes`, `big_integer_util.py:17-23`. -/
def numToBytes (n : Int) : Py Bytes :=
  if n < 0 then .error .overflowError
  else if n = 0 then .ok [0]
  else toBytesBE ((bitLength n.toNat + 7) / 8) n.toNat

/-- Assigning a Python `int` to a proto `uint32` field: `ValueError` if out of range. -/
def setUInt32 (n : Int) : Py UInt32 :=
  if 0 ≤ n ∧ n < 4294967296 then .ok (UInt32.ofNat n.toNat) else .error .valueError

/-- Assigning a Python `int` to a proto `int32` field, kept as its bit pattern. -/
def setInt32 (n : Int) : Py UInt32 :=
  if -2147483648 ≤ n ∧ n < 2147483648 then .ok (UInt32.ofNat (n % 4294967296).toNat)
  else .error .valueError

end Tink
