import Verif.Py.BigInt

/-!
# Modes of a block cipher, from their standards

The counter mode (NIST SP 800-38A), CMAC (RFC 4493), SIV with one string of associated data (RFC 5297) and
EAX (Bellare, Rogaway, Wagner), for a block cipher `E` with blocks of 16 bytes, with the key fixed.
-/

namespace Tink.Spec.Modes

/-- XOR of strings of the same length. -/
def xor (a b : Bytes) : Bytes := List.zipWith (· ^^^ ·) a b

/-- The block that stands for a number below `2 ^ 128`. -/
def block (n : Nat) : Bytes := digitsBE 16 n

/-- Multiplication by `x` in the field with `2 ^ 128` elements, modulo `x^128 + x^7 + x^2 + x + 1`. -/
def times2 (n : Nat) : Nat := if n < 2 ^ 127 then 2 * n else (2 * n - 2 ^ 128) ^^^ 0x87

/-- `dbl`: the same for a block. -/
def dbl (b : Bytes) : Bytes := block (times2 (fromBytesBE b))

/-- `pad`: a single 1 bit and zeros, to a full block. -/
def pad (m : Bytes) : Bytes := m ++ 0x80 :: List.replicate (15 - m.length) 0

/-- The counter mode, starting with counter `n`. -/
def ctrFrom (E : Bytes → Bytes) (n : Nat) (m : Bytes) : Bytes :=
  if m.length = 0 then []
  else xor (m.take 16) (E (block (n % 2 ^ 128))) ++ ctrFrom E (n + 1) (m.drop 16)
termination_by m.length
decreasing_by simp only [List.length_drop]; omega

/-- The counter mode with an initial counter block. -/
def ctr (E : Bytes → Bytes) (iv m : Bytes) : Bytes := ctrFrom E (fromBytesBE iv) m

/-- CMAC of what is left of the message, after blocks that gave `x`. -/
def cmacFrom (E : Bytes → Bytes) (k1 k2 x m : Bytes) : Bytes :=
  if m.length = 16 then E (xor x (xor m k1))
  else if m.length < 16 then E (xor x (xor (pad m) k2))
  else cmacFrom E k1 k2 (E (xor x (m.take 16))) (m.drop 16)
termination_by m.length
decreasing_by simp only [List.length_drop]; omega

/-- CMAC, RFC 4493, with its two subkeys. -/
def cmac (E : Bytes → Bytes) (m : Bytes) : Bytes :=
  cmacFrom E (dbl (E (block 0))) (dbl (dbl (E (block 0)))) (block 0) m

/-- `xorend`, RFC 5297: the string with its last 16 bytes changed. -/
def xorend (m d : Bytes) : Bytes := m.take (m.length - 16) ++ xor (m.drop (m.length - 16)) d

/-- `S2V` with one string of associated data. -/
def s2v (E : Bytes → Bytes) (ad m : Bytes) : Bytes :=
  let d := xor (dbl (cmac E (block 0))) (cmac E ad)
  if m.length < 16 then cmac E (xor (dbl d) (pad m)) else cmac E (xorend m d)

/-- SIV encryption: the synthetic IV, then the message in counter mode, with two bits of the IV
cleared. -/
def siv (E1 E2 : Bytes → Bytes) (ad m : Bytes) : Bytes :=
  let v := s2v E1 ad m
  v ++ ctr E2 (block (fromBytesBE v &&& 0xffffffffffffffff7fffffff7fffffff)) m

/-- `OMAC^t` of EAX: CMAC after a block with the number `t`. -/
def omac (E : Bytes → Bytes) (t : Nat) (m : Bytes) : Bytes := cmac E (block t ++ m)

/-- EAX encryption, with tags of 16 bytes: text and tag. -/
def eax (E : Bytes → Bytes) (nonce header m : Bytes) : Bytes × Bytes :=
  let c := ctr E (omac E 0 nonce) m
  (c, xor (xor (omac E 0 nonce) (omac E 1 header)) (omac E 2 c))

end Tink.Spec.Modes
