import Verif.Keyset.JsonFormat
import Verif.Spec.HybridKeys

/-!
# Specification vocabulary for C103: public keys of P-256 and X25519

From FIPS 186-4 and RFC 7748, independently of the library: how the public key is computed from the private
key.  The definitions can be evaluated.
-/

namespace Tink.Spec

/-- The bits of a number below `2 ^ n`, the highest first. -/
def bitsOf (n k : Nat) : List Bool := (List.range n).reverse.map k.testBit

/-- `x ^ e` modulo `m`, for an exponent below `2 ^ 256`. -/
def powMod (m x e : Nat) : Nat :=
  (bitsOf 256 e).foldl (fun acc b => if b then acc * acc % m * x % m else acc * acc % m) 1

/-! ## P-256 -/

namespace P256

/-- The prime, FIPS 186-4, D.1.2.3. -/
def p : Nat := 0xffffffff00000001000000000000000000000000ffffffffffffffffffffffff

/-- The base point. -/
def G : Nat × Nat :=
  (0x6b17d1f2e12c4247f8bce6e563a440f277037d812deb33a0f4a13945d898c296,
   0x4fe342e2fe1a7f9b8ee7eb4a7c0f9e162bce33576b315ececbb6406837bf51f5)

/-- A point; `none` is the point at infinity. -/
abbrev Point := Option (Nat × Nat)

/-- The inverse modulo the prime, by Fermat's little theorem. -/
def inverse (x : Nat) : Nat := powMod p x (p - 2)

/-- The third point on the line with slope `l` through `a` and a point with abscissa `x`, mirrored. -/
def third (l : Nat) (a : Nat × Nat) (x : Nat) : Nat × Nat :=
  let x3 := (l * l + (p - a.1) + (p - x)) % p
  (x3, (l * (a.1 + (p - x3)) + (p - a.2)) % p)

/-- Addition of points of `y² = x³ - 3 x + b`. -/
def add : Point → Point → Point
  | none, b => b
  | a, none => a
  | some a, some b =>
    if a.1 ≠ b.1 then some (third ((b.2 + (p - a.2)) * inverse (b.1 + (p - a.1)) % p) a b.1)
    else if (a.2 + b.2) % p = 0 then none
    else some (third ((3 * a.1 * a.1 + (p - 3)) * inverse (2 * a.2) % p) a b.1)

/-- The multiple of the base point, for a number below `2 ^ 256`. -/
def times (d : Nat) : Point :=
  (bitsOf 256 d).foldl (fun acc b => if b then add (add acc acc) (some G) else add acc acc) none

end P256

/-- The library knows P-256: private keys are the numbers from 1 to the order of the group, without it, and
the public keys are the multiples of the base point. -/
structure KnowsP256 (lib : Cc.SigSsl) : Prop where
  scalar : ∀ d, IsScalar .p256 d → lib.ecScalar .p256 d = true
  point : ∀ d q, IsScalar .p256 d → P256.times d = some q → lib.ecPublic .p256 d = q

/-! ## X25519 -/

namespace X25519

/-- The prime, RFC 7748, 4.1. -/
def p : Nat := 2 ^ 255 - 19

/-- One step of the Montgomery ladder, RFC 7748, 5: from `((x_2, z_2), (x_3, z_3))`. -/
def step (x1 : Nat) (s : (Nat × Nat) × (Nat × Nat)) : (Nat × Nat) × (Nat × Nat) :=
  let a := s.1.1 + s.1.2
  let b := s.1.1 + (p - s.1.2)
  let c := s.2.1 + s.2.2
  let d := s.2.1 + (p - s.2.2)
  let aa := a * a % p
  let bb := b * b % p
  let e := (aa + (p - bb)) % p
  let da := d * a % p
  let cb := c * b % p
  ((aa * bb % p, e * (aa + 121665 * e) % p),
   ((da + cb) * (da + cb) % p, x1 * ((da + (p - cb)) * (da + (p - cb)) % p) % p))

/-- The loop; a step with swapped arguments and results for every bit that is set. -/
def ladder (k u : Nat) : (Nat × Nat) × (Nat × Nat) :=
  (bitsOf 255 k).foldl (fun s b => if b then (step u s.swap).swap else step u s) ((1, 0), (u, 1))

/-- `X25519(k, u)`, on numbers. -/
def mult (k u : Nat) : Nat := (ladder k u).1.1 * powMod p (ladder k u).1.2 (p - 2) % p

/-- `decodeScalar25519`: the lowest three bits and the highest one are cleared, the second highest is set. -/
def scalar (d : Bytes) : Nat := fromBytesBE d.reverse % 2 ^ 254 / 8 * 8 + 2 ^ 254

/-- The public key, RFC 7748, 6.1: `X25519(d, 9)`. -/
def publicKey (d : Bytes) : Bytes := (digitsBE 32 (mult (scalar d) 9)).reverse

/-- The test vector of RFC 7748, 6.1: Alice's keys. -/
example : publicKey
    [0x77, 0x07, 0x6d, 0x0a, 0x73, 0x18, 0xa5, 0x7d, 0x3c, 0x16, 0xc1, 0x72, 0x51, 0xb2, 0x66, 0x45,
     0xdf, 0x4c, 0x2f, 0x87, 0xeb, 0xc0, 0x99, 0x2a, 0xb1, 0x77, 0xfb, 0xa5, 0x1d, 0xb9, 0x2c, 0x2a] =
    [0x85, 0x20, 0xf0, 0x09, 0x89, 0x30, 0xa7, 0x54, 0x74, 0x8b, 0x7d, 0xdc, 0xb4, 0x3e, 0xf7, 0x5a,
     0x0d, 0xbf, 0x3a, 0x0d, 0x26, 0x38, 0x1a, 0xf4, 0xeb, 0xa4, 0xa9, 0x8e, 0xaa, 0x9b, 0x4e, 0x6a] := by
  decide +kernel

end X25519

/-- The library knows X25519. -/
def KnowsX25519 (lib : Cc.HybSsl) : Prop := ∀ d, d.length = 32 → lib.x25519Public d = X25519.publicKey d

/-! ## JSON -/

/-- The limits of the JSON parser are not below what the keysets of the examples need: nesting, and the digits
of a key id.  (In CPython the limits are about 1000 and at least 640.) -/
def RoomForKeysets {F : Type} (E : JsonFormatEnv F) : Prop :=
  5 ≤ E.json.depth ∧ ∀ m, E.json.maxDigits = some m → 10 ≤ m

end Tink.Spec
