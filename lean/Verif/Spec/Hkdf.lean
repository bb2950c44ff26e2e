import Verif.Spec.SymmetricKeys

/-!
# HKDF, from RFC 5869, and the outputs of pseudorandom functions
-/

namespace Tink.Spec

namespace Hkdf

/-- `T(i)`, RFC 5869, section 2.3; `H` is HMAC with its key first. -/
def T (H : Bytes → Bytes → Bytes) (prk info : Bytes) : Nat → Bytes
  | 0 => []
  | i + 1 => H prk (T H prk info i ++ info ++ [UInt8.ofNat (i + 1)])

/-- `T(1) | … | T(n)`. -/
def blocks (H : Bytes → Bytes → Bytes) (prk info : Bytes) : Nat → Bytes
  | 0 => []
  | n + 1 => blocks H prk info n ++ T H prk info (n + 1)

/-- All the output keying material there is: 255 blocks, with the pseudorandom key extracted from the
secret with the salt. -/
def output (H : Bytes → Bytes → Bytes) (salt secret info : Bytes) : Bytes := blocks H (H salt secret) info 255

end Hkdf

/-- The longest output of a pseudorandom function for an input. -/
def PrfKey.output (lib : Cc.Ssl) : PrfKey → Bytes → Bytes
  | .hmac key hash, input => (lib.hmac hash key input).getD []
  | .aesCmac key, input => Modes.cmac (lib.aes key) input
  | .hkdf key hash salt, input => Hkdf.output (fun k d => (lib.hmac hash k d).getD []) salt key input

/-- How long outputs may be. -/
def PrfKey.maxLength : PrfKey → Nat → Prop
  | .hmac _ hash, n => Digest hash n
  | .aesCmac _, n => n = 16
  | .hkdf _ hash _, n => ∃ d, Digest hash d ∧ n = 255 * d

/-- A pseudorandom function returns the first bytes of one long output, as many as asked for, or fails if
that are more bytes than the output has; for lengths below a bound. -/
def ExactPrf (a : Cpp.Prf) (output : Bytes → Bytes) (below : Nat) : Prop :=
  ∀ input n, n < below →
    (n ≤ (output input).length → a.compute input n = .ok ((output input).take n)) ∧
    ((output input).length < n → ∃ e, a.compute input n = .error e)

end Tink.Spec
