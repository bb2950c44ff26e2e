import Verif.Py.BigInt
import Verif.Stream.Segments
import Verif.Wrap.Registered

/-!
# The cryptographic library behind the C++ primitives

BoringSSL, as `/repo/cc/subtle` and `/repo/cc/aead/internal` use it.  The library is a parameter; only
the counter mode is defined here, in terms of the block cipher.  Tink is not in FIPS mode, so
`CheckFipsCompatibility` succeeds, and `CallWithCoreDumpProtection` calls its argument.
-/

namespace Tink.Cc

/-- The functions with which `/repo/cc/aead/internal/ssl_aead.cc` makes an `EVP_AEAD`. -/
inductive EvpAead
  | aesGcm
  | aesGcmSiv
  | xChaCha20Poly1305
deriving DecidableEq

/-- BoringSSL.
* `aes key block`: `AES_encrypt`, after `AES_set_encrypt_key`;
* `evpSeal`, `evpOpen` with algorithm, key, nonce, associated data and text: `EVP_AEAD_CTX_seal`,
  `EVP_AEAD_CTX_open`, with tags of 16 bytes; `none` if they fail;
* `hmac` with hash type, key and data: `HMAC`;
* `cmac` with key and data: `CMAC_Init`, `CMAC_Update`, `CMAC_Final`, 16 bytes;
* `random seed i n`: `Random::GetRandomBytes`, `/repo/cc/subtle/random.cc`; the `i`-th draw of a call
  whose randomness is `seed`.  It always succeeds, as `RAND_bytes` of BoringSSL does. -/
structure Ssl where
  aes : Bytes → Bytes → Bytes
  evpSeal : EvpAead → Bytes → Bytes → Bytes → Bytes → Option Bytes
  evpOpen : EvpAead → Bytes → Bytes → Bytes → Bytes → Option Bytes
  hmac : EnumVal → Bytes → Bytes → Option Bytes
  cmac : Bytes → Bytes → Option Bytes
  random : Seed → Nat → Nat → Bytes

/-- The XOR of two strings of the same length. -/
def xorBytes (a b : Bytes) : Bytes := List.zipWith (· ^^^ ·) a b

/-- The block that is encrypted to give block number `i` of the key stream: the initial counter plus `i`,
as a number of 128 bits. -/
def counterBlock (iv : Bytes) (i : Nat) : Bytes := digitsBE 16 ((fromBytesBE iv + i) % 2 ^ 128)

/-- The key stream of the counter mode, `n` blocks. -/
def keyStream (E : Bytes → Bytes) (iv : Bytes) (n : Nat) : Bytes :=
  (List.range n).flatMap fun i => E (counterBlock iv i)

/-- The counter mode with a counter of 128 bits: `AES_ctr128_encrypt` and `EVP_aes_128_ctr`. -/
def ctr128 (E : Bytes → Bytes) (iv data : Bytes) : Bytes :=
  xorBytes data (keyStream E iv ((data.length + 15) / 16))

/-- `AesCtr128Crypt`, `/repo/cc/internal/aes_util.cc:42-78`; the size and the overlap of the buffers are
checked there: all callers pass buffers that pass. -/
def aesCtr128Crypt (lib : Ssl) (key iv data : Bytes) : StatusOr Bytes := .ok (ctr128 (lib.aes key) iv data)

/-- `block[pos + j] ^= bs[j]` for all `j` in range. -/
def xorAt : Bytes → Nat → Bytes → Bytes
  | [], _, _ => []
  | x :: b, p + 1, ys => x :: xorAt b p ys
  | b, 0, [] => b
  | x :: b, 0, y :: ys => (x ^^^ y) :: xorAt b 0 ys

/-- A block of zeros. -/
def zeroBlock : Bytes := List.replicate 16 0

/-- INVALID_ARGUMENT. -/
def invalidArgument {α : Type} : StatusOr α := .error ⟨.invalidArgument, false⟩

/-- INTERNAL. -/
def internalError {α : Type} : StatusOr α := .error ⟨.internal, false⟩

end Tink.Cc
