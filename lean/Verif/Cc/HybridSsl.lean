import Verif.Cc.SigSsl
import Verif.Cc.KeyManagers
import Verif.Proto.GenHybrid

/-!
# The cryptographic library behind the C++ hybrid encryption

BoringSSL, as `/repo/cc/subtle`, `/repo/cc/internal` and `/repo/cc/hybrid` use it for hybrid encryption.  A
`BIGNUM` is a natural number; allocations succeed, and so do the functions that only fail when an allocation
fails.
-/

namespace Tink.Cc

/-- `EVP_HPKE_CTX`, before the first message. -/
structure HpkeContext where
  aead : EnumVal
  key : Bytes
  nonce : Bytes
deriving DecidableEq, Repr

/-- BoringSSL.
* `sym`: what the symmetric primitives use;
* `ecPoint g x y`: does `EC_POINT_set_affine_coordinates_GFp` succeed, and is the point on the curve;
* `ecPublic g d`: the public key that belongs to a private key;
* `ecGenerate seed g`: the private key of `EC_KEY_generate_key`, which succeeds;
* `ecMul g d p`: `EC_POINT_mul`; `none` if the result is the point at infinity, which has no coordinates;
* `ecDecompress g x odd`: the second coordinate that `EC_POINT_oct2point` finds for a compressed point;
* `x25519Generate seed`: the private key of `EVP_PKEY_keygen` for X25519;
* `x25519Public d`: the public key that belongs to it;
* `x25519 d p`: `EVP_PKEY_derive`;
* `hkdf hash secret salt info n`: `HKDF`;
* `hpkeSender seed aead pub info`: `EVP_HPKE_CTX_setup_sender`, with X25519 and HKDF-SHA256: the encapsulated
  key and the context;
* `hpkeKey priv`: does `EVP_HPKE_KEY_init` succeed;
* `hpkeRecipient aead priv enc info`: `EVP_HPKE_CTX_setup_recipient`;
* `hpkeSeal ctx pt ad`, `hpkeOpen ctx ct ad`: `EVP_HPKE_CTX_seal`, `EVP_HPKE_CTX_open`, for the first
  message. -/
structure HybSsl where
  sym : Ssl
  ecPoint : EcGroup → Nat → Nat → Bool
  ecPublic : EcGroup → Nat → Nat × Nat
  ecGenerate : Seed → EcGroup → Nat
  ecMul : EcGroup → Nat → Nat × Nat → Option (Nat × Nat)
  ecDecompress : EcGroup → Nat → Bool → Option Nat
  x25519Generate : Seed → Bytes
  x25519Public : Bytes → Bytes
  x25519 : Bytes → Bytes → Option Bytes
  hkdf : EnumVal → Bytes → Bytes → Bytes → Nat → Option Bytes
  hpkeSender : Seed → EnumVal → Bytes → Bytes → Option (Bytes × HpkeContext)
  hpkeKey : Bytes → Bool
  hpkeRecipient : EnumVal → Bytes → Bytes → Bytes → Option HpkeContext
  hpkeSeal : HpkeContext → Bytes → Bytes → Option Bytes
  hpkeOpen : HpkeContext → Bytes → Bytes → Option Bytes

/-- How a C++ function ends when it does not return a value: with a status, with a C++ exception
`std::out_of_range`, or with the end of the process. -/
inductive Stop
  | status (s : Status)
  | outOfRange
  | aborted

/-- What a C++ function does that may end in one of these ways. -/
abbrev Run (α : Type) := Except Stop α

/-- `return` of a status. -/
def run {α : Type} : StatusOr α → Run α
  | .ok a => .ok a
  | .error s => .error (.status s)

end Tink.Cc
