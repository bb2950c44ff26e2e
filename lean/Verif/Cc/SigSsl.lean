import Verif.Cc.Ssl
import Verif.Proto.GenSignature
import Verif.Py.Lit
import Verif.Core.PrivateKeyManager

/-!
# The cryptographic library behind the C++ signatures

BoringSSL, as `/repo/cc/subtle`, `/repo/cc/internal` and `/repo/cc/signature` use it for signatures.  A
`BIGNUM` is a natural number; allocations succeed, and so do the functions that only fail when an allocation
fails.
-/

namespace Tink.Cc

/-- The curves of `EcGroupFromCurveType`. -/
inductive EcGroup
  | p256
  | p384
  | p521
deriving DecidableEq, Repr

/-- `SslEcFieldSizeInBytes`, `/repo/cc/internal/ec_util.cc:194-197`, and `ScalarSizeInBytes`, lines 190-192,
which is the same for these curves. -/
def EcGroup.fieldSize : EcGroup → Nat
  | p256 => 32
  | p384 => 48
  | p521 => 66

/-- The numbers of an `RSA` with private key. -/
structure RsaNumbers where
  n : Nat
  e : Nat
  d : Nat
  p : Nat
  q : Nat
  dp : Nat
  dq : Nat
  crt : Nat
deriving DecidableEq, Repr

/-- `RsaPrivateKey`, `/repo/cc/internal/rsa_util.h`. -/
structure RsaKey where
  n : Bytes
  e : Bytes
  d : Bytes
  p : Bytes
  q : Bytes
  dp : Bytes
  dq : Bytes
  crt : Bytes

/-- The numbers. -/
def RsaKey.numbers (k : RsaKey) : RsaNumbers where
  n := fromBytesBE k.n
  e := fromBytesBE k.e
  d := fromBytesBE k.d
  p := fromBytesBE k.p
  q := fromBytesBE k.q
  dp := fromBytesBE k.dp
  dq := fromBytesBE k.dq
  crt := fromBytesBE k.crt

/-- BoringSSL.
* `digest hash data`: `EVP_Digest`;
* `ecPoint g x y`: does `EC_POINT_set_affine_coordinates_GFp` succeed;
* `ecScalar g d`: does `EC_KEY_set_private_key` succeed;
* `ecPublic g d`: the public key that belongs to a private key;
* `ecGenerate seed g`: the private key of `EC_KEY_generate_key`, which succeeds;
* `ecdsaSign seed g d digest`: the pair that `ECDSA_sign` encodes, `none` if it fails;
* `ecdsaVerify g pub digest rs`: does `ECDSA_verify` accept a pair that it has decoded;
* `derEncode`, `derDecode`: `i2d_ECDSA_SIG` and the parsers in `d2i_ECDSA_SIG` and `ECDSA_verify`, which do
  not accept trailing bytes;
* `ed25519Public seed`, `ed25519Sign seed data`, `ed25519Verify pub sig data`: `EVP_PKEY` with Ed25519;
* `rsaGenerate seed bits e`: `RSA_generate_key_ex`;
* `rsaCheckKey`, `rsaCheckFips`: `RSA_check_key`, `RSA_check_fips`;
* `rsaSign hash k digest`, `rsaVerify hash n e digest sig`: `RSA_sign`, `RSA_verify`;
* `pssPad seed n sigHash mgf1Hash salt digest`: `RSA_padding_add_PKCS1_PSS_mgf1`;
* `pssCheck n sigHash mgf1Hash salt digest em`: `RSA_verify_PKCS1_PSS_mgf1`;
* `rsaPrivateEncrypt k em`, `rsaPublicDecrypt n e sig`: with `RSA_NO_PADDING`;
* `random seed i n`: as in `Ssl`;
* `testSeed`: the randomness of the test signatures, which are made when a primitive is created. -/
structure SigSsl where
  digest : EnumVal → Bytes → Bytes
  ecPoint : EcGroup → Nat → Nat → Bool
  ecScalar : EcGroup → Nat → Bool
  ecPublic : EcGroup → Nat → Nat × Nat
  ecGenerate : Seed → EcGroup → Nat
  ecdsaSign : Seed → EcGroup → Nat → Bytes → Option (Nat × Nat)
  ecdsaVerify : EcGroup → Nat × Nat → Bytes → Nat × Nat → Bool
  derEncode : Nat × Nat → Bytes
  derDecode : Bytes → Option (Nat × Nat)
  ed25519Public : Bytes → Bytes
  ed25519Sign : Bytes → Bytes → Bytes
  ed25519Verify : Bytes → Bytes → Bytes → Bool
  rsaGenerate : Seed → Int → Nat → Option RsaNumbers
  rsaCheckKey : RsaNumbers → Bool
  rsaCheckFips : RsaNumbers → Bool
  rsaSign : EnumVal → RsaNumbers → Bytes → Option Bytes
  rsaVerify : EnumVal → Nat → Nat → Bytes → Bytes → Bool
  pssPad : Seed → Nat → EnumVal → EnumVal → Int → Bytes → Option Bytes
  pssCheck : Nat → EnumVal → EnumVal → Int → Bytes → Bytes → Bool
  rsaPrivateEncrypt : RsaNumbers → Bytes → Option Bytes
  rsaPublicDecrypt : Nat → Nat → Bytes → Option Bytes
  random : Seed → Nat → Nat → Bytes
  testSeed : Seed

/-- UNIMPLEMENTED. -/
def unimplemented {α : Type} : StatusOr α := .error ⟨.other 12, false⟩

/-- `BN_num_bytes`. -/
def bnNumBytes (n : Nat) : Nat := (bitLength n + 7) / 8

/-- `BignumToString` and `BignumToSecretData`, `/repo/cc/internal/bn_util.cc:59-86`, with
`BignumToBinaryPadded`, lines 38-57. -/
def bignumToString (n len : Nat) : StatusOr Bytes :=
  if n < 256 ^ len then .ok (digitsBE len n) else internalError

/-- `IsHashTypeSafeForSignature`, `/repo/cc/internal/md_util.cc:56-72`.  The hash type is that of the proto:
`Enums::ProtoToSubtle`, `/repo/cc/util/enums.cc:114-129`, maps all others to `UNKNOWN_HASH`. -/
def isHashTypeSafeForSignature (hash : EnumVal) : StatusOr Unit :=
  if hash = HashType.SHA256 || hash = HashType.SHA384 || hash = HashType.SHA512 then .ok ()
  else invalidArgument

/-- `EvpHashFromHashType`, `/repo/cc/internal/md_util.cc:37-54`. -/
def evpHashFromHashType (hash : EnumVal) : StatusOr EnumVal :=
  if hash = HashType.SHA1 || hash = HashType.SHA224 || hash = HashType.SHA256 || hash = HashType.SHA384 ||
    hash = HashType.SHA512 then .ok hash
  else unimplemented

/-- `EcGroupFromCurveType`, `/repo/cc/internal/ec_util.cc:636-661`, after `Enums::ProtoToSubtle`,
`/repo/cc/util/enums.cc:52-65`. -/
def ecGroupFromCurveType (curve : EnumVal) : StatusOr EcGroup :=
  if curve = EllipticCurveType.NIST_P256 then .ok .p256
  else if curve = EllipticCurveType.NIST_P384 then .ok .p384
  else if curve = EllipticCurveType.NIST_P521 then .ok .p521
  else unimplemented

/-- `GetEcPoint`, `/repo/cc/internal/ec_util.cc:681-689`, with `SslGetEcPointFromCoordinates`,
lines 88-108. -/
def getEcPoint (lib : SigSsl) (curve : EnumVal) (x y : Bytes) : StatusOr (Nat × Nat) := do
  let g ← ecGroupFromCurveType curve
  if lib.ecPoint g (fromBytesBE x) (fromBytesBE y) then return (fromBytesBE x, fromBytesBE y)
  else internalError

end Tink.Cc
