import Verif.Cc.SigSsl

/-!
# Signatures

`/repo/cc/subtle/{ecdsa,ed25519,rsa_ssa_pkcs1,rsa_ssa_pss}_{sign,verify}_boringssl.cc`,
`/repo/cc/signature/internal/ecdsa_raw_sign_boringssl.cc`, `/repo/cc/internal/{ec_util,rsa_util}.cc` and
`/repo/cc/signature/sig_util.cc`.
-/

namespace Tink.Cc

/-! ## ECDSA -/

/-- `EcKey`, `/repo/cc/internal/ec_util.h`. -/
structure EcKey where
  curve : EnumVal
  pubX : Bytes
  pubY : Bytes
  priv : Bytes := []

/-- `NewEcKey`, `/repo/cc/internal/ec_util.cc:355-376`, with `EcKeyFromSslEcKey`, lines 273-312.  The branch
for Curve25519 is left out: the callers have checked the curve. -/
def newEcKey (lib : SigSsl) (seed : Seed) (curve : EnumVal) : StatusOr EcKey := do
  let g ← ecGroupFromCurveType curve
  let d := lib.ecGenerate seed g
  let x ← bignumToString (lib.ecPublic g d).1 g.fieldSize
  let y ← bignumToString (lib.ecPublic g d).2 g.fieldSize
  let priv ← bignumToString d g.fieldSize
  return { curve, pubX := x, pubY := y, priv }

/-- `DerToIeee`, `/repo/cc/signature/internal/ecdsa_raw_sign_boringssl.cc:62-90`. -/
def derToIeee (lib : SigSsl) (g : EcGroup) (der : Bytes) : StatusOr Bytes :=
  match lib.derDecode der with
  | none => internalError
  | some (r, s) => do
    let r ← bignumToString r g.fieldSize
    let s ← bignumToString s g.fieldSize
    return r ++ s

/-- `EcSignatureIeeeToDer`, `/repo/cc/internal/ec_util.cc:730-756`. -/
def ecSignatureIeeeToDer (lib : SigSsl) (g : EcGroup) (sig : Bytes) : StatusOr Bytes :=
  if sig.length ≠ g.fieldSize * 2 then invalidArgument
  else .ok (lib.derEncode (fromBytesBE (sig.take g.fieldSize), fromBytesBE (sig.drop g.fieldSize)))

/-- `EcdsaRawSignBoringSsl::Sign`, `/repo/cc/signature/internal/ecdsa_raw_sign_boringssl.cc:135-161`. -/
def ecdsaRawSign (lib : SigSsl) (g : EcGroup) (d : Nat) (encoding : EnumVal) (seed : Seed) (digest : Bytes) :
    StatusOr Bytes :=
  match lib.ecdsaSign seed g d digest with
  | none => internalError
  | some rs =>
    let der := lib.derEncode rs
    if encoding = EcdsaSignatureEncoding.IEEE_P1363 then derToIeee lib g der else .ok der

/-- `EcdsaRawSignBoringSsl::New`, lines 95-133. -/
def ecdsaRawNew (lib : SigSsl) (key : EcKey) (encoding : EnumVal) :
    StatusOr (Seed → Bytes → StatusOr Bytes) := do
  let g ← ecGroupFromCurveType key.curve
  let _ ← getEcPoint lib key.curve key.pubX key.pubY
  let d := fromBytesBE key.priv
  if !lib.ecScalar g d then invalidArgument else return ecdsaRawSign lib g d encoding

/-- `EcdsaSignBoringSsl::New` and `Sign`, `/repo/cc/subtle/ecdsa_sign_boringssl.cc:42-84`. -/
def ecdsaSignNew (lib : SigSsl) (key : EcKey) (hash encoding : EnumVal) : StatusOr Cpp.PublicKeySign := do
  isHashTypeSafeForSignature hash
  let md ← evpHashFromHashType hash
  let raw ← ecdsaRawNew lib key encoding
  return { sign := fun seed data => raw seed (lib.digest md data) }

/-- `EcdsaVerifyBoringSsl::Verify`, `/repo/cc/subtle/ecdsa_verify_boringssl.cc:93-129`. -/
def ecdsaVerifyVerify (lib : SigSsl) (g : EcGroup) (pub : Nat × Nat) (md encoding : EnumVal) (sig data : Bytes) :
    StatusOr Unit := do
  let digest := lib.digest md data
  let der ← if encoding = EcdsaSignatureEncoding.IEEE_P1363 then ecSignatureIeeeToDer lib g sig else .ok sig
  match lib.derDecode der with
  | none => invalidArgument
  | some rs => if lib.ecdsaVerify g pub digest rs then .ok () else invalidArgument

/-- `EcdsaVerifyBoringSsl::New`, lines 47-91. -/
def ecdsaVerifyNew (lib : SigSsl) (key : EcKey) (hash encoding : EnumVal) : StatusOr Cpp.PublicKeyVerify := do
  let g ← ecGroupFromCurveType key.curve
  let pub ← getEcPoint lib key.curve key.pubX key.pubY
  isHashTypeSafeForSignature hash
  let md ← evpHashFromHashType hash
  return { verify := ecdsaVerifyVerify lib g pub md encoding }

/-! ## Ed25519 -/

/-- `Ed25519SignBoringSsl::New` and `Sign`, `/repo/cc/subtle/ed25519_sign_boringssl.cc:48-98`. -/
def ed25519SignNew (lib : SigSsl) (privateKey : Bytes) : StatusOr Cpp.PublicKeySign :=
  if privateKey.length ≠ 64 then invalidArgument
  else .ok { sign := fun _ data => .ok (lib.ed25519Sign (privateKey.take 32) data) }

/-- `Ed25519VerifyBoringSsl::New` and `Verify`, `/repo/cc/subtle/ed25519_verify_boringssl.cc:43-100`. -/
def ed25519VerifyNew (lib : SigSsl) (publicKey : Bytes) : StatusOr Cpp.PublicKeyVerify :=
  if publicKey.length ≠ 32 then invalidArgument
  else .ok { verify := fun sig data =>
    if sig.length ≠ 64 then invalidArgument
    else if lib.ed25519Verify publicKey sig data then .ok () else internalError }

/-! ## RSA keys -/

/-- `ValidateRsaModulusSize`, `/repo/cc/internal/rsa_util.cc:57-79`. -/
def validateRsaModulusSize (bits : Nat) : StatusOr Unit := if bits < 2048 then invalidArgument else .ok ()

/-- `ValidateRsaPublicExponent`, lines 81-104. -/
def validateRsaPublicExponentBn (e : Nat) : StatusOr Unit :=
  if e % 2 = 0 then invalidArgument
  else if e ≤ 65536 then invalidArgument
  else if bitLength e > 32 then invalidArgument
  else .ok ()

/-- `ValidateRsaPublicExponent` for a string, lines 106-113. -/
def validateRsaPublicExponent (e : Bytes) : StatusOr Unit := validateRsaPublicExponentBn (fromBytesBE e)

/-- A number in as few bytes as possible: `BignumToString(bn, BN_num_bytes(bn))`. -/
def bnString (n : Nat) : StatusOr Bytes := bignumToString n (bnNumBytes n)

/-- `NewRsaKeyPair`, lines 115-203. -/
def newRsaKeyPair (lib : SigSsl) (seed : Seed) (bits : Int) (e : Nat) : StatusOr RsaKey := do
  validateRsaPublicExponentBn e
  match lib.rsaGenerate seed bits e with
  | none => internalError
  | some k =>
    let n ← bnString k.n
    let e ← bnString k.e
    let d ← bnString k.d
    let p ← bnString k.p
    let q ← bnString k.q
    let dp ← bnString k.dp
    let dq ← bnString k.dq
    let crt ← bnString k.crt
    return { n, e, d, p, q, dp, dq, crt }

/-- `RsaPrivateKeyToRsa`, lines 282-328, with lines 206-280. -/
def rsaPrivateKeyToRsa (lib : SigSsl) (k : RsaKey) : StatusOr RsaNumbers := do
  validateRsaModulusSize (bitLength (fromBytesBE k.n))
  validateRsaPublicExponent k.e
  if !lib.rsaCheckKey k.numbers then invalidArgument
  else if !lib.rsaCheckFips k.numbers then invalidArgument
  else return k.numbers

/-- `RsaPublicKeyToRsa`, lines 330-356. -/
def rsaPublicKeyToRsa (n e : Bytes) : StatusOr (Nat × Nat) := do
  validateRsaModulusSize (bitLength (fromBytesBE n))
  return (fromBytesBE n, fromBytesBE e)

/-! ## RSA-SSA-PKCS1 -/

/-- `RsaSsaPkcs1SignBoringSsl::New` and `Sign`, `/repo/cc/subtle/rsa_ssa_pkcs1_sign_boringssl.cc:47-116`. -/
def rsaPkcs1SignNew (lib : SigSsl) (k : RsaKey) (hash : EnumVal) : StatusOr Cpp.PublicKeySign := do
  isHashTypeSafeForSignature hash
  let md ← evpHashFromHashType hash
  validateRsaModulusSize (bitLength (fromBytesBE k.n))
  let rsa ← rsaPrivateKeyToRsa lib k
  return { sign := fun _ data =>
    match lib.rsaSign md rsa (lib.digest md data) with
    | none => internalError
    | some sig => .ok sig }

/-- `RsaSsaPkcs1VerifyBoringSsl::New` and `Verify`,
`/repo/cc/subtle/rsa_ssa_pkcs1_verify_boringssl.cc:44-101`. -/
def rsaPkcs1VerifyNew (lib : SigSsl) (n e : Bytes) (hash : EnumVal) : StatusOr Cpp.PublicKeyVerify := do
  isHashTypeSafeForSignature hash
  let md ← evpHashFromHashType hash
  let rsa ← rsaPublicKeyToRsa n e
  return { verify := fun sig data =>
    if lib.rsaVerify md rsa.1 rsa.2 (lib.digest md data) sig then .ok () else invalidArgument }

/-! ## RSA-SSA-PSS -/

/-- `SslRsaSsaPssSign`, `/repo/cc/subtle/rsa_ssa_pss_sign_boringssl.cc:63-103`.  The digest has the right
size: `EVP_Digest` has computed it. -/
def sslRsaSsaPssSign (lib : SigSsl) (rsa : RsaNumbers) (seed : Seed) (digest : Bytes) (sigMd mgf1Md : EnumVal)
    (salt : Int) : StatusOr Bytes :=
  match lib.pssPad seed rsa.n sigMd mgf1Md salt digest with
  | none => internalError
  | some em =>
    match lib.rsaPrivateEncrypt rsa em with
    | none => internalError
    | some sig => .ok sig

/-- `RsaSsaPssSignBoringSsl::New` and `Sign`, lines 107-160. -/
def rsaPssSignNew (lib : SigSsl) (k : RsaKey) (sigHash mgf1Hash : EnumVal) (salt : Int) :
    StatusOr Cpp.PublicKeySign := do
  isHashTypeSafeForSignature sigHash
  let sigMd ← evpHashFromHashType sigHash
  let mgf1Md ← evpHashFromHashType mgf1Hash
  let rsa ← rsaPrivateKeyToRsa lib k
  return { sign := fun seed data =>
    match sslRsaSsaPssSign lib rsa seed (lib.digest sigMd data) sigMd mgf1Md salt with
    | .error _ => internalError
    | .ok sig => .ok sig }

/-- `SslRsaSsaPssVerify`, `/repo/cc/subtle/rsa_ssa_pss_verify_boringssl.cc:63-101`. -/
def sslRsaSsaPssVerify (lib : SigSsl) (rsa : Nat × Nat) (sig digest : Bytes) (sigMd mgf1Md : EnumVal)
    (salt : Int) : StatusOr Unit :=
  match lib.rsaPublicDecrypt rsa.1 rsa.2 sig with
  | none => invalidArgument
  | some em =>
    if em.length ≠ bnNumBytes rsa.1 then invalidArgument
    else if lib.pssCheck rsa.1 sigMd mgf1Md salt digest em then .ok () else invalidArgument

/-- `RsaSsaPssVerifyBoringSsl::New` and `Verify`, lines 105-155. -/
def rsaPssVerifyNew (lib : SigSsl) (n e : Bytes) (sigHash mgf1Hash : EnumVal) (salt : Int) :
    StatusOr Cpp.PublicKeyVerify := do
  isHashTypeSafeForSignature sigHash
  let sigMd ← evpHashFromHashType sigHash
  let mgf1Md ← evpHashFromHashType mgf1Hash
  let rsa ← rsaPublicKeyToRsa n e
  return { verify := fun sig data =>
    sslRsaSsaPssVerify lib rsa sig (lib.digest sigMd data) sigMd mgf1Md salt }

/-! ## The test of a key pair -/

/-- The message that is signed. -/
def testMessage : Bytes := by! "Wycheproof and Tink."

/-- `SignAndVerify`, `/repo/cc/signature/sig_util.cc:26-32`. -/
def signAndVerify (lib : SigSsl) (signer : Cpp.PublicKeySign) (verifier : Cpp.PublicKeyVerify) :
    StatusOr Unit := do
  let sig ← signer.sign lib.testSeed testMessage
  verifier.verify sig testMessage

/-- A signer, if it passes the test; INTERNAL if not.  The last lines of `Create` of the RSA key managers,
`/repo/cc/signature/rsa_ssa_pkcs1_sign_key_manager.cc:117-131` and
`/repo/cc/signature/rsa_ssa_pss_sign_key_manager.cc:120-134`. -/
def tested (lib : SigSsl) (signer : StatusOr Cpp.PublicKeySign) (verifier : StatusOr Cpp.PublicKeyVerify) :
    StatusOr Cpp.PublicKeySign := do
  let s ← signer
  let v ← verifier
  match signAndVerify lib s v with
  | .error _ => internalError
  | .ok _ => return s

end Tink.Cc
