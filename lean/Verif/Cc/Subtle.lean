import Verif.Cc.Ssl
import Verif.Core.KeyTypeManager
import Verif.Proto.Gen

/-!
# Symmetric primitives made from BoringSSL

`/repo/cc/subtle` and `/repo/cc/aead/internal`: AES-GCM, AES-GCM-SIV, XChaCha20-Poly1305, AES-CTR with
HMAC, HMAC, AES-CMAC.

Buffers are as large as computed and do not overlap, so those checks succeed.
-/

namespace Tink.Cc
open Cpp

/-! ## AEAD ciphers with one call -/

/-- `SslOneShotAead::Encrypt`, `/repo/cc/aead/internal/ssl_aead.cc:331-377`. -/
def oneShotEncrypt (lib : Ssl) (alg : EvpAead) (key plaintext ad iv : Bytes) : StatusOr Bytes :=
  match lib.evpSeal alg key iv ad plaintext with
  | some c => .ok c
  | none => internalError

/-- `SslOneShotAead::Decrypt`, lines 380-437; the tag has 16 bytes. -/
def oneShotDecrypt (lib : Ssl) (alg : EvpAead) (key ciphertext ad iv : Bytes) : StatusOr Bytes :=
  if ciphertext.length < 16 then invalidArgument
  else
    match lib.evpOpen alg key iv ad ciphertext with
    | some p => .ok p
    | none => internalError

/-- `CreateAesGcmOneShotCrypter`, lines 463-494, `CreateAesGcmSivOneShotCrypter`, lines 496-520, with
`GetAesGcmAeadForKeySize` and `GetAesGcmSivAeadCipherForKeySize`,
`/repo/cc/aead/internal/aead_util.cc:58-84`, to which the size is passed in 32 bits.  `EVP_AEAD_CTX_new`
checks the size again. -/
def createAesOneShotCrypter (key : Bytes) : StatusOr Unit :=
  if UInt32.ofNat key.length ≠ 16 && UInt32.ofNat key.length ≠ 32 then invalidArgument
  else if key.length ≠ 16 && key.length ≠ 32 then internalError
  else .ok ()

/-- `CreateXchacha20Poly1305OneShotCrypter`, lines 522-549. -/
def createXchacha20OneShotCrypter (key : Bytes) : StatusOr Unit :=
  if key.length ≠ 32 then invalidArgument else .ok ()

/-- `Encrypt` of the three AEADs: `ZeroCopyAesGcmBoringSsl::Encrypt`,
`/repo/cc/aead/internal/zero_copy_aes_gcm_boringssl.cc:61-91` with
`/repo/cc/aead/internal/aead_from_zero_copy.cc:32-44`; `/repo/cc/subtle/aes_gcm_siv_boringssl.cc:62-81`;
`/repo/cc/subtle/xchacha20_poly1305_boringssl.cc:65-85`. -/
def nonceEncrypt (lib : Ssl) (alg : EvpAead) (nonceSize : Nat) (key : Bytes) (seed : Seed)
    (plaintext ad : Bytes) : StatusOr Bytes := do
  let nonce := lib.random seed 0 nonceSize
  let c ← oneShotEncrypt lib alg key plaintext ad nonce
  return nonce ++ c

/-- `Decrypt` of the three AEADs: `zero_copy_aes_gcm_boringssl.cc:102-131` with
`aead_from_zero_copy.cc:46-58`; `aes_gcm_siv_boringssl.cc:83-103`;
`xchacha20_poly1305_boringssl.cc:87-107`. -/
def nonceDecrypt (lib : Ssl) (alg : EvpAead) (nonceSize : Nat) (key ciphertext ad : Bytes) :
    StatusOr Bytes :=
  if ciphertext.length < nonceSize + 16 then invalidArgument
  else oneShotDecrypt lib alg key (ciphertext.drop nonceSize) ad (ciphertext.take nonceSize)

/-- `AesGcmBoringSsl::New`, `/repo/cc/subtle/aes_gcm_boringssl.cc:36-50`; the IV has 12 bytes. -/
def aesGcmNew (lib : Ssl) (key : Bytes) : StatusOr Cpp.Aead := do
  createAesOneShotCrypter key
  return { encrypt := nonceEncrypt lib .aesGcm 12 key, decrypt := nonceDecrypt lib .aesGcm 12 key }

/-- `AesGcmSivBoringSsl::New`, `aes_gcm_siv_boringssl.cc:46-60`; the IV has 12 bytes. -/
def aesGcmSivNew (lib : Ssl) (key : Bytes) : StatusOr Cpp.Aead := do
  createAesOneShotCrypter key
  return { encrypt := nonceEncrypt lib .aesGcmSiv 12 key, decrypt := nonceDecrypt lib .aesGcmSiv 12 key }

/-- `XChacha20Poly1305BoringSsl::New`, `xchacha20_poly1305_boringssl.cc:49-63`; the nonce has 24 bytes. -/
def xChaCha20Poly1305New (lib : Ssl) (key : Bytes) : StatusOr Cpp.Aead := do
  createXchacha20OneShotCrypter key
  return { encrypt := nonceEncrypt lib .xChaCha20Poly1305 24 key
           decrypt := nonceDecrypt lib .xChaCha20Poly1305 24 key }

/-! ## AES-CTR -/

/-- `IndCpaCipher`, `/repo/cc/subtle/ind_cpa_cipher.h`. -/
structure IndCpaCipher where
  encrypt : Seed → Bytes → StatusOr Bytes
  decrypt : Bytes → StatusOr Bytes

/-- `EVP_EncryptUpdate` and `EVP_DecryptUpdate` after the corresponding initialisation, and the check of
the length after them.  The length is an `int`: for 2 GiB or more the call fails or handles fewer bytes,
and the result is INTERNAL. -/
def evpCtr (lib : Ssl) (key iv data : Bytes) : StatusOr Bytes :=
  if data.length < 2 ^ 31 then .ok (ctr128 (lib.aes key) iv data) else internalError

/-- `AesCtrBoringSsl::Encrypt`, `/repo/cc/subtle/aes_ctr_boringssl.cc:62-101`. -/
def aesCtrEncrypt (lib : Ssl) (key : Bytes) (ivSize : Nat) (seed : Seed) (plaintext : Bytes) :
    StatusOr Bytes := do
  let iv := lib.random seed 0 ivSize
  let ct ← evpCtr lib key (iv ++ List.replicate (16 - ivSize) 0) plaintext
  return iv ++ ct

/-- `AesCtrBoringSsl::Decrypt`, lines 103-145. -/
def aesCtrDecrypt (lib : Ssl) (key : Bytes) (ivSize : Nat) (ciphertext : Bytes) : StatusOr Bytes :=
  if ciphertext.length < ivSize then invalidArgument
  else
    let iv := ciphertext.take ivSize ++ List.replicate (16 - ivSize) 0
    evpCtr lib key iv (ciphertext.drop ivSize)

/-- `AesCtrBoringSsl::New`, lines 44-60, with `GetAesCtrCipherForKeySize`,
`/repo/cc/internal/aes_util.cc:80-91`. -/
def aesCtrNew (lib : Ssl) (key : Bytes) (ivSize : Int) : StatusOr IndCpaCipher :=
  if UInt32.ofNat key.length ≠ 16 && UInt32.ofNat key.length ≠ 32 then invalidArgument
  else if ivSize < 12 || ivSize > 16 then invalidArgument
  else .ok { encrypt := aesCtrEncrypt lib key ivSize.toNat, decrypt := aesCtrDecrypt lib key ivSize.toNat }

/-! ## HMAC -/

/-- `EvpHashFromHashType`, `/repo/cc/internal/md_util.cc:37-54`, and `EVP_MD_size`: the size of the digest. -/
def mdSize (hash : EnumVal) : Option Nat :=
  if hash = HashType.SHA1 then some 20
  else if hash = HashType.SHA224 then some 28
  else if hash = HashType.SHA256 then some 32
  else if hash = HashType.SHA384 then some 48
  else if hash = HashType.SHA512 then some 64
  else none

/-- `HmacBoringSsl::ComputeMac`, `/repo/cc/subtle/hmac_boringssl.cc:66-85`. -/
def hmacCompute (lib : Ssl) (hash : EnumVal) (tagSize : Nat) (key data : Bytes) : StatusOr Bytes :=
  match lib.hmac hash key data with
  | none => internalError
  | some buf => .ok (buf.take tagSize)

/-- `HmacBoringSsl::VerifyMac`, lines 87-111. -/
def hmacVerify (lib : Ssl) (hash : EnumVal) (tagSize : Nat) (key mac data : Bytes) : StatusOr Unit :=
  if mac.length ≠ tagSize then invalidArgument
  else
    match lib.hmac hash key data with
    | none => internalError
    | some buf => if buf.take tagSize ≠ mac.take tagSize then invalidArgument else .ok ()

/-- `HmacBoringSsl::New`, lines 44-64, with `kMinKeySize` 16; `Enums::ProtoToSubtle` is the identity on the
hash types with a digest, and gives another one without for the others. -/
def hmacNew (lib : Ssl) (hash : EnumVal) (tagSize : UInt32) (key : Bytes) : StatusOr Cpp.Mac :=
  match mdSize hash with
  | none => .error ⟨.other 12, false⟩
  | some size =>
    if size < tagSize.toNat then invalidArgument
    else if key.length < 16 then invalidArgument
    else .ok { computeMac := hmacCompute lib hash tagSize.toNat key
               verifyMac := hmacVerify lib hash tagSize.toNat key }

/-! ## AES-CMAC -/

/-- `AesCmacBoringSsl::ComputeMac`, `/repo/cc/subtle/aes_cmac_boringssl.cc:73-104`; the size of the key has
been checked. -/
def cmacCompute (lib : Ssl) (tagSize : Nat) (key data : Bytes) : StatusOr Bytes :=
  match lib.cmac key data with
  | none => internalError
  | some result => .ok (result.take tagSize)

/-- `AesCmacBoringSsl::VerifyMac`, lines 106-122. -/
def cmacVerify (lib : Ssl) (tagSize : Nat) (key mac data : Bytes) : StatusOr Unit :=
  if mac.length ≠ tagSize then invalidArgument
  else do
    let computed ← cmacCompute lib tagSize key data
    if computed.take tagSize ≠ mac.take tagSize then invalidArgument else .ok ()

/-- `AesCmacBoringSsl::New`, lines 55-71. -/
def cmacNew (lib : Ssl) (key : Bytes) (tagSize : UInt32) : StatusOr Cpp.Mac :=
  if key.length ≠ 16 && key.length ≠ 32 then invalidArgument
  else if tagSize > 16 then invalidArgument
  else .ok { computeMac := cmacCompute lib tagSize.toNat key, verifyMac := cmacVerify lib tagSize.toNat key }

/-! ## Encrypt, then authenticate -/

/-- `longToBigEndianStr`, `/repo/cc/subtle/encrypt_then_authenticate.cc:40-47`. -/
def longToBigEndianStr (value : UInt64) : Bytes := digitsBE 8 value.toNat

/-- `EncryptThenAuthenticate::Encrypt`, lines 61-90. -/
def etaEncrypt (cipher : IndCpaCipher) (mac : Cpp.Mac) (tagSize : Nat) (seed : Seed) (plaintext ad : Bytes) :
    StatusOr Bytes :=
  let sizeInBytes := UInt64.ofNat ad.length
  let sizeInBits := sizeInBytes * 8
  if sizeInBits / 8 ≠ sizeInBytes then invalidArgument
  else do
    let ciphertext ← cipher.encrypt seed plaintext
    let tag ← mac.computeMac (ad ++ ciphertext ++ longToBigEndianStr sizeInBits)
    if tag.length ≠ tagSize then internalError else return ciphertext ++ tag

/-- `EncryptThenAuthenticate::Decrypt`, lines 92-127. -/
def etaDecrypt (cipher : IndCpaCipher) (mac : Cpp.Mac) (tagSize : Nat) (ciphertext ad : Bytes) :
    StatusOr Bytes :=
  if ciphertext.length < tagSize then invalidArgument
  else
    let sizeInBytes := UInt64.ofNat ad.length
    let sizeInBits := sizeInBytes * 8
    if sizeInBits / 8 ≠ sizeInBytes then invalidArgument
    else do
      let payload := ciphertext.take (ciphertext.length - tagSize)
      let tag := (ciphertext.drop (ciphertext.length - tagSize)).take tagSize
      mac.verifyMac tag (ad ++ payload ++ longToBigEndianStr sizeInBits)
      cipher.decrypt payload

/-- `EncryptThenAuthenticate::New`, lines 49-59; the size of the tag is passed in 8 bits. -/
def etaNew (cipher : IndCpaCipher) (mac : Cpp.Mac) (tagSize : UInt8) : StatusOr Cpp.Aead :=
  if tagSize < 10 then invalidArgument
  else .ok { encrypt := etaEncrypt cipher mac tagSize.toNat, decrypt := etaDecrypt cipher mac tagSize.toNat }

end Tink.Cc
