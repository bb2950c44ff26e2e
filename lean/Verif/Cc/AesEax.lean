import Verif.Cc.Ssl
import Verif.Core.CcKeyManager

/-!
# AES-EAX

`/repo/cc/subtle/aes_eax_boringssl.{h,cc}`.  Loading two integers of 64 bits, taking their XOR and storing
it is the XOR of the bytes.
-/

namespace Tink.Cc.AesEax

/-- `BigEndianLoad64`, `aes_eax_boringssl.cc:69-77`. -/
def bigEndianLoad64 (b : Bytes) : UInt64 := UInt64.ofNat (fromBytesBE b)

/-- `BigEndianStore64`, lines 79-87. -/
def bigEndianStore64 (v : UInt64) : Bytes := digitsBE 8 v.toNat

/-- `MultiplyByX`, lines 111-122. -/
def multiplyByX (block : Bytes) : Bytes :=
  let inHigh := bigEndianLoad64 (block.take 8)
  let inLow := bigEndianLoad64 (block.drop 8)
  let outHigh := (inHigh <<< 1) ^^^ (inLow >>> 63)
  let outLow := (inLow <<< 1) ^^^ ((0x87 : UInt64) &&& (-(inHigh >>> 63)))
  bigEndianStore64 outHigh ++ bigEndianStore64 outLow

/-- The object: `EncryptBlock` (line 196), `B_` and `P_`. -/
structure Keys where
  encryptBlock : Bytes → Bytes
  B : Bytes
  P : Bytes

/-- `ComputeB`, lines 139-144, and `ComputeP`, lines 146-150. -/
def keys (E : Bytes → Bytes) : Keys where
  encryptBlock := E
  B := multiplyByX (E zeroBlock)
  P := multiplyByX (multiplyByX (E zeroBlock))

/-- `Pad`, lines 175-190. -/
def pad (k : Keys) (data : Bytes) : Bytes :=
  let padded := data ++ List.replicate (16 - data.length) 0
  if data.length = 16 then xorBytes k.B padded
  else xorBytes k.P (padded.set data.length 0x80)

/-- The loop of `Omac` and what follows it, lines 218-227; the second argument is the data from `idx`
on.  `idx` is an `int`, which does not overflow for data shorter than 2 GiB. -/
def omacLoop (k : Keys) (mac data : Bytes) : Bytes :=
  if data.length > 16 then omacLoop k (k.encryptBlock (xorBytes (data.take 16) mac)) (data.drop 16)
  else k.encryptBlock (xorBytes (pad k data) mac)
termination_by data.length
decreasing_by simp only [List.length_drop]; omega

/-- `Omac`, lines 207-228. -/
def omac (k : Keys) (data : Bytes) (tag : UInt8) : Bytes :=
  let mac := zeroBlock.set 15 tag
  if data.isEmpty then k.encryptBlock (xorBytes k.B mac)
  else omacLoop k (k.encryptBlock mac) data

/-- `CtrCrypt`, lines 230-236. -/
def ctrCrypt (lib : Ssl) (key N data : Bytes) : StatusOr Bytes := aesCtr128Crypt lib key N data

/-- `Encrypt`, lines 238-268. -/
def encrypt (lib : Ssl) (key : Bytes) (nonceSize : Nat) (seed : Seed) (plaintext ad : Bytes) :
    StatusOr Bytes := do
  let k := keys (lib.aes key)
  let nonce := lib.random seed 0 nonceSize
  let N := omac k nonce 0
  let H := omac k ad 1
  let ct ← ctrCrypt lib key N plaintext
  let mac := omac k ct 2
  let mac := xorBytes N mac
  let mac := xorBytes H mac
  return nonce ++ ct ++ mac

/-- `Decrypt`, lines 270-305. -/
def decrypt (lib : Ssl) (key : Bytes) (nonceSize : Nat) (ciphertext ad : Bytes) : StatusOr Bytes :=
  let ctSize := ciphertext.length
  if ctSize < nonceSize + 16 then invalidArgument
  else
    let outSize := ctSize - 16 - nonceSize
    let nonce := ciphertext.take nonceSize
    let encrypted := (ciphertext.drop nonceSize).take outSize
    let tag := (ciphertext.drop (ctSize - 16)).take 16
    let k := keys (lib.aes key)
    let N := omac k nonce 0
    let H := omac k ad 1
    let mac := omac k encrypted 2
    let mac := xorBytes N mac
    let mac := xorBytes H mac
    if mac ≠ tag then invalidArgument else ctrCrypt lib key N encrypted

/-- `New`, lines 152-173, with `IsValidKeySize` and `IsValidNonceSize`, lines 131-137; setting the key
succeeds. -/
def new (lib : Ssl) (key : Bytes) (nonceSize : Nat) : StatusOr Cpp.Aead :=
  if !(key.length = 16 || key.length = 32) then invalidArgument
  else if !(nonceSize = 12 || nonceSize = 16) then invalidArgument
  else .ok { encrypt := encrypt lib key nonceSize, decrypt := decrypt lib key nonceSize }

end Tink.Cc.AesEax
