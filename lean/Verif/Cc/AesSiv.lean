import Verif.Cc.Ssl
import Verif.Core.CcKeyManager

/-!
# AES-SIV

`/repo/cc/subtle/aes_siv_boringssl.{h,cc}`.
-/

namespace Tink.Cc.AesSiv

/-- The loop of `MultiplyByX` and the line after it, `aes_siv_boringssl.cc:106-110`. -/
def shiftLoop (carry : UInt8) : Bytes → Bytes
  | [] => []
  | [b] => [(b <<< 1) ^^^ carry]
  | b :: c :: rest => ((b <<< 1) ||| (c >>> 7)) :: shiftLoop carry (c :: rest)

/-- `MultiplyByX`, lines 103-111. -/
def multiplyByX (block : Bytes) : Bytes := shiftLoop ((0x87 : UInt8) &&& (-(block.headD 0 >>> 7))) block

/-- The object: `EncryptBlock` (line 99) for the first key, and the two keys of CMAC. -/
structure Keys where
  encryptBlock : Bytes → Bytes
  cmacK1 : Bytes
  cmacK2 : Bytes

/-- `ComputeCmacK1`, lines 84-89, and `ComputeCmacK2`, lines 91-95. -/
def keys (E : Bytes → Bytes) : Keys where
  encryptBlock := E
  cmacK1 := multiplyByX (E zeroBlock)
  cmacK2 := multiplyByX (multiplyByX (E zeroBlock))

/-- `Cmac`, lines 122-144. -/
def cmac (k : Keys) (data : Bytes) : Bytes :=
  let blocks := max 1 ((data.length + 15) / 16)
  let lastBlockIdx := 16 * (blocks - 1)
  let lastBlockSize := data.length - lastBlockIdx
  let block := (List.range (blocks - 1)).foldl
    (fun block i => k.encryptBlock (xorBytes block ((data.drop (16 * i)).take 16))) zeroBlock
  let block := xorAt block 0 (data.drop lastBlockIdx)
  let block := if lastBlockSize = 16 then xorBytes block k.cmacK1
    else xorBytes (xorAt block lastBlockSize [0x80]) k.cmacK2
  k.encryptBlock block

/-- The loop of `CmacLong`, lines 152-157; the second argument is the data from `idx` on. -/
def cmacLongLoop (k : Keys) (block data : Bytes) : Bytes × Bytes :=
  if 16 ≤ data.length then
    cmacLongLoop k (xorBytes (k.encryptBlock block) (data.take 16)) (data.drop 16)
  else (block, data)
termination_by data.length
decreasing_by simp only [List.length_drop]; omega

/-- `CmacLong` after its loop, lines 158-173. -/
def cmacLongEnd (k : Keys) (last block data : Bytes) : Bytes :=
  let remaining := data.length
  let block := xorAt block remaining (last.take (16 - remaining))
  let block := if remaining = 0 then xorBytes block k.cmacK1
    else
      let block := k.encryptBlock block
      let block := xorAt block 0 (last.drop (16 - remaining))
      let block := xorAt block 0 data
      let block := xorAt block remaining [0x80]
      xorBytes block k.cmacK2
  k.encryptBlock block

/-- `CmacLong`, lines 147-174. -/
def cmacLong (k : Keys) (data last : Bytes) : Bytes :=
  let r := cmacLongLoop k (data.take 16) (data.drop 16)
  cmacLongEnd k last r.1 r.2

/-- `S2v`, lines 176-199. -/
def s2v (k : Keys) (aad msg : Bytes) : Bytes :=
  let block := multiplyByX (cmac k zeroBlock)
  let block := xorBytes block (cmac k aad)
  if msg.length ≥ 16 then cmacLong k msg block
  else
    let block := multiplyByX block
    let block := xorAt block 0 msg
    let block := xorAt block msg.length [0x80]
    cmac k block

/-- `AesCtrCrypt`, lines 201-210. -/
def aesCtrCrypt (lib : Ssl) (key siv data : Bytes) : StatusOr Bytes :=
  let iv := (siv.modify 8 (· &&& 0x7f)).modify 12 (· &&& 0x7f)
  aesCtr128Crypt lib key iv data

/-- `EncryptDeterministically`, lines 212-232. -/
def encrypt (lib : Ssl) (k1 k2 plaintext ad : Bytes) : StatusOr Bytes := do
  let siv := s2v (keys (lib.aes k1)) ad plaintext
  let ct ← aesCtrCrypt lib k2 siv plaintext
  return siv ++ ct

/-- `DecryptDeterministically`, lines 234-261. -/
def decrypt (lib : Ssl) (k1 k2 ciphertext ad : Bytes) : StatusOr Bytes :=
  if ciphertext.length < 16 then invalidArgument
  else do
    let siv := ciphertext.take 16
    let plaintext ← aesCtrCrypt lib k2 siv (ciphertext.drop 16)
    if siv ≠ s2v (keys (lib.aes k1)) ad plaintext then invalidArgument else return plaintext

/-- `New`, lines 61-82, with `IsValidKeySizeInBytes`, `aes_siv_boringssl.h:75`; setting the keys, of 32
bytes each, succeeds. -/
def new (lib : Ssl) (key : Bytes) : StatusOr Cpp.DeterministicAead :=
  if key.length ≠ 64 then invalidArgument
  else
    let k1 := key.take (key.length / 2)
    let k2 := key.drop (key.length / 2)
    .ok { encryptDeterministically := encrypt lib k1 k2
          decryptDeterministically := decrypt lib k1 k2 }

end Tink.Cc.AesSiv
