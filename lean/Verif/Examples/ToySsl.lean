import Verif.Cc.CmacLemmas
import Verif.Cc.Subtle
import Verif.Spec.SymmetricKeys

/-!
# A toy BoringSSL

With a checksum in place of cryptography.  Nothing here models code; it shows that the hypotheses of C89
to C94 can be met.
-/

namespace Tink.ToySsl
open Spec Cc

/-- A checksum. -/
def sum (b : Bytes) : Nat := b.foldl (fun n x => (31 * n + x.toNat + 1) % 2 ^ 64) 7

/-- The tag of a sealed text. -/
def tag (alg : EvpAead) (key nonce ad p : Bytes) : Bytes :=
  digitsBE 16 (sum (key ++ nonce) * sum (ad ++ p) + match alg with
    | .aesGcm => 0
    | .aesGcmSiv => 1
    | .xChaCha20Poly1305 => 2)

def lib : Ssl where
  aes key b := digitsBE 16 (sum (key ++ b) * sum (b ++ key))
  evpSeal alg key nonce ad p := some (p ++ tag alg key nonce ad p)
  evpOpen alg key nonce ad c :=
    let p := c.take (c.length - 16)
    if c = p ++ tag alg key nonce ad p then some p else none
  hmac hash key data := (mdSize hash).map fun n => digitsBE n (sum (key ++ data) ^ 8)
  cmac key data := some (Modes.cmac (fun b => digitsBE 16 (sum (key ++ b) * sum (b ++ key))) data)
  random seed i n := digitsBE n (seed ^^^ i)

theorem length_tag {alg : EvpAead} {key nonce ad p : Bytes} : (tag alg key nonce ad p).length = 16 :=
  digitsBE_length _ _

theorem lawful : LawfulSsl lib where
  aes _ _ _ := digitsBE_length _ _
  opens alg key nonce ad c p := by
    simp only [lib, Option.some.injEq]
    constructor
    · intro h
      split at h
      · rename_i hc
        cases h
        exact hc.symm
      · cases h
    · rintro rfl
      have : (p ++ tag alg key nonce ad p).take ((p ++ tag alg key nonce ad p).length - 16) = p := by
        rw [List.length_append, length_tag, Nat.add_sub_cancel, List.take_left]
      rw [this, if_pos rfl]
  overhead alg key nonce ad c p h := by
    simp only [lib, Option.some.injEq] at h
    rw [← h, List.length_append, length_tag]
  seals _ _ _ _ _ _ _ _ := ⟨_, rfl⟩
  hmac hash n h key data := by
    have : mdSize hash = some n := by cases h <;> rfl
    refine ⟨digitsBE n (sum (key ++ data) ^ 8), ?_, digitsBE_length _ _⟩
    simp only [lib, this, Option.map_some]
  cmac _ _ _ := rfl
  random_length _ _ _ := digitsBE_length _ _
  random_any i b := ⟨fromBytesBE b ^^^ i, by
    show digitsBE _ (fromBytesBE b ^^^ i ^^^ i) = b
    rw [Nat.xor_assoc, Nat.xor_self, Nat.xor_zero, digits_fromBytesBE]⟩

end Tink.ToySsl
