import Verif.Cc.SigLemmas

/-!
# A toy library for signatures

It meets `LawfulSigSsl`.  It is no cryptography: signatures are easy to forge.
-/

namespace Tink.ToySig
open Spec Cc

/-- The first `n` bytes, with zeros added. -/
def pad (n : Nat) (data : Bytes) : Bytes := (data ++ List.replicate n 0).take n

theorem pad_length (n : Nat) (data : Bytes) : (pad n data).length = n := by
  unfold pad
  rw [List.length_take, List.length_append, List.length_replicate]
  omega

def limit : Nat := 2 ^ 200

/-- Reads an element whose contents have less than 256 bytes. -/
def readElement (tag : UInt8) : Bytes → Option (Bytes × Bytes)
  | t :: l :: rest =>
    if t ≠ tag then none
    else if l.toNat < 128 then some (rest.take l.toNat, rest.drop l.toNat)
    else match rest with
      | [] => none
      | l' :: rest => some (rest.take l'.toNat, rest.drop l'.toNat)
  | _ => none

/-- Reads a pair, and checks that it would be written in the same way. -/
def decode (b : Bytes) : Option (Nat × Nat) :=
  match readElement 0x30 b with
  | none => none
  | some (c, _) =>
    match readElement 2 c with
    | none => none
    | some (r, c) =>
      match readElement 2 c with
      | none => none
      | some (s, _) =>
        if derSignature (fromBytesBE r, fromBytesBE s) = b then some (fromBytesBE r, fromBytesBE s) else none

/-- The number of bytes of an encoded message. -/
def room (n : Nat) : Int := (((bitLength n - 1 + 7) / 8 : Nat) : Int)

def lib : SigSsl where
  digest hash data := match mdSize hash with
    | some n => pad n data
    | none => []
  ecPoint _ x y := decide (0 < x ∧ x < limit ∧ y = x + 1)
  ecScalar _ d := decide (0 < d ∧ d < limit)
  ecPublic _ d := (d, d + 1)
  ecGenerate seed _ := 1 + seed % 1000
  ecdsaSign seed _ d m :=
    if 0 < d ∧ d < limit then some (1 + seed % 256, 1 + (fromBytesBE m + d) % limit) else none
  ecdsaVerify _ pub m rs :=
    decide (0 < rs.1 ∧ rs.1 < 257 ∧ rs.2 = 1 + (fromBytesBE m + pub.1) % limit)
  derEncode := derSignature
  derDecode := decode
  ed25519Public priv := priv.map (· + 1)
  ed25519Sign priv data := priv.map (· + 1) ++ pad 32 data
  ed25519Verify pub sig data := decide (sig = pub ++ pad 32 data)
  rsaGenerate _ bits e :=
    if 2048 ≤ bits then some ⟨2 ^ (bits.toNat - 1), e, 3, 5, 7, 1, 1, 1⟩ else none
  rsaCheckKey k := decide (k.q = 7)
  rsaCheckFips k := decide (k.p = 5)
  rsaSign _ k m := if k.dp = 1 then some (digitsBE (bnNumBytes k.n) (fromBytesBE m + k.e)) else none
  rsaVerify _ n e m sig := decide (sig = digitsBE (bnNumBytes n) (fromBytesBE m + e))
  pssPad seed n _ _ salt m :=
    if 0 ≤ salt ∧ m.length + salt + 2 ≤ room n then
      some (List.replicate (bnNumBytes n - m.length) (UInt8.ofNat seed) ++ m)
    else none
  pssCheck n _ _ salt m em :=
    decide (m.length + salt + 2 ≤ room n ∧ em.drop (em.length - m.length) = m)
  rsaPrivateEncrypt k em := if em.length = bnNumBytes k.n ∧ k.dp = 1 then some (em.map (· + 1)) else none
  rsaPublicDecrypt n _ sig := if sig.length = bnNumBytes n then some (sig.map (· - 1)) else none
  random seed i n := List.replicate n (UInt8.ofNat (seed + i))
  testSeed := 7

theorem readElement_eq (tag : UInt8) (c rest : Bytes) (h : c.length < 256) :
    readElement tag (derElement tag c ++ rest) = some (c, rest) := by
  unfold derElement derLength
  by_cases hc : c.length < 128
  · rw [if_pos hc]
    have hn : (UInt8.ofNat c.length).toNat = c.length := by
      rw [UInt8.toNat_ofNat']; omega
    simp [readElement, hn, hc]
  · rw [if_neg hc]
    have hb : bitLength c.length = 8 := by
      have h1 : bitLength c.length ≤ 8 := bitLength_lt.2 (by omega)
      have h2 : ¬ bitLength c.length ≤ 7 := fun g => by
        have := bitLength_lt.1 g
        omega
      omega
    have hn : bnNumBytes c.length = 1 := by unfold bnNumBytes; rw [hb]
    rw [hn]
    have hm : (UInt8.ofNat c.length).toNat = c.length := by
      rw [UInt8.toNat_ofNat']; omega
    simp [readElement, digitsBE, hm]

theorem digits_integer (n : Nat) : fromBytesBE (digitsBE (bitLength n / 8 + 1) n) = n := by
  refine fromBytesBE_digits _ _ ?_
  have h : n < 2 ^ bitLength n := bitLength_lt.1 (Nat.le_refl _)
  have e : (256 : Nat) ^ (bitLength n / 8 + 1) = 2 ^ (8 * (bitLength n / 8 + 1)) := by
    rw [show (256 : Nat) = 2 ^ 8 from rfl, ← Nat.pow_mul]
  rw [e]
  exact Nat.lt_of_lt_of_le h (Nat.pow_le_pow_right (by decide) (by omega))

theorem bits_of_lt {n : Nat} (h : n < 256 ^ 66) : bitLength n / 8 + 1 ≤ 67 := by
  have : bitLength n ≤ 528 := bitLength_lt.2 (by
    have e : (256 : Nat) ^ 66 = 2 ^ 528 := by decide +kernel
    rwa [← e])
  omega

theorem derInteger_length {n : Nat} (h : n < 256 ^ 66) : (derInteger n).length ≤ 69 := by
  have := bits_of_lt h
  unfold derInteger derElement derLength
  rw [digitsBE_length, if_pos (by omega)]
  simp only [List.length_cons, List.length_append, digitsBE_length, List.length_nil]
  omega

theorem decode_eq (r s : Nat) (hr : r < 256 ^ 66) (hs : s < 256 ^ 66) :
    decode (derSignature (r, s)) = some (r, s) := by
  have h1 := derInteger_length hr
  have h2 := derInteger_length hs
  have b1 := bits_of_lt hr
  have b2 := bits_of_lt hs
  unfold decode
  have e1 : readElement 0x30 (derSignature (r, s)) = some (derInteger r ++ derInteger s, []) := by
    have := readElement_eq 0x30 (derInteger r ++ derInteger s) [] (by rw [List.length_append]; omega)
    rwa [List.append_nil] at this
  have e2 : readElement 2 (derInteger r ++ derInteger s) =
      some (digitsBE (bitLength r / 8 + 1) r, derInteger s) :=
    readElement_eq 2 _ _ (by rw [digitsBE_length]; omega)
  have e3 : readElement 2 (derInteger s) = some (digitsBE (bitLength s / 8 + 1) s, []) := by
    have := readElement_eq 2 (digitsBE (bitLength s / 8 + 1) s) [] (by rw [digitsBE_length]; omega)
    rwa [List.append_nil] at this
  rw [e1]
  dsimp only
  rw [e2]
  dsimp only
  rw [e3]
  dsimp only
  rw [digits_integer, digits_integer, if_pos rfl]

theorem decode_some {b : Bytes} {rs : Nat × Nat} (h : decode b = some rs) : b = derSignature rs := by
  unfold decode at h
  split at h
  · cases h
  split at h
  · cases h
  split at h
  · cases h
  split at h
  · rename_i e
    cases h
    exact e.symm
  · cases h

theorem limit_lt (g : EcGroup) : limit + 1 < 256 ^ g.fieldSize := by
  cases g <;> decide +kernel

theorem bitLength_pow {b : Nat} (h : 0 < b) : bitLength (2 ^ (b - 1)) = b := by
  have h1 : bitLength (2 ^ (b - 1)) ≤ b := bitLength_lt.2 (Nat.pow_lt_pow_right (by decide) (by omega))
  have h2 : ¬ bitLength (2 ^ (b - 1)) ≤ b - 1 := fun g => Nat.lt_irrefl _ (bitLength_lt.1 g)
  omega

theorem generated {seed : Seed} {bits : Int} {e : Nat} {k : RsaNumbers} (h : lib.rsaGenerate seed bits e = some k) :
    2048 ≤ bits ∧ k = ⟨2 ^ (bits.toNat - 1), e, 3, 5, 7, 1, 1, 1⟩ := by
  change (if 2048 ≤ bits then some _ else none) = some k at h
  split at h
  · rename_i hb
    exact ⟨hb, (Option.some.inj h).symm⟩
  · cases h

theorem room_le (n : Nat) : room n ≤ bnNumBytes n := by
  unfold room bnNumBytes
  omega

theorem pssPad_some {seed : Seed} {n : Nat} {h1 h2 : EnumVal} {salt : Int} {m em : Bytes}
    (h : lib.pssPad seed n h1 h2 salt m = some em) :
    (0 ≤ salt ∧ m.length + salt + 2 ≤ room n) ∧
      em = List.replicate (bnNumBytes n - m.length) (UInt8.ofNat seed) ++ m := by
  change (if 0 ≤ salt ∧ m.length + salt + 2 ≤ room n then some _ else none) = some em at h
  split at h
  · rename_i hb
    exact ⟨hb, (Option.some.inj h).symm⟩
  · cases h

theorem pssPad_length {seed : Seed} {n : Nat} {h1 h2 : EnumVal} {salt : Int} {m em : Bytes}
    (h : lib.pssPad seed n h1 h2 salt m = some em) : em.length = bnNumBytes n := by
  obtain ⟨⟨g1, g2⟩, rfl⟩ := pssPad_some h
  have := room_le n
  rw [List.length_append, List.length_replicate]
  omega

theorem lawful : LawfulSigSsl lib where
  digest hash n data h := by
    show (match mdSize hash with | some n => pad n data | none => []).length = n
    rw [mdSize_iff.2 h]
    exact pad_length n data
  random seed i n := List.length_replicate
  generate seed g := by
    have h1 := limit_lt g
    have h2 : 1000 < limit := by decide +kernel
    have h3 : seed % 1000 < 1000 := Nat.mod_lt _ (by decide)
    refine ⟨decide_eq_true ⟨?_, ?_⟩, ?_⟩ <;> simp only [lib] <;> omega
  onCurve g d h := by
    have := of_decide_eq_true h
    exact decide_eq_true ⟨this.1, this.2, rfl⟩
  point g x y h := by
    have := of_decide_eq_true h
    have := limit_lt g
    omega
  ecdsaTotal seed g d m h := ⟨_, if_pos (of_decide_eq_true h)⟩
  ecdsa seed g d m rs h h1 := by
    have h2 : (if 0 < d ∧ d < limit then some (1 + seed % 256, 1 + (fromBytesBE m + d) % limit) else none) =
      some rs := h1
    rw [if_pos (of_decide_eq_true h)] at h2
    cases h2
    have h3 : seed % 256 < 256 := Nat.mod_lt _ (by decide)
    exact decide_eq_true ⟨by dsimp only; omega, by dsimp only; omega, rfl⟩
  ecdsaSize g pub m r s h := by
    have h1 := of_decide_eq_true h
    have h2 := limit_lt g
    have h3 : (fromBytesBE m + pub.1) % limit < limit := Nat.mod_lt _ (by decide +kernel)
    have h4 : 1000 < limit := by decide +kernel
    dsimp only at h1
    omega
  derEncode r s _ _ := rfl
  derDecode b rs h := decode_some h
  derReads r s hr hs := decode_eq r s hr hs
  ed25519Public priv h := by simpa [lib] using h
  ed25519Sign priv data h := by simp [lib, pad_length, h]
  ed25519 priv data h := decide_eq_true rfl
  rsaGenerate seed bits e k h := by
    obtain ⟨hb, rfl⟩ := generated h
    have hn : bitLength (2 ^ (bits.toNat - 1)) = bits.toNat := bitLength_pow (by omega)
    have h7 : 7 < 2 ^ (bits.toNat - 1) :=
      Nat.lt_of_lt_of_le (by decide : 7 < 2 ^ 3) (Nat.pow_le_pow_right (by decide) (by omega))
    refine ⟨rfl, ?_, fun _ => ?_, rfl, rfl, ?_⟩
    · dsimp only; rw [hn]; omega
    · dsimp only; rw [hn]; omega
    · dsimp only; omega
  rsaSignTotal seed bits e k hash h m hk _ _ _ _ := by
    obtain ⟨-, rfl⟩ := generated hk
    exact ⟨_, rfl⟩
  rsaEncryptTotal seed bits e k seed' hash salt m em hk _ h := by
    obtain ⟨-, rfl⟩ := generated hk
    exact ⟨_, if_pos ⟨pssPad_length h, rfl⟩⟩
  rsa hash k m sig _ h := by
    have h1 : (if k.dp = 1 then some (digitsBE (bnNumBytes k.n) (fromBytesBE m + k.e)) else none) = some sig := h
    split at h1
    · exact decide_eq_true (Option.some.inj h1).symm
    · cases h1
  rsaRaw k em sig _ h := by
    have h1 : (if em.length = bnNumBytes k.n ∧ k.dp = 1 then some (em.map (· + 1)) else none) = some sig := h
    split at h1
    · rename_i g
      cases h1
      refine (if_pos ?_).trans ?_
      · rw [List.length_map]; exact g.1
      · rw [List.map_map]
        congr 1
        refine (List.map_congr_left fun x _ => ?_).trans (List.map_id em)
        show x + 1 - 1 = x
        exact UInt8.add_sub_cancel x 1
    · cases h1
  rsaSize hash n e m sig h := by
    rw [of_decide_eq_true h, digitsBE_length]
  rsaRawSize n e sig em h := by
    have h1 : (if sig.length = bnNumBytes n then some (sig.map (· - 1)) else none) = some em := h
    split at h1
    · rename_i g
      cases h1
      exact ⟨g, by rw [List.length_map]; exact g⟩
    · cases h1
  pssTotal seed n hash h salt m _ _ hm hs := by
    subst hm
    constructor
    · rintro ⟨em, he⟩
      exact (pssPad_some he).1.2
    · intro hf
      exact ⟨_, if_pos ⟨hs, hf⟩⟩
  pss seed n hash salt m em h := by
    obtain ⟨h1, rfl⟩ := pssPad_some h
    refine decide_eq_true ⟨h1.2, ?_⟩
    rw [List.length_append, Nat.add_sub_cancel]
    exact List.drop_left
  pssFits n hash h salt m em _ _ hm _ hc := by
    subst hm
    exact (of_decide_eq_true hc).1

end Tink.ToySig
