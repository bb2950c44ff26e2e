import Verif.Cc.HybridNewLemmas
import Verif.Examples.ToySsl

/-!
# A toy BoringSSL for hybrid encryption

With addition and multiplication in place of cryptography.  Nothing here models code; it shows that the
hypotheses of C100 to C102 can be met.
-/

namespace Tink.ToyHyb
open Spec Cc

/-- The first bytes of HKDF, without computing all of it. -/
def hkdf (hash : EnumVal) (secret salt info : Bytes) (n : Nat) : Option Bytes :=
  match mdSize hash with
  | none => none
  | some d =>
    if n ≤ 255 * d then
      some ((Hkdf.blocks (hmacWith ToySsl.lib hash) (hmacWith ToySsl.lib hash salt secret) info (n / d + 1)).take n)
    else none

/-- Points are numbers below the order, with their parity. -/
def point (n : Nat) : Nat × Nat := (n, n % 2)

def x25519 (d p : Bytes) : Option Bytes :=
  if p.length ≠ 32 || p = List.replicate 32 0 then none
  else some (0 :: (d.drop 1).zipWith (· + ·) (p.drop 1))

def x25519Public (d : Bytes) : Bytes := 1 :: d.drop 1

def known (aead : EnumVal) : Bool :=
  aead = HpkeAead.AES_128_GCM || aead = HpkeAead.AES_256_GCM || aead = HpkeAead.CHACHA20_POLY1305

def context (aead : EnumVal) (secret info : Bytes) : HpkeContext := { aead, key := secret, nonce := info }

def sealTag (ctx : HpkeContext) (pt ad : Bytes) : Bytes :=
  ToySsl.tag .aesGcm (ctx.aead.toUInt8 :: ctx.key) ctx.nonce ad pt

def lib : HybSsl where
  sym := ToySsl.lib
  ecPoint g x y := x < curveOrder g && y == x % 2
  ecPublic _ d := point d
  ecGenerate seed g := seed % (curveOrder g - 1) + 1
  ecMul g d p := some (point (d * p.1 % curveOrder g))
  ecDecompress g x odd := if x < curveOrder g && (x % 2 == 1) == odd then some (x % 2) else none
  x25519Generate seed := digitsBE 32 seed
  x25519Public := x25519Public
  x25519 := x25519
  hkdf := hkdf
  hpkeSender seed aead pub info :=
    if known aead then
      (x25519 (digitsBE 32 seed) pub).map fun s => (x25519Public (digitsBE 32 seed), context aead s info)
    else none
  hpkeKey priv := priv.length == 32
  hpkeRecipient aead priv enc info :=
    if known aead then (x25519 priv enc).map fun s => context aead s info else none
  hpkeSeal ctx pt ad := some (pt ++ sealTag ctx pt ad)
  hpkeOpen ctx ct ad :=
    let pt := ct.take (ct.length - 16)
    if ct = pt ++ sealTag ctx pt ad then some pt else none

theorem curveOrder_pos (g : EcGroup) : 1 < curveOrder g := by cases g <;> decide

theorem x25519Public_length {d : Bytes} (h : d.length = 32) : (x25519Public d).length = 32 := by
  rw [x25519Public, List.length_cons, List.length_drop, h]

theorem x25519_public {d e : Bytes} (he : e.length = 32) :
    x25519 d (x25519Public e) = some (0 :: (d.drop 1).zipWith (· + ·) (e.drop 1)) := by
  unfold x25519
  rw [x25519Public_length he]
  rw [if_neg]
  · rfl
  · simp only [ne_eq, not_true_eq_false, decide_false, Bool.false_or, decide_eq_true_eq]
    intro h
    exact absurd (List.head_eq_of_cons_eq h) (by decide)

theorem x25519_comm {d e : Bytes} (hd : d.length = 32) (he : e.length = 32) :
    x25519 d (x25519Public e) = x25519 e (x25519Public d) := by
  rw [x25519_public he, x25519_public hd, List.zipWith_comm]
  simp only [UInt8.add_comm]

theorem known_iff {aead : EnumVal} : known aead = true ↔ HpkeAeadKnown aead := by
  unfold known HpkeAeadKnown
  simp only [Bool.or_eq_true, decide_eq_true_eq, or_assoc]

theorem lawful : LawfulHyb lib where
  sym := ToySsl.lawful
  generate seed g := by
    have h1 := curveOrder_pos g
    have h2 := Nat.mod_lt seed (show 0 < curveOrder g - 1 by omega)
    exact ⟨Nat.succ_pos _, Nat.lt_sub_iff_add_lt.1 h2⟩
  onCurve g d h := by
    show (d < curveOrder g && d % 2 == d % 2) = true
    simp [h.2]
  point g x y h := by
    have h : (x < curveOrder g && y == x % 2) = true := h
    simp only [Bool.and_eq_true, decide_eq_true_eq, beq_iff_eq] at h
    have := order_lt g
    refine ⟨Nat.lt_trans h.1 this, ?_⟩
    rw [h.2]
    have := Nat.mod_lt x (show 0 < 2 by decide)
    have := curveOrder_pos g
    omega
  mulTotal _ _ _ _ _ _ := ⟨_, rfl⟩
  mulOnCurve g d x y s _ h := by
    cases h
    have := Nat.mod_lt (d * x) (show 0 < curveOrder g by have := curveOrder_pos g; omega)
    show (d * x % curveOrder g < curveOrder g && d * x % curveOrder g % 2 == d * x % curveOrder g % 2) = true
    simp [this]
  ecdh g d e _ _ := by
    show some (point (d * e % curveOrder g)) = some (point (e * d % curveOrder g))
    rw [Nat.mul_comm]
  decompress g x odd y := by
    show (if _ then _ else _) = _ ↔ (x < curveOrder g && y == x % 2) = true ∧ _
    simp only [Bool.and_eq_true, decide_eq_true_eq, beq_iff_eq]
    constructor
    · intro h
      split at h
      · rename_i hc
        cases h
        refine ⟨⟨hc.1, rfl⟩, ?_⟩
        rw [← hc.2]
        simp
      · cases h
    · rintro ⟨⟨h1, rfl⟩, h2⟩
      rw [if_pos]
      refine ⟨h1, ?_⟩
      rw [Bool.eq_iff_iff, ← h2]
      simp
  x25519Generate _ := digitsBE_length _ _
  x25519Public _ h := x25519Public_length h
  x25519 _ _ hd he := x25519_comm hd he
  x25519Total _ _ _ he := ⟨_, x25519_public he⟩
  hkdf hash d secret salt info n hd := by
    show hkdf hash secret salt info n = _
    unfold hkdf
    rw [mdSize_iff.2 hd]
    dsimp only
    by_cases h : n ≤ 255 * d
    · rw [if_pos h, if_pos h]
      refine congrArg some ?_
      have hpos : 0 < d := by cases hd <;> decide
      have hb : ∀ k, (Hkdf.blocks (hmacWith ToySsl.lib hash) (hmacWith ToySsl.lib hash salt secret) info k).length
          = k * d := by
        intro k
        induction k with
        | zero => simp [Hkdf.blocks]
        | succ k ih =>
          rw [Hkdf.blocks, List.length_append, ih, Nat.succ_mul, Hkdf.T]
          exact congrArg _ (length_hmacWith (lib := lib) ToySsl.lawful hd _ _)
      have hlt : n < (n / d + 1) * d := by
        rw [Nat.mul_comm]
        exact Nat.lt_mul_div_succ n hpos
      rcases Nat.le_total (n / d + 1) 255 with hle | hle
      · obtain ⟨k, hk⟩ := Nat.exists_eq_add_of_le hle
        obtain ⟨rest, hr⟩ := blocks_prefix (prk := hmacWith ToySsl.lib hash salt secret) (info := info)
          (hmacWith ToySsl.lib hash) (n / d + 1) k
        show _ = (Hkdf.blocks (hmacWith ToySsl.lib hash) (hmacWith ToySsl.lib hash salt secret) info 255).take n
        rw [hk, hr, List.take_append_of_le_length (by rw [hb]; omega)]
      · obtain ⟨k, hk⟩ := Nat.exists_eq_add_of_le hle
        obtain ⟨rest, hr⟩ := blocks_prefix (prk := hmacWith ToySsl.lib hash salt secret) (info := info)
          (hmacWith ToySsl.lib hash) 255 k
        rw [hk, hr, List.take_append_of_le_length (by rw [hb]; exact h)]
        rfl
    · rw [if_neg h, if_neg h]
  hpkeKey priv := by
    show (priv.length == 32) = true ↔ _
    simp
  hpkeLength seed aead pub info enc ctx h := by
    simp only [lib] at h
    split at h
    · obtain ⟨s, -, h⟩ := Option.map_eq_some_iff.1 h
      cases h
      exact x25519Public_length (digitsBE_length _ _)
    · cases h
  hpke seed aead priv info enc ctx hp h := by
    simp only [lib] at h ⊢
    split at h
    · rename_i hk
      obtain ⟨s, hs, h⟩ := Option.map_eq_some_iff.1 h
      cases h
      rw [if_pos hk, x25519_comm hp (digitsBE_length _ _), hs]
      rfl
    · cases h
  hpkeTotal seed aead priv info hk hp := by
    simp only [lib]
    rw [if_pos (known_iff.2 hk), x25519_public hp]
    exact ⟨_, rfl⟩
  hpkeOpens ctx ct ad pt := by
    simp only [lib, Option.some.injEq]
    constructor
    · intro h
      split at h
      · rename_i hc
        cases h
        exact hc.symm
      · cases h
    · rintro rfl
      have : (pt ++ sealTag ctx pt ad).take ((pt ++ sealTag ctx pt ad).length - 16) = pt := by
        rw [List.length_append, sealTag, ToySsl.length_tag, Nat.add_sub_cancel, List.take_left]
      rw [this, if_pos rfl]
  hpkeOverhead ctx ct ad pt h := by
    simp only [lib, Option.some.injEq] at h
    rw [← h, List.length_append, sealTag, ToySsl.length_tag]
  hpkeSeals _ _ _ _ _ _ _ _ _ _ _ := ⟨_, rfl⟩

end Tink.ToyHyb
