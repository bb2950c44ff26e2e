import Verif.Examples.ToyHybridConfig
import Verif.Examples.ToySignatureConfig
import Verif.Spec.Curves

/-!
# Toy libraries that know P-256 and X25519

Those of `ToySigSsl` and `ToyHybSsl`, with the public keys of the real curves.  They are no cryptography:
signatures are easy to forge, and secrets are easy to compute.
-/

namespace Tink.ToyCurves
open Spec Config Cc

/-! ## P-256 -/

/-- Are the coordinates smaller than the prime? -/
def Reduced : P256.Point → Prop
  | none => True
  | some q => q.1 < P256.p ∧ q.2 < P256.p

theorem third_reduced (l : Nat) (a : Nat × Nat) (x : Nat) : Reduced (some (P256.third l a x)) :=
  ⟨Nat.mod_lt _ (by decide), Nat.mod_lt _ (by decide)⟩

theorem add_reduced {a b : P256.Point} (ha : Reduced a) (hb : Reduced b) : Reduced (P256.add a b) := by
  unfold P256.add
  split
  · exact hb
  · exact ha
  · split
    · exact third_reduced _ _ _
    · split
      · trivial
      · exact third_reduced _ _ _

theorem times_reduced (d : Nat) : Reduced (P256.times d) := by
  have hG : Reduced (some P256.G) := ⟨by decide, by decide⟩
  have : ∀ (bs : List Bool) (acc : P256.Point), Reduced acc → Reduced (bs.foldl (fun acc b =>
      if b then P256.add (P256.add acc acc) (some P256.G) else P256.add acc acc) acc) := by
    intro bs
    induction bs with
    | nil => exact fun _ h => h
    | cons b bs ih =>
      intro acc h
      refine ih _ ?_
      dsimp only
      split
      · exact add_reduced (add_reduced h h) hG
      · exact add_reduced h h
  exact this _ _ trivial

/-- The public key; for the other curves, a toy. -/
def ecPublic : EcGroup → Nat → Nat × Nat
  | .p256, d => (P256.times d).getD (0, 0)
  | _, d => (d, d)

def sigLib : SigSsl :=
  { ToySig.lib with
    ecPoint := fun g x y => decide (x < 256 ^ g.fieldSize ∧ y < 256 ^ g.fieldSize)
    ecScalar := fun g d => decide (1 ≤ d ∧ d < curveOrder g)
    ecPublic := ecPublic
    ecdsaSign := fun seed g d m =>
      some (1 + seed % 256, 1 + (fromBytesBE m + (ecPublic g d).1) % ToySig.limit) }

theorem ecPublic_lt {g : EcGroup} {d : Nat} (h : d < curveOrder g) :
    (ecPublic g d).1 < 256 ^ g.fieldSize ∧ (ecPublic g d).2 < 256 ^ g.fieldSize := by
  have hlt := Nat.lt_trans h (order_lt g)
  cases g with
  | p256 =>
    show ((P256.times d).getD (0, 0)).1 < _ ∧ ((P256.times d).getD (0, 0)).2 < _
    have hp : P256.p < 256 ^ EcGroup.fieldSize .p256 := by decide
    have := times_reduced d
    cases hq : P256.times d with
    | none => exact ⟨by decide, by decide⟩
    | some q =>
      rw [hq] at this
      exact ⟨Nat.lt_trans this.1 hp, Nat.lt_trans this.2 hp⟩
  | _ => exact ⟨hlt, hlt⟩

theorem sigLawful : LawfulSigSsl sigLib where
  digest := ToySig.lawful.digest
  random := ToySig.lawful.random
  generate seed g := by
    have h3 : seed % 1000 < 1000 := Nat.mod_lt _ (by decide)
    have h1 : 1001 < curveOrder g := by cases g <;> decide
    have h2 := order_lt g
    refine ⟨decide_eq_true ⟨?_, ?_⟩, ?_⟩ <;> simp only [sigLib, ToySig.lib] <;> omega
  onCurve g d h := decide_eq_true (ecPublic_lt (of_decide_eq_true h).2)
  point g x y h := of_decide_eq_true h
  ecdsaTotal seed g d m h := ⟨_, rfl⟩
  ecdsa seed g d m rs h h1 := by
    cases h1
    have h3 : seed % 256 < 256 := Nat.mod_lt _ (by decide)
    exact decide_eq_true ⟨by dsimp only; omega, by dsimp only; omega, rfl⟩
  ecdsaSize := ToySig.lawful.ecdsaSize
  derEncode := ToySig.lawful.derEncode
  derDecode := ToySig.lawful.derDecode
  derReads := ToySig.lawful.derReads
  ed25519Public := ToySig.lawful.ed25519Public
  ed25519Sign := ToySig.lawful.ed25519Sign
  ed25519 := ToySig.lawful.ed25519
  rsaGenerate := ToySig.lawful.rsaGenerate
  rsaSignTotal := ToySig.lawful.rsaSignTotal
  rsaEncryptTotal := ToySig.lawful.rsaEncryptTotal
  rsa := ToySig.lawful.rsa
  rsaRaw := ToySig.lawful.rsaRaw
  rsaSize := ToySig.lawful.rsaSize
  rsaRawSize := ToySig.lawful.rsaRawSize
  pssTotal := ToySig.lawful.pssTotal
  pss := ToySig.lawful.pss
  pssFits := ToySig.lawful.pssFits

theorem knowsP256 : KnowsP256 sigLib where
  scalar _ h := decide_eq_true h
  point d q _ h := by
    show (P256.times d).getD (0, 0) = q
    rw [h]
    rfl

/-! ## X25519 -/

theorem publicKey_length (d : Bytes) : (X25519.publicKey d).length = 32 := by
  unfold X25519.publicKey
  rw [List.length_reverse, digitsBE_length]

attribute [local irreducible] X25519.publicKey

def x25519 (d p : Bytes) : Option Bytes :=
  if p.length = 32 then some ((X25519.publicKey d).zipWith (· + ·) p) else none

theorem x25519_public (d e : Bytes) : x25519 d (X25519.publicKey e) =
    some ((X25519.publicKey d).zipWith (· + ·) (X25519.publicKey e)) := if_pos (publicKey_length e)

theorem x25519_comm (d e : Bytes) : x25519 d (X25519.publicKey e) = x25519 e (X25519.publicKey d) := by
  rw [x25519_public, x25519_public, List.zipWith_comm]
  simp only [UInt8.add_comm]

def hybLib : HybSsl :=
  { ToyHyb.lib with
    x25519Public := X25519.publicKey
    x25519 := x25519
    hpkeSender := fun seed aead pub info =>
      if ToyHyb.known aead then
        (x25519 (digitsBE 32 seed) pub).map fun s =>
          (X25519.publicKey (digitsBE 32 seed), ToyHyb.context aead s info)
      else none
    hpkeRecipient := fun aead priv enc info =>
      if ToyHyb.known aead then (x25519 priv enc).map fun s => ToyHyb.context aead s info else none }

theorem hybLawful : LawfulHyb hybLib where
  sym := ToyHyb.lawful.sym
  generate := ToyHyb.lawful.generate
  onCurve := ToyHyb.lawful.onCurve
  point := ToyHyb.lawful.point
  mulTotal := ToyHyb.lawful.mulTotal
  mulOnCurve := ToyHyb.lawful.mulOnCurve
  ecdh := ToyHyb.lawful.ecdh
  decompress := ToyHyb.lawful.decompress
  x25519Generate := ToyHyb.lawful.x25519Generate
  x25519Public d _ := publicKey_length d
  x25519 d e _ _ := x25519_comm d e
  x25519Total d e _ _ := ⟨_, x25519_public d e⟩
  hkdf := ToyHyb.lawful.hkdf
  hpkeKey := ToyHyb.lawful.hpkeKey
  hpkeLength seed aead pub info enc ctx h := by
    simp only [hybLib] at h
    split at h
    · obtain ⟨s, -, h⟩ := Option.map_eq_some_iff.1 h
      cases h
      exact publicKey_length _
    · cases h
  hpke seed aead priv info enc ctx hp h := by
    simp only [hybLib] at h ⊢
    split at h
    · rename_i hk
      obtain ⟨s, hs, h⟩ := Option.map_eq_some_iff.1 h
      cases h
      rw [if_pos hk, x25519_comm, hs]
      rfl
    · cases h
  hpkeTotal seed aead priv info hk hp := by
    simp only [hybLib]
    rw [if_pos (ToyHyb.known_iff.2 hk), x25519_public]
    exact ⟨_, rfl⟩
  hpkeOpens := ToyHyb.lawful.hpkeOpens
  hpkeOverhead := ToyHyb.lawful.hpkeOverhead
  hpkeSeals _ _ _ _ _ _ _ _ _ _ _ := ⟨_, rfl⟩

theorem knowsX25519 : KnowsX25519 hybLib := fun _ _ => rfl

/-! ## All key managers -/

/-- The library with the key managers for symmetric keys, for signatures and for hybrid encryption. -/
def library : Library Bytes Bytes Bytes ToyStream.St UInt8 ToyConfig.Prim PrimClass :=
  { ToySymmetricConfig.library with
    ccSign := ccSign sigLib
    ccVerify := ccVerify sigLib
    ccHybridDecrypt := ccHybridDecrypt hybLib
    ccHybridEncrypt := ccHybridEncrypt hybLib }

theorem lawful : LawfulConfig library ToyConfig.isInst where
  bindingsRegister := rfl
  bindingsRegisterHpke := rfl
  ccAead := ToySymmetricConfig.lawful.ccAead
  ccDaead := ToySymmetricConfig.lawful.ccDaead
  ccHybridDecrypt u h := by
    simp only [keyTypes, List.mem_cons, Prod.mk.injEq, and_true, List.not_mem_nil, or_false, reduceCtorEq,
      and_false, false_or, or_false] at h
    rcases h with rfl | rfl <;> exact ⟨_, rfl, rfl⟩
  ccHybridEncrypt u h := by
    simp only [keyTypes, List.mem_cons, Prod.mk.injEq, and_true, List.not_mem_nil, or_false, reduceCtorEq,
      and_false, false_or, or_false] at h
    rcases h with rfl | rfl <;> exact ⟨_, rfl, rfl⟩
  ccMac := ToySymmetricConfig.lawful.ccMac
  ccPrf := ToySymmetricConfig.lawful.ccPrf
  ccSign u h := by
    simp only [keyTypes, List.mem_cons, Prod.mk.injEq, and_true, List.not_mem_nil, or_false, reduceCtorEq,
      and_false, false_or, or_false] at h
    rcases h with rfl | rfl | rfl | rfl <;> exact ⟨_, rfl, rfl⟩
  ccVerify u h := by
    simp only [keyTypes, List.mem_cons, Prod.mk.injEq, and_true, List.not_mem_nil, or_false, reduceCtorEq,
      and_false, false_or, or_false] at h
    rcases h with rfl | rfl | rfl | rfl <;> exact ⟨_, rfl, rfl⟩
  ccStreamingAead := ToySymmetricConfig.lawful.ccStreamingAead
  classes _ _ h := h
  aead _ := rfl
  daead _ := rfl
  hybridDecrypt _ := rfl
  hybridEncrypt _ := rfl
  mac _ := rfl
  prf _ := rfl
  prfSet _ := rfl
  sign _ := rfl
  verify _ := rfl
  rawStreamingAead _ := rfl
  streamingAead _ := rfl

end Tink.ToyCurves
