import Verif.Cc.AesSiv
import Verif.Cc.AesEax
import Verif.Spec.BlockModes
import Verif.Py.BigIntLemmas

/-!
# Lemmas: XOR of strings, numbers, doubling, the counter mode
-/

namespace Tink.Cc
open Spec

/-! ## XOR -/

@[simp] theorem length_xorBytes (a b : Bytes) : (xorBytes a b).length = min a.length b.length := by
  simp [xorBytes]

theorem xor_eq : Modes.xor = xorBytes := rfl

theorem xorBytes_comm (a b : Bytes) : xorBytes a b = xorBytes b a :=
  List.zipWith_comm_of_comm (fun x y => UInt8.xor_comm x y)

theorem xorBytes_assoc (a b c : Bytes) : xorBytes (xorBytes a b) c = xorBytes a (xorBytes b c) := by
  unfold xorBytes
  induction a generalizing b c with
  | nil => simp
  | cons x a ih =>
    cases b with
    | nil => simp
    | cons y b =>
      cases c with
      | nil => simp
      | cons z c => simp [UInt8.xor_assoc, ih]

theorem xorBytes_zero {a : Bytes} {n : Nat} (h : a.length ≤ n) : xorBytes a (List.replicate n 0) = a := by
  unfold xorBytes
  induction a generalizing n with
  | nil => simp
  | cons x a ih =>
    cases n with
    | zero => simp at h
    | succ n => simp [List.replicate_succ, ih (Nat.le_of_succ_le_succ h)]

theorem xorBytes_append {a b c d : Bytes} (h : a.length = c.length) :
    xorBytes (a ++ b) (c ++ d) = xorBytes a c ++ xorBytes b d :=
  List.zipWith_append h

theorem xorBytes_cancel {a b : Bytes} (h : a.length ≤ b.length) : xorBytes (xorBytes a b) b = a := by
  unfold xorBytes
  induction a generalizing b with
  | nil => simp
  | cons x a ih =>
    cases b with
    | nil => simp at h
    | cons y b =>
      simp [UInt8.xor_assoc, ih (Nat.le_of_succ_le_succ h)]

theorem xorBytes_right_inj {a b x : Bytes} (ha : a.length = x.length) (hb : b.length = x.length) :
    xorBytes a x = xorBytes b x ↔ a = b := by
  refine ⟨fun h => ?_, fun h => by rw [h]⟩
  rw [← xorBytes_cancel (Nat.le_of_eq ha), h, xorBytes_cancel (Nat.le_of_eq hb)]

theorem xorAt_eq {b ys : Bytes} {p : Nat} (h : p + ys.length ≤ b.length) :
    xorAt b p ys
      = xorBytes b (List.replicate p 0 ++ ys ++ List.replicate (b.length - p - ys.length) 0) := by
  unfold xorBytes
  induction b generalizing p ys with
  | nil => cases p <;> cases ys <;> simp [xorAt]
  | cons x b ih =>
    cases p with
    | succ p =>
      have h' : p + ys.length ≤ b.length := by simp at h; omega
      have e : (x :: b).length - (p + 1) - ys.length = b.length - p - ys.length := by
        simp only [List.length_cons]; omega
      simp only [xorAt, e, ih h', List.replicate_succ, List.cons_append, List.zipWith_cons_cons]
      simp
    | zero =>
      cases ys with
      | nil =>
        have : List.zipWith (fun x1 x2 => x1 ^^^ x2) (x :: b) (List.replicate (x :: b).length 0) = x :: b :=
          xorBytes_zero (Nat.le_refl _)
        simpa [xorAt] using this.symm
      | cons y ys =>
        have h' : 0 + ys.length ≤ b.length := by simp at h; omega
        have e : (x :: b).length - 0 - (y :: ys).length = b.length - 0 - ys.length := by
          simp only [List.length_cons]; omega
        simp only [xorAt, e, ih h', List.replicate_zero, List.nil_append, List.cons_append,
          List.zipWith_cons_cons]

@[simp] theorem length_xorAt (b ys : Bytes) (p : Nat) : (xorAt b p ys).length = b.length := by
  induction b generalizing p ys with
  | nil => cases p <;> cases ys <;> simp [xorAt]
  | cons x b ih =>
    cases p with
    | succ p => simp [xorAt, ih]
    | zero =>
      cases ys with
      | nil => simp [xorAt]
      | cons y ys => simp [xorAt, ih]

/-! ## Numbers -/

theorem fromBytesBE_concat (a b : Bytes) :
    fromBytesBE (a ++ b) = fromBytesBE a * 256 ^ b.length + fromBytesBE b := by
  unfold fromBytesBE
  rw [List.foldl_append, foldlBE]
  rfl

theorem digits_fromBytesBE (b : Bytes) : digitsBE b.length (fromBytesBE b) = b :=
  fromBytesBE_inj (digitsBE_length _ _) (fromBytesBE_digits _ _ (fromBytesBE_lt b))

theorem digits_fromBytesBE' {b : Bytes} {n : Nat} (h : b.length = n) : digitsBE n (fromBytesBE b) = b := by
  subst h; exact digits_fromBytesBE b

theorem fromBytesBE_replicate (n : Nat) : fromBytesBE (List.replicate n 0) = 0 := by
  induction n with
  | zero => rfl
  | succ n ih => rw [List.replicate_succ, fromBytesBE_cons, ih]; simp

theorem block_zero : Modes.block 0 = zeroBlock := by decide

theorem length_block (n : Nat) : (Modes.block n).length = 16 := digitsBE_length _ _

theorem length_zeroBlock : zeroBlock.length = 16 := rfl

/-- Bitwise operations on two halves. -/
theorem xor_halves {k a b c d : Nat} (hb : b < 2 ^ k) (hd : d < 2 ^ k) :
    (a * 2 ^ k + b) ^^^ (c * 2 ^ k + d) = (a ^^^ c) * 2 ^ k + (b ^^^ d) := by
  have hx : b ^^^ d < 2 ^ k := Nat.xor_lt_two_pow hb hd
  apply Nat.eq_of_testBit_eq
  intro i
  rw [Nat.testBit_xor, Nat.mul_comm a, Nat.mul_comm c, Nat.mul_comm (a ^^^ c),
    Nat.testBit_two_pow_mul_add _ hb, Nat.testBit_two_pow_mul_add _ hd,
    Nat.testBit_two_pow_mul_add _ hx]
  split <;> simp

theorem and_halves {k a b c d : Nat} (hb : b < 2 ^ k) (hd : d < 2 ^ k) :
    (a * 2 ^ k + b) &&& (c * 2 ^ k + d) = (a &&& c) * 2 ^ k + (b &&& d) := by
  have hx : b &&& d < 2 ^ k := Nat.lt_of_le_of_lt Nat.and_le_left hb
  apply Nat.eq_of_testBit_eq
  intro i
  rw [Nat.testBit_and, Nat.mul_comm a, Nat.mul_comm c, Nat.mul_comm (a &&& c),
    Nat.testBit_two_pow_mul_add _ hb, Nat.testBit_two_pow_mul_add _ hd,
    Nat.testBit_two_pow_mul_add _ hx]
  split <;> simp

theorem pow256 (n : Nat) : 256 ^ n = 2 ^ (8 * n) := by rw [Nat.pow_mul]

theorem fromBytesBE_and {a b : Bytes} (h : a.length = b.length) :
    fromBytesBE (List.zipWith (· &&& ·) a b) = fromBytesBE a &&& fromBytesBE b := by
  induction a generalizing b with
  | nil => simp [fromBytesBE]
  | cons x a ih =>
    cases b with
    | nil => cases h
    | cons y b =>
      have h' : a.length = b.length := by simpa using h
      have ha := fromBytesBE_lt a
      have hb := fromBytesBE_lt b
      rw [List.zipWith_cons_cons, fromBytesBE_cons, fromBytesBE_cons, fromBytesBE_cons, ih h',
        List.length_zipWith, ← h', Nat.min_self]
      rw [← h'] at hb
      rw [pow256] at ha hb ⊢
      rw [and_halves ha hb, UInt8.toNat_and]

/-! ## Doubling -/

theorem shiftByte (x y : UInt8) :
    ((x <<< 1) ||| (y >>> 7)).toNat = (2 * x.toNat + y.toNat / 128) % 256 := by
  have hy := y.toNat_lt
  have e := Nat.two_pow_add_eq_or_of_lt (i := 1) (b := y.toNat / 128) (by omega) (x.toNat % 128)
  have e1 : (x <<< 1).toNat = 2 ^ 1 * (x.toNat % 128) := by
    simp [UInt8.toNat_shiftLeft, Nat.shiftLeft_eq]
    omega
  have e2 : (y >>> 7).toNat = y.toNat / 128 := by
    simp [UInt8.toNat_shiftRight, Nat.shiftRight_eq_div_pow]
  rw [UInt8.toNat_or, e1, e2, ← e]
  omega

theorem shiftLoop_num (c : UInt8) (b : Bytes) (h : 0 < b.length) :
    (AesSiv.shiftLoop c b).length = b.length ∧
      fromBytesBE (AesSiv.shiftLoop c b) = (2 * fromBytesBE b % 256 ^ b.length) ^^^ c.toNat := by
  induction b with
  | nil => simp at h
  | cons x b ih =>
    cases b with
    | nil =>
      refine ⟨rfl, ?_⟩
      simp [AesSiv.shiftLoop, fromBytesBE, UInt8.toNat_xor, UInt8.toNat_shiftLeft, Nat.shiftLeft_eq]
      congr 1
      omega
    | cons y b =>
      obtain ⟨hl, hv⟩ := ih (by simp)
      refine ⟨by simp [AesSiv.shiftLoop, hl], ?_⟩
      rw [AesSiv.shiftLoop, fromBytesBE_cons, hv, hl, shiftByte, fromBytesBE_cons x]
      have hW : (256 : Nat) ^ (x :: y :: b).length = 256 ^ (y :: b).length * 256 := by
        rw [List.length_cons, Nat.pow_succ]
      have hn := fromBytesBE_lt (y :: b)
      have htop : y.toNat / 128 = 2 * fromBytesBE (y :: b) / 256 ^ (y :: b).length := by
        have hb := fromBytesBE_lt b
        have hpos : 0 < 256 ^ b.length := Nat.pow_pos (by omega)
        rw [fromBytesBE_cons, List.length_cons, Nat.pow_succ, ← Nat.div_div_eq_div_mul,
          show 2 * (y.toNat * 256 ^ b.length + fromBytesBE b)
            = 256 ^ b.length * (2 * y.toNat) + 2 * fromBytesBE b by
              rw [Nat.mul_add, Nat.mul_comm y.toNat, Nat.mul_left_comm],
          Nat.mul_add_div hpos]
        have : 2 * fromBytesBE b / 256 ^ b.length ≤ 1 := by
          have : 2 * fromBytesBE b / 256 ^ b.length < 2 := Nat.div_lt_of_lt_mul (by omega)
          omega
        have hy := y.toNat_lt
        generalize 2 * fromBytesBE b / 256 ^ b.length = j at this ⊢
        omega
      have hc : c.toNat < 256 ^ (y :: b).length := by
        have := c.toNat_lt
        have : 256 ^ 1 ≤ 256 ^ (y :: b).length := Nat.pow_le_pow_right (by omega) (by simp)
        omega
      generalize hN : fromBytesBE (y :: b) = N at *
      generalize hM : 256 ^ (y :: b).length = W at *
      have hWpos : 0 < W := by omega
      have hsum : 2 * (x.toNat * W + N) = W * (2 * x.toNat + y.toNat / 128) + 2 * N % W := by
        have := Nat.div_add_mod (2 * N) W
        rw [← htop] at this
        rw [Nat.mul_add, Nat.mul_add, Nat.mul_comm x.toNat, Nat.mul_left_comm]
        omega
      have hr : 2 * N % W < W := Nat.mod_lt _ hWpos
      have hmod : 2 * (x.toNat * W + N) % (W * 256)
          = (2 * x.toNat + y.toNat / 128) % 256 * W + 2 * N % W := by
        rw [hsum, Nat.mod_mul, Nat.mul_add_mod, Nat.mod_eq_of_lt hr, Nat.mul_add_div hWpos,
          Nat.div_eq_of_lt hr, Nat.add_zero, Nat.mul_comm W, Nat.add_comm]
      rw [hW, hmod]
      have := xor_halves (k := 8 * (y :: b).length) (a := (2 * x.toNat + y.toNat / 128) % 256) (c := 0)
        (b := 2 * N % W) (d := c.toNat) (by rw [← pow256, hM]; exact hr) (by rw [← pow256, hM]; exact hc)
      rw [← pow256, hM] at this
      simpa using this.symm

theorem carry_eq (x : UInt8) :
    ((0x87 : UInt8) &&& (-(x >>> 7))) = if x.toNat < 128 then 0 else 0x87 := by
  have h : (x >>> 7).toNat = x.toNat / 128 := by
    simp [UInt8.toNat_shiftRight, Nat.shiftRight_eq_div_pow]
  have hx := x.toNat_lt
  split
  · have : x >>> 7 = 0 := UInt8.toNat_inj.1 (by rw [h]; simp; omega)
    rw [this]; rfl
  · have : x >>> 7 = 1 := UInt8.toNat_inj.1 (by rw [h]; simp; omega)
    rw [this]; rfl

theorem times2_lt {n : Nat} (h : n < 2 ^ 128) : Modes.times2 n < 2 ^ 128 := by
  unfold Modes.times2
  split
  · omega
  · exact Nat.xor_lt_two_pow (by omega) (by decide)

theorem fromBytesBE_dbl {b : Bytes} (h : b.length = 16) :
    fromBytesBE (Modes.dbl b) = Modes.times2 (fromBytesBE b) := by
  have := fromBytesBE_lt b
  rw [h] at this
  exact fromBytesBE_digits _ _ (by have := times2_lt (n := fromBytesBE b) (by omega); omega)

@[simp] theorem length_dbl (b : Bytes) : (Modes.dbl b).length = 16 := digitsBE_length _ _

/-- The doubling of AES-SIV. -/
theorem siv_multiplyByX {b : Bytes} (h : b.length = 16) : AesSiv.multiplyByX b = Modes.dbl b := by
  obtain ⟨hl, hv⟩ := shiftLoop_num ((0x87 : UInt8) &&& (-(b.headD 0 >>> 7))) b (by omega)
  have hlt := fromBytesBE_lt b
  apply fromBytesBE_inj
  · rw [length_dbl]
    exact hl.trans h
  · rw [fromBytesBE_dbl h]
    unfold AesSiv.multiplyByX
    rw [hv, carry_eq]
    cases b with
    | nil => cases h
    | cons x b =>
      have hb : b.length = 15 := by simpa using h
      have hlb := fromBytesBE_lt b
      have e := fromBytesBE_cons x b
      rw [h] at hlt ⊢
      rw [hb] at hlb e
      have hx := x.toNat_lt
      rw [List.headD_cons]
      unfold Modes.times2
      by_cases hx : x.toNat < 128
      · rw [if_pos hx, if_pos (by omega)]
        simp
        omega
      · rw [if_neg hx, if_neg (by omega)]
        rw [show (0x87 : UInt8).toNat = 0x87 from rfl,
          show 2 * fromBytesBE (x :: b) % 256 ^ 16 = 2 * fromBytesBE (x :: b) - 2 ^ 128 by omega]

/-- The doubling of AES-EAX. -/
theorem eax_multiplyByX {b : Bytes} (h : b.length = 16) : AesEax.multiplyByX b = Modes.dbl b := by
  have hlt := fromBytesBE_lt b
  have e : fromBytesBE b = fromBytesBE (b.take 8) * 2 ^ 64 + fromBytesBE (b.drop 8) := by
    have := fromBytesBE_concat (b.take 8) (b.drop 8)
    rw [List.take_append_drop, List.length_drop, h] at this
    exact this
  have hH : fromBytesBE (b.take 8) < 2 ^ 64 := by
    have := fromBytesBE_lt (b.take 8)
    rw [List.length_take, h] at this
    exact this
  have hL : fromBytesBE (b.drop 8) < 2 ^ 64 := by
    have := fromBytesBE_lt (b.drop 8)
    rw [List.length_drop, h] at this
    exact this
  apply fromBytesBE_inj
  · rw [length_dbl]
    simp [AesEax.multiplyByX, AesEax.bigEndianStore64, digitsBE_length]
  · rw [fromBytesBE_dbl h, e]
    have hb : ∀ v : UInt64, fromBytesBE (AesEax.bigEndianStore64 v) = v.toNat := fun v =>
      fromBytesBE_digits _ _ (by have := v.toNat_lt; omega)
    have hl : ∀ v : UInt64, (AesEax.bigEndianStore64 v).length = 8 := fun v => digitsBE_length _ _
    unfold AesEax.multiplyByX
    rw [fromBytesBE_concat, hb, hb, hl]
    unfold AesEax.bigEndianLoad64
    generalize fromBytesBE (b.take 8) = H at *
    generalize fromBytesBE (b.drop 8) = L at *
    have hHt : (UInt64.ofNat H).toNat = H := by simp; omega
    have hLt : (UInt64.ofNat L).toNat = L := by simp; omega
    have hhigh : (((UInt64.ofNat H) <<< 1) ^^^ ((UInt64.ofNat L) >>> 63)).toNat
        = (2 * H + L / 2 ^ 63) % 2 ^ 64 := by
      have x := xor_halves (k := 1) (a := H % 2 ^ 63) (b := 0) (c := 0) (d := L / 2 ^ 63) (by omega) (by omega)
      have e1 : ((UInt64.ofNat H) <<< 1).toNat = H % 2 ^ 63 * 2 ^ 1 + 0 := by
        rw [UInt64.toNat_shiftLeft, hHt, Nat.shiftLeft_eq]
        simp
        omega
      have e2 : ((UInt64.ofNat L) >>> 63).toNat = 0 * 2 ^ 1 + L / 2 ^ 63 := by
        rw [UInt64.toNat_shiftRight, hLt, Nat.shiftRight_eq_div_pow]
        simp
      rw [UInt64.toNat_xor, e1, e2, x]
      simp
      omega
    have hlow : (((UInt64.ofNat L) <<< 1) ^^^ ((0x87 : UInt64) &&& (-((UInt64.ofNat H) >>> 63)))).toNat
        = (2 * L) % 2 ^ 64 ^^^ (if H < 2 ^ 63 then 0 else 0x87) := by
      have e1 : ((UInt64.ofNat L) <<< 1).toNat = 2 * L % 2 ^ 64 := by
        rw [UInt64.toNat_shiftLeft, hLt, Nat.shiftLeft_eq]
        simp
        omega
      have e2 : ((UInt64.ofNat H) >>> 63).toNat = H / 2 ^ 63 := by
        rw [UInt64.toNat_shiftRight, hHt, Nat.shiftRight_eq_div_pow]
        simp
      rw [UInt64.toNat_xor, e1]
      congr 1
      split
      · have : (UInt64.ofNat H) >>> 63 = 0 := UInt64.toNat_inj.1 (by rw [e2]; simp; omega)
        rw [this]; rfl
      · have : (UInt64.ofNat H) >>> 63 = 1 := UInt64.toNat_inj.1 (by rw [e2]; simp; omega)
        rw [this]; rfl
    rw [hhigh, hlow]
    unfold Modes.times2
    have x := fun c (hc : c < 2 ^ 64) => xor_halves (k := 64) (a := (2 * H + L / 2 ^ 63) % 2 ^ 64)
      (b := 2 * L % 2 ^ 64) (c := 0) (d := c) (Nat.mod_lt _ (by decide)) hc
    simp only [Nat.xor_zero, Nat.zero_mul, Nat.zero_add] at x
    rw [show (256 : Nat) ^ 8 = 2 ^ 64 from by decide]
    by_cases hH' : H < 2 ^ 63
    · rw [if_pos hH', if_pos (by omega), ← x 0 (by decide)]
      simp
      omega
    · rw [if_neg hH', if_neg (by omega), ← x 0x87 (by decide)]
      rw [show (2 * H + L / 2 ^ 63) % 2 ^ 64 * 2 ^ 64 + 2 * L % 2 ^ 64 = 2 * (H * 2 ^ 64 + L) - 2 ^ 128 by omega]

/-! ## The counter mode -/

theorem length_keyStream {E : Bytes → Bytes} (hE : ∀ b, (E b).length = 16) (iv : Bytes) (n : Nat) :
    (keyStream E iv n).length = 16 * n := by
  induction n with
  | zero => rfl
  | succ n ih =>
    have : keyStream E iv (n + 1) = keyStream E iv n ++ E (counterBlock iv n) := by
      simp [keyStream, List.range_succ]
    rw [this, List.length_append, ih, hE]
    omega

theorem length_ctr128 {E : Bytes → Bytes} (hE : ∀ b, (E b).length = 16) (iv data : Bytes) :
    (ctr128 E iv data).length = data.length := by
  rw [ctr128, length_xorBytes, length_keyStream hE]
  omega

/-- Encrypting twice gives the text back. -/
theorem ctr128_ctr128 {E : Bytes → Bytes} (hE : ∀ b, (E b).length = 16) (iv data : Bytes) :
    ctr128 E iv (ctr128 E iv data) = data := by
  have hl := length_ctr128 hE iv data
  unfold ctr128 at hl ⊢
  rw [hl]
  exact xorBytes_cancel (by rw [length_keyStream hE]; omega)

/-- The key stream from counter `c` on. -/
def streamFrom (E : Bytes → Bytes) (c n : Nat) : Bytes :=
  (List.range n).flatMap fun i => E (Modes.block ((c + i) % 2 ^ 128))

theorem streamFrom_succ (E : Bytes → Bytes) (c n : Nat) :
    streamFrom E c (n + 1) = E (Modes.block (c % 2 ^ 128)) ++ streamFrom E (c + 1) n := by
  unfold streamFrom
  rw [List.range_succ_eq_map, List.flatMap_cons, List.flatMap_map, Nat.add_zero]
  have : (fun i => E (Modes.block ((c + i.succ) % 2 ^ 128)))
      = fun i => E (Modes.block ((c + 1 + i) % 2 ^ 128)) := by
    funext i
    rw [show c + i.succ = c + 1 + i by omega]
  rw [this]

theorem ctrFrom_eq {E : Bytes → Bytes} (hE : ∀ b, (E b).length = 16) (c : Nat) (m : Bytes) :
    Modes.ctrFrom E c m = xorBytes m (streamFrom E c ((m.length + 15) / 16)) := by
  induction hn : m.length using Nat.strongRecOn generalizing c m with
  | ind n ih =>
    subst hn
    unfold Modes.ctrFrom
    split
    · rename_i h
      rw [List.length_eq_zero_iff.1 h]
      rfl
    · rename_i h
      rw [ih (m.drop 16).length (by rw [List.length_drop]; omega) (c + 1) (m.drop 16) rfl]
      by_cases h16 : m.length ≤ 16
      · have hd : m.drop 16 = [] := List.drop_eq_nil_of_le h16
        rw [hd, List.take_of_length_le h16, show (m.length + 15) / 16 = 0 + 1 by omega, streamFrom_succ]
        simp [streamFrom, xorBytes, Modes.xor]
      · have e : (m.length + 15) / 16 = (((m.drop 16).length) + 15) / 16 + 1 := by
          rw [List.length_drop]; omega
        rw [e, streamFrom_succ]
        conv => rhs; rw [← List.take_append_drop 16 m]
        rw [xorBytes_append (by rw [hE, List.length_take]; omega)]
        rw [List.take_append_drop]
        rfl

/-- The counter mode of the library is that of the standard. -/
theorem ctr128_eq {E : Bytes → Bytes} (hE : ∀ b, (E b).length = 16) (iv m : Bytes) :
    ctr128 E iv m = Modes.ctr E iv m := (ctrFrom_eq hE _ _).symm

/-- Clearing the two bits of the synthetic IV. -/
theorem clear_bits {v : Bytes} (h : v.length = 16) :
    (v.modify 8 (· &&& 0x7f)).modify 12 (· &&& 0x7f)
      = Modes.block (fromBytesBE v &&& 0xffffffffffffffff7fffffff7fffffff) := by
  have hm : fromBytesBE [255, 255, 255, 255, 255, 255, 255, 255, 127, 255, 255, 255, 127, 255, 255, 255]
      = 0xffffffffffffffff7fffffff7fffffff := by decide
  apply fromBytesBE_inj
  · simp [h, length_block]
  · unfold Modes.block
    rw [← hm, ← fromBytesBE_and (by rw [h]; rfl), fromBytesBE_digits]
    · congr 1
      match v, h with
      | [a0, a1, a2, a3, a4, a5, a6, a7, a8, a9, a10, a11, a12, a13, a14, a15], _ =>
        have hff : ∀ a : UInt8, a &&& 255 = a := fun a => by
          apply UInt8.toNat_inj.1
          have := a.toNat_lt
          rw [UInt8.toNat_and]
          show a.toNat &&& (2 ^ 8 - 1) = _
          rw [Nat.and_two_pow_sub_one_eq_mod]
          omega
        simp [List.modify, List.modifyTailIdx, List.modifyTailIdx.go, hff]
    · refine Nat.lt_of_lt_of_eq (fromBytesBE_lt _) ?_
      simp [h]

end Tink.Cc
