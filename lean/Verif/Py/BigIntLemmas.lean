import Verif.Py.BigInt

namespace Tink

theorem fromBytesBE_append (a : Bytes) (x : UInt8) :
    fromBytesBE (a ++ [x]) = fromBytesBE a * 256 + x.toNat := by
  simp [fromBytesBE]

theorem foldlBE (b : Bytes) (k : Nat) :
    b.foldl (fun n d => n * 256 + d.toNat) k = k * 256 ^ b.length + fromBytesBE b := by
  induction b generalizing k with
  | nil => simp [fromBytesBE]
  | cons x b ih =>
    unfold fromBytesBE
    rw [List.foldl_cons, List.foldl_cons, ih, ih (0 * 256 + x.toNat), List.length_cons,
      Nat.pow_succ, Nat.add_mul, Nat.add_mul, Nat.mul_assoc, Nat.mul_comm 256]
    omega

theorem fromBytesBE_cons (x : UInt8) (b : Bytes) :
    fromBytesBE (x :: b) = x.toNat * 256 ^ b.length + fromBytesBE b := by
  show List.foldl _ (0 * 256 + x.toNat) b = _
  rw [foldlBE, Nat.zero_mul, Nat.zero_add]

theorem fromBytesBE_lt (b : Bytes) : fromBytesBE b < 256 ^ b.length := by
  induction b with
  | nil => simp [fromBytesBE]
  | cons x b ih =>
    rw [fromBytesBE_cons, List.length_cons, Nat.pow_succ]
    have hx := x.toNat_lt
    have : x.toNat * 256 ^ b.length ≤ 255 * 256 ^ b.length := Nat.mul_le_mul_right _ (by omega)
    omega

theorem fromBytesBE_ge {x : UInt8} {b : Bytes} (h : x ≠ 0) :
    256 ^ b.length ≤ fromBytesBE (x :: b) := by
  rw [fromBytesBE_cons]
  have hx : 1 ≤ x.toNat := by
    rcases Nat.eq_zero_or_pos x.toNat with h0 | h0
    · exact absurd (UInt8.toNat_inj.1 h0) h
    · exact h0
  have : 1 * 256 ^ b.length ≤ x.toNat * 256 ^ b.length := Nat.mul_le_mul_right _ hx
  omega

theorem fromBytesBE_inj {a b : Bytes} (hl : a.length = b.length)
    (h : fromBytesBE a = fromBytesBE b) : a = b := by
  induction a generalizing b with
  | nil => cases b with
    | nil => rfl
    | cons y b => cases hl
  | cons x a ih => cases b with
    | nil => cases hl
    | cons y b =>
      have hl' : a.length = b.length := by simpa using hl
      rw [fromBytesBE_cons, fromBytesBE_cons, hl'] at h
      have ha := fromBytesBE_lt a
      have hb := fromBytesBE_lt b
      rw [hl'] at ha
      have hpos : 0 < 256 ^ b.length := Nat.pow_pos (by omega)
      have hd : x.toNat = y.toNat := by
        have h1 : (x.toNat * 256 ^ b.length + fromBytesBE a) / 256 ^ b.length = x.toNat := by
          rw [Nat.mul_comm, Nat.mul_add_div hpos, Nat.div_eq_of_lt ha, Nat.add_zero]
        have h2 : (y.toNat * 256 ^ b.length + fromBytesBE b) / 256 ^ b.length = y.toNat := by
          rw [Nat.mul_comm, Nat.mul_add_div hpos, Nat.div_eq_of_lt hb, Nat.add_zero]
        rw [← h1, ← h2, h]
      have hxy := UInt8.toNat_inj.1 hd
      subst hxy
      rw [ih hl' (by omega)]

theorem digitsBE_length (len n : Nat) : (digitsBE len n).length = len := by
  induction len generalizing n with
  | zero => rfl
  | succ len ih => simp [digitsBE, ih]

theorem fromBytesBE_digits (len n : Nat) (h : n < 256 ^ len) : fromBytesBE (digitsBE len n) = n := by
  induction len generalizing n with
  | zero => simp at h; subst h; rfl
  | succ len ih =>
    rw [digitsBE, fromBytesBE_append, ih]
    · simp [UInt8.toNat_ofNat']; omega
    · rw [Nat.pow_succ] at h
      exact Nat.div_lt_of_lt_mul (by omega)

theorem numToBytes_pos {n : Nat} (h : 0 < n) :
    ∃ b, numToBytes n = .ok b ∧ fromBytesBE b = n ∧ ∃ x r, b = x :: r ∧ x ≠ 0 := by
  have h0 : ¬ ((n : Int) < 0) := by omega
  have h1 : ¬ ((n : Int) = 0) := by omega
  have hb : bitLength n = n.log2 + 1 := if_neg (by omega)
  let L := (bitLength n + 7) / 8
  have hlt : n < 256 ^ L := by
    have := Nat.lt_log2_self (n := n)
    calc n < 2 ^ (n.log2 + 1) := this
      _ ≤ 2 ^ (8 * L) := Nat.pow_le_pow_right (by omega) (by simp only [L]; omega)
      _ = 256 ^ L := by rw [Nat.pow_mul]
  have hge : 256 ^ (L - 1) ≤ n := by
    calc 256 ^ (L - 1) = 2 ^ (8 * (L - 1)) := by rw [Nat.pow_mul]
      _ ≤ 2 ^ n.log2 := Nat.pow_le_pow_right (by omega) (by simp only [L]; omega)
      _ ≤ n := Nat.log2_self_le (by omega)
  refine ⟨digitsBE L n, ?_, fromBytesBE_digits L n hlt, ?_⟩
  · unfold numToBytes
    rw [if_neg h0, if_neg h1]
    exact if_pos hlt
  · have hlen := digitsBE_length L n
    cases hd : digitsBE L n with
    | nil => rw [hd] at hlen; simp at hlen; simp only [L] at hlen; omega
    | cons x r =>
      refine ⟨x, r, rfl, ?_⟩
      rintro rfl
      have hv := fromBytesBE_digits L n hlt
      rw [hd, fromBytesBE_cons] at hv
      have hr := fromBytesBE_lt r
      have : r.length = L - 1 := by rw [hd] at hlen; simp at hlen; omega
      rw [this] at hr
      simp at hv
      omega

end Tink
