import Verif.Py.BigIntLemmas

/-!
# C58: big integers

`fromBytesBE` is the value of a byte string read as a big-endian number.
-/

namespace Tink.Props

/-- C58.  A non-negative integer is encoded without error, as a byte string with that value. -/
theorem C58_value {n : Int} (h : 0 ≤ n) : ∃ b, numToBytes n = .ok b ∧ (fromBytesBE b : Int) = n := by
  obtain ⟨n, rfl⟩ := Int.eq_ofNat_of_zero_le h
  rcases Nat.eq_zero_or_pos n with rfl | hp
  · exact ⟨[0], rfl, rfl⟩
  · obtain ⟨b, hb, hv, _⟩ := numToBytes_pos hp
    exact ⟨b, hb, by rw [hv]⟩

/-- C58.  The encoding is a single zero byte for zero and otherwise starts with a non-zero byte. -/
theorem C58_no_leading_zero {n : Int} {b : Bytes} (h : numToBytes n = .ok b) :
    (n = 0 ∧ b = [0]) ∨ ∃ x r, b = x :: r ∧ x ≠ 0 := by
  by_cases h0 : n < 0
  · simp [numToBytes, h0] at h
  · obtain ⟨n, rfl⟩ := Int.eq_ofNat_of_zero_le (by omega : 0 ≤ n)
    rcases Nat.eq_zero_or_pos n with rfl | hp
    · cases h; exact .inl ⟨rfl, rfl⟩
    · obtain ⟨b', hb, _, hx⟩ := numToBytes_pos hp
      rw [hb] at h; cases h
      exact .inr hx

/-- C58.  It is the shortest non-empty byte string with that value. -/
theorem C58_minimal {n : Int} {b c : Bytes} (h : numToBytes n = .ok b) (hc : c ≠ [])
    (hv : (fromBytesBE c : Int) = n) : b.length ≤ c.length := by
  obtain ⟨b', hb, hbv⟩ := C58_value (n := n) (by omega)
  rw [hb] at h; cases h
  rcases C58_no_leading_zero hb with ⟨_, rfl⟩ | ⟨x, r, rfl, hx⟩
  · cases c with
    | nil => exact absurd rfl hc
    | cons y c => simp
  · apply Decidable.byContradiction
    intro hlen
    have h1 := fromBytesBE_ge (b := r) hx
    have h2 := fromBytesBE_lt c
    have h3 : 256 ^ c.length ≤ 256 ^ r.length :=
      Nat.pow_le_pow_right (by omega) (by simp at hlen; omega)
    omega

/-- C58.  It is the only byte string with that value and no leading zero byte. -/
theorem C58_unique {n : Int} {b : Bytes} (h : numToBytes n = .ok b) {x : UInt8} {r : Bytes}
    (hx : x ≠ 0) (hv : (fromBytesBE (x :: r) : Int) = n) : b = x :: r := by
  obtain ⟨b', hb, hbv⟩ := C58_value (n := n) (by omega)
  rw [hb] at h; cases h
  have hr := fromBytesBE_ge (b := r) hx
  have hpos : 0 < 256 ^ r.length := Nat.pow_pos (by omega)
  rcases C58_no_leading_zero hb with ⟨h0, _⟩ | ⟨y, s, rfl, hy⟩
  · omega
  · refine fromBytesBE_inj ?_ (by omega)
    have hs := fromBytesBE_ge (b := s) hy
    have h1 := fromBytesBE_lt (x :: r)
    have h2 := fromBytesBE_lt (y :: s)
    rw [List.length_cons] at h1 h2 ⊢
    rw [List.length_cons]
    have hle1 : s.length < r.length + 1 := (Nat.pow_lt_pow_iff_right (a := 256) (by omega)).1 (by omega)
    have hle2 : r.length < s.length + 1 := (Nat.pow_lt_pow_iff_right (a := 256) (by omega)).1 (by omega)
    omega

/-- C58.  Different integers have different encodings. -/
theorem C58_injective {m n : Int} {b : Bytes} (hm : numToBytes m = .ok b)
    (hn : numToBytes n = .ok b) : m = n := by
  have pos : ∀ k : Int, numToBytes k = .ok b → (fromBytesBE b : Int) = k := by
    intro k hk
    by_cases h0 : k < 0
    · simp [numToBytes, h0] at hk
    · obtain ⟨b', hb, hv⟩ := C58_value (n := k) (by omega)
      rw [hb] at hk; cases hk; exact hv
  rw [← pos m hm, ← pos n hn]

/-- C58.  Negative integers raise `OverflowError`. -/
theorem C58_negative {n : Int} (h : n < 0) : numToBytes n = .error .overflowError := if_pos h

example : numToBytes 65537 = .ok [1, 0, 1] := by decide +kernel
example : numToBytes 255 = .ok [255] := by decide +kernel
example : numToBytes 256 = .ok [1, 0] := by decide +kernel

end Tink.Props
