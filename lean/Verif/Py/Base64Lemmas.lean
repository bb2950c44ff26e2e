import Verif.Py.Base64
import Verif.Py.Utf8Lemmas

namespace Tink

theorem b64_table : ∀ v < 64, b64Val (b64Char v) = some v ∧ b64Char v ≠ 61 ∧
    stdChar (urlsafeChar (b64Char v)) = b64Char v := by decide +kernel

theorem b64Val_char {v : Nat} (h : v < 64) : b64Val (b64Char v) = some v := (b64_table v h).1
theorem b64Char_ne {v : Nat} (h : v < 64) : b64Char v ≠ 61 := (b64_table v h).2.1

theorem a2b_step {v : Nat} (h : v < 64) (left pads : Nat) (r : Bytes) :
    a2bBase64 0 left pads (b64Char v :: r) = a2bBase64 1 v 0 r := by
  simp [a2bBase64, b64Char_ne h, b64Val_char h]

theorem a2b_step1 {v : Nat} (h : v < 64) (left pads : Nat) (r : Bytes) :
    a2bBase64 1 left pads (b64Char v :: r) =
      (do let rest ← a2bBase64 2 (v % 16) 0 r
          return UInt8.ofNat (left * 4 + v / 16) :: rest) := by
  simp [a2bBase64, b64Char_ne h, b64Val_char h]

theorem a2b_step2 {v : Nat} (h : v < 64) (left pads : Nat) (r : Bytes) :
    a2bBase64 2 left pads (b64Char v :: r) =
      (do let rest ← a2bBase64 3 (v % 4) 0 r
          return UInt8.ofNat (left * 16 + v / 4) :: rest) := by
  simp [a2bBase64, b64Char_ne h, b64Val_char h]

theorem a2b_step3 {v : Nat} (h : v < 64) (left pads : Nat) (r : Bytes) :
    a2bBase64 3 left pads (b64Char v :: r) =
      (do let rest ← a2bBase64 0 0 0 r
          return UInt8.ofNat (left * 64 + v) :: rest) := by
  simp [a2bBase64, b64Char_ne h, b64Val_char h]

theorem a2b_pad2 (left : Nat) : a2bBase64 2 left 0 [61, 61] = .ok [] := rfl
theorem a2b_pad1 (left : Nat) : a2bBase64 3 left 0 [61] = .ok [] := rfl

theorem ofNat_eq {a : UInt8} {n : Nat} (h : n = a.toNat) : UInt8.ofNat n = a := by
  subst h; exact UInt8.ofNat_toNat

/-- Decoding inverts encoding. -/
theorem b64decode_encode (b : Bytes) : b64decode (b64encode b) = .ok b := by
  unfold b64decode
  fun_induction b64encode b with
  | case1 => rfl
  | case2 a =>
    have ha := a.toNat_lt
    rw [a2b_step (by omega), a2b_step1 (by omega), a2b_pad2]
    simp only [bind, Except.bind, pure, Except.pure, Except.ok.injEq,
      List.cons.injEq, and_true]
    exact ofNat_eq (by omega)
  | case3 a b =>
    have ha := a.toNat_lt
    have hb := b.toNat_lt
    rw [a2b_step (by omega), a2b_step1 (by omega), a2b_step2 (by omega), a2b_pad1]
    simp only [bind, Except.bind, pure, Except.pure, Except.ok.injEq,
      List.cons.injEq, and_true]
    exact ⟨ofNat_eq (by omega), ofNat_eq (by omega)⟩
  | case4 a b c r ih =>
    have ha := a.toNat_lt
    have hb := b.toNat_lt
    have hc := c.toNat_lt
    rw [a2b_step (by omega), a2b_step1 (by omega), a2b_step2 (by omega), a2b_step3 (by omega), ih]
    simp only [bind, Except.bind, pure, Except.pure, Except.ok.injEq, List.cons.injEq, and_true]
    exact ⟨ofNat_eq (by omega), ofNat_eq (by omega), ofNat_eq (by omega)⟩

end Tink
