import Verif.Jwt.CodecLemmas

/-!
# C39, C40: base64url and key ids in headers
-/

namespace Tink
namespace Props
open Jwt Spec

/-- Decoding inverts encoding. -/
theorem C39_round_trip (b : Bytes) : base64Decode (base64Encode b) = .ok b := base64Decode_encode b

/-- An encoding consists of `A-Z a-z 0-9 - _`, without padding. -/
theorem C39_alphabet (b : Bytes) : (∀ c ∈ base64Encode b, UrlChar c) ∧
    (base64Encode b).length = (8 * b.length + 5) / 6 := ⟨(encode_spec b).1, (encode_spec b).2.1⟩

/-- A string with another character, or of length 1 modulo 4, is rejected. -/
theorem C39_rejects (s : Bytes) (h : (∃ c ∈ s, ¬ UrlChar c) ∨ s.length % 4 = 1) :
    base64Decode s = .error .jwtInvalidError := by
  rcases base64Decode_cases s with ⟨h1, _⟩ | ⟨h1, h2, _⟩
  · exact h1
  · rcases h with ⟨c, hc, hn⟩ | h
    · exact absurd (h1 c hc) hn
    · exact absurd h h2

/-- Every other string is decoded: the bits of its characters are the bits of the bytes, as far as
they make up whole bytes. -/
theorem C39_decodes (s : Bytes) (hc : ∀ c ∈ s, UrlChar c) (hl : s.length % 4 ≠ 1) :
    ∃ b, base64Decode s = .ok b ∧ octetBits b = (sextetBits s).take (8 * (6 * s.length / 8)) := by
  rcases base64Decode_cases s with ⟨_, h2⟩ | ⟨_, _, h3⟩
  · exact absurd ⟨hc, hl⟩ h2
  · exact h3

/-- The bits that are left over are not checked: `AQ` and `AR` decode to the same byte. -/
theorem C39_not_canonical : base64Decode [65, 81] = .ok [1] ∧ base64Decode [65, 82] = .ok [1] := by
  decide +kernel

/-- RAW keys have no kid. -/
theorem C40_raw (keyId : Int) : getKid keyId OutputPrefixType.RAW = .ok none := rfl

/-- The kid of a TINK key consists of 6 base64url characters: those of the key id as 4 bytes, most
significant first. -/
theorem C40_tink (keyId : Nat) (h : keyId < 2 ^ 32) : ∃ s : Bytes,
    getKid keyId OutputPrefixType.TINK = .ok (some (s.map UInt8.toNat)) ∧
      s.length = 6 ∧ (∀ c ∈ s, UrlChar c) ∧ base64Decode s = .ok (be32 keyId) := by
  refine ⟨base64Encode (be32 keyId), ?_, (C39_alphabet (be32 keyId)).2.trans (by simp [be32]),
    (C39_alphabet _).1, C39_round_trip _⟩
  unfold getKid
  rw [if_neg (by decide), if_pos rfl, if_neg (by omega), if_neg (by omega), Int.toNat_natCast,
    utf8Decode_ascii _ fun c hc => UrlChar.ascii ((encode_spec _).1 c hc)]

/-- The kid determines the key id. -/
theorem C40_injective (i j : Nat) (hi : i < 2 ^ 32) (hj : j < 2 ^ 32)
    (h : getKid i OutputPrefixType.TINK = getKid j OutputPrefixType.TINK) : i = j := by
  obtain ⟨s, h1, _, _, h2⟩ := C40_tink i hi
  obtain ⟨t, h3, _, _, h4⟩ := C40_tink j hj
  rw [h1, h3] at h
  simp only [Except.ok.injEq, Option.some.injEq] at h
  have hst : s = t := by
    have inj : ∀ s t : Bytes, s.map UInt8.toNat = t.map UInt8.toNat → s = t := by
      intro s
      induction s with
      | nil => intro t h; cases t with
        | nil => rfl
        | cons => cases h
      | cons a s ih => intro t h; cases t with
        | nil => cases h
        | cons b t =>
          simp only [List.map_cons, List.cons.injEq] at h
          rw [UInt8.toNat_inj.1 h.1, ih t h.2]
    exact inj s t h
  rw [hst, h4] at h2
  simp only [Except.ok.injEq] at h2
  unfold be32 at h2
  simp only [List.cons.injEq, and_true] at h2
  obtain ⟨e1, e2, e3, e4⟩ := h2
  have f1 := congrArg UInt8.toNat e1
  have f2 := congrArg UInt8.toNat e2
  have f3 := congrArg UInt8.toNat e3
  have f4 := congrArg UInt8.toNat e4
  simp only [UInt8.toNat_ofNat'] at f1 f2 f3 f4
  omega

/-- Keys with any other prefix type are refused. -/
theorem C40_other (keyId : Int) (p : EnumVal) (h1 : p ≠ OutputPrefixType.RAW)
    (h2 : p ≠ OutputPrefixType.TINK) : getKid keyId p = .error .jwtInvalidError := by
  unfold getKid
  rw [if_neg h1, if_neg h2]

/-- Numbers that are no 32-bit ids are refused, except that `2**32` gets past the test and makes
`struct.pack` fail. -/
theorem C40_out_of_range (keyId : Int) (h : keyId < 0 ∨ 2 ^ 32 ≤ keyId) :
    getKid keyId OutputPrefixType.TINK =
      if keyId = 2 ^ 32 then .error .structError else .error .jwtInvalidError := by
  unfold getKid
  rw [if_neg (by decide), if_pos rfl]
  by_cases h1 : keyId = 2 ^ 32
  · rw [if_neg (by omega), if_pos h1, if_pos h1]
  · rw [if_pos (by omega), if_neg h1]

/-! ## Examples -/

example : base64Encode [0x16, 0x03, 0xFF, 0xFF] = by! "FgP__w" ∧
    base64Decode (by! "FgP__w") = .ok [0x16, 0x03, 0xFF, 0xFF] := by decide +kernel

example : base64Decode (by! "A=") = .error .jwtInvalidError ∧
    base64Decode (by! "AAAAA") = .error .jwtInvalidError := by decide +kernel

example : getKid 0x1ac6a944 OutputPrefixType.TINK = .ok (some (py! "GsapRA")) := by decide +kernel

end Props
end Tink
