import Verif.Jwt.KeyLemmas
import Verif.Examples.ToyJwt

/-!
# C44: verification over a keyset
-/

namespace Tink
namespace Props
open Jwt Spec

section
variable {F P C α : Type} [DecidableEq C] {isInst : P → C → Bool} {r : Registry P C} {h : KeysetHandle}
  {kps : List (Key × P)} {p : P} {t : Nat} {ci c : C}

theorem split_map {A B : Type} {f : A → B} {l : List A} {pre post : List B} {y : B}
    (h : l.map f = pre ++ y :: post) :
    ∃ pre' x post', l = pre' ++ x :: post' ∧ pre = pre'.map f ∧ y = f x := by
  obtain ⟨pre', l2, rfl, rfl, h2⟩ := List.map_eq_append_iff.1 h
  obtain ⟨x, post', rfl, rfl, rfl⟩ := List.map_eq_cons_iff.1 h2
  exact ⟨pre', x, post', rfl, rfl, rfl⟩

omit [DecidableEq C] in
theorem combine_group_ok {f : Key × P → Py α} {a : α}
    (h : combine false ((groupOrder kps).map f) = .ok a) :
    ∃ pre q post, groupOrder kps = pre ++ q :: post ∧ f q = .ok a ∧ ∀ q' ∈ pre, Rejects (f q') := by
  rcases first_or_none ((groupOrder kps).map f) with hn | ⟨pre, y, post, he, h1, h2⟩
  · by_cases hm : (.error .jwtInvalidError : Py α) ∈ (groupOrder kps).map f
    · rw [(combine_none hn).1 hm] at h; cases h
    · rw [(combine_none hn).2 hm] at h; cases h
  · rw [he, combine_first h1 false h2] at h
    subst h
    obtain ⟨pre', x, post', e1, rfl, e3⟩ := split_map he
    exact ⟨pre', x, post', e1, e3.symm, fun q hq => h1 _ (List.mem_map.2 ⟨q, hq, rfl⟩)⟩

theorem combine_group_first {f : Key × P → Py α} {pre post : List (Key × P)} {q : Key × P}
    (hs : groupOrder kps = pre ++ q :: post) (hq : ¬ Rejects (f q)) (hpre : ∀ q' ∈ pre, Rejects (f q')) :
    combine false ((groupOrder kps).map f) = f q := by
  rw [hs, List.map_append, List.map_cons]
  refine combine_first ?_ false hq
  intro x hx
  obtain ⟨q', hq', rfl⟩ := List.mem_map.1 hx
  exact hpre q' hq'

theorem combine_group_none {f : Key × P → Py α} (hk : ∀ q ∈ kps, ∃ id, outputPrefix q.1 = .ok id)
    (hn : ∀ q ∈ kps, Rejects (f q)) :
    ((∃ q ∈ kps, f q = .error .jwtInvalidError) →
      combine false ((groupOrder kps).map f) = .error .jwtInvalidError) ∧
    ((∀ q ∈ kps, f q ≠ .error .jwtInvalidError) →
      combine false ((groupOrder kps).map f) = .error .tinkError) := by
  have hn' : ∀ x ∈ (groupOrder kps).map f, Rejects x := by
    intro x hx
    obtain ⟨q, hq, rfl⟩ := List.mem_map.1 hx
    exact hn q ((mem_groupOrder hk).1 hq)
  constructor
  · rintro ⟨q, hq, he⟩
    exact (combine_none hn').1 (List.mem_map.2 ⟨q, (mem_groupOrder hk).2 hq, he⟩)
  · intro hne
    refine (combine_none hn').2 fun hm => ?_
    obtain ⟨q, hq, he⟩ := List.mem_map.1 hm
    exact hne q ((mem_groupOrder hk).1 hq) he

theorem combine_group_iff {f : Key × P → Py α} (hk : ∀ q ∈ kps, ∃ id, outputPrefix q.1 = .ok id)
    (hn : ∀ q ∈ kps, (∃ a, f q = .ok a) ∨ Rejects (f q)) :
    (∃ a, combine false ((groupOrder kps).map f) = .ok a) ↔ ∃ q ∈ kps, ∃ a, f q = .ok a := by
  constructor
  · rintro ⟨a, h⟩
    obtain ⟨pre, q, post, hs, hq, _⟩ := combine_group_ok h
    refine ⟨q, (mem_groupOrder hk).1 ?_, a, hq⟩
    rw [hs]; simp
  · rintro ⟨q, hq, a, ha⟩
    rcases first_or_none ((groupOrder kps).map f) with hr | ⟨pre, y, post, he, h1, h2⟩
    · obtain ⟨e, h', _⟩ := hr (f q) (List.mem_map.2 ⟨q, (mem_groupOrder hk).2 hq, rfl⟩)
      rw [ha] at h'; cases h'
    · rw [he, combine_first h1 false h2]
      obtain ⟨pre', x, post', e1, _, rfl⟩ := split_map he
      rcases hn x ((mem_groupOrder hk).1 (by rw [e1]; simp)) with h | h
      · exact h
      · exact absurd h h2

/-! ## MACs -/

section
variable {V : View P (JwtMacInternal F)} {W : View P (JwtMac F)}

/-- The keys of a keyset that gives a `JwtMac` are all of type RAW or TINK. -/
theorem C44_mac_prefix_types (H : Obtained isInst (jwtMacWrapper V W t ci c) r h c kps p) :
    ∀ q ∈ kps, q.1.outputPrefixType = OutputPrefixType.RAW ∨
      q.1.outputPrefixType = OutputPrefixType.TINK := (mac_obtained H).2

/-- The first key that does not refuse with a `TinkError` decides, whether it accepts or raises another
exception.  Keys are tried grouped by their prefix. -/
theorem C44_mac_first (H : Obtained isInst (jwtMacWrapper V W t ci c) r h c kps p) (clock : Int)
    (compact : PyStr) (v : JwtValidator) {pre post : List (Key × P)} {q : Key × P}
    (hs : groupOrder kps = pre ++ q :: post)
    (hq : ¬ Rejects ((V.view q.2).verifyMacAndDecodeWithKid clock compact v (keyKid q.1)))
    (hpre : ∀ q' ∈ pre, Rejects ((V.view q'.2).verifyMacAndDecodeWithKid clock compact v (keyKid q'.1))) :
    (W.view p).verifyMacAndDecode clock compact v =
      (V.view q.2).verifyMacAndDecodeWithKid clock compact v (keyKid q.1) := by
  rw [(mac_obtained H).1]
  exact combine_group_first hs hq hpre

/-- A token that is accepted was accepted by an enabled key, the keys before it refusing. -/
theorem C44_mac_ok (H : Obtained isInst (jwtMacWrapper V W t ci c) r h c kps p) (clock : Int)
    (compact : PyStr) (v : JwtValidator) (a : VerifiedJwt F)
    (ha : (W.view p).verifyMacAndDecode clock compact v = .ok a) :
    ∃ pre q post, groupOrder kps = pre ++ q :: post ∧ q ∈ kps ∧
      (V.view q.2).verifyMacAndDecodeWithKid clock compact v (keyKid q.1) = .ok a ∧
      ∀ q' ∈ pre, Rejects ((V.view q'.2).verifyMacAndDecodeWithKid clock compact v (keyKid q'.1)) := by
  rw [(mac_obtained H).1] at ha
  obtain ⟨pre, q, post, hs, hq, hpre⟩ := combine_group_ok ha
  exact ⟨pre, q, post, hs, (mem_groupOrder H.prop.2).1 (by rw [hs]; simp), hq, hpre⟩

/-- If keys fail only with `TinkError`, a token is accepted exactly if some enabled key accepts it. -/
theorem C44_mac_accepts (H : Obtained isInst (jwtMacWrapper V W t ci c) r h c kps p) (clock : Int)
    (compact : PyStr) (v : JwtValidator)
    (hn : ∀ q ∈ kps, (∃ a, (V.view q.2).verifyMacAndDecodeWithKid clock compact v (keyKid q.1) = .ok a) ∨
      Rejects ((V.view q.2).verifyMacAndDecodeWithKid clock compact v (keyKid q.1))) :
    (∃ a, (W.view p).verifyMacAndDecode clock compact v = .ok a) ↔
      ∃ q ∈ kps, ∃ a, (V.view q.2).verifyMacAndDecodeWithKid clock compact v (keyKid q.1) = .ok a := by
  rw [(mac_obtained H).1]
  exact combine_group_iff H.prop.2 hn

/-- If all keys refuse, the error is `JwtInvalidError` if that is the error of some key, and another
`TinkError` if not. -/
theorem C44_mac_rejects (H : Obtained isInst (jwtMacWrapper V W t ci c) r h c kps p) (clock : Int)
    (compact : PyStr) (v : JwtValidator)
    (hn : ∀ q ∈ kps, Rejects ((V.view q.2).verifyMacAndDecodeWithKid clock compact v (keyKid q.1))) :
    ((∃ q ∈ kps, (V.view q.2).verifyMacAndDecodeWithKid clock compact v (keyKid q.1) =
        .error .jwtInvalidError) →
      (W.view p).verifyMacAndDecode clock compact v = .error .jwtInvalidError) ∧
    ((∀ q ∈ kps, (V.view q.2).verifyMacAndDecodeWithKid clock compact v (keyKid q.1) ≠
        .error .jwtInvalidError) →
      (W.view p).verifyMacAndDecode clock compact v = .error .tinkError) := by
  rw [(mac_obtained H).1]
  exact combine_group_none H.prop.2 hn

end

/-! ## Signatures -/

section
variable {V : View P (JwtPublicKeyVerifyInternal F)} {W : View P (JwtPublicKeyVerify F)}

theorem C44_signature_prefix_types (H : Obtained isInst (jwtVerifyWrapper V W t ci c) r h c kps p) :
    ∀ q ∈ kps, q.1.outputPrefixType = OutputPrefixType.RAW ∨
      q.1.outputPrefixType = OutputPrefixType.TINK := (verify_obtained H).2

theorem C44_sign_prefix_types {V : View P (JwtPublicKeySignInternal F)} {W : View P (JwtPublicKeySign F)}
    (H : Obtained isInst (jwtSignWrapper V W t ci c) r h c kps p) :
    ∀ q ∈ kps, q.1.outputPrefixType = OutputPrefixType.RAW ∨
      q.1.outputPrefixType = OutputPrefixType.TINK := (sign_obtained H).2

theorem C44_signature_first (H : Obtained isInst (jwtVerifyWrapper V W t ci c) r h c kps p) (clock : Int)
    (compact : PyStr) (v : JwtValidator) {pre post : List (Key × P)} {q : Key × P}
    (hs : groupOrder kps = pre ++ q :: post)
    (hq : ¬ Rejects ((V.view q.2).verifyAndDecodeWithKid clock compact v (keyKid q.1)))
    (hpre : ∀ q' ∈ pre, Rejects ((V.view q'.2).verifyAndDecodeWithKid clock compact v (keyKid q'.1))) :
    (W.view p).verifyAndDecode clock compact v =
      (V.view q.2).verifyAndDecodeWithKid clock compact v (keyKid q.1) := by
  rw [(verify_obtained H).1]
  exact combine_group_first (f := fun q =>
    (V.view q.2).verifyAndDecodeWithKid clock compact v (keyKid q.1)) hs hq hpre

theorem C44_signature_ok (H : Obtained isInst (jwtVerifyWrapper V W t ci c) r h c kps p) (clock : Int)
    (compact : PyStr) (v : JwtValidator) (a : VerifiedJwt F)
    (ha : (W.view p).verifyAndDecode clock compact v = .ok a) :
    ∃ pre q post, groupOrder kps = pre ++ q :: post ∧ q ∈ kps ∧
      (V.view q.2).verifyAndDecodeWithKid clock compact v (keyKid q.1) = .ok a ∧
      ∀ q' ∈ pre, Rejects ((V.view q'.2).verifyAndDecodeWithKid clock compact v (keyKid q'.1)) := by
  rw [(verify_obtained H).1] at ha
  obtain ⟨pre, q, post, hs, hq, hpre⟩ := combine_group_ok ha
  exact ⟨pre, q, post, hs, (mem_groupOrder H.prop.2).1 (by rw [hs]; simp), hq, hpre⟩

theorem C44_signature_accepts (H : Obtained isInst (jwtVerifyWrapper V W t ci c) r h c kps p)
    (clock : Int) (compact : PyStr) (v : JwtValidator)
    (hn : ∀ q ∈ kps, (∃ a, (V.view q.2).verifyAndDecodeWithKid clock compact v (keyKid q.1) = .ok a) ∨
      Rejects ((V.view q.2).verifyAndDecodeWithKid clock compact v (keyKid q.1))) :
    (∃ a, (W.view p).verifyAndDecode clock compact v = .ok a) ↔
      ∃ q ∈ kps, ∃ a, (V.view q.2).verifyAndDecodeWithKid clock compact v (keyKid q.1) = .ok a := by
  rw [(verify_obtained H).1]
  exact combine_group_iff H.prop.2 hn

theorem C44_signature_rejects (H : Obtained isInst (jwtVerifyWrapper V W t ci c) r h c kps p)
    (clock : Int) (compact : PyStr) (v : JwtValidator)
    (hn : ∀ q ∈ kps, Rejects ((V.view q.2).verifyAndDecodeWithKid clock compact v (keyKid q.1))) :
    ((∃ q ∈ kps, (V.view q.2).verifyAndDecodeWithKid clock compact v (keyKid q.1) =
        .error .jwtInvalidError) →
      (W.view p).verifyAndDecode clock compact v = .error .jwtInvalidError) ∧
    ((∀ q ∈ kps, (V.view q.2).verifyAndDecodeWithKid clock compact v (keyKid q.1) ≠
        .error .jwtInvalidError) →
      (W.view p).verifyAndDecode clock compact v = .error .tinkError) := by
  rw [(verify_obtained H).1]
  exact combine_group_none H.prop.2 hn

end
end

/-! ## Examples -/

section
open ToyJwt

theorem mac_order : groupOrder (objects macKeyset' .macInternal) =
    [(macKey2, objectOf macKey2 .macInternal)] ++ (macKey1, objectOf macKey1 .macInternal) :: [] := rfl

theorem verify_order : groupOrder (objects verifyKeyset .verifyInternal) =
    [(verifyKey1, objectOf verifyKey1 .verifyInternal)] ++
      (verifyKey2, objectOf verifyKey2 .verifyInternal) :: [] := rfl

theorem mac_refuses (k : Key × Prim) (hk : k ∈ [(macKey2, objectOf macKey2 .macInternal)]) :
    Rejects ((library.macInternal.view k.2).verifyMacAndDecodeWithKid clock macCompact validator
      (keyKid k.1)) := by
  rw [List.mem_singleton] at hk
  subst hk
  exact rejects_iff.1 (by decide +kernel)

theorem verify_refuses (k : Key × Prim) (hk : k ∈ [(verifyKey1, objectOf verifyKey1 .verifyInternal)]) :
    Rejects ((library.verifyInternal.view k.2).verifyAndDecodeWithKid clock signCompact validator
      (keyKid k.1)) := by
  rw [List.mem_singleton] at hk
  subst hk
  exact rejects_iff.1 (by decide +kernel)

example : ∀ q ∈ objects macKeyset' .macInternal, q.1.outputPrefixType = OutputPrefixType.RAW ∨
    q.1.outputPrefixType = OutputPrefixType.TINK := C44_mac_prefix_types macObtained'

/-- The second key accepts, the first refuses. -/
example : (library.mac.view (object macKeyset' .mac)).verifyMacAndDecode clock macCompact validator =
    (library.macInternal.view (objectOf macKey1 .macInternal)).verifyMacAndDecodeWithKid clock macCompact
      validator (keyKid macKey1) :=
  C44_mac_first macObtained' clock macCompact validator mac_order
    (fun h => absurd (rejects_iff.2 h) (by decide +kernel)) mac_refuses

example : (library.verify.view (object verifyKeyset .verify)).verifyAndDecode clock signCompact validator =
    (library.verifyInternal.view (objectOf verifyKey2 .verifyInternal)).verifyAndDecodeWithKid clock
      signCompact validator (keyKid verifyKey2) :=
  C44_signature_first verifyObtained clock signCompact validator verify_order
    (fun h => absurd (rejects_iff.2 h) (by decide +kernel)) verify_refuses

/-- The hypothesis of `C44_mac_ok`. -/
example : ∃ a, (library.mac.view (object macKeyset' .mac)).verifyMacAndDecode clock macCompact validator =
    .ok a := ⟨_, value_ok (d := ⟨⟨none, []⟩⟩) (by decide +kernel)⟩

/-- Of a token that has expired, the error is `JwtInvalidError`, although the first key finds the MAC
wrong. -/
example : (library.mac.view (object macKeyset' .mac)).verifyMacAndDecode 1800000000000000 macCompact
    validator = .error .jwtInvalidError :=
  (C44_mac_rejects macObtained' 1800000000000000 macCompact validator (by
    intro q hq
    refine rejects_iff.1 ?_
    revert q
    exact List.all_eq_true.1 (by decide +kernel))).1
    ⟨(macKey1, objectOf macKey1 .macInternal), .tail _ (.head _), raised_iff.1 (by decide +kernel)⟩

/-- Of a token with another key's MAC, it is not. -/
example : (library.mac.view (object macKeyset' .mac)).verifyMacAndDecode clock signCompact
    validator = .error .tinkError :=
  (C44_mac_rejects macObtained' clock signCompact validator (by
    intro q hq
    refine rejects_iff.1 ?_
    revert q
    exact List.all_eq_true.1 (by decide +kernel))).2 (by
    intro q hq he
    have h : ∀ q ∈ objects macKeyset' .macInternal, raised ((library.macInternal.view
        q.2).verifyMacAndDecodeWithKid clock signCompact validator (keyKid q.1)) ≠
        some .jwtInvalidError := by
      have := List.all_eq_true.1 (show (objects macKeyset' .macInternal).all (fun q => decide (raised
        ((library.macInternal.view q.2).verifyMacAndDecodeWithKid clock signCompact validator
          (keyKid q.1)) ≠ some .jwtInvalidError)) = true by decide +kernel)
      intro q hq
      simpa using this q hq
    exact h q hq (raised_iff.2 he))

/-- An exception that is not a `TinkError` ends verification: the header is a list, whose `get` raises
`AttributeError`. -/
def listHeader : PyStr :=
  let unsigned := base64Encode (by! "[]") ++ 46 :: base64Encode (by! "{}")
  (unsigned ++ 46 :: base64Encode ([3] ++ unsigned)).map UInt8.toNat

theorem C44_other_exceptions_escape : ∃ (ks : Keyset) (p : Prim) (compact : PyStr),
    Obtained isInst (jwtMacWrapper library.macInternal library.mac 2 Cls.macInternal .mac) registry ⟨ks⟩
      .mac (objects ks .macInternal) p ∧
    (library.mac.view p).verifyMacAndDecode clock compact validator = .error .attributeError :=
  ⟨macKeyset', object macKeyset' .mac, listHeader, macObtained', raised_iff.1 (by decide +kernel)⟩

end

end Props
end Tink
