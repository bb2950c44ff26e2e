import Verif.Jwt.CodecLemmas
import Verif.Jwt.RawLemmas
import Verif.Spec.JwtKeys
import Verif.Wrap.AllLemmas

/-!
# Lemmas about JWT keys and keysets of them
-/

namespace Tink
namespace Jwt
open Spec Json JsonUtil

variable {F P C : Type}

/-! ## The loop over the keys -/

/-- What the loop makes of the outcomes. -/
def combine {α : Type} : Bool → List (Py α) → Py α
  | b, [] => if b then .error .jwtInvalidError else .error .tinkError
  | _, .ok a :: _ => .ok a
  | b, .error e :: xs =>
    if e.isTink then combine (b || decide (e = .jwtInvalidError)) xs else .error e

theorem verifyEntries_eq {A α : Type} (f : A → Option PyStr → Py α) (b : Bool) (es : List (Entry A)) :
    verifyEntries f b es =
      combine b (es.map fun e => getKid e.keyId.toNat e.outputPrefixType >>= f e.primitive) := by
  induction es generalizing b with
  | nil => rfl
  | cons e es ih =>
    simp only [List.map_cons]
    unfold verifyEntries
    cases h : getKid e.keyId.toNat e.outputPrefixType >>= f e.primitive with
    | ok a => rfl
    | error x =>
      simp only [combine]
      rw [ih]

theorem combine_skip {α : Type} {pre xs : List (Py α)} (h : ∀ x ∈ pre, Rejects x) (b : Bool) :
    ∃ b', combine b (pre ++ xs) = combine b' xs ∧
      (b' = true ↔ b = true ∨ .error .jwtInvalidError ∈ pre) := by
  induction pre generalizing b with
  | nil => exact ⟨b, rfl, by simp⟩
  | cons x pre ih =>
    obtain ⟨e, rfl, he⟩ := h x (by simp)
    obtain ⟨b', h1, h2⟩ := ih (fun x hx => h x (by simp [hx])) (b || decide (e = .jwtInvalidError))
    refine ⟨b', ?_, h2.trans ?_⟩
    · rw [← h1]
      simp only [List.cons_append, combine, he, if_true]
    · simp only [Bool.or_eq_true, decide_eq_true_eq, List.mem_cons, Except.error.injEq]
      constructor
      · rintro ((h | h) | h)
        · exact .inl h
        · exact .inr (.inl h.symm)
        · exact .inr (.inr h)
      · rintro (h | h | h)
        · exact .inl (.inl h)
        · exact .inl (.inr h.symm)
        · exact .inr h

theorem combine_first {α : Type} {pre post : List (Py α)} (h : ∀ x ∈ pre, Rejects x) (b : Bool)
    {y : Py α} (hy : ¬ Rejects y) : combine b (pre ++ y :: post) = y := by
  obtain ⟨b', h1, _⟩ := combine_skip (xs := y :: post) h b
  rw [h1]
  cases y with
  | ok a => rfl
  | error e =>
    simp only [combine]
    rw [if_neg]
    intro he
    exact hy ⟨e, rfl, he⟩

theorem combine_none {α : Type} {xs : List (Py α)} (h : ∀ x ∈ xs, Rejects x) :
    (.error .jwtInvalidError ∈ xs → combine false xs = .error .jwtInvalidError) ∧
    (.error .jwtInvalidError ∉ xs → combine false xs = .error .tinkError) := by
  obtain ⟨b', h1, h2⟩ := combine_skip (xs := []) h false
  rw [List.append_nil] at h1
  rw [h1]
  simp only [Bool.false_eq_true, false_or] at h2
  constructor
  · intro hm; rw [h2.2 hm]; rfl
  · intro hm
    cases b' with
    | true => exact absurd (h2.1 rfl) hm
    | false => rfl

/-- Either all refuse, or there is a first that does not. -/
theorem first_or_none {α : Type} (xs : List (Py α)) : (∀ x ∈ xs, Rejects x) ∨
    ∃ pre y post, xs = pre ++ y :: post ∧ (∀ x ∈ pre, Rejects x) ∧ ¬ Rejects y := by
  induction xs with
  | nil => left; simp
  | cons x xs ih =>
    by_cases hx : Rejects x
    · rcases ih with h | ⟨pre, y, post, rfl, h1, h2⟩
      · left
        intro z hz
        rcases List.mem_cons.1 hz with rfl | hz
        · exact hx
        · exact h z hz
      · right
        refine ⟨x :: pre, y, post, rfl, ?_, h2⟩
        intro z hz
        rcases List.mem_cons.1 hz with rfl | hz
        · exact hx
        · exact h1 z hz
    · right; exact ⟨[], x, xs, rfl, by simp, hx⟩

theorem getKid_key {k : Key} (h : k.outputPrefixType = OutputPrefixType.RAW ∨
    k.outputPrefixType = OutputPrefixType.TINK) :
    getKid k.keyId.toNat k.outputPrefixType = .ok (keyKid k) := by
  unfold keyKid
  rcases h with h | h
  · rw [h]; rfl
  · rw [h, if_pos rfl]
    unfold getKid
    have := k.keyId.toNat_lt
    rw [if_neg (by decide), if_pos rfl, if_neg (by omega), if_neg (by omega), Int.toNat_natCast,
      utf8Decode_ascii _ fun c hc => UrlChar.ascii ((encode_spec _).1 c hc)]

/-! ## The keys of a keyset -/

theorem validate_iff {A : Type} (f : P → A) (c : C) (pid : UInt32) (kps : List (Key × P)) :
    validatePrimitiveSet ((psetOf c pid kps).map f) = .ok () ↔ ∀ q ∈ kps,
      q.1.outputPrefixType = OutputPrefixType.RAW ∨ q.1.outputPrefixType = OutputPrefixType.TINK := by
  unfold validatePrimitiveSet
  rw [forM_ok_iff]
  simp only [forM_ok_iff]
  have key : (∀ es ∈ ((psetOf c pid kps).map f).all, ∀ e ∈ es,
      (if e.outputPrefixType ≠ OutputPrefixType.RAW ∧ e.outputPrefixType ≠ OutputPrefixType.TINK then
        (.error .tinkError : Py Unit) else .ok ()) = .ok ()) ↔
      ∀ e ∈ (psetOf c pid kps).all.flatten,
        e.outputPrefixType = OutputPrefixType.RAW ∨ e.outputPrefixType = OutputPrefixType.TINK := by
    rw [all_map]
    simp only [List.mem_map, List.mem_flatten]
    constructor
    · rintro h e ⟨es, hes, he⟩
      have := h _ ⟨es, hes, rfl⟩ (Entry.map f e) (List.mem_map.2 ⟨e, he, rfl⟩)
      by_cases h1 : e.outputPrefixType = OutputPrefixType.RAW
      · exact .inl h1
      · by_cases h2 : e.outputPrefixType = OutputPrefixType.TINK
        · exact .inr h2
        · rw [if_pos ⟨h1, h2⟩] at this; cases this
    · rintro h es ⟨es', hes, rfl⟩ e he
      obtain ⟨e', he', rfl⟩ := List.mem_map.1 he
      rw [if_neg]
      rintro ⟨h1, h2⟩
      rcases h e' ⟨es', hes, he'⟩ with h | h
      · exact h1 h
      · exact h2 h
  rw [key]
  constructor
  · intro h q hq
    exact h (entryOf q) ((psetOf_all_mem c pid kps _).2 (List.mem_map.2 ⟨q, hq, rfl⟩))
  · intro h e he
    obtain ⟨q, hq, rfl⟩ := List.mem_map.1 ((psetOf_all_mem c pid kps _).1 he)
    exact h q hq

theorem validate_error {A : Type} (f : P → A) (c : C) (pid : UInt32) (kps : List (Key × P)) (e : Exc)
    (h : validatePrimitiveSet ((psetOf c pid kps).map f) = .error e) : e = .tinkError := by
  have forM_error : ∀ {α : Type} (g : α → Py Unit) (l : List α) (e : Exc), l.forM g = .error e →
      ∃ a ∈ l, g a = .error e := by
    intro α g l e
    induction l with
    | nil => intro h; cases h
    | cons a l ih =>
      intro h
      replace h : (g a >>= fun _ => l.forM g) = .error e := h
      cases ha : g a with
      | error x => rw [ha] at h; cases h; exact ⟨a, by simp, ha⟩
      | ok u =>
        rw [ha] at h
        obtain ⟨b, hb, h'⟩ := ih h
        exact ⟨b, by simp [hb], h'⟩
  unfold validatePrimitiveSet at h
  obtain ⟨es, _, h⟩ := forM_error _ _ _ h
  obtain ⟨x, _, h⟩ := forM_error _ _ _ h
  split at h
  · cases h; rfl
  · cases h

/-- The loop over the keys of a keyset. -/
theorem verify_psetOf {A α : Type} (view : P → A) (f : A → Option PyStr → Py α) (c : C) (pid : UInt32)
    (kps : List (Key × P)) (hk : ∀ q ∈ kps, ∃ id, outputPrefix q.1 = .ok id)
    (hp : ∀ q ∈ kps, q.1.outputPrefixType = OutputPrefixType.RAW ∨
      q.1.outputPrefixType = OutputPrefixType.TINK) :
    verifyEntries f false ((psetOf c pid kps).map view).all.flatten =
      combine false ((groupOrder kps).map fun q => f (view q.2) (keyKid q.1)) := by
  have hall : ((psetOf c pid kps).map view).all.flatten =
      (groupOrder kps).map fun q => Entry.map view (entryOf q) := by
    rw [all_map, ← List.map_flatten, all_psetOf c pid kps hk, List.map_map]
    rfl
  rw [verifyEntries_eq, hall, List.map_map]
  refine congrArg (combine false) (List.map_congr_left ?_)
  intro q hq
  show (getKid q.1.keyId.toNat q.1.outputPrefixType >>= f (view q.2)) = _
  rw [getKid_key (hp q ((mem_groupOrder hk).1 hq))]
  rfl

section
variable [DecidableEq C] {isInst : P → C → Bool} {r : Registry P C} {h : KeysetHandle}
  {kps : List (Key × P)} {p : P} {t : Nat} {ci c : C}

/-- What a `JwtMac` of a keyset does. -/
theorem mac_obtained {V : View P (JwtMacInternal F)} {W : View P (JwtMac F)}
    (H : Obtained isInst (jwtMacWrapper V W t ci c) r h c kps p) :
    W.view p = { computeMacAndEncode := WrappedJwtMac.computeMacAndEncode
                   ((psetOf ci h.keyset.primaryKeyId kps).map V.view)
                 verifyMacAndDecode := fun clock compact v =>
                   combine false ((groupOrder kps).map fun q =>
                     (V.view q.2).verifyMacAndDecodeWithKid clock compact v (keyKid q.1)) } ∧
    (∀ q ∈ kps, q.1.outputPrefixType = OutputPrefixType.RAW ∨
      q.1.outputPrefixType = OutputPrefixType.TINK) := by
  obtain ⟨hw, hk⟩ := H.prop
  obtain ⟨o, ho, hw⟩ := bind_ok hw
  cases hw
  unfold WrappedJwtMac.wrap at ho
  obtain ⟨_, hv, ho⟩ := bind_ok ho
  cases ho
  have hp := (validate_iff V.view ci h.keyset.primaryKeyId kps).1 hv
  refine ⟨?_, hp⟩
  rw [W.view_inj]
  congr 1
  funext clock compact v
  unfold WrappedJwtMac.verifyMacAndDecode
  exact verify_psetOf V.view (fun p kid => p.verifyMacAndDecodeWithKid clock compact v kid) _ _ _ hk hp

theorem verify_obtained {V : View P (JwtPublicKeyVerifyInternal F)} {W : View P (JwtPublicKeyVerify F)}
    (H : Obtained isInst (jwtVerifyWrapper V W t ci c) r h c kps p) :
    (∀ clock compact v, (W.view p).verifyAndDecode clock compact v =
      combine false ((groupOrder kps).map fun q =>
        (V.view q.2).verifyAndDecodeWithKid clock compact v (keyKid q.1))) ∧
    (∀ q ∈ kps, q.1.outputPrefixType = OutputPrefixType.RAW ∨
      q.1.outputPrefixType = OutputPrefixType.TINK) := by
  obtain ⟨hw, hk⟩ := H.prop
  obtain ⟨o, ho, hw⟩ := bind_ok hw
  cases hw
  unfold WrappedJwtPublicKeyVerify.wrap at ho
  obtain ⟨_, hv, ho⟩ := bind_ok ho
  cases ho
  have hp := (validate_iff V.view ci h.keyset.primaryKeyId kps).1 hv
  refine ⟨?_, hp⟩
  intro clock compact v
  rw [W.view_inj]
  exact verify_psetOf V.view (fun p kid => p.verifyAndDecodeWithKid clock compact v kid) _ _ _ hk hp

theorem sign_obtained {V : View P (JwtPublicKeySignInternal F)} {W : View P (JwtPublicKeySign F)}
    (H : Obtained isInst (jwtSignWrapper V W t ci c) r h c kps p) :
    (∀ seed x, (W.view p).signAndEncode seed x = WrappedJwtPublicKeySign.signAndEncode
      ((psetOf ci h.keyset.primaryKeyId kps).map V.view) seed x) ∧
    (∀ q ∈ kps, q.1.outputPrefixType = OutputPrefixType.RAW ∨
      q.1.outputPrefixType = OutputPrefixType.TINK) := by
  obtain ⟨hw, hk⟩ := H.prop
  obtain ⟨o, ho, hw⟩ := bind_ok hw
  cases hw
  unfold WrappedJwtPublicKeySign.wrap at ho
  obtain ⟨_, hv, ho⟩ := bind_ok ho
  cases ho
  refine ⟨?_, (validate_iff V.view ci h.keyset.primaryKeyId kps).1 hv⟩
  intro seed x
  rw [W.view_inj]
  rfl

end

end Jwt
end Tink
