import Verif.Jwt.ValidatorLemmas
import Verif.Props.RawJwt

/-!
# C45, C46: validating raw JWTs
-/

namespace Tink
namespace Props
open Jwt Spec

variable {F : Type}

/-- `validate` accepts exactly the tokens to be accepted, between `now - skew` and `now + skew` as Python
computes them.  The token is any that could be constructed. -/
theorem C45_accepts_shown (fl : Floats F) (hl : LawfulTimes fl) (v : JwtValidator) (clock : Int)
    (t : RawJwt F) (h : Option (JVal F)) (p : JVal F) (ht : RawJwt.init fl h p = .ok t)
    (h1 : Representable (v.now clock) (-v.clockSkew)) (h2 : Representable (v.now clock) v.clockSkew) :
    validate fl clock v t = .ok () ↔
      Accepted fl v (shifted (v.now clock) (-v.clockSkew)) (shifted (v.now clock) v.clockSkew)
        t.typeHeader t.payload :=
  (validate_decided hl (init_ok ht).2.2 h1 h2).ok_iff

/-- The same with `now - skew` and `now + skew` themselves, for the clock and for a `fixed_now` in a zone
that is always at the same distance from UTC. -/
theorem C45_accepts (fl : Floats F) (hl : LawfulTimes fl) (v : JwtValidator) (clock : Int)
    (t : RawJwt F) (h : Option (JVal F)) (p : JVal F) (ht : RawJwt.init fl h p = .ok t)
    (h1 : Representable (v.now clock) (-v.clockSkew)) (h2 : Representable (v.now clock) v.clockSkew)
    (hz : FixedOffset (v.now clock)) :
    validate fl clock v t = .ok () ↔
      Accepted fl v (moment (v.now clock) - v.clockSkew) (moment (v.now clock) + v.clockSkew)
        t.typeHeader t.payload := by
  have := C45_accepts_shown fl hl v clock t h p ht h1 h2
  rwa [shifted_fixed hz, shifted_fixed hz] at this

/-- Without `fixed_now` that is the clock. -/
theorem C45_clock (v : JwtValidator) (clock : Int) (h : v.fixedNow = none) :
    FixedOffset (v.now clock) ∧ moment (v.now clock) = clock := by
  unfold JwtValidator.now
  rw [h]
  exact ⟨⟨0, rfl⟩, instant_utc clock⟩

/-- Other tokens are rejected with `JwtInvalidError`, if none of their claims is `NaN`. -/
theorem C45_rejects (fl : Floats F) (hl : LawfulTimes fl) (v : JwtValidator) (clock : Int)
    (t : RawJwt F) (h : Option (JVal F)) (p : JVal F) (ht : RawJwt.init fl h p = .ok t)
    (h1 : Representable (v.now clock) (-v.clockSkew)) (h2 : Representable (v.now clock) v.clockSkew)
    (hn : ∀ n, PyDict.get? t.payload n ≠ some (.float .nan))
    (ha : ¬ Accepted fl v (shifted (v.now clock) (-v.clockSkew)) (shifted (v.now clock) v.clockSkew)
        t.typeHeader t.payload) :
    validate fl clock v t = .error .jwtInvalidError := by
  generalize hm : validate fl clock v t = m
  have hd := validate_decided hl (init_ok ht).2.2 h1 h2
  rw [hm] at hd
  cases hd with
  | pass h => exact absurd h ha
  | fail _ => rfl
  | broke _ hx => obtain ⟨n, hx⟩ := hx; exact absurd hx (hn n)

/-- Which arguments `new_validator` refuses, with `ValueError`; it keeps the others. -/
theorem C45_new_validator (a : ValidatorArgs) :
    (newValidator a = .error .valueError ∧
      ((truthy a.expectedTypeHeader = true ∧ a.ignoreTypeHeader = true) ∨
        (truthy a.expectedIssuer = true ∧ a.ignoreIssuer = true) ∨
        (truthy a.expectedAudience = true ∧ a.ignoreAudiences = true) ∨
        (∃ s, a.clockSkew = some s ∧ s > 600000000) ∨ ∃ t, a.fixedNow = some t ∧ t.tz = none)) ∨
    (∃ v, newValidator a = .ok v ∧ v.expectedTypeHeader = a.expectedTypeHeader ∧
      v.expectedIssuer = a.expectedIssuer ∧ v.expectedAudience = a.expectedAudience ∧
      v.ignoreTypeHeader = a.ignoreTypeHeader ∧ v.ignoreIssuer = a.ignoreIssuer ∧
      v.ignoreAudiences = a.ignoreAudiences ∧ v.allowMissingExpiration = a.allowMissingExpiration ∧
      v.expectIssuedInThePast = a.expectIssuedInThePast ∧ v.clockSkew = a.clockSkew.getD 0 ∧
      v.fixedNow = a.fixedNow ∧ v.clockSkew ≤ 600000000 ∧ (∀ t, v.fixedNow = some t → t.tz ≠ none) ∧
      ¬ (truthy a.expectedTypeHeader = true ∧ a.ignoreTypeHeader = true) ∧
      ¬ (truthy a.expectedIssuer = true ∧ a.ignoreIssuer = true) ∧
      ¬ (truthy a.expectedAudience = true ∧ a.ignoreAudiences = true)) := by
  unfold newValidator
  by_cases h1 : (truthy a.expectedTypeHeader && a.ignoreTypeHeader) = true
  · rw [if_pos h1]
    rw [Bool.and_eq_true] at h1
    exact .inl ⟨rfl, .inl h1⟩
  rw [if_neg h1]
  by_cases h2 : (truthy a.expectedIssuer && a.ignoreIssuer) = true
  · rw [if_pos h2]
    rw [Bool.and_eq_true] at h2
    exact .inl ⟨rfl, .inr (.inl h2)⟩
  rw [if_neg h2]
  by_cases h3 : (truthy a.expectedAudience && a.ignoreAudiences) = true
  · rw [if_pos h3]
    rw [Bool.and_eq_true] at h3
    exact .inl ⟨rfl, .inr (.inr (.inl h3))⟩
  rw [if_neg h3]
  rw [Bool.and_eq_true] at h1 h2 h3
  have skew : (checkSkew a.clockSkew = .error .valueError ∧ ∃ s, a.clockSkew = some s ∧ s > 600000000) ∨
      (checkSkew a.clockSkew = .ok (a.clockSkew.getD 0) ∧ a.clockSkew.getD 0 ≤ 600000000) := by
    unfold checkSkew maxClockSkew
    cases a.clockSkew with
    | none => exact .inr ⟨rfl, by simp⟩
    | some s =>
      simp only [Option.getD_some]
      by_cases hs : s ≠ 0 ∧ s > 600000000
      · rw [if_pos hs]; exact .inl ⟨rfl, s, rfl, hs.2⟩
      · rw [if_neg hs]; exact .inr ⟨rfl, by omega⟩
  rcases skew with ⟨hs, hs'⟩ | ⟨hs, hs'⟩
  · rw [hs]; exact .inl ⟨rfl, .inr (.inr (.inr (.inl hs')))⟩
  · rw [hs]
    simp only
    cases hf : a.fixedNow with
    | none =>
      exact .inr ⟨_, rfl, rfl, rfl, rfl, rfl, rfl, rfl, rfl, rfl, rfl, rfl, hs', by simp, h1, h2, h3⟩
    | some t =>
      cases hz : t.tz with
      | none =>
        refine .inl ⟨?_, .inr (.inr (.inr (.inr ⟨t, rfl, hz⟩)))⟩
        simp [naive, hz]
      | some z =>
        simp only [naive, hz, Option.isNone_some, Bool.false_eq_true, if_false]
        refine .inr ⟨_, rfl, rfl, rfl, rfl, rfl, rfl, rfl, rfl, rfl, rfl, rfl, hs', ?_, h1, h2, h3⟩
        rintro t' ⟨⟩
        rw [hz]; simp

/-! ## What is not so -/

/-- A validator that asks for nothing but an expiration. -/
def plain (skew : Int) (now : Option DateTime) : JwtValidator :=
  { expectedTypeHeader := none, expectedIssuer := none, expectedAudience := none,
    ignoreTypeHeader := false, ignoreIssuer := false, ignoreAudiences := false,
    allowMissingExpiration := false, expectIssuedInThePast := false, clockSkew := skew, fixedNow := now }

/-- A token whose expiration is `NaN` can be constructed, and makes `validate` raise `ValueError`. -/
theorem C45_nan_violated : ∃ t : RawJwt Int,
    RawJwt.init ToyJson.floats none (.dict [(py! "exp", .float .nan)]) = .ok t ∧
      validate ToyJson.floats 1700000000000000 (plain 0 none) t = .error .valueError :=
  ⟨_, rfl, rfl⟩

/-- So does a `fixed_now` less than the clock skew after the beginning of the year 1, with
`OverflowError`. -/
theorem C45_overflow_violated : ∃ (t : RawJwt Int) (v : JwtValidator),
    RawJwt.init ToyJson.floats none (.dict [(py! "exp", .int 0)]) = .ok t ∧
      newValidator { clockSkew := some 60000000,
                     fixedNow := some { wall := -62135596799000000, tz := utc } } = .ok v ∧
      validate ToyJson.floats 0 v t = .error .overflowError :=
  ⟨_, _, rfl, rfl, rfl⟩

/-- A zone in which clocks go forward: until 03:00 of the first day one hour ahead of UTC, from then on
two hours. -/
def springForward : Int → Int := fun w => if w < 10800000000 then 3600000000 else 7200000000

/-- Ten minutes of clock skew. -/
def dstValidator (wall : Int) : JwtValidator :=
  plain 600000000 (some { wall := wall, tz := some springForward })

/-- The token that expires at 01:00 UTC. -/
def dstToken : RawJwt Int := { typeHeader := none, payload := [(py! "exp", .int 3600)] }

/-- With such a zone the skew is off by the change of the clock: at 03:00 in that zone, which is 01:00
UTC, a token that expired at 01:00 UTC is rejected although the skew is ten minutes, because 03:00 minus
ten minutes is 02:50, which is 01:50 UTC. -/
theorem C45_zone_violated :
    RawJwt.init ToyJson.floats none (.dict dstToken.payload) = .ok dstToken ∧
    validate ToyJson.floats 0 (dstValidator 10800000000) dstToken = .error .jwtInvalidError ∧
      moment ((dstValidator 10800000000).now 0) = 3600000000 ∧
      ¬ (∀ m, At ToyJson.floats (.int 3600) m →
        m ≤ moment ((dstValidator 10800000000).now 0) - (dstValidator 10800000000).clockSkew) := by
  refine ⟨rfl, rfl, rfl, fun h => ?_⟩
  have := h _ (.int 3600)
  revert this
  decide

/-! ## Time passing -/

/-- A token that expired, seen from one time, is rejected from every later time with a validator with
the same settings. -/
theorem C46_stays_expired (fl : Floats F) (hl : LawfulTimes fl) (v w : JwtValidator)
    (hw : w = { v with fixedNow := w.fixedNow }) (c d : Int) (t : RawJwt F) (h : Option (JVal F))
    (p : JVal F) (ht : RawJwt.init fl h p = .ok t)
    (hzw : FixedOffset (w.now d))
    (h1 : Representable (w.now d) (-w.clockSkew)) (h2 : Representable (w.now d) w.clockSkew)
    (hle : moment (v.now c) ≤ moment (w.now d))
    (he : ∃ x m, PyDict.get? t.payload (py! "exp") = some x ∧ At fl x m ∧
      m ≤ moment (v.now c) - v.clockSkew) :
    validate fl d w t ≠ .ok () := by
  intro hok
  have ha := (C45_accepts fl hl w d t h p ht h1 h2 hzw).1 hok
  have hs : w.clockSkew = v.clockSkew := by rw [hw]
  obtain ⟨x, m, hx, hm, hlt⟩ := he
  rcases ha.expiration with ⟨h3, _⟩ | ⟨y, k, hy, hk, hlt'⟩
  · rw [hx] at h3; cases h3
  · rw [hx] at hy; cases hy
    rw [At.unique hk hm, hs] at hlt'
    omega

/-- The times at which a token is accepted have no gaps: accepted at a time, and rejected at a later
one, it is rejected at all times after that. -/
theorem C46_no_return (fl : Floats F) (hl : LawfulTimes fl) (u v w : JwtValidator)
    (hv : v = { u with fixedNow := v.fixedNow }) (hw : w = { u with fixedNow := w.fixedNow })
    (b c d : Int) (t : RawJwt F) (h : Option (JVal F)) (p : JVal F) (ht : RawJwt.init fl h p = .ok t)
    (hzu : FixedOffset (u.now b)) (hzv : FixedOffset (v.now c)) (hzw : FixedOffset (w.now d))
    (hru : Representable (u.now b) (-u.clockSkew) ∧ Representable (u.now b) u.clockSkew)
    (hrv : Representable (v.now c) (-v.clockSkew) ∧ Representable (v.now c) v.clockSkew)
    (hrw : Representable (w.now d) (-w.clockSkew) ∧ Representable (w.now d) w.clockSkew)
    (h1 : moment (u.now b) ≤ moment (v.now c)) (h2 : moment (v.now c) ≤ moment (w.now d))
    (ha : validate fl b u t = .ok ()) (hr : validate fl c v t ≠ .ok ()) :
    validate fl d w t ≠ .ok () := by
  intro hd
  have A := (C45_accepts fl hl u b t h p ht hru.1 hru.2 hzu).1 ha
  have D := (C45_accepts fl hl w d t h p ht hrw.1 hrw.2 hzw).1 hd
  refine hr ((C45_accepts fl hl v c t h p ht hrv.1 hrv.2 hzv).2 ?_)
  have sv : v.clockSkew = u.clockSkew := by rw [hv]
  have sw : w.clockSkew = u.clockSkew := by rw [hw]
  rw [sw] at D
  rw [sv]
  obtain ⟨a1, a2, a3, a4, a5, a6⟩ := A
  have e1 : v.expectIssuedInThePast = u.expectIssuedInThePast := by rw [hv]
  have e2 : v.expectedTypeHeader = u.expectedTypeHeader ∧ v.ignoreTypeHeader = u.ignoreTypeHeader ∧
      v.expectedIssuer = u.expectedIssuer ∧ v.ignoreIssuer = u.ignoreIssuer ∧
      v.expectedAudience = u.expectedAudience ∧ v.ignoreAudiences = u.ignoreAudiences ∧
      v.allowMissingExpiration = u.allowMissingExpiration ∧
      w.allowMissingExpiration = u.allowMissingExpiration := by
    rw [hv, hw]; exact ⟨rfl, rfl, rfl, rfl, rfl, rfl, rfl, rfl⟩
  obtain ⟨f1, f2, f3, f4, f5, f6, f7, f8⟩ := e2
  refine ⟨?_, ?_, ?_, by rw [f1, f2]; exact a4, by rw [f3, f4]; exact a5, by rw [f5, f6]; exact a6⟩
  · rcases D.expiration with ⟨h3, h4⟩ | ⟨y, k, hy, hk, hlt⟩
    · exact .inl ⟨h3, by rw [f7, ← f8]; exact h4⟩
    · exact .inr ⟨y, k, hy, hk, by omega⟩
  · rcases a2 with h3 | ⟨y, k, hy, hk, hlt⟩
    · exact .inl h3
    · exact .inr ⟨y, k, hy, hk, by omega⟩
  · intro he
    obtain ⟨y, k, hy, hk, hlt⟩ := a3 (by rw [← e1]; exact he)
    exact ⟨y, k, hy, hk, by omega⟩

/-- Once a token may be used, it may be used until it expires: if nothing but the time of expiration has
changed to the worse, `nbf` and `iat` cannot make it rejected any more. -/
theorem C46_stays_valid (fl : Floats F) (hl : LawfulTimes fl) (v w : JwtValidator)
    (hw : w = { v with fixedNow := w.fixedNow }) (c d : Int) (t : RawJwt F) (h : Option (JVal F))
    (p : JVal F) (ht : RawJwt.init fl h p = .ok t)
    (hzv : FixedOffset (v.now c)) (hzw : FixedOffset (w.now d))
    (hrv : Representable (v.now c) (-v.clockSkew) ∧ Representable (v.now c) v.clockSkew)
    (hrw : Representable (w.now d) (-w.clockSkew) ∧ Representable (w.now d) w.clockSkew)
    (hle : moment (v.now c) ≤ moment (w.now d)) (ha : validate fl c v t = .ok ())
    (he : ∀ x m, PyDict.get? t.payload (py! "exp") = some x → At fl x m →
      moment (w.now d) - w.clockSkew < m) : validate fl d w t = .ok () := by
  have A := (C45_accepts fl hl v c t h p ht hrv.1 hrv.2 hzv).1 ha
  refine (C45_accepts fl hl w d t h p ht hrw.1 hrw.2 hzw).2 ?_
  obtain ⟨a1, a2, a3, a4, a5, a6⟩ := A
  have sw : w.clockSkew = v.clockSkew := by rw [hw]
  have e2 : w.expectedTypeHeader = v.expectedTypeHeader ∧ w.ignoreTypeHeader = v.ignoreTypeHeader ∧
      w.expectedIssuer = v.expectedIssuer ∧ w.ignoreIssuer = v.ignoreIssuer ∧
      w.expectedAudience = v.expectedAudience ∧ w.ignoreAudiences = v.ignoreAudiences ∧
      w.allowMissingExpiration = v.allowMissingExpiration ∧
      w.expectIssuedInThePast = v.expectIssuedInThePast := by
    rw [hw]; exact ⟨rfl, rfl, rfl, rfl, rfl, rfl, rfl, rfl⟩
  obtain ⟨f1, f2, f3, f4, f5, f6, f7, f8⟩ := e2
  refine ⟨?_, ?_, ?_, by rw [f1, f2]; exact a4, by rw [f3, f4]; exact a5, by rw [f5, f6]; exact a6⟩
  · rcases a1 with ⟨h3, h4⟩ | ⟨y, k, hy, hk, hlt⟩
    · exact .inl ⟨h3, by rw [f7]; exact h4⟩
    · exact .inr ⟨y, k, hy, hk, he y k hy hk⟩
  · rcases a2 with h3 | ⟨y, k, hy, hk, hlt⟩
    · exact .inl h3
    · exact .inr ⟨y, k, hy, hk, by omega⟩
  · intro he'
    obtain ⟨y, k, hy, hk, hlt⟩ := a3 (by rw [← f8]; exact he')
    exact ⟨y, k, hy, hk, by omega⟩

/-- A `fixed_now` in a zone whose distance from UTC changes: a token that expires at 01:20 UTC is
rejected at 01:00 UTC and accepted at 01:10 UTC. -/
theorem C46_zone_violated : ∃ t : RawJwt Int,
    RawJwt.init ToyJson.floats none (.dict [(py! "exp", .int 4800)]) = .ok t ∧
    validate ToyJson.floats 0 (dstValidator 10800000000) t = .error .jwtInvalidError ∧
    validate ToyJson.floats 0 (dstValidator 11400000000) t = .ok () ∧
    moment ((dstValidator 10800000000).now 0) < moment ((dstValidator 11400000000).now 0) :=
  ⟨_, rfl, rfl, rfl, by decide⟩

/-! ## Examples -/

theorem toyTimes : LawfulTimes ToyJson.floats where
  upper x n h := by
    simp only [ToyJson.floats, decide_eq_false_iff_not] at h ⊢
    omega
  lower x n h := by
    simp only [ToyJson.floats, decide_eq_false_iff_not] at h ⊢
    omega

/-- A token with everything is accepted when everything matches, until it expires. -/
def toyValidator (now : Int) : JwtValidator :=
  { expectedTypeHeader := some (py! "JWT"), expectedIssuer := some (py! "me"),
    expectedAudience := some (py! "b"), ignoreTypeHeader := false, ignoreIssuer := false,
    ignoreAudiences := false, allowMissingExpiration := false, expectIssuedInThePast := false,
    clockSkew := 300000000, fixedNow := some { wall := now + 3600000000, tz := some fun _ => 3600000000 } }

example : ∃ t, newRawJwt ToyJson.env toyArgs = .ok t ∧
    validate ToyJson.floats 0 (toyValidator 1700000000000000) t = .ok () ∧
    validate ToyJson.floats 0 (toyValidator 1700000299999999) t = .ok () ∧
    validate ToyJson.floats 0 (toyValidator 1700000300000000) t = .error .jwtInvalidError ∧
    validate ToyJson.floats 0 (toyValidator 1599999700000000) t = .ok () ∧
    validate ToyJson.floats 0 (toyValidator 1599999699999999) t = .error .jwtInvalidError :=
  ⟨_, rfl, rfl, rfl, rfl, rfl, rfl⟩

example : FixedOffset ((toyValidator 1700000000000000).now 0) ∧
    Representable ((toyValidator 1700000000000000).now 0) (-(toyValidator 0).clockSkew) ∧
    Representable ((toyValidator 1700000000000000).now 0) (toyValidator 0).clockSkew :=
  ⟨⟨_, rfl⟩, by unfold Representable; decide, by unfold Representable; decide⟩

end Props
end Tink
