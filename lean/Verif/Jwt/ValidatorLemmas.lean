import Verif.Jwt.RawLemmas

namespace Tink
namespace Jwt
open Spec

variable {F : Type}

theorem shifted_fixed {t : DateTime} (h : FixedOffset t) (delta : Int) :
    shifted t delta = moment t + delta := by
  obtain ⟨c, hc⟩ := h
  unfold shifted moment
  rw [hc]
  simp only [Option.elim_some]
  omega

theorem instant_shifted (t : DateTime) (delta : Int) :
    DateTime.instant { t with wall := t.wall + delta } = shifted t delta := instant_eq _

theorem add_ok {t : DateTime} {delta : Int} (h : Representable t delta) :
    t.add delta = .ok { t with wall := t.wall + delta } := by
  unfold DateTime.add minWall maxWall
  rw [if_pos (show _ ∧ _ from h)]

theorem At.unique {fl : Floats F} {x : JVal F} {m n : Int} (h1 : At fl x m) (h2 : At fl x n) : m = n := by
  cases h1 <;> cases h2 <;> rfl

/-- The time of a valid claim. -/
theorem time_cases {fl : Floats F} (hl : LawfulTimes fl) {t : RawJwt F}
    (hp : ValidPayload fl t.payload) {n : PyStr} (hn : n = py! "exp" ∨ n = py! "nbf" ∨ n = py! "iat")
    {x : JVal F} (hx : PyDict.get? t.payload n = some x) :
    (∃ m, At fl x m ∧ t.time fl n = .ok { wall := m, tz := utc }) ∨
      (x = .float .nan ∧ t.time fl n = .error .valueError) := by
  unfold RawJwt.time RawJwt.claim
  rw [hx]
  simp only
  rcases hp.times n x hn hx with ⟨b, rfl⟩ | ⟨k, rfl, h1, h2⟩ | ⟨y, rfl, ho⟩
  · cases b
    · exact .inl ⟨0, .false, rfl⟩
    · exact .inl ⟨1000000, .true, rfl⟩
  · refine .inl ⟨k * 1000000, .int k, ?_⟩
    unfold maxTimestamp at h2
    unfold toDatetime toDatetime.inYears minWall maxWall
    simp only
    rw [if_pos (by omega)]
  · cases y with
    | nan => exact .inr ⟨rfl, rfl⟩
    | inf => cases ho
    | ninf => cases ho
    | fin y =>
      unfold outOfRange at ho
      simp only [Bool.or_eq_false_iff] at ho
      have h1 := hl.upper y _ ho.1
      have h2 := hl.lower y _ ho.2
      refine .inl ⟨fl.micros y, .float y, ?_⟩
      unfold maxTimestamp at h1
      unfold toDatetime toDatetime.inYears minWall maxWall
      simp only
      rw [if_pos (by omega)]

theorem instant_utc (m : Int) : DateTime.instant { wall := m, tz := utc } = m := by
  unfold DateTime.instant utc
  simp

theorem not_nan_at {fl : Floats F} {m : Int} (h : At fl (.float .nan) m) : False := by cases h

/-- What a check did: it passed and should, or it failed and should. -/
inductive Decided (nan : Prop) (good : Prop) : Py Unit → Prop
  | pass : good → Decided nan good (.ok ())
  | fail : ¬ good → Decided nan good (.error .jwtInvalidError)
  | broke : ¬ good → nan → Decided nan good (.error .valueError)

theorem Decided.ok_iff {nan good : Prop} {m : Py Unit} (h : Decided nan good m) :
    m = .ok () ↔ good := by
  cases h with
  | pass h => exact ⟨fun _ => h, fun _ => rfl⟩
  | fail h => exact ⟨fun h' => (by cases h'), fun h' => absurd h' h⟩
  | broke h => exact ⟨fun h' => (by cases h'), fun h' => absurd h' h⟩

theorem Decided.mono {nan nan' good good' : Prop} {m : Py Unit} (h : Decided nan good m)
    (h1 : nan → nan') (h2 : good ↔ good') : Decided nan' good' m := by
  cases h with
  | pass h => exact .pass (h2.1 h)
  | fail h => exact .fail fun h' => h (h2.2 h')
  | broke h hn => exact .broke (fun h' => h (h2.2 h')) (h1 hn)

theorem Decided.and {nan g1 g2 : Prop} {m k : Py Unit} (h1 : Decided nan g1 m) (h2 : Decided nan g2 k) :
    Decided nan (g1 ∧ g2) (m >>= fun _ => k) := by
  cases h1 with
  | pass a =>
    cases h2 with
    | pass b => exact .pass ⟨a, b⟩
    | fail b => exact .fail fun h => b h.2
    | broke b n => exact .broke (fun h => b h.2) n
  | fail a => exact .fail fun h => a h.1
  | broke a n => exact .broke (fun h => a h.1) n

/-- Some claim is `NaN`. -/
def HasNan (p : List (PyStr × JVal F)) : Prop := ∃ n, PyDict.get? p n = some (.float .nan)

variable {fl : Floats F} (hl : LawfulTimes fl) {v : JwtValidator} {now : DateTime} {t : RawJwt F}
  (hp : ValidPayload fl t.payload)

include hl hp

theorem expiration_decided (hr : Representable now (-v.clockSkew)) :
    Decided (HasNan t.payload)
      ((PyDict.get? t.payload (py! "exp") = none ∧ v.allowMissingExpiration = true) ∨
        ∃ x m, PyDict.get? t.payload (py! "exp") = some x ∧ At fl x m ∧ shifted now (-v.clockSkew) < m)
      (checkExpiration fl v now t) := by
  unfold checkExpiration RawJwt.has
  cases hx : PyDict.get? t.payload (py! "exp") with
  | none =>
    cases ha : v.allowMissingExpiration with
    | true => exact .pass (.inl ⟨rfl, rfl⟩)
    | false => exact .fail (by simp)
  | some x =>
    simp only [Option.isSome_some, if_true]
    rcases time_cases hl hp (.inl rfl) hx with ⟨m, h1, h2⟩ | ⟨rfl, h2⟩
    · rw [h2, add_ok hr]
      show Decided _ _ (if DateTime.instant { wall := m, tz := utc } ≤
          DateTime.instant { now with wall := now.wall + -v.clockSkew }
        then _ else _)
      rw [instant_utc, instant_shifted]
      by_cases hm : m ≤ shifted now (-v.clockSkew)
      · rw [if_pos hm]
        refine .fail ?_
        rintro (⟨h, _⟩ | ⟨y, k, hy, hk, hlt⟩)
        · cases h
        · cases hy; rw [At.unique hk h1] at hlt; omega
      · rw [if_neg hm]
        exact .pass (.inr ⟨x, m, rfl, h1, by omega⟩)
    · rw [h2]
      refine .broke ?_ ⟨_, hx⟩
      rintro (⟨h, _⟩ | ⟨y, k, hy, hk, hlt⟩)
      · cases h
      · cases hy; exact not_nan_at hk

theorem notBefore_decided (hr : Representable now v.clockSkew) :
    Decided (HasNan t.payload)
      (PyDict.get? t.payload (py! "nbf") = none ∨
        ∃ x m, PyDict.get? t.payload (py! "nbf") = some x ∧ At fl x m ∧ m ≤ shifted now v.clockSkew)
      (checkNotBefore fl v now t) := by
  unfold checkNotBefore RawJwt.has
  cases hx : PyDict.get? t.payload (py! "nbf") with
  | none => exact .pass (.inl rfl)
  | some x =>
    simp only [Option.isSome_some, if_true]
    rcases time_cases hl hp (.inr (.inl rfl)) hx with ⟨m, h1, h2⟩ | ⟨rfl, h2⟩
    · rw [h2, add_ok hr]
      show Decided _ _ (if DateTime.instant { wall := m, tz := utc } >
          DateTime.instant { now with wall := now.wall + v.clockSkew }
        then _ else _)
      rw [instant_utc, instant_shifted]
      by_cases hm : m > shifted now v.clockSkew
      · rw [if_pos hm]
        refine .fail ?_
        rintro (h | ⟨y, k, hy, hk, hlt⟩)
        · cases h
        · cases hy; rw [At.unique hk h1] at hlt; omega
      · rw [if_neg hm]
        exact .pass (.inr ⟨x, m, rfl, h1, by omega⟩)
    · rw [h2]
      refine .broke ?_ ⟨_, hx⟩
      rintro (h | ⟨y, k, hy, hk, hlt⟩)
      · cases h
      · cases hy; exact not_nan_at hk

theorem issuedAt_decided (hr : Representable now v.clockSkew) :
    Decided (HasNan t.payload)
      (v.expectIssuedInThePast = true →
        ∃ x m, PyDict.get? t.payload (py! "iat") = some x ∧ At fl x m ∧ m ≤ shifted now v.clockSkew)
      (checkIssuedAt fl v now t) := by
  unfold checkIssuedAt RawJwt.has
  cases he : v.expectIssuedInThePast with
  | false => exact .pass (by simp)
  | true =>
    rw [if_pos rfl]
    cases hx : PyDict.get? t.payload (py! "iat") with
    | none => exact .fail (by simp)
    | some x =>
      simp only [Option.isSome_some, if_true]
      rcases time_cases hl hp (.inr (.inr rfl)) hx with ⟨m, h1, h2⟩ | ⟨rfl, h2⟩
      · rw [h2, add_ok hr]
        show Decided _ _ (if DateTime.instant { wall := m, tz := utc } >
          DateTime.instant { now with wall := now.wall + v.clockSkew }
          then _ else _)
        rw [instant_utc, instant_shifted]
        by_cases hm : m > shifted now v.clockSkew
        · rw [if_pos hm]
          refine .fail fun h => ?_
          obtain ⟨y, k, hy, hk, hlt⟩ := h trivial
          cases hy; rw [At.unique hk h1] at hlt; omega
        · rw [if_neg hm]
          exact .pass fun _ => ⟨x, m, rfl, h1, by omega⟩
      · rw [h2]
        refine .broke (fun h => ?_) ⟨_, hx⟩
        obtain ⟨y, k, hy, hk, hlt⟩ := h trivial
        cases hy; exact not_nan_at hk

omit hl hp

theorem isText_iff (x : JVal F) (s : PyStr) : isText x s = true ↔ x = .str s := by
  cases x <;> simp [isText]

theorem typeHeader_decided (nan : Prop) :
    Decided nan (Agrees v.expectedTypeHeader v.ignoreTypeHeader t.typeHeader) (checkTypeHeader v t) := by
  unfold checkTypeHeader Agrees RawJwt.hasTypeHeader
  cases he : v.expectedTypeHeader with
  | some e =>
    cases ht : t.typeHeader with
    | none => exact .fail (by simp)
    | some h =>
      simp only
      by_cases hh : isText h e = true
      · rw [if_pos hh]
        exact .pass (.inl ⟨e, rfl, by rw [(isText_iff h e).1 hh]⟩)
      · rw [if_neg hh]
        refine .fail ?_
        rintro (⟨e', h1, h2⟩ | ⟨h1, _⟩)
        · cases h1; cases h2; exact hh ((isText_iff _ _).2 rfl)
        · cases h1
  | none =>
    cases ht : t.typeHeader with
    | none => exact .pass (.inr ⟨rfl, .inl rfl⟩)
    | some h =>
      cases hi : v.ignoreTypeHeader with
      | true => exact .pass (.inr ⟨rfl, .inr rfl⟩)
      | false => exact .fail (by simp)

theorem issuer_decided (nan : Prop) :
    Decided nan (Agrees v.expectedIssuer v.ignoreIssuer (PyDict.get? t.payload (py! "iss")))
      (checkIssuer v t) := by
  unfold checkIssuer Agrees RawJwt.has RawJwt.claim
  cases he : v.expectedIssuer with
  | some e =>
    cases ht : PyDict.get? t.payload (py! "iss") with
    | none => exact .fail (by simp)
    | some h =>
      simp only
      by_cases hh : isText h e = true
      · rw [if_pos hh]
        exact .pass (.inl ⟨e, rfl, by rw [(isText_iff h e).1 hh]⟩)
      · rw [if_neg hh]
        refine .fail ?_
        rintro (⟨e', h1, h2⟩ | ⟨h1, _⟩)
        · cases h1; cases h2; exact hh ((isText_iff _ _).2 rfl)
        · cases h1
  | none =>
    cases ht : PyDict.get? t.payload (py! "iss") with
    | none => exact .pass (.inr ⟨rfl, .inl rfl⟩)
    | some h =>
      cases hi : v.ignoreIssuer with
      | true => exact .pass (.inr ⟨rfl, .inr rfl⟩)
      | false => exact .fail (by simp)

theorem audience_decided (hp : ValidPayload fl t.payload) (nan : Prop) :
    Decided nan
      ((∃ e, v.expectedAudience = some e ∧ Contains (PyDict.get? t.payload (py! "aud")) e) ∨
        (v.expectedAudience = none ∧
          (PyDict.get? t.payload (py! "aud") = none ∨ v.ignoreAudiences = true)))
      (checkAudience v t) := by
  unfold checkAudience RawJwt.has RawJwt.audiences RawJwt.claim
  cases he : v.expectedAudience with
  | some e =>
    cases ht : PyDict.get? t.payload (py! "aud") with
    | none =>
      refine .fail ?_
      rintro (⟨_, _, h | ⟨_, h, _⟩⟩ | ⟨h, _⟩) <;> cases h
    | some h =>
      simp only [Option.isSome_some, if_true]
      rcases hp.aud h ht with ⟨s, rfl⟩ | ⟨l, rfl, _, _⟩
      · simp only [List.any_cons, List.any_nil, Bool.or_false]
        by_cases hh : isText (.str s : JVal F) e = true
        · rw [if_pos hh]
          exact .pass (.inl ⟨e, rfl, .inl (by rw [(isText_iff _ e).1 hh])⟩)
        · rw [if_neg hh]
          refine .fail ?_
          rintro (⟨e', h1, h2 | ⟨_, h2, _⟩⟩ | ⟨h1, _⟩)
          · cases h1; cases h2; exact hh ((isText_iff _ _).2 rfl)
          · cases h2
          · cases h1
      · simp only
        by_cases hh : (l.any fun x => isText x e) = true
        · rw [if_pos hh]
          obtain ⟨x, hx, hxe⟩ := List.any_eq_true.1 hh
          exact .pass (.inl ⟨e, rfl, .inr ⟨l, rfl, by rw [← (isText_iff x e).1 hxe]; exact hx⟩⟩)
        · rw [if_neg hh]
          refine .fail ?_
          rintro (⟨e', h1, h2 | ⟨l', h2, h3⟩⟩ | ⟨h1, _⟩)
          · cases h2
          · cases h1; cases h2
            exact hh (List.any_eq_true.2 ⟨_, h3, (isText_iff _ _).2 rfl⟩)
          · cases h1
  | none =>
    cases ht : PyDict.get? t.payload (py! "aud") with
    | none => exact .pass (.inr ⟨rfl, .inl rfl⟩)
    | some h =>
      cases hi : v.ignoreAudiences with
      | true => exact .pass (.inr ⟨rfl, .inr rfl⟩)
      | false => exact .fail (by simp)

include hl hp

theorem validate_decided {clock : Int} (h1 : Representable (v.now clock) (-v.clockSkew))
    (h2 : Representable (v.now clock) v.clockSkew) :
    Decided (HasNan t.payload)
      (Accepted fl v (shifted (v.now clock) (-v.clockSkew)) (shifted (v.now clock) v.clockSkew)
        t.typeHeader t.payload) (validate fl clock v t) := by
  have h := (expiration_decided hl hp h1).and ((notBefore_decided hl hp h2).and
    ((issuedAt_decided hl hp h2).and ((typeHeader_decided (v := v) (t := t) _).and
      ((issuer_decided (v := v) (t := t) _).and (audience_decided (v := v) hp _)))))
  unfold validate
  refine h.mono id ?_
  constructor
  · rintro ⟨a, b, c, d, e, f⟩; exact ⟨a, b, c, d, e, f⟩
  · rintro ⟨a, b, c, d, e, f⟩; exact ⟨a, b, c, d, e, f⟩

end Jwt
end Tink
