import Verif.Jwt.RawLemmas
import Verif.Examples.ToyJson

/-!
# C47: creating raw JWTs
-/

namespace Tink
namespace Props
open Jwt Json Spec

variable {F : Type}

theorem shows_of_get {t : RawJwt F} {n : PyStr} {o : Option (JVal F)}
    (h : PyDict.get? t.payload n = o) : Shows t n o := by
  cases o with
  | none => exact ⟨by simp [RawJwt.has, h], by simp [RawJwt.claim, h]⟩
  | some v => exact ⟨by simp [RawJwt.has, h], by simp [RawJwt.claim, h]⟩

/-- Registered names keep what they were set to. -/
theorem registered_get {env : JsonEnv F} {a : RawJwtArgs F} {d : List (PyStr × JVal F)}
    (h : addCustomClaims env (timedPayload a) a.customClaims = .ok d) (n : PyStr) (hn : Registered n) :
    PyDict.get? d n = PyDict.get? (timedPayload a) n := by
  refine addCustom_get_other h n fun v hv => ?_
  obtain ⟨s, w, w', e, _, hr, _⟩ := addCustom_names h _ _ hv
  cases e
  exact hr ((registered_iff n).2 hn)

/-- The rule about expiration: exactly one of `expiration` and `without_expiration`. -/
theorem C47_expiration_rule (env : JsonEnv F) (a : RawJwtArgs F)
    (h : (a.expiration = none ∧ a.withoutExpiration = false) ∨
      (a.expiration.isSome = true ∧ a.withoutExpiration = true)) :
    newRawJwt env a = .error .valueError := by
  unfold newRawJwt
  rcases h with ⟨h1, h2⟩ | ⟨h1, h2⟩
  · rw [h1, h2]; rfl
  · rw [h1, h2, if_neg (by cases ha : a.expiration <;> simp [ha] at h1 ⊢), if_pos (by simp)]

theorem valid_of_acceptable {env : JsonEnv F} {a : RawJwtArgs F} (ha : Acceptable a)
    {d : List (PyStr × JVal F)}
    (h : addCustomClaims env (timedPayload a) a.customClaims = .ok d) : ValidPayload env.floats d := by
  obtain ⟨g1, g2, g3, g4, g5, g6, g7⟩ := timedPayload_get a
  have str : ∀ (o : Option PyStr) v, o.map (JVal.str (F := F)) = some v → ∃ s, v = .str s := by
    intro o v ho
    cases o with
    | none => cases ho
    | some s => exact ⟨s, (Option.some.inj ho).symm⟩
  have time : ∀ (o : Option DateTime), (∀ x, some x = o → 0 ≤ intTimestamp x ∧
      intTimestamp x ≤ 253402300799) → ∀ v, o.map (fun x => (.int (intTimestamp x) : JVal F)) = some v →
      (∃ b, v = .bool b) ∨ (∃ k : Int, v = .int k ∧ 0 ≤ k ∧ k ≤ maxTimestamp) ∨
      ∃ x, v = .float x ∧ outOfRange env.floats x = false := by
    intro o hx v ho
    cases o with
    | none => cases ho
    | some x => cases ho; exact .inr (.inl ⟨_, rfl, hx x rfl⟩)
  constructor
  · intro v hv
    rw [registered_get h _ (by simp [Registered]), g1] at hv
    exact str _ _ hv
  · intro v hv
    rw [registered_get h _ (by simp [Registered]), g2] at hv
    exact str _ _ hv
  · intro v hv
    rw [registered_get h _ (by simp [Registered]), g3] at hv
    exact str _ _ hv
  · rintro n v (rfl | rfl | rfl) hv
    · rw [registered_get h _ (by simp [Registered]), g5] at hv
      exact time _ (fun x hx => (ha.times x (.inl hx)).2) v hv
    · rw [registered_get h _ (by simp [Registered]), g6] at hv
      exact time _ (fun x hx => (ha.times x (.inr (.inl hx))).2) v hv
    · rw [registered_get h _ (by simp [Registered]), g7] at hv
      exact time _ (fun x hx => (ha.times x (.inr (.inr hx))).2) v hv
  · intro v hv
    rw [registered_get h _ (by simp [Registered]), g4] at hv
    cases hl : a.audiences with
    | none =>
      rw [hl] at hv
      exact .inl (str a.audience v hv)
    | some l =>
      rw [hl] at hv
      cases hv
      exact .inr ⟨l, rfl, ha.audiences l hl⟩

/-- `new_raw_jwt` accepts exactly the acceptable arguments, if custom claims can be copied. -/
theorem C47_accepts (env : JsonEnv F) (hl : LawfulFloats env.floats) (a : RawJwtArgs F)
    (hc : ∀ n w, (n, ClaimValue.json w) ∈ a.customClaims → Copyable env w) :
    (∃ t, newRawJwt env a = .ok t) ↔ Acceptable a := by
  constructor
  · rintro ⟨t, h⟩
    obtain ⟨⟨h1, h2, h3⟩, hp, _, hv⟩ := newRawJwt_ok h
    obtain ⟨_, _, _, g4, g5, g6, g7⟩ := timedPayload_get a
    refine ⟨h1, h2, ?_, ?_, ?_⟩
    · intro l hl
      have := hv.aud (.list l) (by
        rw [registered_get hp _ (by simp [Registered]), g4, hl]; rfl)
      rcases this with ⟨s, hs⟩ | ⟨l', hs, h4, h5⟩
      · cases hs
      · cases hs; exact ⟨h4, h5⟩
    · intro d hd
      refine ⟨h3 d hd, ?_⟩
      have key : ∀ n, (n = py! "exp" ∨ n = py! "nbf" ∨ n = py! "iat") →
          PyDict.get? t.payload n = some (.int (intTimestamp d)) →
          0 ≤ intTimestamp d ∧ intTimestamp d ≤ 253402300799 := by
        intro n hn hg
        rcases hv.times n _ hn hg with ⟨b, hb⟩ | ⟨k, hk, h4, h5⟩ | ⟨x, hx, _⟩
        · cases hb
        · cases hk; exact ⟨h4, h5⟩
        · cases hx
      rcases hd with hd | hd | hd
      · exact key _ (.inl rfl) (by rw [registered_get hp _ (by simp [Registered]), g5, ← hd]; rfl)
      · exact key _ (.inr (.inl rfl))
          (by rw [registered_get hp _ (by simp [Registered]), g6, ← hd]; rfl)
      · exact key _ (.inr (.inr rfl))
          (by rw [registered_get hp _ (by simp [Registered]), g7, ← hd]; rfl)
    · intro n v hm
      obtain ⟨s, w, w', e1, e2, e3, _⟩ := addCustom_names hp n v hm
      exact ⟨s, w, e1, fun hr => e3 ((registered_iff s).2 hr), e2⟩
  · intro ha
    obtain ⟨d, hd⟩ := addCustom_ok (env := env) (d := timedPayload a) (l := a.customClaims) (by
      intro n v hm
      obtain ⟨s, w, rfl, hr, rfl⟩ := ha.custom n v hm
      exact ⟨s, w, w, rfl, fun h => hr ((registered_iff s).1 h), rfl, storedClaim_ok hl (hc _ w hm)⟩)
    exact ⟨_, newRawJwt_of ⟨ha.expiration, ha.oneAudience, fun x hx => (ha.times x hx).1⟩ hd
      (valid_of_acceptable ha hd)⟩

theorem addCustom_error {env : JsonEnv F} {l : List (ClaimName × ClaimValue F)}
    {d : List (PyStr × JVal F)} {e : Exc} (h : addCustomClaims env d l = .error e)
    (hc : ∀ n w, (n, ClaimValue.json w) ∈ l → ∃ w', storedClaim env w = .ok w') :
    e = .jwtInvalidError := by
  induction l generalizing d with
  | nil => cases h
  | cons p l ih =>
    obtain ⟨n, v⟩ := p
    cases n with
    | other => cases h; rfl
    | str s =>
      unfold addCustomClaims at h
      by_cases hr : s ∈ registeredNames
      · rw [if_pos hr] at h; cases h; rfl
      · rw [if_neg hr] at h
        cases v with
        | other => cases h; rfl
        | json w =>
          obtain ⟨w', hw⟩ := hc _ w (List.mem_cons_self)
          simp only [hw] at h
          exact ih h fun n w hm => hc n w (by simp [hm])

theorem timeClaim_error {o : Option DateTime} {e : Exc} (h : timeClaim (F := F) o = .error e) :
    e = .jwtInvalidError := by
  cases o with
  | none => cases h
  | some d =>
    unfold timeClaim fromDatetime at h
    cases hz : d.tz <;> simp only [hz] at h <;> cases h
    rfl

/-- Other arguments, apart from that rule, are rejected with `JwtInvalidError`: two audiences, an
empty list of audiences or one with something that is no string, times without a zone or out of range,
custom claims with a registered name, a name that is no string, or a value of another type. -/
theorem C47_rejects (env : JsonEnv F) (hl : LawfulFloats env.floats) (a : RawJwtArgs F)
    (hc : ∀ n w, (n, ClaimValue.json w) ∈ a.customClaims → Copyable env w)
    (he : (a.expiration.isSome = true ∧ a.withoutExpiration = false) ∨
      (a.expiration = none ∧ a.withoutExpiration = true)) (ha : ¬ Acceptable a) :
    newRawJwt env a = .error .jwtInvalidError := by
  cases h : newRawJwt env a with
  | ok t => exact absurd ((C47_accepts env hl a hc).1 ⟨t, h⟩) ha
  | error e =>
    obtain ⟨h1, h2⟩ := (opening_tests a).2 he
    unfold newRawJwt at h
    rw [h1, h2, if_neg (by simp), if_neg (by simp)] at h
    split at h
    · cases h; rfl
    · have step : ∀ {α β : Type} {m : Py α} {f : α → Py β} {e : Exc}, (m >>= f) = .error e →
          (m = .error e) ∨ ∃ x, m = .ok x ∧ f x = .error e := by
        intro α β m f e h
        cases m with
        | error e' => cases h; exact .inl rfl
        | ok x => exact .inr ⟨x, rfl, h⟩
      rcases step h with h3 | ⟨_, _, h⟩
      · rw [timeClaim_error h3]
      rcases step h with h3 | ⟨_, _, h⟩
      · rw [timeClaim_error h3]
      rcases step h with h3 | ⟨_, _, h⟩
      · rw [timeClaim_error h3]
      rcases step h with h3 | ⟨p, _, h⟩
      · rw [addCustom_error h3 fun n w hm => ⟨w, storedClaim_ok hl (hc n w hm)⟩]
      · unfold RawJwt.init at h
        simp only at h
        rcases validatePayload_cases env.floats p with ⟨h4, _⟩ | ⟨h4, _⟩
        · rw [h4] at h; cases h
        · rw [h4] at h; cases h; rfl

/-- The getters of a created token return what was given.  An empty issuer or subject counts as
none; times are stored in seconds. -/
theorem C47_getters (env : JsonEnv F) (a : RawJwtArgs F) (t : RawJwt F) (h : newRawJwt env a = .ok t) :
    t.typeHeader = a.typeHeader.map .str ∧
    Shows t (py! "iss") ((unlessEmpty a.issuer).map .str) ∧
    Shows t (py! "sub") ((unlessEmpty a.subject).map .str) ∧
    Shows t (py! "jti") (a.jwtId.map .str) ∧
    Shows t (py! "exp") (a.expiration.map fun d => .int (intTimestamp d)) ∧
    Shows t (py! "nbf") (a.notBefore.map fun d => .int (intTimestamp d)) ∧
    Shows t (py! "iat") (a.issuedAt.map fun d => .int (intTimestamp d)) := by
  obtain ⟨_, hp, ht, hv⟩ := newRawJwt_ok h
  obtain ⟨g1, g2, g3, _, g5, g6, g7⟩ := timedPayload_get a
  refine ⟨ht, ?_, ?_, ?_, ?_, ?_, ?_⟩ <;> apply shows_of_get <;>
    rw [registered_get hp _ (by simp [Registered])] <;> assumption

/-- The audiences are the one given, or those given. -/
theorem C47_audiences (env : JsonEnv F) (a : RawJwtArgs F) (t : RawJwt F)
    (h : newRawJwt env a = .ok t) :
    (∀ s, a.audience = some s → t.has (py! "aud") = true ∧ t.audiences = .ok [.str s]) ∧
    (∀ l, a.audiences = some l → t.has (py! "aud") = true ∧ t.audiences = .ok l) ∧
    (a.audience = none → a.audiences = none →
      t.has (py! "aud") = false ∧ t.audiences = .error .keyError) := by
  obtain ⟨⟨_, h2, _⟩, hp, ht, hv⟩ := newRawJwt_ok h
  obtain ⟨_, _, _, g4, _⟩ := timedPayload_get a
  have g := registered_get hp (py! "aud") (by simp [Registered])
  rw [g4] at g
  refine ⟨?_, ?_, ?_⟩
  · intro s hs
    rw [hs] at g h2
    rw [h2.resolve_left (by simp)] at g
    have g : PyDict.get? t.payload (py! "aud") = some (.str s) := g
    exact ⟨by simp [RawJwt.has, g], by simp [RawJwt.audiences, RawJwt.claim, g]⟩
  · intro l hl
    rw [hl] at g
    have g : PyDict.get? t.payload (py! "aud") = some (.list l) := g
    exact ⟨by simp [RawJwt.has, g], by simp [RawJwt.audiences, RawJwt.claim, g]⟩
  · intro h3 h4
    rw [h3, h4] at g
    have g : PyDict.get? t.payload (py! "aud") = none := g
    exact ⟨by simp [RawJwt.has, g], by simp [RawJwt.audiences, RawJwt.claim, g]⟩

/-- Times come back in UTC, with the precision of `StoredAs`. -/
theorem C47_times (env : JsonEnv F) (a : RawJwtArgs F) (t : RawJwt F) (h : newRawJwt env a = .ok t)
    (n : PyStr) (d : DateTime)
    (hn : (n = py! "exp" ∧ a.expiration = some d) ∨ (n = py! "nbf" ∧ a.notBefore = some d) ∨
      (n = py! "iat" ∧ a.issuedAt = some d)) :
    ∃ s : Int, t.time env.floats n = .ok { wall := s * 1000000, tz := utc } ∧ 0 ≤ s ∧
      s ≤ 253402300799 ∧ StoredAs d s := by
  obtain ⟨_, hp, ht, hv⟩ := newRawJwt_ok h
  obtain ⟨_, _, _, _, g5, g6, g7⟩ := timedPayload_get a
  have key : (n = py! "exp" ∨ n = py! "nbf" ∨ n = py! "iat") →
      PyDict.get? t.payload n = some (.int (intTimestamp d)) →
      ∃ s : Int, t.time env.floats n = .ok { wall := s * 1000000, tz := utc } ∧ 0 ≤ s ∧
        s ≤ 253402300799 ∧ StoredAs d s := by
    intro hn hg
    have hr : 0 ≤ intTimestamp d ∧ intTimestamp d ≤ 253402300799 := by
      rcases hv.times n _ hn hg with ⟨b, hb⟩ | ⟨k, hk, h4, h5⟩ | ⟨x, hx, _⟩
      · cases hb
      · cases hk; exact ⟨h4, h5⟩
      · cases hx
    refine ⟨intTimestamp d, ?_, hr.1, hr.2, storedAs d⟩
    unfold RawJwt.time RawJwt.claim
    rw [hg]
    unfold toDatetime toDatetime.inYears
    simp only
    rw [if_pos]
    unfold minWall maxWall
    omega
  rcases hn with ⟨rfl, hd⟩ | ⟨rfl, hd⟩ | ⟨rfl, hd⟩
  · exact key (.inl rfl) (by rw [registered_get hp _ (by simp [Registered]), g5, hd]; rfl)
  · exact key (.inr (.inl rfl)) (by rw [registered_get hp _ (by simp [Registered]), g6, hd]; rfl)
  · exact key (.inr (.inr rfl)) (by rw [registered_get hp _ (by simp [Registered]), g7, hd]; rfl)

/-- The custom claims of a created token are those given, none of them with a registered name. -/
theorem C47_custom (env : JsonEnv F) (hl : LawfulFloats env.floats) (a : RawJwtArgs F)
    (t : RawJwt F) (h : newRawJwt env a = .ok t) (hn : (a.customClaims.map Prod.fst).Nodup)
    (hc : ∀ n w, (n, ClaimValue.json w) ∈ a.customClaims → Copyable env w) :
    (∀ n, n ∈ t.customClaimNames ↔ ∃ w, (ClaimName.str n, ClaimValue.json w) ∈ a.customClaims) ∧
    (∀ n w, (ClaimName.str n, ClaimValue.json w) ∈ a.customClaims → t.customClaim n = .ok w) ∧
    (∀ n, Registered n → n ∉ t.customClaimNames ∧ t.customClaim n = .error .jwtInvalidError) := by
  obtain ⟨_, hp, _, _⟩ := newRawJwt_ok h
  have reg : ∀ n w, (ClaimName.str n, ClaimValue.json w) ∈ a.customClaims → n ∉ registeredNames := by
    intro n w hm
    obtain ⟨s, _, _, e, _, hr, _⟩ := addCustom_names hp _ _ hm
    cases e; exact hr
  have get : ∀ n w, (ClaimName.str n, ClaimValue.json w) ∈ a.customClaims →
      PyDict.get? t.payload n = some w := by
    intro n w hm
    obtain ⟨w', h1, h2⟩ := addCustom_get hp hn n w hm
    rw [storedClaim_ok hl (hc _ w hm)] at h1
    cases h1; exact h2
  refine ⟨fun n => ?_, fun n w hm => ?_, fun n hr => ⟨?_, ?_⟩⟩
  · unfold RawJwt.customClaimNames
    simp only [List.mem_filter, decide_eq_true_eq]
    constructor
    · rintro ⟨h1, h2⟩
      obtain ⟨p, hp1, rfl⟩ := List.mem_map.1 h1
      rcases addCustom_mem hp p hp1 with h3 | ⟨w, hw, _⟩
      · exact absurd ((registered_iff _).2 (timedPayload_mem a p h3).1) h2
      · exact ⟨w, hw⟩
    · rintro ⟨w, hw⟩
      refine ⟨?_, reg n w hw⟩
      have := get n w hw
      exact (PyDict.get?_isSome_iff _ _).1 (by rw [this]; rfl)
  · unfold RawJwt.customClaim RawJwt.claim
    rw [if_neg (reg n w hm), get n w hm]
  · unfold RawJwt.customClaimNames
    simp only [List.mem_filter, decide_eq_true_eq, not_and, Decidable.not_not]
    exact fun _ => (registered_iff n).2 hr
  · unfold RawJwt.customClaim
    rw [if_pos ((registered_iff n).2 hr)]

/-- Times are rounded towards 1970, so that half a second before 1970 is accepted, as 1970. -/
theorem C47_before_1970 :
    newRawJwt ToyJson.env { expiration := some { wall := -500000, tz := utc } } =
      .ok { typeHeader := none, payload := [(py! "exp", .int 0)] } := rfl

/-! ## Examples -/

/-- A token with everything. -/
def toyArgs : RawJwtArgs Int where
  typeHeader := some (py! "JWT")
  issuer := some (py! "me")
  subject := some []
  audiences := some [.str (py! "a"), .str (py! "b")]
  jwtId := some []
  expiration := some { wall := 1700003600000000, tz := some fun _ => 3600000000 }
  notBefore := some { wall := 1600000000500000, tz := utc }
  customClaims := [(.str (py! "x"), .json (.list [.int 1, .dict [([121], .null)]])),
    (.str (py! "admin"), .json (.bool true))]

example : newRawJwt ToyJson.env toyArgs = .ok {
    typeHeader := some (.str (py! "JWT"))
    payload := [(py! "iss", .str (py! "me")), (py! "jti", .str []),
      (py! "aud", .list [.str (py! "a"), .str (py! "b")]), (py! "exp", .int 1700000000),
      (py! "nbf", .int 1600000000), (py! "x", .list [.int 1, .dict [([121], .null)]]),
      (py! "admin", .bool true)] } := rfl

example : ∀ n w, (n, ClaimValue.json w) ∈ toyArgs.customClaims → Copyable ToyJson.env w := by
  intro n w hm
  simp only [toyArgs, List.mem_cons, Prod.mk.injEq, List.not_mem_nil, or_false,
    ClaimValue.json.injEq] at hm
  rcases hm with ⟨_, rfl⟩ | ⟨_, rfl⟩
  · refine ⟨?_, ⟨?_, ?_⟩, fun l d _ => ⟨_, rfl⟩⟩
    · rintro ⟨d, hd, hn⟩
      cases hd with
      | item hx hw =>
        simp only [List.mem_cons, List.not_mem_nil, or_false] at hx
        rcases hx with rfl | rfl
        · cases hw
        · cases hw with
          | here => exact hn (by decide)
          | value hx hw =>
            simp only [List.mem_singleton, Prod.mk.injEq] at hx
            obtain ⟨rfl, rfl⟩ := hx
            cases hw
    · intro s hs
      cases hs with
      | item hx hw =>
        simp only [List.mem_cons, List.not_mem_nil, or_false] at hx
        rcases hx with rfl | rfl
        · cases hw
        · cases hw with
          | value hx hw =>
            simp only [List.mem_singleton, Prod.mk.injEq] at hx
            obtain ⟨rfl, rfl⟩ := hx
            cases hw
    · intro d hd k x hx
      cases hd with
      | item hy hw =>
        simp only [List.mem_cons, List.not_mem_nil, or_false] at hy
        rcases hy with rfl | rfl
        · cases hw
        · cases hw with
          | here =>
            simp only [List.mem_singleton, Prod.mk.injEq] at hx
            obtain ⟨rfl, rfl⟩ := hx
            exact Spec.ValidText.joined (by intro c hc; simp at hc; subst hc; rfl)
          | value hy hw =>
            simp only [List.mem_singleton, Prod.mk.injEq] at hy
            obtain ⟨rfl, rfl⟩ := hy
            cases hw
  · refine ⟨?_, ⟨?_, ?_⟩, ?_⟩
    · rintro ⟨d, hd, _⟩; cases hd
    · intro s hs; cases hs
    · intro d hd; cases hd
    · rintro l d (h | h) <;> cases h

end Props
end Tink
