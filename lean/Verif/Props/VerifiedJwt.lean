import Verif.Spec.VerifiedJwt
import Verif.Props.JwtRoundTrip
import Verif.Props.RawJwt
import Verif.Props.Validator

/-!
# C76: what the recipient of a token reads
-/

namespace Tink
namespace Props
open Jwt Spec Json JsonUtil

section
variable {F P C : Type} [DecidableEq C] {isInst isInst' : P → C → Bool} {r r' : Registry P C}
  {h h' : KeysetHandle} {kps kps' : List (Key × P)} {p p' : P} {t t' : Nat} {ci c ci' c' : C}
  {env : JwtEnv F}

/-! ## One claim -/

omit [DecidableEq C] in
theorem says_claim (t : RawJwt F) (n : PyStr) : Says (t.has n) (t.claim n) (PyDict.get? t.payload n) := by
  unfold RawJwt.has RawJwt.claim
  cases PyDict.get? t.payload n with
  | none => exact ⟨rfl, rfl⟩
  | some v => exact ⟨rfl, rfl⟩

omit [DecidableEq C] in
theorem says_text {t : RawJwt F} {n : PyStr}
    (h : ∀ v, PyDict.get? t.payload n = some v → ∃ s, v = .str s) :
    SaysText (t.has n) (t.claim n) (PyDict.get? t.payload n) := by
  have hs := says_claim t n
  cases hg : PyDict.get? t.payload n with
  | none => rw [hg] at hs; exact ⟨none, rfl, hs⟩
  | some v =>
    rw [hg] at hs
    obtain ⟨s, rfl⟩ := h v hg
    exact ⟨some s, rfl, hs⟩

theorem texts_of {l : List (JVal F)} (h : ∀ x ∈ l, ∃ s, x = .str s) : ∃ l' : List PyStr, l = l'.map .str := by
  induction l with
  | nil => exact ⟨[], rfl⟩
  | cons x l ih =>
    obtain ⟨s, rfl⟩ := h x List.mem_cons_self
    obtain ⟨l', rfl⟩ := ih fun y hy => h y (List.mem_cons_of_mem _ hy)
    exact ⟨s :: l', rfl⟩

theorem says_audiences {fl : Floats F} {t : RawJwt F} (h : ValidPayload fl t.payload) :
    SaysAudiences (t.has (py! "aud")) t.audiences (PyDict.get? t.payload (py! "aud")) := by
  unfold RawJwt.has RawJwt.audiences RawJwt.claim
  have hv := h.aud
  cases hg : PyDict.get? t.payload (py! "aud") with
  | none => exact .absent ⟨rfl, rfl⟩
  | some v =>
    rcases hv v hg with ⟨s, rfl⟩ | ⟨l, rfl, hne, hall⟩
    · exact .one s ⟨rfl, rfl⟩
    · obtain ⟨l', rfl⟩ := texts_of hall
      exact .list l' (by rintro rfl; exact hne rfl) ⟨rfl, rfl⟩

theorem says_time {fl : Floats F} (hf : LawfulTimes fl) {t : RawJwt F} (h : ValidPayload fl t.payload)
    {n : PyStr} (hn : n = py! "exp" ∨ n = py! "nbf" ∨ n = py! "iat") :
    SaysTimeOrNan fl (t.has n) (t.time fl n) (PyDict.get? t.payload n) := by
  have hv := h.times n
  unfold RawJwt.has RawJwt.time RawJwt.claim
  cases hg : PyDict.get? t.payload n with
  | none => exact .time _ (.absent ⟨rfl, rfl⟩)
  | some v =>
    rcases hv v hn hg with ⟨b, rfl⟩ | ⟨k, rfl, h0, h1⟩ | ⟨x, rfl, hx⟩
    · cases b
      · exact .time _ (.present _ 0 .false (by decide) (by decide) ⟨rfl, rfl⟩)
      · exact .time _ (.present _ 1000000 .true (by decide) (by decide) ⟨rfl, rfl⟩)
    · unfold maxTimestamp at h1
      refine .time _ (.present _ (k * 1000000) (.int k) (by omega) (by omega) ⟨rfl, ?_⟩)
      simp only [toDatetime, toDatetime.inYears]
      rw [if_pos]
      unfold minWall maxWall
      omega
    · cases x with
      | nan => exact .nan rfl rfl
      | inf => cases hx
      | ninf => cases hx
      | fin x =>
        simp only [outOfRange, Bool.or_eq_false_iff] at hx
        have hu := hf.upper x maxTimestamp hx.1
        have hl := hf.lower x 0 hx.2
        unfold maxTimestamp at hu
        refine .time _ (.present _ (fl.micros x) (.float x) (by omega) (by omega) ⟨rfl, ?_⟩)
        simp only [toDatetime, toDatetime.inYears]
        rw [if_pos]
        unfold minWall maxWall
        omega

theorem says_custom (fl : Floats F) (t : RawJwt F) : SaysCustom (t.api fl) t.payload where
  names n := by
    show n ∈ t.customClaimNames ↔ _
    unfold RawJwt.customClaimNames
    rw [List.mem_filter]
    simp only [decide_eq_true_eq]
    rw [registered_iff, and_comm, show (n ∈ PyDict.keys t.payload) ↔ ∃ v, PyDict.get? t.payload n = some v
      from (PyDict.get?_isSome_iff _ _).symm.trans Option.isSome_iff_exists]
  registered n hn := by
    show t.customClaim n = _
    unfold RawJwt.customClaim
    rw [if_pos ((registered_iff n).2 hn)]
  absent n hn hg := by
    show t.customClaim n = _
    unfold RawJwt.customClaim RawJwt.claim
    rw [if_neg (fun h => hn ((registered_iff n).1 h)), hg]
  present n v hn hg := by
    show t.customClaim n = _
    unfold RawJwt.customClaim RawJwt.claim
    rw [if_neg (fun h => hn ((registered_iff n).1 h)), hg]

theorem says_type (t : RawJwt F) : Says t.hasTypeHeader t.getTypeHeader t.typeHeader := by
  unfold RawJwt.hasTypeHeader RawJwt.getTypeHeader
  cases t.typeHeader with
  | none => exact ⟨rfl, rfl⟩
  | some v => exact ⟨rfl, rfl⟩

/-- A token with a valid payload tells what is in it. -/
theorem tells_of_valid {fl : Floats F} (hf : LawfulTimes fl) {t : RawJwt F}
    (h : ValidPayload fl t.payload) : Tells fl (t.api fl) t.typeHeader t.payload where
  typeHeader := says_type t
  issuer := says_text h.iss
  subject := says_text h.sub
  audiences := says_audiences h
  jwtId := says_text h.jti
  expiration := says_time hf h (.inl rfl)
  notBefore := says_time hf h (.inr (.inl rfl))
  issuedAt := says_time hf h (.inr (.inr rfl))
  custom := says_custom fl t

/-! ## Tokens from JSON -/

/-- `raw_jwt_from_json`: the token tells what is in the JSON text. -/
theorem C76_from_json (env : JsonEnv F) (hf : LawfulTimes env.floats) (header : Option (JVal F))
    (text : PyStr) (t : RawJwt F) (ht : RawJwt.fromJson env header text = .ok t) :
    ∃ payload, jsonLoads env text = .ok (.dict payload) ∧
      Tells env.floats (t.api env.floats) header payload := by
  unfold RawJwt.fromJson at ht
  cases hl : jsonLoads env text with
  | error e => rw [hl] at ht; cases ht
  | ok v =>
    rw [hl] at ht
    obtain ⟨rfl, rfl, hv⟩ := init_ok ht
    exact ⟨t.payload, rfl, tells_of_valid hf hv⟩

/-! ## Accepted tokens -/

theorem decode_valid {alg : PyStr} {customKid kid : Option PyStr} {check : Bytes → Bytes → Py Unit}
    {clock : Int} {compact : PyStr} {v : JwtValidator} {a : VerifiedJwt F}
    (h : decodeWithKid env alg customKid check clock compact v kid = .ok a) :
    ValidPayload env.json.floats a.raw.payload := by
  unfold decodeWithKid at h
  obtain ⟨parts, _, h⟩ := bind_ok h
  obtain ⟨_, _, h⟩ := bind_ok h
  obtain ⟨header, _, h⟩ := bind_ok h
  obtain ⟨_, _, h⟩ := bind_ok h
  obtain ⟨raw, hr, h⟩ := bind_ok h
  obtain ⟨_, _, h⟩ := bind_ok h
  cases h
  unfold RawJwt.fromJson at hr
  cases hp : jsonLoads env.json parts.payload with
  | error e => rw [hp] at hr; cases hr
  | ok w => rw [hp] at hr; exact (init_ok hr).2.2

theorem typeOf_optional (d : List (PyStr × JVal F)) :
    TypeOf d ((PyDict.get? d (py! "typ")).bind optional) := by
  cases hg : PyDict.get? d (py! "typ") with
  | none => exact .inl ⟨rfl, .inl hg⟩
  | some v =>
    cases v with
    | null => exact .inl ⟨rfl, .inr hg⟩
    | bool b => exact .inr ⟨_, (by simp), rfl, hg⟩
    | int b => exact .inr ⟨_, (by simp), rfl, hg⟩
    | float b => exact .inr ⟨_, (by simp), rfl, hg⟩
    | str b => exact .inr ⟨_, (by simp), rfl, hg⟩
    | list b => exact .inr ⟨_, (by simp), rfl, hg⟩
    | dict b => exact .inr ⟨_, (by simp), rfl, hg⟩

/-- A claim that the validator looked at is not NaN. -/
theorem not_nan {fl : Floats F} {t : RawJwt F} {n : PyStr} {d : DateTime}
    (h : t.time fl n = .ok d) {has : Bool} {o : Option (JVal F)}
    (hs : SaysTimeOrNan fl has (t.time fl n) o) : SaysTime fl has (t.time fl n) o := by
  cases hs with
  | time _ hs => exact hs
  | nan _ h' => rw [h] at h'; cases h'

theorem has_false_time {fl : Floats F} {t : RawJwt F} {n : PyStr} (h : t.has n = false) {get : Py DateTime}
    {o : Option (JVal F)} (hs : SaysTimeOrNan fl (t.has n) get o) : SaysTime fl (t.has n) get o := by
  cases hs with
  | time _ hs => exact hs
  | nan h' _ => rw [h] at h'; cases h'

/-- A token that a validator accepted has times that can be read: the expiration and the start of
validity always, the time of issue if the validator was to look at it. -/
theorem validated_times {fl : Floats F} {clock : Int} {v : JwtValidator} {t : RawJwt F}
    {header : Option (JVal F)} {payload : List (PyStr × JVal F)}
    (h : validate fl clock v t = .ok ()) (ht : Tells fl (t.api fl) header payload) :
    SaysTime fl t.hasExpiration (t.expiration fl) (PyDict.get? payload (py! "exp")) ∧
    SaysTime fl t.hasNotBefore (t.notBefore fl) (PyDict.get? payload (py! "nbf")) ∧
    (v.expectIssuedInThePast = true →
      SaysTime fl t.hasIssuedAt (t.issuedAt fl) (PyDict.get? payload (py! "iat"))) := by
  unfold validate at h
  obtain ⟨_, h1, h⟩ := bind_ok h
  obtain ⟨_, h2, h⟩ := bind_ok h
  obtain ⟨_, h3, h⟩ := bind_ok h
  refine ⟨?_, ?_, ?_⟩
  · have hs : SaysTimeOrNan fl (t.has (py! "exp")) (t.time fl (py! "exp")) _ := ht.expiration
    cases hh : t.has (py! "exp") with
    | false => exact has_false_time hh hs
    | true =>
      unfold checkExpiration at h1
      rw [if_pos hh] at h1
      obtain ⟨d, hd, _⟩ := bind_ok h1
      exact not_nan hd hs
  · have hs : SaysTimeOrNan fl (t.has (py! "nbf")) (t.time fl (py! "nbf")) _ := ht.notBefore
    cases hh : t.has (py! "nbf") with
    | false => exact has_false_time hh hs
    | true =>
      unfold checkNotBefore at h2
      rw [if_pos hh] at h2
      obtain ⟨d, hd, _⟩ := bind_ok h2
      exact not_nan hd hs
  · intro he
    have hs : SaysTimeOrNan fl (t.has (py! "iat")) (t.time fl (py! "iat")) _ := ht.issuedAt
    unfold checkIssuedAt at h3
    rw [if_pos he] at h3
    cases hh : t.has (py! "iat") with
    | false => exact has_false_time hh hs
    | true =>
      rw [if_pos hh] at h3
      obtain ⟨d, hd, _⟩ := bind_ok h3
      exact not_nan hd hs

/-- The type header is a text, unless the validator ignores it. -/
theorem validated_type {fl : Floats F} {clock : Int} {v : JwtValidator} {t : RawJwt F}
    (h : validate fl clock v t = .ok ()) (hi : v.ignoreTypeHeader = false) :
    ∃ s : Option PyStr, t.typeHeader = s.map .str := by
  unfold validate at h
  obtain ⟨_, _, h⟩ := bind_ok h
  obtain ⟨_, _, h⟩ := bind_ok h
  obtain ⟨_, _, h⟩ := bind_ok h
  obtain ⟨_, h4, h⟩ := bind_ok h
  unfold checkTypeHeader at h4
  cases ht : t.typeHeader with
  | none => exact ⟨none, rfl⟩
  | some x =>
    rw [ht] at h4
    cases he : v.expectedTypeHeader with
    | none =>
      rw [he] at h4
      simp only [RawJwt.hasTypeHeader, ht, Option.isSome_some, hi, Bool.not_false, Bool.and_self,
        if_true] at h4
      cases h4
    | some e =>
      rw [he] at h4
      simp only at h4
      unfold isText at h4
      cases x with
      | str s => exact ⟨some s, rfl⟩
      | _ => cases h4

theorem accepted_tells (hf : LawfulTimes env.json.floats) (hu : LawfulUpper env.upper) {alg : PyStr}
    {customKid kid : Option PyStr} {check : Bytes → Bytes → Py Unit} {clock : Int} {compact : PyStr}
    {v : JwtValidator} {a : VerifiedJwt F}
    (h : decodeWithKid env alg customKid check clock compact v kid = .ok a) :
    TellsContent env.json v compact a := by
  obtain ⟨header, payload, signature, sig, d, g1, _, _, g4, _, g6, g7, g8, _⟩ := decode_ok hu h
  have ht := tells_of_valid hf (decode_valid h)
  obtain ⟨t1, t2, t3⟩ := validated_times g8 ht
  exact ⟨header, payload, signature, d, a.raw.typeHeader, a.raw.payload, g1, g4,
    g7 ▸ typeOf_optional d, g6, ht, t1, t2, t3, validated_type g8⟩

section
variable {V : View P (JwtMacInternal F)} {W : View P (JwtMac F)} {cc cc' : CcKeyManager Mac}

/-- A token that a `JwtMac` accepted tells what its header and payload contain. -/
theorem C76_mac (H : Obtained isInst (jwtMacWrapper V W t ci c) r h c kps p)
    (hm : MacManagers V ci env cc r) (hf : LawfulTimes env.json.floats) (hu : LawfulUpper env.upper)
    (clock : Int) (compact : PyStr) (v : JwtValidator) (a : VerifiedJwt F)
    (ha : (W.view p).verifyMacAndDecode clock compact v = .ok a) :
    TellsContent env.json v compact a := by
  obtain ⟨_, q, _, _, hq, hv, _⟩ := C44_mac_ok H clock compact v a ha
  obtain ⟨alg, customKid, data, mac, h1, h2, h3, h4⟩ := mac_primitive hm (H.keys.2 q hq)
  rw [h4] at hv
  exact accepted_tells hf hu hv

end

section
variable {V : View P (JwtPublicKeyVerifyInternal F)} {W : View P (JwtPublicKeyVerify F)}
  {cc : PStr → CcKeyManager PublicKeyVerify}

theorem C76_signature (H : Obtained isInst (jwtVerifyWrapper V W t ci c) r h c kps p)
    (hm : VerifyManagers V ci env cc r) (hf : LawfulTimes env.json.floats) (hu : LawfulUpper env.upper)
    (clock : Int) (compact : PyStr) (v : JwtValidator) (a : VerifiedJwt F)
    (ha : (W.view p).verifyAndDecode clock compact v = .ok a) :
    TellsContent env.json v compact a := by
  obtain ⟨_, q, _, _, hq, hv, _⟩ := C44_signature_ok H clock compact v a ha
  obtain ⟨alg, customKid, data, mac, h1, h2, h3, h4⟩ := verify_primitive hm (H.keys.2 q hq)
  rw [h4] at hv
  exact accepted_tells hf hu hv

end

/-! ## Created tokens -/

theorem says_of_shows {t : RawJwt F} {n : PyStr} {o : Option (JVal F)} (h : Shows t n o) :
    Says (t.has n) (t.claim n) o := by
  cases o with
  | none => exact h
  | some v => exact h

theorem tellsTime_of {env : JsonEnv F} {a : RawJwtArgs F} {tok : RawJwt F}
    (h : newRawJwt env a = .ok tok) {n : PyStr} {o : Option DateTime}
    (hs : Shows tok n (o.map fun d => .int (intTimestamp d)))
    (hn : ∀ d, o = some d → (n = py! "exp" ∧ a.expiration = some d) ∨
      (n = py! "nbf" ∧ a.notBefore = some d) ∨ (n = py! "iat" ∧ a.issuedAt = some d)) :
    TellsTime (tok.has n) (tok.time env.floats n) o := by
  cases o with
  | none => exact .absent ⟨hs.1, by unfold RawJwt.time; rw [hs.2]⟩
  | some d =>
    obtain ⟨s, h1, _, _, h2⟩ := C47_times env a tok h n d (hn d rfl)
    exact .present d s h2 ⟨hs.1, h1⟩

/-- The payload of a created token, under a type header. -/
theorem created_tells {env : JsonEnv F} (hl : LawfulFloats env.floats) {a : RawJwtArgs F}
    {tok : RawJwt F} (h : newRawJwt env a = .ok tok) (hn : (a.customClaims.map Prod.fst).Nodup)
    (hc : ∀ n w, (n, ClaimValue.json w) ∈ a.customClaims → Copyable env w) (header : Option PyStr) :
    TellsArguments (RawJwt.api env.floats { tok with typeHeader := header.map .str }) header a := by
  obtain ⟨_, g1, g2, g3, g4, g5, g6⟩ := C47_getters env a tok h
  obtain ⟨u1, u2, u3⟩ := C47_audiences env a tok h
  obtain ⟨c1, c2, _⟩ := C47_custom env hl a tok h hn hc
  obtain ⟨⟨_, o2, _⟩, _⟩ := newRawJwt_ok h
  exact {
    typeHeader := says_type _
    issuer := says_of_shows g1
    subject := says_of_shows g2
    jwtId := says_of_shows g3
    expiration := tellsTime_of h g4 fun d hd => .inl ⟨rfl, hd⟩
    notBefore := tellsTime_of h g5 fun d hd => .inr (.inl ⟨rfl, hd⟩)
    issuedAt := tellsTime_of h g6 fun d hd => .inr (.inr ⟨rfl, hd⟩)
    names := c1
    custom := c2
    audiences := by
      unfold audiencesOf
      cases ha : a.audiences with
      | some l => exact u2 l ha
      | none =>
        cases hb : a.audience with
        | none => exact u3 hb ha
        | some s => exact u1 s hb }

/-- A created token tells the arguments of `new_raw_jwt`. -/
theorem C76_created (env : JsonEnv F) (hl : LawfulFloats env.floats) (a : RawJwtArgs F)
    (tok : RawJwt F) (h : newRawJwt env a = .ok tok) (hn : (a.customClaims.map Prod.fst).Nodup)
    (hc : ∀ n w, (n, ClaimValue.json w) ∈ a.customClaims → Copyable env w) :
    TellsArguments (tok.api env.floats) a.typeHeader a := by
  have ht := (C47_getters env a tok h).1
  have := created_tells hl h hn hc a.typeHeader
  rw [← ht] at this
  exact this

section
variable {V : View P (JwtMacInternal F)} {W : View P (JwtMac F)} {cc cc' : CcKeyManager Mac}

/-- What the issuer gave to `new_raw_jwt` is what the recipient reads from the verified token, if the
conditions of C41 are met.  Only an empty type header is not there. -/
theorem C76_mac_round_trip (H : Obtained isInst (jwtMacWrapper V W t ci c) r h c kps p)
    (hm : MacManagers V ci env cc r)
    {V' : View P (JwtMacInternal F)} {W' : View P (JwtMac F)}
    (H' : Obtained isInst' (jwtMacWrapper V' W' t' ci' c') r' h' c' kps' p')
    (hm' : MacManagers V' ci' env cc' r') (hl : LawfulFloats env.json.floats)
    (hu : LawfulUpper env.upper) {k k' : Key} {o o' : P} (hk : IsPrimary h.keyset kps (k, o))
    {pre post : List (Key × P)} (hk' : groupOrder kps' = pre ++ (k', o') :: post)
    (hid : k'.keyId = k.keyId) (hpt : k'.outputPrefixType = k.outputPrefixType) (hd : k'.data = k.data)
    (hmac : ∀ data mac mac', cc.primitive data = .ok mac → cc'.primitive data = .ok mac' →
      ∀ d tag, mac.computeMac d = .ok tag → mac'.verifyMac tag d = .ok ())
    {a : RawJwtArgs F} {tok : RawJwt F} (ht : newRawJwt env.json a = .ok tok)
    (hn : (a.customClaims.map Prod.fst).Nodup)
    (hc : ∀ n w, (n, ClaimValue.json w) ∈ a.customClaims → Copyable env.json w)
    (hv : ValidObjects (.dict tok.payload)) (hth : ∀ s, a.typeHeader = some s → ValidText s)
    {compact : PyStr} (he : (W.view p).computeMacAndEncode tok = .ok compact)
    {clock : Int} {v : JwtValidator} (ha : validate env.json.floats clock v (written a tok) = .ok ())
    (hpre : ∀ q ∈ pre,
      Rejects ((V'.view q.2).verifyMacAndDecodeWithKid clock compact v (keyKid q.1))) :
    ∃ b, (W'.view p').verifyMacAndDecode clock compact v = .ok b ∧
      TellsArguments (b.api env.json.floats) (unlessEmpty a.typeHeader) a :=
  ⟨_, C41_mac H hm H' hm' hl hu hk hk' hid hpt hd hmac ht hv hth he ha hpre,
    created_tells hl ht hn hc (unlessEmpty a.typeHeader)⟩

end

section
variable {V : View P (JwtPublicKeySignInternal F)} {W : View P (JwtPublicKeySign F)}
  {cc : PStr → CcKeyManager PublicKeySign} {cc' : PStr → CcKeyManager PublicKeyVerify}

theorem C76_signature_round_trip (H : Obtained isInst (jwtSignWrapper V W t ci c) r h c kps p)
    (hm : SignManagers V ci env cc r)
    {V' : View P (JwtPublicKeyVerifyInternal F)} {W' : View P (JwtPublicKeyVerify F)}
    (H' : Obtained isInst' (jwtVerifyWrapper V' W' t' ci' c') r' h' c' kps' p')
    (hm' : VerifyManagers V' ci' env cc' r') (hl : LawfulFloats env.json.floats)
    (hu : LawfulUpper env.upper) {k k' : Key} {o o' : P} (hk : IsPrimary h.keyset kps (k, o))
    {pre post : List (Key × P)} (hk' : groupOrder kps' = pre ++ (k', o') :: post)
    (hid : k'.keyId = k.keyId) (hpt : k'.outputPrefixType = k.outputPrefixType)
    {alg : PyStr} {customKid customKid' : Option PyStr} (hs : SignKey k.data alg customKid)
    (hs' : VerifyKey k'.data alg customKid') (hcustom : customKid' = customKid ∨ customKid' = none)
    (hsig : ∀ data data' signer verifier,
      k.data.serializeToString = .ok data → (cc k.data.typeUrl).primitive data = .ok signer →
      k'.data.serializeToString = .ok data' → (cc' k'.data.typeUrl).primitive data' = .ok verifier →
      ∀ seed d sig, signer.sign seed d = .ok sig → verifier.verify sig d = .ok ())
    {a : RawJwtArgs F} {tok : RawJwt F} (ht : newRawJwt env.json a = .ok tok)
    (hn : (a.customClaims.map Prod.fst).Nodup)
    (hc : ∀ n w, (n, ClaimValue.json w) ∈ a.customClaims → Copyable env.json w)
    (hv : ValidObjects (.dict tok.payload)) (hth : ∀ s, a.typeHeader = some s → ValidText s)
    {seed : Seed} {compact : PyStr} (he : (W.view p).signAndEncode seed tok = .ok compact)
    {clock : Int} {v : JwtValidator} (ha : validate env.json.floats clock v (written a tok) = .ok ())
    (hpre : ∀ q ∈ pre,
      Rejects ((V'.view q.2).verifyAndDecodeWithKid clock compact v (keyKid q.1))) :
    ∃ b, (W'.view p').verifyAndDecode clock compact v = .ok b ∧
      TellsArguments (b.api env.json.floats) (unlessEmpty a.typeHeader) a :=
  ⟨_, C41_signature H hm H' hm' hl hu hk hk' hid hpt hs hs' hcustom hsig ht hv hth he ha hpre,
    created_tells hl ht hn hc (unlessEmpty a.typeHeader)⟩

end
end

/-! ## Validators -/

/-- A validator tells the arguments of `new_validator`; a clock skew that is not given is zero. -/
theorem C76_validator (a : ValidatorArgs) (v : JwtValidator) (h : newValidator a = .ok v) :
    v.api = {
      hasExpectedTypeHeader := a.expectedTypeHeader.isSome, expectedTypeHeader := a.expectedTypeHeader
      hasExpectedIssuer := a.expectedIssuer.isSome, expectedIssuer := a.expectedIssuer
      hasExpectedAudience := a.expectedAudience.isSome, expectedAudience := a.expectedAudience
      ignoreTypeHeader := a.ignoreTypeHeader, ignoreIssuer := a.ignoreIssuer
      ignoreAudiences := a.ignoreAudiences, allowMissingExpiration := a.allowMissingExpiration
      expectIssuedInThePast := a.expectIssuedInThePast, clockSkew := a.clockSkew.getD 0
      hasFixedNow := a.fixedNow.isSome, fixedNow := a.fixedNow } := by
  unfold newValidator at h
  split at h
  · cases h
  · split at h
    · cases h
    · split at h
      · cases h
      · cases hs : checkSkew a.clockSkew with
        | error e => rw [hs] at h; cases h
        | ok skew =>
          have hk : skew = a.clockSkew.getD 0 := by
            unfold checkSkew at hs
            cases hc : a.clockSkew with
            | none => rw [hc] at hs; cases hs; rfl
            | some s =>
              rw [hc] at hs
              simp only at hs
              split at hs
              · cases hs
              · cases hs; rfl
          rw [hs] at h
          simp only at h
          split at h
          · cases h
          · cases h
            subst hk
            rfl

/-! ## Examples -/

section
open ToyJwt

/-- A token with this header and payload and the MAC of the second key. -/
def withParts (header payload : Bytes) : PyStr :=
  let unsigned := base64Encode header ++ 46 :: base64Encode payload
  (unsigned ++ 46 :: base64Encode ([3] ++ unsigned)).map UInt8.toNat

def toyFloats : Floats Int := library.env.json.floats

/-- What a keyset says of such a token. -/
def verdict (v : JwtValidator) (header payload : Bytes) : Py (VerifiedJwt Int) :=
  (library.mac.view (object macKeyset' .mac)).verifyMacAndDecode clock (withParts header payload) v

/-- A token whose time of issue is NaN is accepted by a validator that does not look at it, and asking for
it is a `ValueError`: not every claim that is there can be read. -/
theorem C76_issued_at_violated : ∃ (ks : Keyset) (p : Prim) (compact : PyStr) (a : VerifiedJwt Int),
    Obtained isInst (jwtMacWrapper library.macInternal library.mac 2 Cls.macInternal .mac) registry ⟨ks⟩
      .mac (objects ks .macInternal) p ∧
    (library.mac.view p).verifyMacAndDecode clock compact validator = .ok a ∧
    (a.api toyFloats).hasIssuedAt = true ∧ (a.api toyFloats).issuedAt = .error .valueError :=
  ⟨macKeyset', object macKeyset' .mac,
    withParts (by! "{\"alg\":\"HS512\",\"typ\":\"JWT\"}") (by! "{\"exp\":1700000000,\"iat\":NaN}"), _,
    macObtained', value_ok (d := ⟨⟨none, []⟩⟩) (by decide +kernel), by decide +kernel,
    raised_iff.1 (by decide +kernel)⟩

/-- A token whose type header is a number is accepted by a validator that ignores it, and its
`type_header()`, which is annotated as `str`, is that number. -/
theorem C76_type_header_violated : ∃ (ks : Keyset) (p : Prim) (compact : PyStr) (a : VerifiedJwt Int),
    Obtained isInst (jwtMacWrapper library.macInternal library.mac 2 Cls.macInternal .mac) registry ⟨ks⟩
      .mac (objects ks .macInternal) p ∧
    (library.mac.view p).verifyMacAndDecode clock compact
      { validator with expectedTypeHeader := none, ignoreTypeHeader := true } = .ok a ∧
    (a.api toyFloats).typeHeader = .ok (.int 5) := by
  have key : ∀ x : Py (JVal Int), (match x with | .ok (.int 5) => true | _ => false) = true →
      x = .ok (.int 5) := by
    intro x hx
    split at hx
    · rfl
    · cases hx
  exact ⟨macKeyset', object macKeyset' .mac,
    withParts (by! "{\"alg\":\"HS512\",\"typ\":5}") (by! "{\"exp\":1700000000}"), _,
    macObtained', value_ok (d := ⟨⟨none, []⟩⟩) (by decide +kernel), key _ (by decide +kernel)⟩

/-- An accepted token with most claims. -/
def manyClaims : Bytes := by! "{\"sub\":\"you\",\"aud\":[\"a\",\"b\"],\"exp\":1700000000,\"nbf\":true,\"x\":{}}"

example : ∃ a, verdict { validator with ignoreAudiences := true }
      (by! "{\"alg\":\"HS512\",\"typ\":\"JWT\"}") manyClaims = .ok a ∧
    TellsContent library.env.json { validator with ignoreAudiences := true }
      (withParts (by! "{\"alg\":\"HS512\",\"typ\":\"JWT\"}") manyClaims) a := by
  have h : _ = Except.ok _ := value_ok (d := ⟨⟨none, []⟩⟩) (x := verdict
    { validator with ignoreAudiences := true } (by! "{\"alg\":\"HS512\",\"typ\":\"JWT\"}") manyClaims)
    (by decide +kernel)
  exact ⟨_, h, C76_mac macObtained' toyManagers.mac toyTimes lawfulUpper clock _ _ _ h⟩

example : ∃ a, (library.verify.view (object verifyKeyset .verify)).verifyAndDecode clock signCompact
      validator = .ok a ∧ TellsContent library.env.json validator signCompact a := by
  have h : _ = Except.ok _ := value_ok (d := ⟨⟨none, []⟩⟩) (x := (library.verify.view
    (object verifyKeyset .verify)).verifyAndDecode clock signCompact validator) (by decide +kernel)
  exact ⟨_, h, C76_signature verifyObtained toyManagers.verify toyTimes lawfulUpper clock signCompact
    validator _ h⟩

/-- What is told of a payload. -/
example : ∃ t payload, RawJwt.fromJson ToyJson.env none
      (py! "{\"sub\":\"you\",\"aud\":[\"a\",\"b\"],\"exp\":1700000000,\"nbf\":true,\"x\":{}}") = .ok t ∧
    payload = [(py! "sub", .str (py! "you")), (py! "aud", .list [.str (py! "a"), .str (py! "b")]),
      (py! "exp", .int 1700000000), (py! "nbf", .bool true), (py! "x", .dict [])] ∧
    Tells ToyJson.floats (t.api ToyJson.floats) none payload := by
  refine ⟨⟨none, _⟩, _, rfl, rfl, ?_⟩
  obtain ⟨payload, h1, h2⟩ := C76_from_json ToyJson.env toyTimes none
    (py! "{\"sub\":\"you\",\"aud\":[\"a\",\"b\"],\"exp\":1700000000,\"nbf\":true,\"x\":{}}") _ rfl
  cases h1
  exact h2

/-- The custom claims of the token can be copied. -/
theorem args_copyable : ∀ n w, (n, ClaimValue.json w) ∈ args.customClaims → Copyable ToyJson.env w := by
  intro n w hm
  simp only [args, List.mem_cons, Prod.mk.injEq, List.not_mem_nil, or_false,
    ClaimValue.json.injEq] at hm
  obtain ⟨_, rfl⟩ := hm
  refine ⟨?_, ⟨?_, ?_⟩, fun l d _ => ⟨_, rfl⟩⟩
  · rintro ⟨d, hd, hn⟩
    cases hd with
    | item hx hw =>
      simp only [List.mem_cons, List.not_mem_nil, or_false] at hx
      rcases hx with rfl | rfl
      · cases hw
      · cases hw with
        | here => exact hn (by decide)
        | value hx hw =>
          simp only [List.mem_singleton, Prod.mk.injEq] at hx
          obtain ⟨rfl, rfl⟩ := hx
          cases hw
  · intro s hs
    cases hs with
    | item hx hw =>
      simp only [List.mem_cons, List.not_mem_nil, or_false] at hx
      rcases hx with rfl | rfl
      · cases hw
      · cases hw with
        | value hx hw =>
          simp only [List.mem_singleton, Prod.mk.injEq] at hx
          obtain ⟨rfl, rfl⟩ := hx
          cases hw
  · intro d hd k x hx
    cases hd with
    | item hy hw =>
      simp only [List.mem_cons, List.not_mem_nil, or_false] at hy
      rcases hy with rfl | rfl
      · cases hw
      · cases hw with
        | here =>
          simp only [List.mem_singleton, Prod.mk.injEq] at hx
          obtain ⟨rfl, rfl⟩ := hx
          exact Spec.ValidText.joined (by intro c hc; simp at hc; subst hc; rfl)
        | value hy hw =>
          simp only [List.mem_singleton, Prod.mk.injEq] at hy
          obtain ⟨rfl, rfl⟩ := hy
          cases hw

theorem args_names : (args.customClaims.map Prod.fst).Nodup := by simp [args]

example : TellsArguments (token.api ToyJson.floats) (some (py! "JWT")) args :=
  C76_created ToyJson.env ToyJson.lawful args token token_created args_names args_copyable

example : ∃ b, (library.mac.view (object macKeyset' .mac)).verifyMacAndDecode clock macCompact validator =
      .ok b ∧ TellsArguments (b.api toyFloats) (some (py! "JWT")) args :=
  C76_mac_round_trip (k := macKey1) (o := objectOf macKey1 .macInternal) macObtained toyManagers.mac
    macObtained' toyManagers.mac ToyJson.lawful lawfulUpper rfl mac_order rfl rfl rfl (by
      intro data mac mac' h h' d tag hc
      rw [h] at h'
      cases h'
      obtain ⟨v, _, h⟩ := bind_ok h
      cases h
      cases hc
      exact if_pos rfl) token_created args_names args_copyable token_valid args_type mac_encodes
    (by decide +kernel) mac_refuses

example : ∃ b, (library.verify.view (object verifyKeyset .verify)).verifyAndDecode clock signCompact
      validator = .ok b ∧ TellsArguments (b.api toyFloats) (some (py! "JWT")) args :=
  C76_signature_round_trip (k := signKey) (o := objectOf signKey .signInternal) (alg := py! "ES384")
    (customKid := some [120]) (customKid' := some [120]) signObtained toyManagers.sign verifyObtained
    toyManagers.verify ToyJson.lawful lawfulUpper rfl verify_order rfl rfl
    (.ecdsa { publicKey := some (ecdsaPublic JwtEcdsaAlgorithm.ES384 [5, 5] (some ['x'])), keyValue := [9] }
      rfl (by decide +kernel) (by decide) rfl)
    (.ecdsa (ecdsaPublic JwtEcdsaAlgorithm.ES384 [5, 5] (some ['x'])) rfl (by decide +kernel) (by decide)
      rfl) (.inl rfl) (by
      intro data data' signer verifier h1 h2 h3 h4 seed d sig hs
      have e1 : signKey.data.serializeToString = .ok (value [] signKey.data.serializeToString) :=
        value_ok (by decide +kernel)
      have e3 : verifyKey2.data.serializeToString = .ok (value [] verifyKey2.data.serializeToString) :=
        value_ok (by decide +kernel)
      rw [e1] at h1
      rw [e3] at h3
      cases h1
      cases h3
      obtain ⟨v, hv, h2⟩ := bind_ok h2
      obtain ⟨w, hw, h4⟩ := bind_ok h4
      cases h2
      cases h4
      cases hs
      have e2 : shared (value [] signKey.data.serializeToString) = .ok [5, 5] := by decide +kernel
      have e4 : shared (value [] verifyKey2.data.serializeToString) = .ok [5, 5] := by decide +kernel
      rw [e2] at hv
      rw [e4] at hw
      cases hv
      cases hw
      exact if_pos rfl) token_created args_names args_copyable token_valid args_type sign_encodes
    (by decide +kernel) verify_refuses

/-- A validator. -/
example : ∃ v, newValidator { expectedIssuer := some (py! "me"), clockSkew := some 1000000 } = .ok v ∧
    v.api.hasExpectedIssuer = true ∧ v.api.expectedIssuer = some (py! "me") ∧
    v.api.clockSkew = 1000000 ∧ v.api.hasFixedNow = false := by
  refine ⟨_, rfl, ?_⟩
  rw [C76_validator { expectedIssuer := some (py! "me"), clockSkew := some 1000000 } _ rfl]
  exact ⟨rfl, rfl, rfl, rfl⟩

end

end Props
end Tink
