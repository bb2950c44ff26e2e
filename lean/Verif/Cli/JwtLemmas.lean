import Verif.Spec.CliJwt
import Verif.Cli.Steps
import Verif.Props.JwkVerify
import Verif.Jwt.ValidatorLemmas

/-!
# Lemmas about the example programs for JWTs
-/

namespace Tink.Cli
open Spec Jwt Jwk Props

section Json
open Json
variable {F : Type}

/-- JSON texts on one line are ASCII without carriage returns. -/
theorem dumpsDepth_textChar (env : JsonEnv F) (hl : LawfulFloats env.floats) {pad : PyStr}
    (hp : ∀ c ∈ pad, TextChar c) (depth : Nat) (v : JVal F) (t : PyStr)
    (h : dumpsDepth env pad depth v = .ok t) : ∀ x ∈ t, TextChar x := by
  have lit : ∀ (l : PyStr), (l.all fun c => decide (c < 128) && decide (c ≠ 13)) = true →
      ∀ x ∈ l, TextChar x := by
    intro l hl x hx
    have := (List.all_eq_true.1 hl) x hx
    simpa [TextChar] using this
  have int : ∀ n t, encodeInt env n = .ok t → ∀ x ∈ t, TextChar x := by
    intro n t h
    unfold encodeInt at h
    cases hd : env.digitsOk (decimal n.natAbs).length with
    | false => rw [hd] at h; simp at h
    | true =>
      rw [hd, if_pos rfl, Except.ok.injEq] at h
      subst h
      intro x hx
      split at hx
      · rcases List.mem_cons.1 hx with rfl | hx
        · exact ⟨by omega, by omega⟩
        · exact intPart_textChar (decimal_intPart _) x hx
      · exact intPart_textChar (decimal_intPart _) x hx
  have float : ∀ x, ∀ c ∈ encodeFloat env x, TextChar c := by
    intro x
    cases x with
    | fin x => exact numeral_textChar (hl.numeral x)
    | _ => exact lit _ rfl
  have br : ∀ (a b : Nat) (m : Py (List PyStr)) (t : PyStr), TextChar a → TextChar b →
      (∀ ts, m = .ok ts → ∀ t ∈ ts, ∀ x ∈ t, TextChar x) → bracket pad a b m = .ok t →
      ∀ x ∈ t, TextChar x := by
    intro a b m t ha hb hm h
    unfold bracket at h
    cases m with
    | error e => cases h
    | ok ts =>
      cases h
      intro x hx
      simp only [List.cons_append, List.mem_cons, List.mem_append, List.not_mem_nil, or_false] at hx
      rcases hx with rfl | hx | rfl
      · exact ha
      · exact commas_textChar hp ts (hm ts rfl) x hx
      · exact hb
  induction depth generalizing v t with
  | zero =>
    cases v with
    | null => cases h; exact lit _ rfl
    | bool b => cases b <;> cases h <;> exact lit _ rfl
    | int n => exact int n t h
    | float x => cases h; exact float x
    | str s => cases h; exact encodeString_textChar s
    | list l => cases h
    | dict d => cases h
  | succ depth ih =>
    cases v with
    | null => cases h; exact lit _ rfl
    | bool b => cases b <;> cases h <;> exact lit _ rfl
    | int n => exact int n t h
    | float x => cases h; exact float x
    | str s => cases h; exact encodeString_textChar s
    | list l =>
      refine br 91 93 _ t ⟨by omega, by omega⟩ ⟨by omega, by omega⟩ ?_ h
      intro ts hts t ht
      obtain ⟨v, _, hv⟩ := (mapPy_length hts).2 t ht
      exact ih v t hv
    | dict d =>
      refine br 123 125 _ t ⟨by omega, by omega⟩ ⟨by omega, by omega⟩ ?_ h
      intro ts hts t ht
      obtain ⟨p, _, hv⟩ := (mapPy_length hts).2 t ht
      obtain ⟨u, hu, rfl⟩ := encodePair_ok hv
      intro x hx
      simp only [List.mem_append, List.mem_cons] at hx
      rcases hx with hx | rfl | hx | hx
      · exact encodeString_textChar _ x hx
      · exact ⟨by omega, by omega⟩
      · exact hp x hx
      · exact ih p.2 u hu x hx

theorem jwkSet_textChar {env : JsonEnv F} (hl : LawfulFloats env.floats) {h : KeysetHandle} {text : PyStr}
    (hf : fromPublicKeysetHandle env h = .ok text) : ∀ x ∈ text, TextChar x := by
  unfold fromPublicKeysetHandle at hf
  obtain ⟨_, _, hf⟩ := bind_ok_iff.1 hf
  obtain ⟨_, _, hf⟩ := bind_ok_iff.1 hf
  obtain ⟨_, _, hf⟩ := bind_ok_iff.1 hf
  exact dumpsDepth_textChar env hl (by simp) _ _ _ hf

theorem compact_textChar {compact : PyStr} {header payload signature : Bytes}
    (h : Compact compact header payload signature) : ∀ x ∈ compact, TextChar x := by
  have url : ∀ c, UrlChar c → TextChar c.toNat := by
    intro c hc; unfold UrlChar at hc; unfold TextChar; omega
  intro x hx
  rw [h.form] at hx
  obtain ⟨c, hc, rfl⟩ := List.mem_map.1 hx
  simp only [List.append_assoc, List.mem_append, List.mem_cons, List.cons_append] at hc
  rcases hc with hc | rfl | hc | rfl | hc
  · exact url c (h.header c hc)
  · exact ⟨by decide, by decide⟩
  · exact url c (h.payload c hc)
  · exact ⟨by decide, by decide⟩
  · exact url c (h.signature c hc)

end Json

section
variable {κ F P C : Type}

theorem ends_writeText {os : Os} {path : Path} {w : World κ} {text : PyStr} {b : Bytes}
    (hb : utf8Encode text = .ok b) {x : Exit} (hx : status (.ok x) = 0) :
    EndsByWriting os path (fun o => utf8Encode text = .ok o) w
      ((do openWrite os path; writeText os path text; return x : Run κ Exit) w) := by
  have : (do openWrite os path; writeText os path text; return x : Run κ Exit) w =
      (do openWrite os path; writeBytes os path b; return x : Run κ Exit) w := by
    simp only [run_bind, writeText, run_lift, hb]
  rw [this]
  refine ends_congr (ends_write hx) fun o => ?_
  rw [hb, Except.ok.injEq]

theorem textFile_unique {os : Os} {files : Nat → Option Bytes} {path : Path} {t t' : PyStr}
    (h : TextFile os files path t) (h' : TextFile os files path t') : t = t' := by
  obtain ⟨b, h1, h2⟩ := h
  obtain ⟨b', h1', h2'⟩ := h'
  cases fileHolds_unique h1 h1'
  rw [textOf_iff] at h2 h2'
  rw [h2] at h2'; cases h2'
  rfl

theorem step_text (os : Os) (path : Path) (f : PyStr → Run κ Exit) (w : World κ) :
    Steps (TextFile os w.files path) f w ((readText os path >>= f) w) := by
  have : (readText os path >>= f) w =
      (readBytes os path >>= fun b => Run.lift (decodeText b) >>= f) w := by
    unfold readText
    simp only [run_bind]
    cases readBytes os path w with
    | mk o w' => cases o <;> rfl
  rw [this]
  refine step_congr (step_bind (step_read os path _ w) fun b _ => step_lift _ _ w) fun t => ?_
  unfold TextFile
  constructor
  · rintro ⟨b, h1, h2⟩; exact ⟨b, h1, (textOf_iff b t).2 h2⟩
  · rintro ⟨b, h1, h2⟩; exact ⟨b, h1, (textOf_iff b t).1 h2⟩

theorem textFile_carry {os os' : Os} (hf : SameFiles os os') {files files' : Nat → Option Bytes}
    {path : Path} {t : PyStr} (h : TextFile os files path t) (hr : os'.readable path = true)
    (he : files' (os.file path) = files (os.file path)) : TextFile os' files' path t := by
  obtain ⟨b, h1, h2⟩ := h
  exact ⟨b, fileHolds_carry hf h1 hr he, h2⟩

/-- What has been written is read. -/
theorem textFile_written {os os' : Os} (hf : SameFiles os os') {files files' : Nat → Option Bytes}
    {path : Path} {t : PyStr} {b : Bytes} (ht : ∀ x ∈ t, TextChar x) (hb : utf8Encode t = .ok b)
    (hu : Updated (os.file path) b files files') (hr : os'.readable path = true) :
    TextFile os' files' path t := by
  obtain ⟨b', h1, h2⟩ := textChar_text ht
  rw [hb] at h1; cases h1
  exact ⟨b, ⟨hr, by rw [hf]; exact hu.1⟩, h2⟩

variable [DecidableEq C] {L : Jwt.Library F P C} {isInst : P → C → Bool}

theorem jwtRegistry_eq (hl : Props.LawfulLibrary L) (hc : LawfulClasses isInst L) :
    jwtRegistry L isInst = freshRegistry L := by
  unfold jwtRegistry
  rw [register_fresh hl hc]

theorem jwtRegistered_ok (hl : Props.LawfulLibrary L) (hc : LawfulClasses isInst L) {β : Type}
    (f : Registry P C → Run κ β) (w : World κ) :
    (jwtRegistered L isInst >>= f) w = f (jwtRegistry L isInst) w := by
  rw [jwtRegistry_eq hl hc, run_bind]
  unfold jwtRegistered
  rw [register_fresh hl hc]
  rfl

theorem jwtManagers (hl : Props.LawfulLibrary L) : Managers L (jwtRegistry L isInst) :=
  C43_registered isInst hl [.registerJwtSignature] (by intro m b h; simp at h)

/-- The objects of keysets in such a process. -/
theorem obtained_sign (hl : Props.LawfulLibrary L) (hc : LawfulClasses isInst L) {h : KeysetHandle} {p : P}
    (hp : h.primitive isInst (jwtRegistry L isInst) L.signClass = .ok p) :
    ∃ kps, Obtained isInst (Props.signWrapper L) (jwtRegistry L isInst) h L.signClass kps p := by
  rw [jwtRegistry_eq hl hc] at hp ⊢
  obtain ⟨_, w, kps, h1, h2, _⟩ := primitive_ok_iff.1 hp
  have hw : PyDict.get? (freshRegistry L).wrappers L.signClass = some (Props.signWrapper L) := by
    unfold freshRegistry PyDict.get?
    exact if_pos rfl
  rw [hw] at h1; cases h1
  exact ⟨kps, hw, hp, h2⟩

theorem obtained_verify (hl : Props.LawfulLibrary L) (hc : LawfulClasses isInst L) {h : KeysetHandle} {p : P}
    (hp : h.primitive isInst (jwtRegistry L isInst) L.verifyClass = .ok p) :
    ∃ kps, Obtained isInst (Props.verifyWrapper L) (jwtRegistry L isInst) h L.verifyClass kps p := by
  rw [jwtRegistry_eq hl hc] at hp ⊢
  obtain ⟨_, w, kps, h1, h2, _⟩ := primitive_ok_iff.1 hp
  have hw : PyDict.get? (freshRegistry L).wrappers L.verifyClass = some (Props.verifyWrapper L) := by
    unfold freshRegistry PyDict.get?
    rw [if_neg hc.different]
    exact if_pos rfl
  rw [hw] at h1; cases h1
  exact ⟨kps, hw, hp, h2⟩

theorem add_ok_iff (t : DateTime) (delta : Int) (d : DateTime) :
    t.add delta = .ok d ↔ Representable t delta ∧ d = { t with wall := t.wall + delta } := by
  unfold DateTime.add Representable minWall maxWall
  by_cases h : -62135596800000000 ≤ t.wall + delta ∧ t.wall + delta ≤ 253402300799999999
  · rw [if_pos h, Except.ok.injEq]
    exact Iff.intro (fun e => And.intro h e.symm) (fun e => e.2.symm)
  · rw [if_neg h]
    exact Iff.intro (fun e => nomatch e) (fun e => absurd e.1 h)

/-- The validator of the program. -/
def audienceValidator (audience : PyStr) : JwtValidator where
  expectedTypeHeader := none
  expectedIssuer := none
  expectedAudience := some audience
  ignoreTypeHeader := false
  ignoreIssuer := false
  ignoreAudiences := false
  allowMissingExpiration := false
  expectIssuedInThePast := false
  clockSkew := 0
  fixedNow := none

theorem newValidator_audience (audience : PyStr) :
    newValidator { expectedAudience := some audience } = .ok (audienceValidator audience) := by
  unfold newValidator
  simp [truthy, checkSkew, naive, audienceValidator]

/-- A token that is valid and must have an expiration has one. -/
theorem expiration_of_valid {fl : Floats F} {clock : Int} {v : JwtValidator} {t : RawJwt F}
    (hv : v.allowMissingExpiration = false) (h : validate fl clock v t = .ok ()) :
    ∃ d, t.expiration fl = .ok d := by
  unfold validate at h
  obtain ⟨_, h1, _⟩ := bind_ok_iff.1 h
  unfold checkExpiration at h1
  by_cases hh : t.has (py! "exp") = true
  · rw [if_pos hh] at h1
    obtain ⟨d, h2, _⟩ := bind_ok_iff.1 h1
    exact ⟨d, h2⟩
  · rw [if_neg hh, hv] at h1
    cases h1

theorem verifyToken_iff (hl : Props.LawfulLibrary L) (hc : LawfulClasses isInst L)
    (hu : LawfulUpper L.env.upper) {h : KeysetHandle} {p : P}
    (hp : h.primitive isInst (jwtRegistry L isInst) L.verifyClass = .ok p) (clock : Int) (token : PyStr)
    {v : JwtValidator} (hv : v.allowMissingExpiration = false) (u : Unit) :
    verifyToken L p clock token v = .ok u ↔ ∃ a, (L.verify.view p).verifyAndDecode clock token v = .ok a := by
  unfold verifyToken
  rw [bind_ok_iff]
  constructor
  · rintro ⟨a, ha, _⟩; exact ⟨a, ha⟩
  · rintro ⟨a, ha⟩
    refine ⟨a, ha, ?_⟩
    obtain ⟨kps, H⟩ := obtained_verify hl hc hp
    obtain ⟨k, _, _, alg, kid, data, verifier, _, _, _, hr⟩ :=
      C82_signature_accepted H (jwtManagers hl).verify hu ha
    obtain ⟨_, _, _, _, _, _, _, _, _, _, hval⟩ := hr
    obtain ⟨d, hd⟩ := expiration_of_valid hv hval
    exact bind_ok_iff.2 ⟨d, hd, rfl⟩

/-- A key that signs is an enabled primary key of the keyset. -/
theorem sign_primary {h : KeysetHandle} {p : P} {r : Registry P C} {kps : List (Key × P)}
    (H : Obtained isInst (Props.signWrapper L) r h L.signClass kps p) {seed : Seed} {raw : RawJwt F}
    {token : PyStr} (hs : (L.sign.view p).signAndEncode seed raw = .ok token) :
    ∃ k o, IsPrimary h.keyset kps (k, o) ∧ k ∈ h.keyset.key ∧ IsPrimaryKey h.keyset k := by
  by_cases hq : ∃ q, IsPrimary h.keyset kps q
  · obtain ⟨⟨k, o⟩, hq⟩ := hq
    have hm := hq.mem
    have hk : k ∈ h.keyset.key.filter (fun k => Enabled k) := by
      rw [← H.keys.1]; exact List.mem_map.2 ⟨(k, o), hm, rfl⟩
    rw [List.mem_filter, decide_eq_true_eq] at hk
    have hid := (List.mem_filter.1 (List.mem_of_getLast? hq)).2
    exact ⟨k, o, hq, hk.1, hk.2, by simpa using hid⟩
  · have h1 := (Jwt.sign_obtained H).1 seed raw
    rw [h1] at hs
    unfold WrappedJwtPublicKeySign.signAndEncode at hs
    rw [primary_map, primary_psetOf_none fun q hq' => hq ⟨q, hq'⟩] at hs
    cases hs

theorem encode_compact {env : JwtEnv F} {alg : PyStr} {customKid kid : Option PyStr} {t : RawJwt F}
    {sign : Bytes → Py Bytes} {compact : PyStr}
    (h : encodeWithKid env alg customKid sign t kid = .ok compact) :
    ∃ header payload signature, Compact compact header payload signature := by
  unfold encodeWithKid at h
  obtain ⟨hk, hhk, h⟩ := Jwt.bind_ok h
  obtain ⟨unsigned, hun, h⟩ := Jwt.bind_ok h
  obtain ⟨signature, hsig, h⟩ := Jwt.bind_ok h
  unfold createUnsignedCompact createHeader at hun
  obtain ⟨header, hh, hun⟩ := Jwt.bind_ok hun
  obtain ⟨_, halg, hh⟩ := Jwt.bind_ok hh
  obtain ⟨htext, hht, hh⟩ := Jwt.bind_ok hh
  obtain ⟨ptext, hpt, hun⟩ := Jwt.bind_ok hun
  obtain ⟨payload, hpl, hun⟩ := Jwt.bind_ok hun
  cases hun
  obtain ⟨c1, _⟩ := encodeText_ok hh
  obtain ⟨c2, _⟩ := encodeText_ok hpl
  have c3 := (encode_spec signature).1
  refine ⟨header, payload, base64Encode signature, ?_, c1, c2, c3⟩
  unfold createSignedCompact at h
  have hascii : ∀ c ∈ header ++ 46 :: payload ++ 46 :: base64Encode signature, c.toNat < 128 := by
    intro c hm
    simp only [List.append_assoc, List.mem_append, List.mem_cons, List.cons_append] at hm
    rcases hm with hm | rfl | hm | rfl | hm
    · exact UrlChar.ascii (c1 c hm)
    · decide
    · exact UrlChar.ascii (c2 c hm)
    · decide
    · exact UrlChar.ascii (c3 c hm)
  rw [utf8Decode_ascii _ hascii] at h
  exact (Except.ok.inj h).symm

theorem sign_compact (hl : Props.LawfulLibrary L) (hc : LawfulClasses isInst L) {h : KeysetHandle} {p : P}
    (hp : h.primitive isInst (jwtRegistry L isInst) L.signClass = .ok p) {seed : Seed} {raw : RawJwt F}
    {token : PyStr} (hs : (L.sign.view p).signAndEncode seed raw = .ok token) :
    ∃ header payload signature, Compact token header payload signature := by
  obtain ⟨kps, H⟩ := obtained_sign hl hc hp
  obtain ⟨k, o, hq, _⟩ := sign_primary H hs
  obtain ⟨alg, customKid, data, signer, h1, h2, h3, h4⟩ :=
    sign_primitive (jwtManagers (isInst := isInst) hl).sign (H.keys.2 _ hq.mem)
  have := sign_eq H hq seed raw
  rw [this, h4] at hs
  exact encode_compact hs

/-- The token that the program signs. -/
theorem program_token {env : JsonEnv F} {audience : PyStr} {now : Int} {raw : RawJwt F}
    (h : newRawJwt env { audiences := some [.str audience], expiration := some ⟨now + 100000000, utc⟩ } =
      .ok raw) :
    ∃ s : Int, raw = ⟨none, [(py! "aud", .list [.str audience]), (py! "exp", .int s)]⟩ ∧ 0 ≤ s ∧
      s ≤ 253402300799 ∧ StoredAs ⟨now + 100000000, utc⟩ s := by
  obtain ⟨_, hp, ht, hv⟩ := newRawJwt_ok h
  have hp : raw.payload = [(py! "aud", .list [.str audience]),
      (py! "exp", .int (intTimestamp ⟨now + 100000000, utc⟩))] := (Except.ok.inj hp).symm
  have ht : raw.typeHeader = none := ht
  have hr : 0 ≤ intTimestamp ⟨now + 100000000, utc⟩ ∧ intTimestamp ⟨now + 100000000, utc⟩ ≤ 253402300799 := by
    rcases hv.times (py! "exp") (.int (intTimestamp ⟨now + 100000000, utc⟩)) (.inl rfl)
        (by rw [hp]; rfl) with ⟨b, hb⟩ | ⟨k, hk, h4, h5⟩ | ⟨x, hx, _⟩
    · cases hb
    · cases hk; exact ⟨h4, h5⟩
    · cases hx
  refine ⟨_, ?_, hr.1, hr.2, storedAs _⟩
  cases raw
  simp only at hp ht
  rw [hp, ht]

theorem program_valid {audience : PyStr} (ha : ValidText audience) (s : Int) :
    ValidObjects (F := F) (.dict [(py! "aud", .list [.str audience]), (py! "exp", .int s)]) := by
  have text : ∀ s : PyStr, s.all isScalar = true → ValidText s := fun s h => List.all_eq_true.1 h
  intro d hd
  cases hd with
  | here =>
    intro k x hm
    simp only [List.mem_cons, Prod.mk.injEq, List.not_mem_nil, or_false] at hm
    rcases hm with ⟨rfl, rfl⟩ | ⟨rfl, rfl⟩
    · refine ⟨text _ (by decide), by rintro s ⟨⟩, ?_⟩
      rintro l s ⟨⟩ hs
      simp only [List.mem_cons, List.not_mem_nil, or_false, JVal.str.injEq] at hs
      rw [hs]; exact ha
    · exact ⟨text _ (by decide), by rintro s ⟨⟩, by rintro l s ⟨⟩⟩
  | value hm hd =>
    simp only [List.mem_cons, Prod.mk.injEq, List.not_mem_nil, or_false] at hm
    rcases hm with ⟨rfl, rfl⟩ | ⟨rfl, rfl⟩
    · cases hd with
      | item hm hd =>
        simp only [List.mem_cons, List.not_mem_nil, or_false] at hm
        subst hm
        cases hd
    · cases hd

/-- When such a token is valid. -/
theorem program_validate (fl : Floats F) (th : Option (JVal F)) (clock : Int) (audience audience' : PyStr) {s : Int} (h0 : 0 ≤ s)
    (h1 : s ≤ 253402300799) :
    validate fl clock (audienceValidator audience')
      ⟨th, [(py! "aud", .list [.str audience]), (py! "exp", .int s)]⟩ = .ok () ↔
    Representable ⟨clock, utc⟩ 0 ∧ clock < s * 1000000 ∧
      checkTypeHeader (audienceValidator audience') (⟨th, []⟩ : RawJwt F) = .ok () ∧ audience' = audience := by
  have ht : (⟨th, [(py! "aud", .list [.str audience]), (py! "exp", .int s)]⟩ : RawJwt F).time fl (py! "exp") =
      .ok ⟨s * 1000000, utc⟩ := by
    show toDatetime fl (.int s) = _
    unfold toDatetime toDatetime.inYears minWall maxWall
    simp only
    rw [if_pos (by omega)]
  have he : checkExpiration fl (audienceValidator audience') ⟨clock, utc⟩
      ⟨th, [(py! "aud", .list [.str audience]), (py! "exp", .int s)]⟩ = .ok () ↔
      Representable ⟨clock, utc⟩ 0 ∧ clock < s * 1000000 := by
    unfold checkExpiration
    rw [if_pos (show RawJwt.has _ _ = true from rfl), ht]
    show (DateTime.add ⟨clock, utc⟩ 0 >>= _) = _ ↔ _
    rw [bind_ok_iff]
    constructor
    · rintro ⟨d, h2, h3⟩
      obtain ⟨h4, rfl⟩ := (add_ok_iff _ _ _).1 h2
      refine ⟨h4, ?_⟩
      simp only [instant_utc] at h3
      by_cases hle : s * 1000000 ≤ clock + 0
      · rw [if_pos hle] at h3; cases h3
      · omega
    · rintro ⟨h2, h3⟩
      refine ⟨_, (add_ok_iff _ _ _).2 ⟨h2, rfl⟩, ?_⟩
      simp only [instant_utc]
      rw [if_neg (by omega)]
  have ha : checkAudience (audienceValidator audience')
      (⟨th, [(py! "aud", .list [.str audience]), (py! "exp", .int s)]⟩ : RawJwt F) = .ok () ↔
      audience' = audience := by
    show (if ([JVal.str audience] : List (JVal F)).any (isText · audience') = true then
      Except.ok () else .error Exc.jwtInvalidError) = .ok () ↔ _
    simp only [List.any_cons, List.any_nil, Bool.or_false, isText]
    by_cases hh : audience = audience'
    · simp [hh]
    · simp [hh, Ne.symm hh]
  unfold validate
  rw [bind_ok_iff]
  show (∃ a, checkExpiration fl _ ⟨clock, utc⟩ _ = .ok a ∧
      (checkTypeHeader (audienceValidator audience') (⟨th, []⟩ : RawJwt F) >>= fun _ =>
        checkAudience (audienceValidator audience')
          (⟨th, [(py! "aud", .list [.str audience]), (py! "exp", .int s)]⟩ : RawJwt F)) = .ok ()) ↔ _
  simp only [bind_ok_iff, ha]
  constructor
  · rintro ⟨_, h2, _, h3, h4⟩
    exact ⟨(he.1 h2).1, (he.1 h2).2, h3, h4⟩
  · rintro ⟨h2, h3, h4, h5⟩
    exact ⟨(), he.2 ⟨h2, h3⟩, (), h4, h5⟩

end

end Tink.Cli
