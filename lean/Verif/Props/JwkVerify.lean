import Verif.Props.JwkSet
import Verif.Props.JsonGrammar
import Verif.Props.TokenOrder
import Verif.Jwt.FreshLemmas

/-!
# C85: verifying with an exported JWK set
-/

namespace Tink
namespace Props
open Jwt Spec Json Jwk

section
variable {F P C : Type} [DecidableEq C] {isInst isInst' : P → C → Bool} {r r' : Registry P C}
  {h h' : KeysetHandle} {kps kps' : List (Key × P)} {p p' : P} {t t' : Nat} {ci c ci' c' : C} {env : JwtEnv F}
  {V V' : View P (JwtPublicKeyVerifyInternal F)} {W W' : View P (JwtPublicKeyVerify F)}
  {cc cc' : PStr → CcKeyManager PublicKeyVerify}

theorem _root_.Tink.Spec.PublicKey.verifyKey {kd : KeyData} {alg : PyStr} {a b : Bytes} {kid : Option PyStr}
    (h : PublicKey kd alg a b kid) : VerifyKey kd alg kid := by
  cases h with
  | ecdsa k h1 h2 h3 _ h4 => exact .ecdsa k h1 h2 h3 h4
  | rsaSsaPkcs1 k h1 h2 h3 _ h4 => exact .rsaSsaPkcs1 k h1 h2 h3 h4
  | rsaSsaPss k h1 h2 h3 _ h4 => exact .rsaSsaPss k h1 h2 h3 h4

theorem RightToken.check {alg : PyStr} {kid customKid : Option PyStr} {check check' : Bytes → Bytes → Py Unit}
    (hc : ∀ sig d, check sig d = .ok () → check' sig d = .ok ()) {clock : Int} {v : JwtValidator}
    {compact : PyStr} {a : VerifiedJwt F} (h : RightToken env alg kid customKid check clock v compact a) :
    RightToken env alg kid customKid check' clock v compact a := by
  obtain ⟨header, payload, signature, sig, d, h1, ⟨h2, h3⟩, h4⟩ := h
  exact ⟨header, payload, signature, sig, d, h1, ⟨h2, hc _ _ h3⟩, h4⟩

/-- A part of a token is read in one way only. -/
theorem partText_unique {env : JsonEnv F} {part : Bytes} {v w : JVal F} (hv : PartText env part v)
    (hw : PartText env part w) : v = w := by
  obtain ⟨b, text, h1, h2, h3⟩ := hv
  obtain ⟨b', text', g1, g2, g3⟩ := hw
  have hb : b = b' := Except.ok.inj (((base64Url_iff part b).2 h1).symm.trans ((base64Url_iff part b').2 g1))
  subst hb
  have ht : text = text' := Except.ok.inj (((utf8Text_iff b text).2 h2).symm.trans ((utf8Text_iff b text').2 g2))
  subst ht
  exact C81_unambiguous env h3 g3

/-- Imported keys have no kid that their id stands for. -/
theorem keyKid_imported {k : Key} (h : ImportedKey k) : keyKid k = none := by
  unfold keyKid
  rw [if_neg]
  rw [h.pfx]; decide

/-- C85.  The keyset imported from the JWK set exported from `h` accepts a token exactly if it is right for an
enabled key of `h`, except that the kid of the key is allowed to be missing from the header. -/
theorem C85_imported_iff (hl : LawfulFloats env.json.floats) (hu : LawfulUpper env.upper)
    (H : Obtained isInst (jwtVerifyWrapper V W t ci c) r h c kps p) (hm : VerifyManagers V ci env cc r)
    (H' : Obtained isInst' (jwtVerifyWrapper V' W' t' ci' c') r' h' c' kps' p')
    (hm' : VerifyManagers V' ci' env cc' r')
    {text : PyStr} {draws : List UInt32} (hf : fromPublicKeysetHandle env.json h = .ok text)
    (ht : toPublicKeysetHandle env.json draws text = some (.ok h'))
    (hs : SameVerifiers cc cc')
    (hcc' : ∀ url data verifier, (cc' url).primitive data = .ok verifier → TinkErrorsOnly verifier.verify)
    (clock : Int) (compact : PyStr) (v : JwtValidator) (a : VerifiedJwt F) :
    (W'.view p').verifyAndDecode clock compact v = .ok a ↔
    ∃ k ∈ h.keyset.key, Enabled k ∧ ∃ alg customKid data verifier, VerifyKey k.data alg customKid ∧
      k.data.serializeToString = .ok data ∧ (cc k.data.typeUrl).primitive data = .ok verifier ∧
      RightToken env alg none (exportedKid k customKid) verifier.verify clock v compact a := by
  obtain ⟨hcor, _⟩ := C51_round_trip hl hf ht
  rw [C82_signature_iff H' hm' hu hcc']
  constructor
  · rintro ⟨k', hk', he', alg, customKid', data', verifier', h1, h2, h3, h4⟩
    obtain ⟨k, hk, alg1, x, y, kid, g1, g2, g3⟩ := hcor.right k' hk'
    rw [List.mem_filter, decide_eq_true_eq] at hk
    obtain ⟨rfl, rfl⟩ := g2.verifyKey.unique h1
    obtain ⟨o, ho⟩ := enabled_primitive H.keys hk.1 hk.2
    obtain ⟨alg2, kid2, data, verifier, e1, e2, e3, _⟩ := verify_primitive hm (H.keys.2 _ ho)
    simp only at e1 e2 e3
    refine ⟨k, hk.1, hk.2, alg1, kid, data, verifier, g1.verifyKey, e2, e3, ?_⟩
    rw [keyKid_imported g3] at h4
    exact RightToken.check (fun sig d hv => (hs _ _ _ _ _ _ _ _ _ _ _ g1 g2 e2 e3 h2 h3 sig d).2 hv) h4
  · rintro ⟨k, hk, he, alg, customKid, data, verifier, h1, h2, h3, h4⟩
    obtain ⟨k', hk', alg1, x, y, kid, g1, g2, g3⟩ := hcor.left k (by
      rw [List.mem_filter, decide_eq_true_eq]; exact ⟨hk, he⟩)
    obtain ⟨rfl, rfl⟩ := g1.verifyKey.unique h1
    have he' : Enabled k' := g3.status
    obtain ⟨o', ho'⟩ := enabled_primitive H'.keys hk' he'
    obtain ⟨alg2, kid2, data', verifier', e1, e2, e3, _⟩ := verify_primitive hm' (H'.keys.2 _ ho')
    simp only at e1 e2 e3
    refine ⟨k', hk', he', alg1, _, data', verifier', g2.verifyKey, e2, e3, ?_⟩
    rw [keyKid_imported g3]
    exact RightToken.check (fun sig d hv => (hs _ _ _ _ _ _ _ _ _ _ _ g1 g2 h2 h3 e2 e3 sig d).1 hv) h4

/-- C85.  Every token that a public keyset accepts is accepted, with the same result, by the keyset imported from
its JWK set. -/
theorem C85_accepted_too (hl : LawfulFloats env.json.floats) (hu : LawfulUpper env.upper)
    (H : Obtained isInst (jwtVerifyWrapper V W t ci c) r h c kps p) (hm : VerifyManagers V ci env cc r)
    (H' : Obtained isInst' (jwtVerifyWrapper V' W' t' ci' c') r' h' c' kps' p')
    (hm' : VerifyManagers V' ci' env cc' r')
    {text : PyStr} {draws : List UInt32} (hf : fromPublicKeysetHandle env.json h = .ok text)
    (ht : toPublicKeysetHandle env.json draws text = some (.ok h'))
    (hs : SameVerifiers cc cc')
    (hcc' : ∀ url data verifier, (cc' url).primitive data = .ok verifier → TinkErrorsOnly verifier.verify)
    {clock : Int} {compact : PyStr} {v : JwtValidator} {a : VerifiedJwt F}
    (ha : (W.view p).verifyAndDecode clock compact v = .ok a) :
    (W'.view p').verifyAndDecode clock compact v = .ok a := by
  rw [C85_imported_iff hl hu H hm H' hm' hf ht hs hcc']
  obtain ⟨k, hk, he, alg, customKid, data, verifier, h1, h2, h3, h4⟩ := C82_signature_accepted H hm hu ha
  refine ⟨k, hk, he, alg, customKid, data, verifier, h1, h2, h3, ?_⟩
  obtain ⟨header, payload, signature, sig, d, g1, g2, ⟨g3, g4, g5, g6⟩, g7⟩ := h4
  refine ⟨header, payload, signature, sig, d, g1, g2, ⟨g3, g4, ⟨g5.alg, g5.crit, by simp, ?_⟩, .inl rfl⟩, g7⟩
  intro kid hkid
  unfold exportedKid at hkid
  cases hkk : keyKid k with
  | some s => rw [hkk] at hkid; cases hkid; exact .inr (g5.kid _ hkk)
  | none => rw [hkk] at hkid; exact g5.customKid _ hkid

/-- C85.  And the other way round for tokens with a kid, unless a TINK key has a custom kid too. -/
theorem C85_accepted_before (hl : LawfulFloats env.json.floats) (hu : LawfulUpper env.upper)
    (H : Obtained isInst (jwtVerifyWrapper V W t ci c) r h c kps p) (hm : VerifyManagers V ci env cc r)
    (H' : Obtained isInst' (jwtVerifyWrapper V' W' t' ci' c') r' h' c' kps' p')
    (hm' : VerifyManagers V' ci' env cc' r')
    {text : PyStr} {draws : List UInt32} (hf : fromPublicKeysetHandle env.json h = .ok text)
    (ht : toPublicKeysetHandle env.json draws text = some (.ok h'))
    (hs : SameVerifiers cc cc')
    (hcc : ∀ url data verifier, (cc url).primitive data = .ok verifier → TinkErrorsOnly verifier.verify)
    (hcc' : ∀ url data verifier, (cc' url).primitive data = .ok verifier → TinkErrorsOnly verifier.verify)
    (hkids : ∀ k ∈ h.keyset.key, Enabled k → k.outputPrefixType = OutputPrefixType.TINK →
      ∀ alg customKid, VerifyKey k.data alg customKid → customKid = none)
    {clock : Int} {compact : PyStr} {v : JwtValidator} {a : VerifiedJwt F}
    {header payload signature : Bytes} (hc : Compact compact header payload signature)
    {d : List (PyStr × JVal F)} (hd : PartText env.json header (.dict d))
    (hkid : PyDict.get? d (py! "kid") ≠ none)
    (ha : (W'.view p').verifyAndDecode clock compact v = .ok a) :
    (W.view p).verifyAndDecode clock compact v = .ok a := by
  rw [C85_imported_iff hl hu H hm H' hm' hf ht hs hcc'] at ha
  rw [C82_signature_iff H hm hu hcc]
  obtain ⟨k, hk, he, alg, customKid, data, verifier, h1, h2, h3, h4⟩ := ha
  refine ⟨k, hk, he, alg, customKid, data, verifier, h1, h2, h3, ?_⟩
  obtain ⟨header', payload', signature', sig, d', g1, g2, ⟨g3, g4, g5, g6⟩, g7⟩ := h4
  obtain ⟨rfl, _⟩ := Compact.unique hc g1
  have hdd : d = d' := by
    have := partText_unique hd g3
    injection this
  subst hdd
  refine ⟨_, payload', signature', sig, d, g1, g2, ⟨g3, g4, ⟨g5.alg, g5.crit, ?_, ?_⟩, ?_⟩, g7⟩
  · intro s hks
    have := g5.customKid s (by unfold exportedKid; rw [hks])
    rcases this with h5 | h5
    · exact absurd h5 hkid
    · exact h5
  · intro s hcs
    cases hkk : keyKid k with
    | some s' =>
      have : customKid = none := hkids k hk he (by
        unfold keyKid at hkk
        by_cases hp : k.outputPrefixType = OutputPrefixType.TINK
        · exact hp
        · rw [if_neg hp] at hkk; cases hkk) _ _ h1
      rw [this] at hcs; cases hcs
    | none => exact g5.customKid s (by unfold exportedKid; rw [hkk]; exact hcs)
  · cases hkk : keyKid k with
    | some s' =>
      right
      exact hkids k hk he (by
        unfold keyKid at hkk
        by_cases hp : k.outputPrefixType = OutputPrefixType.TINK
        · exact hp
        · rw [if_neg hp] at hkk; cases hkk) _ _ h1
    | none => exact .inl rfl

theorem imported_serializes {env : JsonEnv F} {draws : List UInt32} {text : PyStr} {h : KeysetHandle}
    (ht : toPublicKeysetHandle env draws text = some (.ok h)) :
    Valid h.keyset ∧ ∃ b, h.keyset.serializeToString = .ok b := by
  unfold toPublicKeysetHandle at ht
  cases h1 : (do let v ← loadsJwkSet env text; jwksOf v : Py (List (JVal F))) with
  | error e => rw [h1] at ht; cases ht
  | ok vs =>
    rw [h1] at ht
    simp only at ht
    cases h2 : importKeys vs draws {} with
    | none => rw [h2] at ht; cases ht
    | some r =>
      cases r with
      | error e => rw [h2] at ht; cases ht
      | ok ks =>
        rw [h2] at ht
        simp only [Option.some.injEq] at ht
        obtain ⟨rfl, hv⟩ := parseImported_ok ht
        unfold parseImported at ht
        obtain ⟨b, hb, _⟩ := bind_ok_iff.1 ht
        exact ⟨hv, b, hb⟩

/-- C85.  In a new process that calls `register_jwt_signature`, the keyset imported from the JWK set of a keyset
that can verify can verify too. -/
theorem C85_imported_works {L : Jwt.Library F P C} (hl : LawfulLibrary L) (hc : LawfulClasses isInst' L)
    (hlf : LawfulFloats env.json.floats)
    (H : Obtained isInst (jwtVerifyWrapper V W t ci c) r h c kps p) (hm : VerifyManagers V ci env cc r)
    {text : PyStr} {draws : List UInt32} (hf : fromPublicKeysetHandle env.json h = .ok text)
    (ht : toPublicKeysetHandle env.json draws text = some (.ok h')) (hs : TakesKeys cc L.ccVerify) :
    ∃ r' kps' p', registerJwtSignature isInst' L {} = (r', .ok ()) ∧
      Obtained isInst' (jwtVerifyWrapper L.verifyInternal L.verify L.verifyWrapperType L.verifyInternalClass
        L.verifyClass) r' h' L.verifyClass kps' p' := by
  obtain ⟨hcor, _⟩ := C51_round_trip hlf hf ht
  obtain ⟨hv, b, hb⟩ := imported_serializes ht
  obtain ⟨kps', p', H'⟩ := verify_obtained (L := L) hc hv (by
    intro k' hk' _
    obtain ⟨k, hk, alg, x, y, kid, g1, g2, g3⟩ := hcor.right k' hk'
    rw [List.mem_filter, decide_eq_true_eq] at hk
    obtain ⟨o, ho⟩ := enabled_primitive H.keys hk.1 hk.2
    obtain ⟨_, _, data, verifier, _, e2, e3, _⟩ := verify_primitive hm (H.keys.2 _ ho)
    obtain ⟨data', hd'⟩ := keyData_serializes hb hk'
    obtain ⟨v', hv'⟩ := hs _ _ _ _ _ _ _ _ _ _ g1 g2 e2 e3 hd'
    exact ⟨.inl g3.pfx, alg, _, data', v', g2.verifyKey, hd', hv'⟩)
  exact ⟨_, kps', p', register_fresh hl hc, H'⟩

end

/-! ## Examples -/

section
open ToyJwt

theorem toy_shared {kd : KeyData} {alg : PyStr} {a b : Bytes} {kid : Option PyStr} (h : PublicKey kd alg a b kid)
    {data v : Bytes} (hd : kd.serializeToString = .ok data) (hv : shared data = .ok v) : v = a := by
  unfold shared at hv
  rw [KeyData.fromString_serializeToString hd] at hv
  simp only [bind, Except.bind] at hv
  cases h with
  | ecdsa k u hk _ hn _ =>
    rw [if_neg (by rw [u]; decide), if_neg (by rw [u]; decide), if_pos (show kd.typeUrl = JWT_ECDSA_PUBLIC_KEY_TYPE from u), hk] at hv
    cases hv
    exact hn.1
  | rsaSsaPkcs1 k u =>
    rw [if_neg (by rw [u]; decide), if_neg (by rw [u]; decide), if_neg (by rw [u]; decide)] at hv
    cases hv
  | rsaSsaPss k u =>
    rw [if_neg (by rw [u]; decide), if_neg (by rw [u]; decide), if_neg (by rw [u]; decide)] at hv
    cases hv

theorem toy_same : SameVerifiers library.ccVerify library.ccVerify := by
  intro kd kd' alg a b kid kid' data data' v v' h h' h1 h2 h3 h4 sig d
  obtain ⟨x, hx, h2⟩ := bind_ok h2
  obtain ⟨y, hy, h4⟩ := bind_ok h4
  cases h2; cases h4
  rw [toy_shared h h1 hx, toy_shared h' h3 hy]

/-- The JWK set of the keyset with an ES256 key with prefix and an ES384 key with a custom kid. -/
def ecText : PyStr := ToyJwt.value [] (fromPublicKeysetHandle ToyJson.env ⟨verifyKeyset⟩)

theorem ecText_eq : fromPublicKeysetHandle library.env.json ⟨verifyKeyset⟩ = .ok ecText :=
  value_ok (by decide +kernel)

/-- What is imported from it. -/
def ecImported : Keyset :=
  match toPublicKeysetHandle ToyJson.env [3, 3, 4] ecText with
  | some (.ok h) => h.keyset
  | _ => {}

theorem ecImported_eq : toPublicKeysetHandle library.env.json [3, 3, 4] ecText = some (.ok ⟨ecImported⟩) := by
  decide +kernel

theorem importedObtained :
    Obtained isInst (jwtVerifyWrapper library.verifyInternal library.verify 6 Cls.verifyInternal .verify)
    registry ⟨ecImported⟩ .verify (objects ecImported .verifyInternal) (object ecImported .verify) :=
  obtained rfl (by decide +kernel) (by decide +kernel)

example := C85_imported_iff ToyJson.lawful lawfulUpper verifyObtained toyManagers.verify importedObtained
  toyManagers.verify ecText_eq ecImported_eq toy_same toy_signature_errors clock signCompact validator

/-- The token of the toy world is accepted by both. -/
example : ∃ a, (library.verify.view (object verifyKeyset .verify)).verifyAndDecode clock signCompact validator =
      .ok a ∧
    (library.verify.view (object ecImported .verify)).verifyAndDecode clock signCompact validator = .ok a := by
  have h : _ = Except.ok _ := value_ok (d := ⟨⟨none, []⟩⟩) (x := (library.verify.view
    (object verifyKeyset .verify)).verifyAndDecode clock signCompact validator) (by decide +kernel)
  exact ⟨_, h, C85_accepted_too ToyJson.lawful lawfulUpper verifyObtained toyManagers.verify importedObtained
    toyManagers.verify ecText_eq ecImported_eq toy_same toy_signature_errors h⟩

/-- A token with a header, signed with the first key. -/
def signedWith (header : Bytes) : PyStr :=
  let unsigned := base64Encode header ++ 46 :: base64Encode (by! "{\"exp\":1700000000}")
  (unsigned ++ 46 :: base64Encode ([6] ++ unsigned)).map UInt8.toNat

theorem signedWith_compact (header : Bytes) : Compact (signedWith header) (base64Encode header)
    (base64Encode (by! "{\"exp\":1700000000}")) (base64Encode ([6] ++ (base64Encode header ++
      46 :: base64Encode (by! "{\"exp\":1700000000}")))) :=
  ⟨rfl, fun c hc => (encode_spec _).1 c hc, fun c hc => (encode_spec _).1 c hc,
    fun c hc => (encode_spec _).1 c hc⟩

/-- The header of a token of the first key, with its kid. -/
def kidHeader : Bytes := by! "{\"alg\":\"ES256\",\"typ\":\"JWT\",\"kid\":\"AAAABQ\"}"

set_option maxRecDepth 20000 in
theorem kidHeader_text : PartText library.env.json (base64Encode kidHeader) (.dict [(py! "alg", .str (py! "ES256")),
    (py! "typ", .str (py! "JWT")), (py! "kid", .str (py! "AAAABQ"))]) :=
  ((C82_part library.env.json (base64Encode kidHeader) _).1 ⟨_, _, rfl, rfl, rfl⟩).1

/-- The hypotheses of `C85_accepted_before`. -/
example : ∃ a, (library.verify.view (object ecImported .verify)).verifyAndDecode clock (signedWith kidHeader)
      validator = .ok a ∧
    (library.verify.view (object verifyKeyset .verify)).verifyAndDecode clock (signedWith kidHeader) validator =
      .ok a := by
  have h : _ = Except.ok _ := value_ok (d := ⟨⟨none, []⟩⟩) (x := (library.verify.view
    (object ecImported .verify)).verifyAndDecode clock (signedWith kidHeader) validator) (by decide +kernel)
  refine ⟨_, h, C85_accepted_before ToyJson.lawful lawfulUpper verifyObtained toyManagers.verify importedObtained
    toyManagers.verify ecText_eq ecImported_eq toy_same toy_signature_errors toy_signature_errors ?_
    (signedWith_compact kidHeader) kidHeader_text (by decide) h⟩
  intro k hk _ hp alg customKid hv
  simp only [verifyKeyset, List.mem_cons, List.not_mem_nil, or_false] at hk
  rcases hk with rfl | rfl
  · exact (hv.unique verifyKey1_public.verifyKey).2
  · exact absurd hp (by decide)

/-- C85, violation of the converse: a token without a kid, signed with a key with prefix, is refused by the keyset
but accepted by what is imported from its JWK set. -/
theorem C85_kid_not_demanded : ∃ (ks ks' : Keyset) (text : PyStr) (draws : List UInt32) (p p' : Prim) (compact : PyStr)
    (a : VerifiedJwt Int),
    Obtained isInst (jwtVerifyWrapper library.verifyInternal library.verify 6 Cls.verifyInternal .verify) registry
      ⟨ks⟩ .verify (objects ks .verifyInternal) p ∧
    Obtained isInst (jwtVerifyWrapper library.verifyInternal library.verify 6 Cls.verifyInternal .verify) registry
      ⟨ks'⟩ .verify (objects ks' .verifyInternal) p' ∧
    fromPublicKeysetHandle library.env.json ⟨ks⟩ = .ok text ∧
    toPublicKeysetHandle library.env.json draws text = some (.ok ⟨ks'⟩) ∧
    Rejects ((library.verify.view p).verifyAndDecode clock compact validator) ∧
    (library.verify.view p').verifyAndDecode clock compact validator = .ok a :=
  ⟨verifyKeyset, ecImported, ecText, [3, 3, 4], _, _, signedWith (by! "{\"alg\":\"ES256\",\"typ\":\"JWT\"}"), _,
    verifyObtained, importedObtained, ecText_eq, ecImported_eq, rejects_iff.1 (by decide +kernel),
    value_ok (d := ⟨⟨none, []⟩⟩) (by decide +kernel)⟩

theorem toy_classes : LawfulClasses isInst library := ⟨fun _ => rfl, fun _ => rfl, fun _ => rfl, fun _ => rfl, by decide⟩

theorem toy_takes : TakesKeys library.ccVerify library.ccVerify := by
  intro kd kd' alg a b kid kid' data data' v h h' h1 h2 h3
  obtain ⟨x, hx, _⟩ := bind_ok h2
  have hk : ∃ v', shared data' = .ok v' := by
    unfold shared at hx ⊢
    rw [KeyData.fromString_serializeToString h1] at hx
    rw [KeyData.fromString_serializeToString h3]
    simp only [bind, Except.bind] at hx ⊢
    cases h' with
    | ecdsa k u hk =>
      rw [if_neg (by rw [u]; decide), if_neg (by rw [u]; decide),
        if_pos (show kd'.typeUrl = JWT_ECDSA_PUBLIC_KEY_TYPE from u), hk]
      exact ⟨_, rfl⟩
    | rsaSsaPkcs1 k u _ ha =>
      exfalso
      cases h with
      | ecdsa k' _ _ ha' =>
        simp only [List.mem_cons, Prod.mk.injEq, List.not_mem_nil, or_false] at ha ha'
        rcases ha with ⟨_, rfl⟩ | ⟨_, rfl⟩ | ⟨_, rfl⟩ <;>
          rcases ha' with ⟨_, he⟩ | ⟨_, he⟩ | ⟨_, he⟩ <;> exact absurd he (by decide)
      | rsaSsaPkcs1 k' u =>
        rw [if_neg (by rw [u]; decide), if_neg (by rw [u]; decide), if_neg (by rw [u]; decide)] at hx
        cases hx
      | rsaSsaPss k' u =>
        rw [if_neg (by rw [u]; decide), if_neg (by rw [u]; decide), if_neg (by rw [u]; decide)] at hx
        cases hx
    | rsaSsaPss k u _ ha =>
      exfalso
      cases h with
      | ecdsa k' _ _ ha' =>
        simp only [List.mem_cons, Prod.mk.injEq, List.not_mem_nil, or_false] at ha ha'
        rcases ha with ⟨_, rfl⟩ | ⟨_, rfl⟩ | ⟨_, rfl⟩ <;>
          rcases ha' with ⟨_, he⟩ | ⟨_, he⟩ | ⟨_, he⟩ <;> exact absurd he (by decide)
      | rsaSsaPkcs1 k' u =>
        rw [if_neg (by rw [u]; decide), if_neg (by rw [u]; decide), if_neg (by rw [u]; decide)] at hx
        cases hx
      | rsaSsaPss k' u =>
        rw [if_neg (by rw [u]; decide), if_neg (by rw [u]; decide), if_neg (by rw [u]; decide)] at hx
        cases hx
  obtain ⟨v', hv'⟩ := hk
  refine ⟨{ verify := check v' }, ?_⟩
  show (do let v ← shared data'; return _ : Py PublicKeyVerify) = _
  rw [hv']
  rfl

example := C85_imported_works toyLawful toy_classes ToyJson.lawful verifyObtained toyManagers.verify ecText_eq
  ecImported_eq toy_takes

/-- A keyset with a key with prefix that also has a custom kid. -/
def twoKids : Keyset := { primaryKeyId := 5, key := [ecdsaPublicKey JwtEcdsaAlgorithm.ES256 [6] (some ['y']) 5
  OutputPrefixType.TINK] }

def twoKidsText : PyStr := ToyJwt.value [] (fromPublicKeysetHandle ToyJson.env ⟨twoKids⟩)

def twoKidsImported : Keyset :=
  match toPublicKeysetHandle ToyJson.env [3] twoKidsText with
  | some (.ok h) => h.keyset
  | _ => {}

/-- C85, violation of the converse for such keys: they refuse every token, but what is imported does not. -/
theorem C85_two_kids : ∃ (ks ks' : Keyset) (text : PyStr) (draws : List UInt32) (p p' : Prim) (compact : PyStr)
    (a : VerifiedJwt Int),
    Obtained isInst (jwtVerifyWrapper library.verifyInternal library.verify 6 Cls.verifyInternal .verify) registry
      ⟨ks⟩ .verify (objects ks .verifyInternal) p ∧
    Obtained isInst (jwtVerifyWrapper library.verifyInternal library.verify 6 Cls.verifyInternal .verify) registry
      ⟨ks'⟩ .verify (objects ks' .verifyInternal) p' ∧
    fromPublicKeysetHandle library.env.json ⟨ks⟩ = .ok text ∧
    toPublicKeysetHandle library.env.json draws text = some (.ok ⟨ks'⟩) ∧
    (∃ header payload signature, Compact compact header payload signature ∧ ∃ d,
      PartText library.env.json header (.dict d) ∧ PyDict.get? d (py! "kid") ≠ none) ∧
    Rejects ((library.verify.view p).verifyAndDecode clock compact validator) ∧
    (library.verify.view p').verifyAndDecode clock compact validator = .ok a :=
  ⟨twoKids, twoKidsImported, twoKidsText, [3], _, _, signedWith kidHeader, _,
    obtained rfl (by decide +kernel) (by decide +kernel), obtained rfl (by decide +kernel) (by decide +kernel),
    value_ok (by decide +kernel), by decide +kernel,
    ⟨_, _, _, signedWith_compact kidHeader, _, kidHeader_text, by decide⟩, rejects_iff.1 (by decide +kernel),
    value_ok (d := ⟨⟨none, []⟩⟩) (by decide +kernel)⟩

end

end Props
end Tink
