import Verif.Props.JwkVerify
import Verif.Props.RotationJwtWorks

/-!
# C111: publishing the public keys of a rotated keyset as a JWK set

The C++ key managers are those of `Cc/JwtSignatures.lean`, over any lawful BoringSSL.
-/

namespace Tink.Props
open Spec Cc Jwt Json Jwk

/-! ## What a JWK carries -/

/-- The public key for an algorithm with its two numbers. -/
inductive JwsNumbers (a b : Bytes) : PyStr → PubKey → Prop
  | ecdsa {n alg g hash} : JwsEcdsa n alg g hash →
    JwsNumbers a b alg (.ecdsa g a b hash EcdsaSignatureEncoding.IEEE_P1363)
  | rsaPkcs1 {n alg hash} : JwsPkcs1 n alg hash → JwsNumbers a b alg (.rsaPkcs1 a b hash)
  | rsaPss {n alg hash salt} : JwsPss n alg hash salt → JwsNumbers a b alg (.rsaPss a b hash hash salt)

theorem jwsNumbers_unique {a b : Bytes} {alg : PyStr} {v w : PubKey} (h : JwsNumbers a b alg v)
    (h' : JwsNumbers a b alg w) : v = w := by
  cases h with
  | ecdsa h1 => cases h1 <;> cases h' with
    | ecdsa h2 => cases h2; rfl
    | rsaPkcs1 h2 => cases h2
    | rsaPss h2 => cases h2
  | rsaPkcs1 h1 => cases h1 <;> cases h' with
    | ecdsa h2 => cases h2
    | rsaPkcs1 h2 => cases h2; rfl
    | rsaPss h2 => cases h2
  | rsaPss h1 => cases h1 <;> cases h' with
    | ecdsa h2 => cases h2
    | rsaPkcs1 h2 => cases h2
    | rsaPss h2 => cases h2; rfl

theorem jwsEcdsa_name {n : EnumVal} {alg alg' : PyStr} {g : EcGroup} {hash : EnumVal} (h : JwsEcdsa n alg' g hash)
    (ht : (n, alg) ∈ [((1 : EnumVal), py! "ES256"), (2, py! "ES384"), (3, py! "ES512")]) : alg' = alg := by
  cases h <;> · simp only [List.mem_cons, List.not_mem_nil, or_false, Prod.mk.injEq] at ht
                rcases ht with ⟨h, rfl⟩ | ⟨h, rfl⟩ | ⟨h, rfl⟩ <;> first | rfl | exact absurd h (by decide)

theorem jwsPkcs1_name {n : EnumVal} {alg alg' : PyStr} {hash : EnumVal} (h : JwsPkcs1 n alg' hash)
    (ht : (n, alg) ∈ [((1 : EnumVal), py! "RS256"), (2, py! "RS384"), (3, py! "RS512")]) : alg' = alg := by
  cases h <;> · simp only [List.mem_cons, List.not_mem_nil, or_false, Prod.mk.injEq] at ht
                rcases ht with ⟨h, rfl⟩ | ⟨h, rfl⟩ | ⟨h, rfl⟩ <;> first | rfl | exact absurd h (by decide)

theorem jwsPss_name {n : EnumVal} {alg alg' : PyStr} {hash : EnumVal} {salt : Int} (h : JwsPss n alg' hash salt)
    (ht : (n, alg) ∈ [((1 : EnumVal), py! "PS256"), (2, py! "PS384"), (3, py! "PS512")]) : alg' = alg := by
  cases h <;> · simp only [List.mem_cons, List.not_mem_nil, or_false, Prod.mk.injEq] at ht
                rcases ht with ⟨h, rfl⟩ | ⟨h, rfl⟩ | ⟨h, rfl⟩ <;> first | rfl | exact absurd h (by decide)

/-- The two ways of saying which public key is stored. -/
theorem jwsPublic_numbers {kd : KeyData} {alg : PyStr} {a b : Bytes} {kid : Option PyStr} {i : JwsInfo} {v : PubKey}
    (h : PublicKey kd alg a b kid) (hv : JwsPublicKey kd i v) : i = ⟨alg, kid⟩ ∧ JwsNumbers a b alg v := by
  obtain ⟨url, value, km⟩ := kd
  have hv : PubKey.JwsStoredIn url value i v := hv
  cases h with
  | ecdsa k h1 h2 h3 h4 h5 =>
    dsimp only at h1 h2
    cases hv with
    | ecdsa g1 g2 =>
      cases g2 with
      | mk g3 g4 =>
        cases h2.symm.trans g1
        obtain rfl := jwsEcdsa_name g4 h3
        obtain ⟨rfl, rfl⟩ := h4
        subst h5
        exact ⟨rfl, .ecdsa g4⟩
    | rsaPkcs1 => exact absurd h1 (by decide)
    | rsaPss => exact absurd h1 (by decide)
  | rsaSsaPkcs1 k h1 h2 h3 h4 h5 =>
    dsimp only at h1 h2
    cases hv with
    | rsaPkcs1 g1 g2 =>
      cases g2 with
      | mk g3 g4 =>
        cases h2.symm.trans g1
        obtain rfl := jwsPkcs1_name g4 h3
        obtain ⟨rfl, rfl⟩ := h4
        subst h5
        exact ⟨rfl, .rsaPkcs1 g4⟩
    | ecdsa => exact absurd h1 (by decide)
    | rsaPss => exact absurd h1 (by decide)
  | rsaSsaPss k h1 h2 h3 h4 h5 =>
    dsimp only at h1 h2
    cases hv with
    | rsaPss g1 g2 =>
      cases g2 with
      | mk g3 g4 =>
        cases h2.symm.trans g1
        obtain rfl := jwsPss_name g4 h3
        obtain ⟨rfl, rfl⟩ := h4
        subst h5
        exact ⟨rfl, .rsaPss g4⟩
    | ecdsa => exact absurd h1 (by decide)
    | rsaPkcs1 => exact absurd h1 (by decide)

theorem jwsEcdsa_mem {n : EnumVal} {alg : PyStr} {g : EcGroup} {hash : EnumVal} (h : JwsEcdsa n alg g hash) :
    (n, alg) ∈ [((1 : EnumVal), py! "ES256"), (2, py! "ES384"), (3, py! "ES512")] := by
  cases h <;> simp

theorem jwsPkcs1_mem {n : EnumVal} {alg : PyStr} {hash : EnumVal} (h : JwsPkcs1 n alg hash) :
    (n, alg) ∈ [((1 : EnumVal), py! "RS256"), (2, py! "RS384"), (3, py! "RS512")] := by
  cases h <;> simp

theorem jwsPss_mem {n : EnumVal} {alg : PyStr} {hash : EnumVal} {salt : Int} (h : JwsPss n alg hash salt) :
    (n, alg) ∈ [((1 : EnumVal), py! "PS256"), (2, py! "PS384"), (3, py! "PS512")] := by
  cases h <;> simp

/-- Every stored public key has an algorithm and two numbers. -/
theorem jwsPublic_publicKey {kd : KeyData} {i : JwsInfo} {v : PubKey} (hv : JwsPublicKey kd i v) :
    ∃ alg a b kid, PublicKey kd alg a b kid := by
  obtain ⟨url, value, km⟩ := kd
  have hv : PubKey.JwsStoredIn url value i v := hv
  cases hv with
  | ecdsa g1 g2 =>
    cases g2 with
    | mk g3 g4 => exact ⟨_, _, _, _, .ecdsa _ rfl g1 (jwsEcdsa_mem g4) ⟨rfl, rfl⟩ rfl⟩
  | rsaPkcs1 g1 g2 =>
    cases g2 with
    | mk g3 g4 => exact ⟨_, _, _, _, .rsaSsaPkcs1 _ rfl g1 (jwsPkcs1_mem g4) ⟨rfl, rfl⟩ rfl⟩
  | rsaPss g1 g2 =>
    cases g2 with
    | mk g3 g4 => exact ⟨_, _, _, _, .rsaSsaPss _ rfl g1 (jwsPss_mem g4) ⟨rfl, rfl⟩ rfl⟩

section
variable {F : Type}

/-- Imported keys are of the version that the C++ key managers take. -/
theorem keyFor_jws {alg : PyStr} {a b : Bytes} {kid : Option PStr} {k : Key} (h : keyFor alg a b kid = .ok k) :
    ∃ i v, JwsPublicKey k.data i v := by
  unfold keyFor at h
  split at h
  · rename_i i h0
    obtain ⟨value, h1, rfl⟩ := wrapped_ok h
    obtain ⟨crv, ht⟩ := ecdsaNames_iff h0
    have h3 := (ecdsa_table ht).2.2.2.1
    have h2 := JwtEcdsaPublicKey.fromString_serializeToString h1
    simp only [List.mem_cons, List.not_mem_nil, or_false, Prod.mk.injEq] at h3
    rcases h3 with ⟨rfl, rfl⟩ | ⟨rfl, rfl⟩ | ⟨rfl, rfl⟩
    · exact ⟨_, _, .ecdsa h2 (.mk rfl .es256)⟩
    · exact ⟨_, _, .ecdsa h2 (.mk rfl .es384)⟩
    · exact ⟨_, _, .ecdsa h2 (.mk rfl .es512)⟩
  · rename_i i h0
    obtain ⟨value, h1, rfl⟩ := wrapped_ok h
    have h3 := pkcs1Names_iff h0
    have h2 := JwtRsaSsaPkcs1PublicKey.fromString_serializeToString h1
    simp only [List.mem_cons, List.not_mem_nil, or_false, Prod.mk.injEq] at h3
    rcases h3 with ⟨rfl, rfl⟩ | ⟨rfl, rfl⟩ | ⟨rfl, rfl⟩
    · exact ⟨_, _, .rsaPkcs1 h2 (.mk rfl .rs256)⟩
    · exact ⟨_, _, .rsaPkcs1 h2 (.mk rfl .rs384)⟩
    · exact ⟨_, _, .rsaPkcs1 h2 (.mk rfl .rs512)⟩
  · rename_i i h0
    obtain ⟨value, h1, rfl⟩ := wrapped_ok h
    have h3 := pssNames_iff h0
    have h2 := JwtRsaSsaPssPublicKey.fromString_serializeToString h1
    simp only [List.mem_cons, List.not_mem_nil, or_false, Prod.mk.injEq] at h3
    rcases h3 with ⟨rfl, rfl⟩ | ⟨rfl, rfl⟩ | ⟨rfl, rfl⟩
    · exact ⟨_, _, .rsaPss h2 (.mk rfl .ps256)⟩
    · exact ⟨_, _, .rsaPss h2 (.mk rfl .ps384)⟩
    · exact ⟨_, _, .rsaPss h2 (.mk rfl .ps512)⟩
  · cases h

theorem imported_jws {env : JsonEnv F} {draws : List UInt32} {text : PyStr} {h : KeysetHandle}
    (ht : toPublicKeysetHandle env draws text = some (.ok h)) :
    ∀ k ∈ h.keyset.key, ∃ i v, JwsPublicKey k.data i v := by
  unfold toPublicKeysetHandle at ht
  cases h1 : (do let v ← loadsJwkSet env text; jwksOf v : Py (List (JVal F))) with
  | error e => rw [h1] at ht; cases ht
  | ok vs =>
    rw [h1] at ht
    simp only at ht
    cases h2 : importKeys vs draws {} with
    | none => rw [h2] at ht; cases ht
    | some r =>
      cases r with
      | error e => rw [h2] at ht; cases ht
      | ok ks =>
        rw [h2] at ht
        simp only [Option.some.injEq] at ht
        obtain ⟨h3, hv⟩ := parseImported_ok ht
        obtain ⟨new, e1, e2, -⟩ := importKeys_ok h2 List.nodup_nil
        have e1 : ks.key = new := e1
        subst h3
        subst e1
        intro k hk
        obtain ⟨v, -, k₀, h4, h5⟩ := e2.right k hk
        obtain ⟨d, alg, a, b, kid, rfl, hd⟩ := denotes_of_importKey h4
        obtain ⟨kid', rfl, h6⟩ := importKey_denotes hd
        rw [h4] at h6
        have : k.data = k₀.data := by rw [h5]; rfl
        rw [this]
        exact keyFor_jws h6.symm

/-- Of the kids that a key may have, a token that is right for the key has the exported one, if any. -/
theorem rightToken_exported {env : JwtEnv F} {k : Key} {alg : PyStr} {ck : Option PyStr}
    {check : Bytes → Bytes → Py Unit} {clock : Int} {v : JwtValidator} {compact : PyStr} {a : VerifiedJwt F}
    (h : RightToken env alg (keyKid k) ck check clock v compact a) :
    RightToken env alg none (exportedKid k ck) check clock v compact a := by
  obtain ⟨header, payload, signature, sig, d, g1, g2, ⟨g3, g4, g5, g6⟩, g7⟩ := h
  refine ⟨header, payload, signature, sig, d, g1, g2, ⟨g3, g4, ⟨g5.alg, g5.crit, by simp, ?_⟩, .inl rfl⟩, g7⟩
  intro kid hkid
  unfold exportedKid at hkid
  cases hkk : keyKid k with
  | some s => rw [hkk] at hkid; cases hkid; exact .inr (g5.kid _ hkk)
  | none => rw [hkk] at hkid; exact g5.customKid _ hkid

/-- A token that names the kid of a key is right only for the published keys with its id, and for those whose id stands
for no kid. -/
theorem rightToken_published {env : JwtEnv F} {alg : PyStr} {ck : Option PyStr} {check : Bytes → Bytes → Py Unit}
    {clock : Int} {v : JwtValidator} {compact kid : PyStr} {a : VerifiedJwt F} {k k' : Key}
    (hn : NamesKid env.json compact kid) (hk : keyKid k = some kid)
    (H : RightToken env alg none (exportedKid k' ck) check clock v compact a) :
    k'.outputPrefixType ≠ OutputPrefixType.TINK ∨ k'.keyId = k.keyId := by
  obtain ⟨header, payload, signature, d, n1, n2, n3⟩ := hn
  obtain ⟨header', payload', signature', sig, d', c1, -, ⟨c2, -, c3, -⟩, -⟩ := H
  obtain ⟨rfl, -, -⟩ := compact_unique n1 c1
  cases partText_unique n2 c2
  cases hk' : keyKid k' with
  | none =>
    refine .inl fun e => ?_
    unfold keyKid at hk'
    rw [if_pos e] at hk'
    cases hk'
  | some kid' =>
    rcases c3.customKid kid' (by unfold exportedKid; rw [hk']) with e | e
    · rw [n3] at e; cases e
    · rw [n3] at e
      cases e
      exact .inr (keyKid_id hk hk')

end

/-! ## Verifying with the published keys -/

section
variable {F P C : Type} [DecidableEq C] {L : Library F P C} {isInst isInst' : P → C → Bool} {r r' rb : Registry P C}
  {h h' pub imp : KeysetHandle} {p p' : P} {lib : SigSsl}
variable (hccs : ∀ url cc, ccJwtSign lib url = some cc → L.ccSign url = boundKeyManager signCcToPy cc)
variable (hccv : ∀ url cc, ccJwtVerify lib url = some cc → L.ccVerify url = boundKeyManager verifyCcToPy cc)

include hccv in
/-- C111.  The keyset imported from the JWK set of a public keyset accepts a token, with a result, exactly if it is
right for an enabled key of the public keyset; the kid of the key is allowed to be missing from the header. -/
theorem C111_accepted_iff (hl : LawfulSigSsl lib) (hr' : JwtSignatureRegistered L r')
    (hfl : LawfulFloats L.env.json.floats) (hu : LawfulUpper L.env.upper)
    (hk : ∀ k ∈ pub.keyset.key, Enabled k → ∃ i key, JwsPublicKey k.data i key) {text : PyStr} {draws : List UInt32}
    (hf : fromPublicKeysetHandle L.env.json pub = .ok text)
    (ht : toPublicKeysetHandle L.env.json draws text = some (.ok imp))
    (hp' : imp.primitive isInst' r' L.verifyClass = .ok p') (clock : Int) (compact : PyStr) (v : JwtValidator)
    (a : VerifiedJwt F) :
    (L.verify.view p').verifyAndDecode clock compact v = .ok a ↔
    ∃ k ∈ pub.keyset.key, Enabled k ∧ ∃ i key, JwsPublicKey k.data i key ∧
      RightToken L.env i.alg none (exportedKid k i.customKid) (sigCheck lib key) clock v compact a := by
  obtain ⟨hcor, -⟩ := C51_round_trip hfl hf ht
  rw [C99_accepted_iff hccv hl hr' hu hp']
  constructor
  · rintro ⟨k', hk', -, i', key', h1, h2⟩
    obtain ⟨k, hkm, alg, x, y, kid, g1, g2, g3⟩ := hcor.right k' hk'
    rw [List.mem_filter, decide_eq_true_eq] at hkm
    obtain ⟨i, key, h3⟩ := hk k hkm.1 hkm.2
    obtain ⟨rfl, n1⟩ := jwsPublic_numbers g1 h3
    obtain ⟨rfl, n2⟩ := jwsPublic_numbers g2 h1
    obtain rfl := jwsNumbers_unique n1 n2
    rw [keyKid_imported g3] at h2
    exact ⟨k, hkm.1, hkm.2, _, _, h3, h2⟩
  · rintro ⟨k, hkm, he, i, key, h3, h2⟩
    obtain ⟨k', hk', alg, x, y, kid, g1, g2, g3⟩ := hcor.left k (by
      rw [List.mem_filter, decide_eq_true_eq]; exact ⟨hkm, he⟩)
    obtain ⟨i', key', h1⟩ := imported_jws ht k' hk'
    obtain ⟨rfl, n1⟩ := jwsPublic_numbers g1 h3
    obtain ⟨rfl, n2⟩ := jwsPublic_numbers g2 h1
    obtain rfl := jwsNumbers_unique n1 n2
    refine ⟨k', hk', g3.status, _, _, h1, ?_⟩
    rw [keyKid_imported g3]
    exact h2

include hccs hccv in
/-- A token is right for the public counterpart of the key that signed it. -/
theorem signed_right (hi : LawfulClasses isInst L) (hl : LawfulSigSsl lib) (hr : JwtSignatureRegistered L r)
    (hfl : LawfulFloats L.env.json.floats) (hu : LawfulUpper L.env.upper)
    (hp : h.primitive isInst r L.signClass = .ok p) {k : Key} (hm : k ∈ h.keyset.key) (hpk : IsPrimaryKey h.keyset k)
    {k' : Key} (hen : Enabled k') (hc : JwsCounterpart k k') {i : JwsInfo} {s : SigKey}
    (hs : JwsPrivateKey k.data i s) (hmatch : s.Matches lib)
    {a : RawJwtArgs F} {tok : RawJwt F} (ht : newRawJwt L.env.json a = .ok tok)
    (hv : ValidObjects (.dict tok.payload)) (hth : ∀ s, a.typeHeader = some s → ValidText s) {seed : Seed}
    {compact : PyStr} (he : (L.sign.view p).signAndEncode seed tok = .ok compact) {clock : Int} {v : JwtValidator}
    (ha : validate L.env.json.floats clock v (written a tok) = .ok ()) :
    JwsPublicKey k'.data i s.publicPart ∧
      RightToken L.env i.alg (keyKid k') i.customKid (sigCheck lib s.publicPart) clock v compact ⟨written a tok⟩ := by
  obtain ⟨g1, g2, g3, g4, g5, g6, i', s', g7, g8⟩ := hc
  obtain ⟨rfl, rfl⟩ := (jws_unique lib hl).1 hs g7
  obtain ⟨g9, -, i', s', e1, e2⟩ := ((C99_sign_primitive hccs hi hl hr).1 ⟨p, hp⟩).2 k hm hpk.1
  obtain ⟨rfl, rfl⟩ := (jws_unique lib hl).1 hs e1
  have hne : k'.keyData ≠ none := by
    intro e
    have : k'.data.keyMaterialType = KeyMaterialType.UNKNOWN_KEYMATERIAL := by unfold Key.data; rw [e]; rfl
    rw [g5] at this
    exact absurd this (by decide)
  have hval : Valid (⟨k'.keyId, [k']⟩ : Keyset) := by
    refine ⟨⟨k', by simp, by rw [hen]; decide⟩, fun k hk _ => ?_, fun pre k₁ mid k₂ post e => ?_,
      .inl ⟨k', by simp, hen, rfl⟩⟩
    · simp only [List.mem_singleton] at hk
      subst hk
      refine ⟨hne, ?_, by rw [hen]; decide⟩
      rw [g3]
      rcases g9 with e | e <;> rw [e] <;> decide
    · have := congrArg List.length e
      simp only [List.length_append, List.length_cons, List.length_nil] at this
      omega
  obtain ⟨q, hq⟩ := (C99_verify_primitive (h := ⟨⟨k'.keyId, [k']⟩⟩) hccv hi hl hr).2 ⟨hval, fun k hk _ => by
    simp only [List.mem_singleton] at hk
    subst hk
    rw [g3]
    exact ⟨g9, g6, i, s.publicPart, g8, e2.1⟩⟩
  have hacc := C99_round_trip hccs hccv hl hr hfl hu hp hm hpk hs hmatch hq (k' := k') (by simp) hen g2 g3 g8 rfl
    (.inl rfl) ht hv hth he ha
  obtain ⟨k1, hk1, -, i1, key1, f1, f2⟩ := (C99_accepted_iff hccv hl hr hu hq clock compact v _).1 hacc
  simp only [List.mem_singleton] at hk1
  subst hk1
  obtain ⟨rfl, rfl⟩ := (jws_unique lib hl).2 g8 f1
  exact ⟨g8, f2⟩

include hccs in
theorem published_jws (hl : LawfulSigSsl lib) (hr : JwtSignatureRegistered L r) (hk : JwsPrivateKeyset h.keyset)
    (hpub : h.publicKeysetHandle r = .ok pub) : ∀ k ∈ pub.keyset.key, ∃ i key, JwsPublicKey k.data i key := by
  obtain ⟨-, c2, c3, -, -⟩ := C99_public_keys hccs hl hr hk hpub
  intro k' hk'
  obtain ⟨k, -, hmem⟩ := zip_mem' c2 hk'
  obtain ⟨-, -, -, -, -, -, i, s, -, g8⟩ := c3 _ hmem
  exact ⟨_, _, g8⟩

include hccs hccv in
/-- C111.  A token signed before the rotation is accepted by whoever has the JWK set published after it, if its key was
neither disabled nor deleted. -/
theorem C111_rotated (hi : LawfulClasses isInst L) (hl : LawfulSigSsl lib) (hr : JwtSignatureRegistered L r)
    (hr' : JwtSignatureRegistered L r') (hfl : LawfulFloats L.env.json.floats) (hu : LawfulUpper L.env.upper)
    {ops : List BuilderOp} (H : Rotated rb h ops h') (hk' : JwsPrivateKeyset h'.keyset)
    (hp : h.primitive isInst r L.signClass = .ok p) {k : Key} (hm : k ∈ h.keyset.key) (hpk : IsPrimaryKey h.keyset k)
    (hmatch : ∀ i s, JwsPrivateKey k.data i s → s.Matches lib) (hs : ∀ op ∈ ops, Spares k.keyId op)
    (hpub : h'.publicKeysetHandle r = .ok pub) {text : PyStr} {draws : List UInt32}
    (hf : fromPublicKeysetHandle L.env.json pub = .ok text)
    (hto : toPublicKeysetHandle L.env.json draws text = some (.ok imp))
    (hp' : imp.primitive isInst' r' L.verifyClass = .ok p')
    {a : RawJwtArgs F} {tok : RawJwt F} (ht : newRawJwt L.env.json a = .ok tok)
    (hv : ValidObjects (.dict tok.payload)) (hth : ∀ s, a.typeHeader = some s → ValidText s) {seed : Seed}
    {compact : PyStr} (he : (L.sign.view p).signAndEncode seed tok = .ok compact) {clock : Int} {v : JwtValidator}
    (ha : validate L.env.json.floats clock v (written a tok) = .ok ()) :
    (L.verify.view p').verifyAndDecode clock compact v = .ok ⟨written a tok⟩ := by
  obtain ⟨-, c2, c3, -, -⟩ := C99_public_keys hccs hl hr hk' hpub
  obtain ⟨kp, hkp, hmem⟩ := zip_mem c2 (C12_key_survives hs (rotated_iff_run H).1 hm hpk.1)
  have hc := c3 _ hmem
  dsimp only at hc
  have hen : Enabled kp := by
    have := hpk.1
    unfold Enabled at this ⊢
    rw [hc.1]
    exact this
  obtain ⟨i, s, hs1, -⟩ := hc.2.2.2.2.2.2
  obtain ⟨g1, g2⟩ := signed_right hccs hccv hi hl hr hfl hu hp hm hpk hen hc hs1 (hmatch i s hs1) ht hv hth he ha
  exact (C111_accepted_iff hccv hl hr' hfl hu (fun k hk _ => published_jws hccs hl hr hk' hpub k hk) hf hto hp' clock
    compact v _).2 ⟨kp, hkp, hen, i, _, g1, rightToken_exported g2⟩

include hccs hccv in
/-- C111.  After the key has been disabled or deleted, whoever has the JWK set published then accepts a token that names
the kid of the key only if it is right for a RAW key. -/
theorem C111_revoked (hl : LawfulSigSsl lib) (hr : JwtSignatureRegistered L r) (hr' : JwtSignatureRegistered L r')
    (hfl : LawfulFloats L.env.json.floats) (hu : LawfulUpper L.env.upper) {before after : List BuilderOp}
    {op : BuilderOp} (H : Rotated rb h (before ++ op :: after) h') (hk' : JwsPrivateKeyset h'.keyset)
    (hpub : h'.publicKeysetHandle r = .ok pub) {text : PyStr} {draws : List UInt32}
    (hf : fromPublicKeysetHandle L.env.json pub = .ok text)
    (hto : toPublicKeysetHandle L.env.json draws text = some (.ok imp))
    (hp' : imp.primitive isInst' r' L.verifyClass = .ok p') {k : Key} (h0 : k.keyId ≠ 0)
    (hone : AtMostOne k.keyId h.keyset) (hop : Revokes k.keyId op) (ha : ∀ op ∈ after, KeepsOut k.keyId op)
    {kid : PyStr} (hkid : keyKid k = some kid) {compact : PyStr} (hn : NamesKid L.env.json compact kid) {clock : Int}
    {v : JwtValidator} {a : VerifiedJwt F} (hv : (L.verify.view p').verifyAndDecode clock compact v = .ok a) :
    ∃ k' ∈ pub.keyset.key, Enabled k' ∧ k'.outputPrefixType = OutputPrefixType.RAW ∧
      ∃ i key, JwsPublicKey k'.data i key ∧
        RightToken L.env i.alg none i.customKid (sigCheck lib key) clock v compact a := by
  obtain ⟨-, c2, c3, -, -⟩ := C99_public_keys hccs hl hr hk' hpub
  obtain ⟨k1, h1, h2, i, key, h3, h4⟩ := (C111_accepted_iff hccv hl hr' hfl hu
    (fun k hk _ => published_jws hccs hl hr hk' hpub k hk) hf hto hp' clock compact v a).1 hv
  rcases rightToken_published hn hkid h4 with e | e
  · obtain ⟨-, jwks, -, hcor⟩ := C51_exported hfl hf
    obtain ⟨w, -, d, alg, x, y, kid', -, -, -, e'⟩ := hcor.left k1 (by
      rw [List.mem_filter, decide_eq_true_eq]; exact ⟨h1, h2⟩)
    refine ⟨k1, h1, h2, e'.resolve_right e, i, key, h3, ?_⟩
    unfold exportedKid keyKid at h4
    rwa [if_neg e] at h4
  · obtain ⟨k2, hm2, hmem⟩ := zip_mem' c2 h1
    obtain ⟨g1, g2, -⟩ := c3 _ hmem
    dsimp only at g1 g2
    refine absurd (g2.symm.trans e) (C109_gone H h0 hone hop ha k2 hm2 ?_)
    unfold Enabled at h2 ⊢
    rw [← g1]
    exact h2

include hccs hccv in
/-- C111.  The public keys of a rotated keyset can be published, and whoever reads the JWK set can verify with it.  The
public keyset is of less than 2 GiB, its keys are not too big, and not too many numbers are drawn twice. -/
theorem C111_works (hi : LawfulClasses isInst L) (hi' : LawfulClasses isInst' L) (hl : LawfulSigSsl lib)
    (hr : JwtSignatureRegistered L r) (hr' : JwtSignatureRegistered L r') (hfl : LawfulFloats L.env.json.floats)
    (hd : 4 ≤ L.env.json.depth) {ops : List BuilderOp} (H : Rotated r h ops h') (hops : OnlyFrom jwsTemplates ops)
    (h0 : AllTokenUsable (GoodTokenSign lib) h.keyset) (hpub : h'.publicKeysetHandle r = .ok pub)
    {b : Bytes} (hb : pub.keyset.serializeToString = .ok b) {m : Nat}
    (hm : ∀ k ∈ pub.keyset.key, Enabled k → ∀ alg a b kid, PublicKey k.data alg a b kid →
      a.length + b.length + 4 * ((exportedKid k kid).getD []).length ≤ m)
    (hsize : pub.keyset.key.length * (m + 1000) < 2147483648) {draws ids : List UInt32} (hn : ids.Nodup)
    (hids : ∀ x ∈ ids, x ∈ draws) (hlen : pub.keyset.key.length ≤ ids.length) :
    ∃ text imp p', fromPublicKeysetHandle L.env.json pub = .ok text ∧
      toPublicKeysetHandle L.env.json draws text = some (.ok imp) ∧
      imp.primitive isInst' r' L.verifyClass = .ok p' := by
  obtain ⟨h1, ⟨ps, hps⟩, -⟩ := C109_jwt_signature_works hccs hccv hi hl hr H hops h0
  have hpriv := token_usable_private hl h1
  obtain ⟨c1, c2, c3, c4, c5⟩ := C99_public_keys hccs hl hr hpriv hpub
  have hgood : ∀ k' ∈ pub.keyset.key, k'.data.keyMaterialType = KeyMaterialType.ASYMMETRIC_PUBLIC ∧
      (k'.outputPrefixType = OutputPrefixType.RAW ∨ k'.outputPrefixType = OutputPrefixType.TINK) ∧
      ∃ i key, JwsPublicKey k'.data i key ∧ key.Ok lib := by
    intro k' hk'
    obtain ⟨k, hk, hmem⟩ := zip_mem' c2 hk'
    obtain ⟨-, -, g3, -, g5, g6, i, s, g7, g8⟩ := c3 _ hmem
    dsimp only at g3 g5 g6 g7 g8
    obtain ⟨e3, -, -, -, i', s', e5, e6, -⟩ := h1 k hk
    obtain ⟨rfl, rfl⟩ := (jws_unique lib hl).1 g7 e5
    rw [g3]
    exact ⟨g5, e3, _, _, g8, e6.1⟩
  obtain ⟨text, hf⟩ := C51_exports hd c5 hb fun k hk _ => by
    obtain ⟨g1, g2, i, key, g3, -⟩ := hgood k hk
    exact ⟨g1, g2, jwsPublic_publicKey g3⟩
  obtain ⟨k0, hk0, hpk0⟩ : ∃ k ∈ pub.keyset.key, Enabled k := by
    have hv := (rotated_iff_run H).2
    rcases hv.primary with ⟨k, hk, hpk⟩ | hall
    · obtain ⟨kp, hkp, hmem⟩ := zip_mem c2 hk
      have := (c3 _ hmem).1
      dsimp only at this
      refine ⟨kp, hkp, ?_⟩
      have h2 := hpk.1
      unfold Enabled at h2 ⊢
      rw [this]
      exact h2
    · obtain ⟨k, hk, -⟩ := hv.nonempty
      obtain ⟨-, -, -, e, -⟩ := h1 k hk
      rw [hall k hk] at e
      exact absurd e (by decide)
  obtain ⟨imp, hto⟩ := C51_import_succeeds hfl hf (m := m) (fun e => by
    have : k0 ∈ pub.keyset.key.filter fun k => Enabled k := by
      rw [List.mem_filter, decide_eq_true_eq]; exact ⟨hk0, hpk0⟩
    rw [e] at this
    cases this) hm hsize hn hids hlen
  obtain ⟨hval, b', hb'⟩ := imported_serializes hto
  obtain ⟨hcor, -⟩ := C51_round_trip hfl hf hto
  obtain ⟨p', hp'⟩ := (C99_verify_primitive (h := imp) hccv hi' hl hr').2 ⟨hval, fun k' hk' _ => by
    obtain ⟨k, hkm, alg, x, y, kid, g1, g2, g3⟩ := hcor.right k' hk'
    rw [List.mem_filter, decide_eq_true_eq] at hkm
    obtain ⟨i', key', e1⟩ := imported_jws hto k' hk'
    obtain ⟨-, -, i, key, e2, e3⟩ := hgood k hkm.1
    obtain ⟨-, n1⟩ := jwsPublic_numbers g1 e2
    obtain ⟨-, n2⟩ := jwsPublic_numbers g2 e1
    obtain rfl := jwsNumbers_unique n1 n2
    exact ⟨.inl g3.pfx, keyData_serializes hb' hk', i', _, e1, e3⟩⟩
  exact ⟨text, imp, p', hf, hto, hp'⟩

end

end Tink.Props
