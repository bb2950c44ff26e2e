import Verif.Jwt.TokenText
import Verif.Props.JwtRoundTrip

/-!
# C82: tokens have the compact form of RFC 7515, and every right token is accepted
-/

namespace Tink
namespace Props
open Jwt Spec Json JsonUtil

section
variable {F P C : Type} [DecidableEq C] {isInst : P → C → Bool} {r : Registry P C} {h : KeysetHandle}
  {kps : List (Key × P)} {p : P} {t : Nat} {ci c : C} {env : JwtEnv F}

/-- C82.  What a part of a token holds: base64url without padding, of UTF-8, of a JSON text in which no object
repeats a key. -/
theorem C82_part (env : JsonEnv F) (part : Bytes) (v : JVal F) :
    Holds env part v ↔ PartText env part v ∧ Unequivocal v := holds_iff env part v

/-- C82.  What is a base64url form is also read as the same bytes. -/
theorem C82_form_read {s b : Bytes} (h : Base64UrlForm s b) : Base64Url s b := by
  obtain ⟨h1, n, hn, h2⟩ := h
  have e := form_length h2
  refine ⟨h1, by omega, ?_⟩
  rw [h2, show 8 * (6 * s.length / 8) = (octetBits b).length from by rw [octetBits_length]; omega,
    List.take_left]

/-- C82.  There is one base64url form of bytes. -/
theorem C82_form_unique {s t b : Bytes} (hs : Base64UrlForm s b) (ht : Base64UrlForm t b) : s = t := by
  obtain ⟨h1, n, hn, h2⟩ := hs
  obtain ⟨g1, m, hm, g2⟩ := ht
  have e1 := form_length h2
  have e2 := form_length g2
  have : n = m := by omega
  subst this
  exact sextetBits_injective h1 g1 (h2.trans g2.symm)

/-- C82.  The kid of a TINK key is the base64url form of the four bytes of its id. -/
theorem C82_kid (k : Key) (hk : k.outputPrefixType = OutputPrefixType.TINK) :
    ∃ s, keyKid k = some (s.map UInt8.toNat) ∧ Base64UrlForm s (be32 k.keyId.toNat) :=
  ⟨_, by unfold keyKid; rw [if_pos hk], form_encode _⟩

/-! ## MACs -/

section
variable {V : View P (JwtMacInternal F)} {W : View P (JwtMac F)} {cc : CcKeyManager Mac}

/-- C82.  A token that was created and is encoded has three parts: a header with the algorithm of the primary key,
its kid and the type of the token; the payload; and the MAC that C++ computes of the two with the dot between
them. -/
theorem C82_mac_form (H : Obtained isInst (jwtMacWrapper V W t ci c) r h c kps p)
    (hm : MacManagers V ci env cc r) (hl : LawfulFloats env.json.floats) {k : Key} {o : P}
    (hk : IsPrimary h.keyset kps (k, o)) {a : RawJwtArgs F} {tok : RawJwt F}
    (ht : newRawJwt env.json a = .ok tok) (hv : ValidObjects (.dict tok.payload))
    (hth : ∀ s, a.typeHeader = some s → ValidText s) {compact : PyStr}
    (he : (W.view p).computeMacAndEncode tok = .ok compact) :
    ∃ alg customKid data mac, TokenMacKey k.data alg customKid ∧ k.data.serializeToString = .ok data ∧
      cc.primitive data = .ok mac ∧
      ∃ header payload signature tag d, Compact compact header payload signature ∧
        PartForm env.json header (.dict d) ∧ HeaderFor d alg (writtenKid k customKid) (nonempty a.typeHeader) ∧
        PartForm env.json payload (.dict tok.payload) ∧
        mac.computeMac (header ++ 46 :: payload) = .ok tag ∧ Base64UrlForm signature tag := by
  obtain ⟨alg, customKid, data, mac, h1, h2, h3, h4⟩ := mac_primitive hm (H.keys.2 _ hk.mem)
  simp only at h1 h2 h4
  rw [compute_eq H hk, h4] at he
  obtain ⟨_, _, h5, _⟩ := newRawJwt_ok ht
  exact ⟨alg, customKid, data, mac, h1, h2, h3,
    encode_form hl he (keyKid_valid k) h1.kid_valid h5 hth (created_clean hl ht hv)⟩

/-- C82.  A token that is accepted is right for an enabled key. -/
theorem C82_mac_accepted (H : Obtained isInst (jwtMacWrapper V W t ci c) r h c kps p)
    (hm : MacManagers V ci env cc r) (hu : LawfulUpper env.upper) {clock : Int} {compact : PyStr}
    {v : JwtValidator} {a : VerifiedJwt F} (ha : (W.view p).verifyMacAndDecode clock compact v = .ok a) :
    ∃ k ∈ h.keyset.key, Enabled k ∧ ∃ alg customKid data mac, TokenMacKey k.data alg customKid ∧
      k.data.serializeToString = .ok data ∧ cc.primitive data = .ok mac ∧
      RightToken env alg (keyKid k) customKid mac.verifyMac clock v compact a := by
  obtain ⟨_, q, _, _, hq, hv, _⟩ := C44_mac_ok H clock compact v a ha
  obtain ⟨alg, customKid, data, mac, h1, h2, h3, h4⟩ := mac_primitive hm (H.keys.2 q hq)
  rw [h4] at hv
  have hmem : q.1 ∈ h.keyset.key.filter (fun k => Enabled k) := by
    rw [← H.keys.1]; exact List.mem_map.2 ⟨q, hq, rfl⟩
  rw [List.mem_filter] at hmem
  exact ⟨q.1, hmem.1, by simpa using hmem.2, alg, customKid, data, mac, h1, h2, h3,
    (decode_iff hu h1.alg_valid).1 hv⟩

/-- C82.  Every token that is right for an enabled key is accepted, whoever made it, unless a key that is tried
before fails with something else than a `TinkError` or accepts it too. -/
theorem C82_mac_accepts (H : Obtained isInst (jwtMacWrapper V W t ci c) r h c kps p)
    (hm : MacManagers V ci env cc r) (hu : LawfulUpper env.upper) {clock : Int} {compact : PyStr}
    {v : JwtValidator} {a : VerifiedJwt F} {k : Key} {o : P} {pre post : List (Key × P)}
    (hk : groupOrder kps = pre ++ (k, o) :: post)
    (hpre : ∀ q ∈ pre, Rejects ((V.view q.2).verifyMacAndDecodeWithKid clock compact v (keyKid q.1)))
    {alg : PyStr} {customKid : Option PyStr} {data : Bytes} {mac : Mac} (hd : TokenMacKey k.data alg customKid)
    (hs : k.data.serializeToString = .ok data) (hp : cc.primitive data = .ok mac)
    (hr : RightToken env alg (keyKid k) customKid mac.verifyMac clock v compact a) :
    (W.view p).verifyMacAndDecode clock compact v = .ok a := by
  have hmem : (k, o) ∈ kps := (mem_groupOrder H.prop.2).1 (by rw [hk]; simp)
  obtain ⟨alg', customKid', data', mac', h1, h2, h3, h4⟩ := mac_primitive hm (H.keys.2 _ hmem)
  simp only at h1 h2 h4
  obtain ⟨rfl, rfl⟩ := hd.unique h1
  rw [hs] at h2
  cases h2
  rw [hp] at h3
  cases h3
  have key : (V.view o).verifyMacAndDecodeWithKid clock compact v (keyKid k) = .ok a := by
    rw [h4]
    exact (decode_iff hu h1.alg_valid).2 hr
  exact (C44_mac_first H clock compact v hk (not_rejects_ok key) hpre).trans key

end

/-! ## Signatures -/

section

theorem C82_signature_form {V : View P (JwtPublicKeySignInternal F)} {W : View P (JwtPublicKeySign F)}
    {cc : PStr → CcKeyManager PublicKeySign}
    (H : Obtained isInst (jwtSignWrapper V W t ci c) r h c kps p)
    (hm : SignManagers V ci env cc r) (hl : LawfulFloats env.json.floats) {k : Key} {o : P}
    (hk : IsPrimary h.keyset kps (k, o)) {a : RawJwtArgs F} {tok : RawJwt F}
    (ht : newRawJwt env.json a = .ok tok) (hv : ValidObjects (.dict tok.payload))
    (hth : ∀ s, a.typeHeader = some s → ValidText s) {seed : Seed} {compact : PyStr}
    (he : (W.view p).signAndEncode seed tok = .ok compact) :
    ∃ alg customKid data signer, SignKey k.data alg customKid ∧ k.data.serializeToString = .ok data ∧
      (cc k.data.typeUrl).primitive data = .ok signer ∧
      ∃ header payload signature sig d, Compact compact header payload signature ∧
        PartForm env.json header (.dict d) ∧ HeaderFor d alg (writtenKid k customKid) (nonempty a.typeHeader) ∧
        PartForm env.json payload (.dict tok.payload) ∧
        signer.sign seed (header ++ 46 :: payload) = .ok sig ∧ Base64UrlForm signature sig := by
  obtain ⟨alg, customKid, data, signer, h1, h2, h3, h4⟩ := sign_primitive hm (H.keys.2 _ hk.mem)
  simp only at h1 h2 h3 h4
  rw [sign_eq H hk, h4] at he
  obtain ⟨_, _, h5, _⟩ := newRawJwt_ok ht
  exact ⟨alg, customKid, data, signer, h1, h2, h3,
    encode_form hl he (keyKid_valid k) h1.kid_valid h5 hth (created_clean hl ht hv)⟩

variable {V : View P (JwtPublicKeyVerifyInternal F)} {W : View P (JwtPublicKeyVerify F)}
  {cc : PStr → CcKeyManager PublicKeyVerify}

theorem C82_signature_accepted (H : Obtained isInst (jwtVerifyWrapper V W t ci c) r h c kps p)
    (hm : VerifyManagers V ci env cc r) (hu : LawfulUpper env.upper) {clock : Int} {compact : PyStr}
    {v : JwtValidator} {a : VerifiedJwt F} (ha : (W.view p).verifyAndDecode clock compact v = .ok a) :
    ∃ k ∈ h.keyset.key, Enabled k ∧ ∃ alg customKid data verifier, VerifyKey k.data alg customKid ∧
      k.data.serializeToString = .ok data ∧ (cc k.data.typeUrl).primitive data = .ok verifier ∧
      RightToken env alg (keyKid k) customKid verifier.verify clock v compact a := by
  obtain ⟨_, q, _, _, hq, hv, _⟩ := C44_signature_ok H clock compact v a ha
  obtain ⟨alg, customKid, data, verifier, h1, h2, h3, h4⟩ := verify_primitive hm (H.keys.2 q hq)
  rw [h4] at hv
  have hmem : q.1 ∈ h.keyset.key.filter (fun k => Enabled k) := by
    rw [← H.keys.1]; exact List.mem_map.2 ⟨q, hq, rfl⟩
  rw [List.mem_filter] at hmem
  exact ⟨q.1, hmem.1, by simpa using hmem.2, alg, customKid, data, verifier, h1, h2, h3,
    (decode_iff hu h1.alg_valid).1 hv⟩

theorem C82_signature_accepts (H : Obtained isInst (jwtVerifyWrapper V W t ci c) r h c kps p)
    (hm : VerifyManagers V ci env cc r) (hu : LawfulUpper env.upper) {clock : Int} {compact : PyStr}
    {v : JwtValidator} {a : VerifiedJwt F} {k : Key} {o : P} {pre post : List (Key × P)}
    (hk : groupOrder kps = pre ++ (k, o) :: post)
    (hpre : ∀ q ∈ pre, Rejects ((V.view q.2).verifyAndDecodeWithKid clock compact v (keyKid q.1)))
    {alg : PyStr} {customKid : Option PyStr} {data : Bytes} {verifier : PublicKeyVerify}
    (hd : VerifyKey k.data alg customKid) (hs : k.data.serializeToString = .ok data)
    (hp : (cc k.data.typeUrl).primitive data = .ok verifier)
    (hr : RightToken env alg (keyKid k) customKid verifier.verify clock v compact a) :
    (W.view p).verifyAndDecode clock compact v = .ok a := by
  have hmem : (k, o) ∈ kps := (mem_groupOrder H.prop.2).1 (by rw [hk]; simp)
  obtain ⟨alg', customKid', data', verifier', h1, h2, h3, h4⟩ := verify_primitive hm (H.keys.2 _ hmem)
  simp only at h1 h2 h3 h4
  obtain ⟨rfl, rfl⟩ := hd.unique h1
  rw [hs] at h2
  cases h2
  rw [hp] at h3
  cases h3
  have key : (V.view o).verifyAndDecodeWithKid clock compact v (keyKid k) = .ok a := by
    rw [h4]
    exact (decode_iff hu h1.alg_valid).2 hr
  exact (C44_signature_first H clock compact v hk (not_rejects_ok key) hpre).trans key

end

end

/-! ## Examples -/

section
open ToyJwt

/-- The base64url form of a byte: two characters, of which the last four bits are zero. -/
example : Base64UrlForm (by! "_w") [0xFF] ∧ Base64Url (by! "_x") [0xFF] ∧ ¬ Base64UrlForm (by! "_x") [0xFF] := by
  have h : Base64UrlForm (by! "_w") [0xFF] := form_encode [0xFF]
  exact ⟨h, (base64Url_iff ..).1 rfl, fun h' => absurd (C82_form_unique h h') (by decide)⟩

example : ∃ s, keyKid macKey1 = some (s.map UInt8.toNat) ∧ Base64UrlForm s [0, 0, 0, 7] := C82_kid macKey1 rfl

/-- The token of the toy world. -/
example : ∃ alg customKid data mac, TokenMacKey macKey1.data alg customKid ∧
    macKey1.data.serializeToString = .ok data ∧ (library.ccMac JWT_HMAC_KEY_TYPE).primitive data = .ok mac ∧
    ∃ header payload signature tag d, Compact macCompact header payload signature ∧
      PartForm library.env.json header (.dict d) ∧
      HeaderFor d alg (writtenKid macKey1 customKid) (some (py! "JWT")) ∧
      PartForm library.env.json payload (.dict token.payload) ∧
      mac.computeMac (header ++ 46 :: payload) = .ok tag ∧ Base64UrlForm signature tag :=
  C82_mac_form (k := macKey1) (o := objectOf macKey1 .macInternal) macObtained toyManagers.mac ToyJson.lawful rfl
    token_created token_valid args_type mac_encodes

example : ∃ alg customKid data signer, SignKey signKey.data alg customKid ∧
    signKey.data.serializeToString = .ok data ∧ (library.ccSign signKey.data.typeUrl).primitive data = .ok signer ∧
    ∃ header payload signature sig d, Compact signCompact header payload signature ∧
      PartForm library.env.json header (.dict d) ∧
      HeaderFor d alg (writtenKid signKey customKid) (some (py! "JWT")) ∧
      PartForm library.env.json payload (.dict token.payload) ∧
      signer.sign 0 (header ++ 46 :: payload) = .ok sig ∧ Base64UrlForm signature sig :=
  C82_signature_form (k := signKey) (o := objectOf signKey .signInternal) signObtained toyManagers.sign
    ToyJson.lawful rfl token_created token_valid args_type sign_encodes

/-- A token that another program made: with white space, an escape, and an entry of the header that Tink does not
know. -/
def otherHeader : Bytes := by! "{ \"typ\" : \"JWT\" , \"alg\":\"HS\\u0035\\u0031\\u0032\", \"foo\":[ 1 ] ,\n\"kid\":\"x\"}"

set_option maxRecDepth 20000 in
theorem other_token : RightToken library.env (py! "HS512") none (some (py! "x")) (ToyJwt.check [3]) clock validator
    (withHeader otherHeader) ⟨⟨some (.str (py! "JWT")), [(py! "exp", .int 1700000000)]⟩⟩ := by
  obtain ⟨h1, h2⟩ := (C82_part library.env.json (base64Encode otherHeader) (.dict [(py! "typ", .str (py! "JWT")),
    (py! "alg", .str (py! "HS512")), (py! "foo", .list [.int 1]), (py! "kid", .str (py! "x"))])).1
    ⟨_, _, rfl, rfl, rfl⟩
  obtain ⟨h3, h4⟩ := (C82_part library.env.json (base64Encode (by! "{\"exp\":1700000000}"))
    (.dict [(py! "exp", .int 1700000000)])).1 ⟨_, _, rfl, rfl, rfl⟩
  refine ⟨_, _, _, _, _, withHeader_compact otherHeader, ⟨(base64Url_iff ..).1 (base64Decode_encode _), if_pos rfl⟩,
    ⟨h1, h2, ⟨⟨_, rfl, rfl⟩, rfl, by simp, ?_⟩, .inl rfl⟩, ⟨h3, h4, ?_⟩, rfl, by rfl⟩
  · rintro k ⟨⟩; exact .inr rfl
  · refine ⟨by rintro v ⟨⟩, by rintro v ⟨⟩, by rintro v ⟨⟩, ?_, by rintro v ⟨⟩⟩
    intro n hn v hv
    simp only [List.mem_cons, List.not_mem_nil, or_false] at hn
    rcases hn with rfl | rfl | rfl
    · cases hv; exact .inr (.inl ⟨_, rfl, by decide, by decide⟩)
    · cases hv
    · cases hv

example : (library.mac.view (object macKeyset' .mac)).verifyMacAndDecode clock (withHeader otherHeader) validator =
    .ok ⟨⟨some (.str (py! "JWT")), [(py! "exp", .int 1700000000)]⟩⟩ := by
  have hs : macKey2.data.serializeToString = .ok (value [] macKey2.data.serializeToString) :=
    value_ok (by decide +kernel)
  have hsh : shared (value [] macKey2.data.serializeToString) = .ok [3] := by decide +kernel
  refine C82_mac_accepts (k := macKey2) (o := objectOf macKey2 .macInternal) (pre := [])
    (mac := { computeMac := fun d => .ok ([3] ++ d), verifyMac := ToyJwt.check [3] }) macObtained' toyManagers.mac
    lawfulUpper mac_order (by simp) (alg := py! "HS512") (customKid := some (py! "x"))
    ⟨rfl, { algorithm := JwtHmacAlgorithm.HS512, keyValue := [3], customKid := some ⟨['x']⟩ }, by decide +kernel,
      by decide, rfl⟩ hs ?_ other_token
  show (do let v ← shared _; return _ : Py Mac) = _
  rw [hsh]
  rfl

/-- The hypothesis of `C82_mac_accepted` and `C82_signature_accepted`. -/
example : ∃ a, (library.mac.view (object macKeyset' .mac)).verifyMacAndDecode clock macCompact validator =
      .ok a ∧
    ∃ k ∈ macKeyset'.key, Enabled k ∧ ∃ alg customKid data mac, TokenMacKey k.data alg customKid ∧
      k.data.serializeToString = .ok data ∧ (library.ccMac JWT_HMAC_KEY_TYPE).primitive data = .ok mac ∧
      RightToken library.env alg (keyKid k) customKid mac.verifyMac clock validator macCompact a := by
  have h : _ = Except.ok _ := value_ok (d := ⟨⟨none, []⟩⟩) (x := (library.mac.view
    (object macKeyset' .mac)).verifyMacAndDecode clock macCompact validator) (by decide +kernel)
  exact ⟨_, h, C82_mac_accepted macObtained' toyManagers.mac lawfulUpper h⟩

example : ∃ a, (library.verify.view (object verifyKeyset .verify)).verifyAndDecode clock signCompact validator =
      .ok a ∧
    ∃ k ∈ verifyKeyset.key, Enabled k ∧ ∃ alg customKid data verifier, VerifyKey k.data alg customKid ∧
      k.data.serializeToString = .ok data ∧ (library.ccVerify k.data.typeUrl).primitive data = .ok verifier ∧
      RightToken library.env alg (keyKid k) customKid verifier.verify clock validator signCompact a := by
  have h : _ = Except.ok _ := value_ok (d := ⟨⟨none, []⟩⟩) (x := (library.verify.view
    (object verifyKeyset .verify)).verifyAndDecode clock signCompact validator) (by decide +kernel)
  exact ⟨_, h, C82_signature_accepted verifyObtained toyManagers.verify lawfulUpper h⟩

/-- The token of the toy world is right for the second key. -/
theorem sign_right : ∃ a, RightToken library.env (py! "ES384") none (some (py! "x")) (ToyJwt.check [5, 5]) clock
    validator signCompact a := by
  have h : _ = Except.ok _ := value_ok (d := ⟨⟨none, []⟩⟩) (x := decodeWithKid library.env (py! "ES384")
    (some (py! "x")) (ToyJwt.check [5, 5]) clock signCompact validator none) (by decide +kernel)
  exact ⟨_, (decode_iff lawfulUpper (by decide)).1 h⟩

example : ∃ a, (library.verify.view (object verifyKeyset .verify)).verifyAndDecode clock signCompact validator =
    .ok a := by
  have hs : verifyKey2.data.serializeToString = .ok (value [] verifyKey2.data.serializeToString) :=
    value_ok (by decide +kernel)
  have hsh : shared (value [] verifyKey2.data.serializeToString) = .ok [5, 5] := by decide +kernel
  obtain ⟨a, ha⟩ := sign_right
  refine ⟨a, C82_signature_accepts (k := verifyKey2) (o := objectOf verifyKey2 .verifyInternal)
    (verifier := { verify := ToyJwt.check [5, 5] }) verifyObtained toyManagers.verify
    lawfulUpper verify_order verify_refuses (alg := py! "ES384") (customKid := some (py! "x"))
    (.ecdsa (ecdsaPublic JwtEcdsaAlgorithm.ES384 [5, 5] (some ['x'])) rfl (by decide +kernel) (by decide) rfl)
    hs ?_ ha⟩
  show (do let v ← shared _; return _ : Py PublicKeyVerify) = _
  rw [hsh]
  rfl

end

end Props
end Tink
