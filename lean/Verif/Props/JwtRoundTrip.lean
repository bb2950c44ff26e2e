import Verif.Jwt.EncodeLemmas
import Verif.Props.JwtVerify

/-!
# C41: tokens that are encoded and verified
-/

namespace Tink
namespace Props
open Jwt Spec Json JsonUtil

section
variable {F P C : Type} [DecidableEq C] {isInst isInst' : P → C → Bool} {r r' : Registry P C}
  {h h' : KeysetHandle} {kps kps' : List (Key × P)} {p p' : P} {t t' : Nat} {ci c ci' c' : C}
  {env : JwtEnv F}

/-- What verification returns for a token: its payload, and its type header unless that is empty. -/
def written (a : RawJwtArgs F) (tok : RawJwt F) : RawJwt F where
  typeHeader := (unlessEmpty a.typeHeader).map .str
  payload := tok.payload

theorem writtenType_args {fl : Floats F} {a : RawJwtArgs F} {tok : RawJwt F}
    (h : tok.typeHeader = a.typeHeader.map .str) :
    { tok with typeHeader := writtenType fl tok.typeHeader } = written a tok := by
  rw [h, writtenType_str]; rfl

/-- Encoding with the primary key of a keyset and decoding with a key of the same kind. -/
theorem round_trip_key (hl : LawfulFloats env.json.floats) (hu : LawfulUpper env.upper) {k k' : Key}
    (hid : k'.keyId = k.keyId) (hpt : k'.outputPrefixType = k.outputPrefixType) {alg : PyStr}
    {customKid customKid' : Option PyStr} (hckid : ∀ s, customKid = some s → ValidText s)
    (hcustom : customKid' = customKid ∨ customKid' = none) {sign : Bytes → Py Bytes}
    {check : Bytes → Bytes → Py Unit} (hcheck : ∀ data sig, sign data = .ok sig → check sig data = .ok ())
    {a : RawJwtArgs F} {tok : RawJwt F} (ht : newRawJwt env.json a = .ok tok)
    (hv : ValidObjects (.dict tok.payload)) (hth : ∀ s, a.typeHeader = some s → ValidText s)
    {compact : PyStr} (he : encodeWithKid env alg customKid sign tok (keyKid k) = .ok compact)
    {clock : Int} {v : JwtValidator} (ha : validate env.json.floats clock v (written a tok) = .ok ()) :
    decodeWithKid env alg customKid' check clock compact v (keyKid k') = .ok ⟨written a tok⟩ := by
  obtain ⟨_, _, h3, h4⟩ := newRawJwt_ok ht
  rw [keyKid_eq hid hpt, encode_decode hl hu he hcheck hcustom (keyKid_valid k) hckid h3 hth hv
    (created_clean hl ht hv) h4, writtenType_args h3, ha]
  rfl

theorem not_rejects_ok {α : Type} {x : Py α} {y : α} (h : x = .ok y) : ¬ Rejects x := by
  rintro ⟨e, he, _⟩
  rw [h] at he; cases he

/-! ## MACs -/

section
variable {V : View P (JwtMacInternal F)} {W : View P (JwtMac F)} {cc cc' : CcKeyManager Mac}

theorem compute_eq (H : Obtained isInst (jwtMacWrapper V W t ci c) r h c kps p) {k : Key} {o : P}
    (hk : IsPrimary h.keyset kps (k, o)) (tok : RawJwt F) :
    (W.view p).computeMacAndEncode tok = (V.view o).computeMacAndEncodeWithKid tok (keyKid k) := by
  obtain ⟨h1, h2⟩ := mac_obtained H
  rw [h1]
  show WrappedJwtMac.computeMacAndEncode _ tok = _
  unfold WrappedJwtMac.computeMacAndEncode
  rw [primary_map, primary_psetOf_some hk]
  show (getKid k.keyId.toNat k.outputPrefixType >>= _) = _
  rw [getKid_key (h2 _ hk.mem)]
  rfl

/-- C41.  A token that was created, and encoded with a keyset whose primary key is `k`, is accepted by a
keyset that has a key with the same id, type of prefix and key data, if the validator accepts it and the
keys before that key refuse.  The two C++ MACs of that key data must agree. -/
theorem C41_mac (H : Obtained isInst (jwtMacWrapper V W t ci c) r h c kps p)
    (hm : MacManagers V ci env cc r)
    {V' : View P (JwtMacInternal F)} {W' : View P (JwtMac F)}
    (H' : Obtained isInst' (jwtMacWrapper V' W' t' ci' c') r' h' c' kps' p')
    (hm' : MacManagers V' ci' env cc' r') (hl : LawfulFloats env.json.floats)
    (hu : LawfulUpper env.upper) {k k' : Key} {o o' : P} (hk : IsPrimary h.keyset kps (k, o))
    {pre post : List (Key × P)} (hk' : groupOrder kps' = pre ++ (k', o') :: post)
    (hid : k'.keyId = k.keyId) (hpt : k'.outputPrefixType = k.outputPrefixType) (hd : k'.data = k.data)
    (hmac : ∀ data mac mac', cc.primitive data = .ok mac → cc'.primitive data = .ok mac' →
      ∀ d tag, mac.computeMac d = .ok tag → mac'.verifyMac tag d = .ok ())
    {a : RawJwtArgs F} {tok : RawJwt F} (ht : newRawJwt env.json a = .ok tok)
    (hv : ValidObjects (.dict tok.payload)) (hth : ∀ s, a.typeHeader = some s → ValidText s)
    {compact : PyStr} (he : (W.view p).computeMacAndEncode tok = .ok compact)
    {clock : Int} {v : JwtValidator} (ha : validate env.json.floats clock v (written a tok) = .ok ())
    (hpre : ∀ q ∈ pre,
      Rejects ((V'.view q.2).verifyMacAndDecodeWithKid clock compact v (keyKid q.1))) :
    (W'.view p').verifyMacAndDecode clock compact v = .ok ⟨written a tok⟩ := by
  have hmem' : (k', o') ∈ kps' := (mem_groupOrder H'.prop.2).1 (by rw [hk']; simp)
  obtain ⟨alg, customKid, data, mac, h1, h2, h3, h4⟩ := mac_primitive hm (H.keys.2 _ hk.mem)
  obtain ⟨alg', customKid', data', mac', g1, g2, g3, g4⟩ := mac_primitive hm' (H'.keys.2 _ hmem')
  simp only at h1 h2 h4 g1 g2 g4
  rw [hd] at g1 g2
  rw [h2] at g2
  cases g2
  obtain ⟨rfl, rfl⟩ := h1.unique g1
  rw [compute_eq H hk, h4] at he
  have key : (V'.view o').verifyMacAndDecodeWithKid clock compact v (keyKid k') =
      .ok ⟨written a tok⟩ := by
    rw [g4]
    exact round_trip_key hl hu hid hpt h1.kid_valid (.inl rfl) (hmac data mac mac' h3 g3) ht hv hth he ha
  exact (C44_mac_first H' clock compact v hk' (not_rejects_ok key) hpre).trans key

/-- Encoding does succeed, if the payload can be written as JSON, C++ computes the MAC, and the primary key
does not have two kids. -/
theorem C41_mac_encodes (H : Obtained isInst (jwtMacWrapper V W t ci c) r h c kps p)
    (hm : MacManagers V ci env cc r) (hl : LawfulFloats env.json.floats) {k : Key} {o : P}
    (hk : IsPrimary h.keyset kps (k, o))
    (hkid : k.outputPrefixType = OutputPrefixType.RAW ∨ ∀ alg kid, TokenMacKey k.data alg kid → kid = none)
    (hmac : ∀ data mac, cc.primitive data = .ok mac → ∀ d, ∃ tag, mac.computeMac d = .ok tag)
    {a : RawJwtArgs F} {tok : RawJwt F} (ht : newRawJwt env.json a = .ok tok) {text : PyStr}
    (hp : tok.jsonPayload env.json = .ok text) :
    ∃ compact, (W.view p).computeMacAndEncode tok = .ok compact := by
  obtain ⟨alg, customKid, data, mac, h1, h2, h3, h4⟩ := mac_primitive hm (H.keys.2 _ hk.mem)
  rw [compute_eq H hk, h4]
  refine encode_succeeds hl h1.alg_valid ?_ (hmac data mac h3) (newRawJwt_ok ht).2.2.1 hp
  rcases hkid with hr | hn
  · left; unfold keyKid; rw [hr]; rfl
  · right; exact hn _ _ h1

/-- A key with two kids does not encode. -/
theorem C41_mac_two_kids (H : Obtained isInst (jwtMacWrapper V W t ci c) r h c kps p)
    (hm : MacManagers V ci env cc r) {k : Key} {o : P} (hk : IsPrimary h.keyset kps (k, o))
    (hr : k.outputPrefixType = OutputPrefixType.TINK) {alg kid : PyStr} (hd : TokenMacKey k.data alg (some kid))
    (tok : RawJwt F) : (W.view p).computeMacAndEncode tok = .error .jwtInvalidError := by
  obtain ⟨alg', customKid, data, mac, h1, h2, h3, h4⟩ := mac_primitive hm (H.keys.2 _ hk.mem)
  obtain ⟨rfl, rfl⟩ := hd.unique h1
  rw [compute_eq H hk, h4]
  show encodeWithKid _ _ _ _ _ _ = _
  unfold keyKid
  rw [if_pos hr]
  rfl

end

/-! ## Signatures -/

section
variable {V : View P (JwtPublicKeySignInternal F)} {W : View P (JwtPublicKeySign F)}
  {cc : PStr → CcKeyManager PublicKeySign} {cc' : PStr → CcKeyManager PublicKeyVerify}

theorem sign_eq (H : Obtained isInst (jwtSignWrapper V W t ci c) r h c kps p) {k : Key} {o : P}
    (hk : IsPrimary h.keyset kps (k, o)) (seed : Seed) (tok : RawJwt F) :
    (W.view p).signAndEncode seed tok = (V.view o).signAndEncodeWithKid seed tok (keyKid k) := by
  obtain ⟨h1, h2⟩ := sign_obtained H
  rw [h1]
  unfold WrappedJwtPublicKeySign.signAndEncode
  rw [primary_map, primary_psetOf_some hk]
  show (getKid k.keyId.toNat k.outputPrefixType >>= _) = _
  rw [getKid_key (h2 _ hk.mem)]
  rfl

/-- C41 for signatures: the verifying keyset has a public key with the same id, type of prefix, algorithm
and custom kid as the primary key that signs.  It may also have no custom kid.  The C++ verifier of the
one key data must accept what the C++ signer of the other signs. -/
theorem C41_signature (H : Obtained isInst (jwtSignWrapper V W t ci c) r h c kps p)
    (hm : SignManagers V ci env cc r)
    {V' : View P (JwtPublicKeyVerifyInternal F)} {W' : View P (JwtPublicKeyVerify F)}
    (H' : Obtained isInst' (jwtVerifyWrapper V' W' t' ci' c') r' h' c' kps' p')
    (hm' : VerifyManagers V' ci' env cc' r') (hl : LawfulFloats env.json.floats)
    (hu : LawfulUpper env.upper) {k k' : Key} {o o' : P} (hk : IsPrimary h.keyset kps (k, o))
    {pre post : List (Key × P)} (hk' : groupOrder kps' = pre ++ (k', o') :: post)
    (hid : k'.keyId = k.keyId) (hpt : k'.outputPrefixType = k.outputPrefixType)
    {alg : PyStr} {customKid customKid' : Option PyStr} (hs : SignKey k.data alg customKid)
    (hs' : VerifyKey k'.data alg customKid') (hcustom : customKid' = customKid ∨ customKid' = none)
    (hsig : ∀ data data' signer verifier,
      k.data.serializeToString = .ok data → (cc k.data.typeUrl).primitive data = .ok signer →
      k'.data.serializeToString = .ok data' → (cc' k'.data.typeUrl).primitive data' = .ok verifier →
      ∀ seed d sig, signer.sign seed d = .ok sig → verifier.verify sig d = .ok ())
    {a : RawJwtArgs F} {tok : RawJwt F} (ht : newRawJwt env.json a = .ok tok)
    (hv : ValidObjects (.dict tok.payload)) (hth : ∀ s, a.typeHeader = some s → ValidText s)
    {seed : Seed} {compact : PyStr} (he : (W.view p).signAndEncode seed tok = .ok compact)
    {clock : Int} {v : JwtValidator} (ha : validate env.json.floats clock v (written a tok) = .ok ())
    (hpre : ∀ q ∈ pre,
      Rejects ((V'.view q.2).verifyAndDecodeWithKid clock compact v (keyKid q.1))) :
    (W'.view p').verifyAndDecode clock compact v = .ok ⟨written a tok⟩ := by
  have hmem' : (k', o') ∈ kps' := (mem_groupOrder H'.prop.2).1 (by rw [hk']; simp)
  obtain ⟨alg1, customKid1, data, signer, h1, h2, h3, h4⟩ := sign_primitive hm (H.keys.2 _ hk.mem)
  obtain ⟨alg2, customKid2, data', verifier, g1, g2, g3, g4⟩ := verify_primitive hm' (H'.keys.2 _ hmem')
  simp only at h1 h2 h4 g1 g2 g4
  obtain ⟨rfl, rfl⟩ := hs.unique h1
  obtain ⟨rfl, rfl⟩ := hs'.unique g1
  rw [sign_eq H hk, h4] at he
  have key : (V'.view o').verifyAndDecodeWithKid clock compact v (keyKid k') =
      .ok ⟨written a tok⟩ := by
    rw [g4]
    exact round_trip_key hl hu hid hpt hs.kid_valid hcustom
      (hsig data data' signer verifier h2 h3 g2 g3 seed) ht hv hth he ha
  exact (C44_signature_first H' clock compact v hk' (not_rejects_ok key) hpre).trans key

theorem C41_signature_encodes (H : Obtained isInst (jwtSignWrapper V W t ci c) r h c kps p)
    (hm : SignManagers V ci env cc r) (hl : LawfulFloats env.json.floats) {k : Key} {o : P}
    (hk : IsPrimary h.keyset kps (k, o))
    (hkid : k.outputPrefixType = OutputPrefixType.RAW ∨ ∀ alg kid, SignKey k.data alg kid → kid = none)
    (hsig : ∀ data signer, k.data.serializeToString = .ok data →
      (cc k.data.typeUrl).primitive data = .ok signer →
      ∀ seed d, ∃ sig, signer.sign seed d = .ok sig)
    {a : RawJwtArgs F} {tok : RawJwt F} (ht : newRawJwt env.json a = .ok tok) {text : PyStr}
    (hp : tok.jsonPayload env.json = .ok text) (seed : Seed) :
    ∃ compact, (W.view p).signAndEncode seed tok = .ok compact := by
  obtain ⟨alg, customKid, data, signer, h1, h2, h3, h4⟩ := sign_primitive hm (H.keys.2 _ hk.mem)
  rw [sign_eq H hk, h4]
  refine encode_succeeds hl h1.alg_valid ?_ (hsig data signer h2 h3 seed) (newRawJwt_ok ht).2.2.1 hp
  rcases hkid with hr | hn
  · left; unfold keyKid; rw [hr]; rfl
  · right; exact hn _ _ h1

theorem C41_signature_two_kids (H : Obtained isInst (jwtSignWrapper V W t ci c) r h c kps p)
    (hm : SignManagers V ci env cc r) {k : Key} {o : P} (hk : IsPrimary h.keyset kps (k, o))
    (hr : k.outputPrefixType = OutputPrefixType.TINK) {alg kid : PyStr} (hd : SignKey k.data alg (some kid))
    (seed : Seed) (tok : RawJwt F) : (W.view p).signAndEncode seed tok = .error .jwtInvalidError := by
  obtain ⟨alg', customKid, data, signer, h1, h2, h3, h4⟩ := sign_primitive hm (H.keys.2 _ hk.mem)
  obtain ⟨rfl, rfl⟩ := hd.unique h1
  rw [sign_eq H hk, h4]
  show encodeWithKid _ _ _ _ _ _ = _
  unfold keyKid
  rw [if_pos hr]
  rfl

end

end

/-! ## Examples -/

section
open ToyJwt

theorem token_valid : ValidObjects (.dict token.payload) := by
  have text : ∀ s : PyStr, s.all isScalar = true → ValidText s := fun s h => List.all_eq_true.1 h
  intro d hd
  cases hd with
  | here =>
    intro k x hm
    simp only [token, List.mem_cons, Prod.mk.injEq, List.not_mem_nil, or_false] at hm
    rcases hm with ⟨rfl, rfl⟩ | ⟨rfl, rfl⟩ | ⟨rfl, rfl⟩
    · exact ⟨text _ (by decide), by rintro s ⟨⟩; exact text _ (by decide), by rintro l s ⟨⟩⟩
    · exact ⟨text _ (by decide), by rintro s ⟨⟩, by rintro l s ⟨⟩⟩
    · refine ⟨text _ (by decide), by rintro s ⟨⟩, ?_⟩
      rintro l s ⟨⟩ hs
      simp at hs
  | value hm hd =>
    simp only [token, List.mem_cons, Prod.mk.injEq, List.not_mem_nil, or_false] at hm
    rcases hm with ⟨rfl, rfl⟩ | ⟨rfl, rfl⟩ | ⟨rfl, rfl⟩
    · cases hd
    · cases hd
    · cases hd with
      | item hm hd =>
        simp only [List.mem_cons, List.not_mem_nil, or_false] at hm
        rcases hm with rfl | rfl
        · cases hd
        · cases hd with
          | here =>
            intro k x hm
            simp only [List.mem_cons, Prod.mk.injEq, List.not_mem_nil, or_false] at hm
            obtain ⟨rfl, rfl⟩ := hm
            exact ⟨text _ (by decide), by rintro s ⟨⟩, by rintro l s ⟨⟩⟩
          | value hm hd =>
            simp only [List.mem_cons, Prod.mk.injEq, List.not_mem_nil, or_false] at hm
            obtain ⟨rfl, rfl⟩ := hm
            cases hd

theorem args_type (s : PyStr) (h : args.typeHeader = some s) : ValidText s := by
  cases h
  exact List.all_eq_true.1 (by decide)

/-- A token made with the one keyset is accepted by the other. -/
example : (library.mac.view (object macKeyset' .mac)).verifyMacAndDecode clock macCompact validator =
    .ok ⟨written args token⟩ :=
  C41_mac (k := macKey1) (o := objectOf macKey1 .macInternal) macObtained toyManagers.mac macObtained'
    toyManagers.mac ToyJson.lawful lawfulUpper rfl mac_order rfl rfl rfl (by
      intro data mac mac' h h' d tag hc
      rw [h] at h'
      cases h'
      obtain ⟨v, _, h⟩ := bind_ok h
      cases h
      cases hc
      exact if_pos rfl) token_created token_valid args_type mac_encodes
    (by decide +kernel) mac_refuses

example : ∃ compact, (library.mac.view (object macKeyset .mac)).computeMacAndEncode token = .ok compact :=
  C41_mac_encodes (k := macKey1) (o := objectOf macKey1 .macInternal) macObtained toyManagers.mac
    ToyJson.lawful rfl (.inr (by
      intro alg kid h
      obtain ⟨k, h1, _, h3⟩ := h.key
      have : JwtHmacKey.fromString macKey1.data.value =
        .ok { algorithm := JwtHmacAlgorithm.HS256, keyValue := [1, 2] } := by decide +kernel
      rw [this] at h1
      cases h1
      exact h3)) (by
      intro data mac h d
      obtain ⟨v, _, h⟩ := bind_ok h
      cases h
      exact ⟨_, rfl⟩) token_created (value_ok (d := []) (by decide +kernel))

example : (library.verify.view (object verifyKeyset .verify)).verifyAndDecode clock signCompact validator =
    .ok ⟨written args token⟩ :=
  C41_signature (k := signKey) (o := objectOf signKey .signInternal) (alg := py! "ES384")
    (customKid := some [120]) (customKid' := some [120]) signObtained toyManagers.sign verifyObtained
    toyManagers.verify ToyJson.lawful lawfulUpper rfl verify_order rfl rfl
    (.ecdsa { publicKey := some (ecdsaPublic JwtEcdsaAlgorithm.ES384 [5, 5] (some ['x'])), keyValue := [9] }
      rfl (by decide +kernel) (by decide) rfl)
    (.ecdsa (ecdsaPublic JwtEcdsaAlgorithm.ES384 [5, 5] (some ['x'])) rfl (by decide +kernel) (by decide)
      rfl) (.inl rfl) (by
      intro data data' signer verifier h1 h2 h3 h4 seed d sig hs
      have e1 : signKey.data.serializeToString = .ok (value [] signKey.data.serializeToString) :=
        value_ok (by decide +kernel)
      have e3 : verifyKey2.data.serializeToString = .ok (value [] verifyKey2.data.serializeToString) :=
        value_ok (by decide +kernel)
      rw [e1] at h1
      rw [e3] at h3
      cases h1
      cases h3
      obtain ⟨v, hv, h2⟩ := bind_ok h2
      obtain ⟨w, hw, h4⟩ := bind_ok h4
      cases h2
      cases h4
      cases hs
      have e2 : shared (value [] signKey.data.serializeToString) = .ok [5, 5] := by decide +kernel
      have e4 : shared (value [] verifyKey2.data.serializeToString) = .ok [5, 5] := by decide +kernel
      rw [e2] at hv
      rw [e4] at hw
      cases hv
      cases hw
      exact if_pos rfl) token_created token_valid args_type sign_encodes (by decide +kernel) verify_refuses

/-- A TINK key with a custom kid. -/
example : ∃ (ks : Keyset) (p : Prim), Obtained isInst
      (jwtMacWrapper library.macInternal library.mac 2 Cls.macInternal .mac) registry ⟨ks⟩ .mac
      (objects ks .macInternal) p ∧
    (library.mac.view p).computeMacAndEncode token = .error .jwtInvalidError := by
  have H : Obtained isInst (jwtMacWrapper library.macInternal library.mac 2 Cls.macInternal .mac) registry
      ⟨{ primaryKeyId := 1,
         key := [hmacKey JwtHmacAlgorithm.HS256 [1] (some ['x']) 1 OutputPrefixType.TINK] }⟩ .mac
      (objects _ .macInternal) (object _ .mac) := obtained rfl (by decide +kernel) (by decide +kernel)
  refine ⟨_, _, H, C41_mac_two_kids (alg := py! "HS256") (kid := [120])
    (k := hmacKey JwtHmacAlgorithm.HS256 [1] (some ['x']) 1 OutputPrefixType.TINK)
    (o := objectOf (hmacKey JwtHmacAlgorithm.HS256 [1] (some ['x']) 1 OutputPrefixType.TINK) .macInternal)
    H toyManagers.mac rfl rfl ⟨rfl, ⟨0, JwtHmacAlgorithm.HS256, [1], some ⟨['x']⟩⟩, by decide +kernel, by decide,
      rfl⟩ token⟩

end

end Props
end Tink
