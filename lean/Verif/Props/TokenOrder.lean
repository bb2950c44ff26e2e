import Verif.Jwt.OrderLemmas
import Verif.Props.TokenFormat

/-!
# C82: acceptance does not depend on the order of the keys

If the C++ checks raise only `TinkError`s, a token is accepted exactly if it is right for an enabled key.
-/

namespace Tink
namespace Props
open Jwt Spec Json

section
variable {F P C : Type} [DecidableEq C] {isInst : P → C → Bool} {r : Registry P C}
  {h : KeysetHandle} {kps : List (Key × P)} {p : P} {t : Nat} {ci c : C} {env : JwtEnv F}

theorem enabled_primitive (hk : EnabledPrimitives r ci h.keyset kps) {k : Key} (h1 : k ∈ h.keyset.key)
    (h2 : Enabled k) : ∃ o, (k, o) ∈ kps := by
  have : k ∈ kps.map Prod.fst := by
    rw [hk.1, List.mem_filter]
    exact ⟨h1, by simpa using h2⟩
  obtain ⟨⟨k', o⟩, hq, rfl⟩ := List.mem_map.1 this
  exact ⟨o, hq⟩

/-- C82.  A token is accepted, with a result, exactly if it is right for an enabled key and has that
content. -/
theorem C82_mac_iff {V : View P (JwtMacInternal F)} {W : View P (JwtMac F)} {cc : CcKeyManager Mac}
    (H : Obtained isInst (jwtMacWrapper V W t ci c) r h c kps p)
    (hm : MacManagers V ci env cc r) (hu : LawfulUpper env.upper)
    (hcc : ∀ data mac, cc.primitive data = .ok mac → TinkErrorsOnly mac.verifyMac)
    (clock : Int) (compact : PyStr) (v : JwtValidator) (a : VerifiedJwt F) :
    (W.view p).verifyMacAndDecode clock compact v = .ok a ↔
    ∃ k ∈ h.keyset.key, Enabled k ∧ ∃ alg customKid data mac, TokenMacKey k.data alg customKid ∧
      k.data.serializeToString = .ok data ∧ cc.primitive data = .ok mac ∧
      RightToken env alg (keyKid k) customKid mac.verifyMac clock v compact a := by
  refine ⟨C82_mac_accepted H hm hu, ?_⟩
  rintro ⟨k, hk, he, alg, customKid, data, mac, h1, h2, h3, h4⟩
  obtain ⟨o, hq⟩ := enabled_primitive H.keys hk he
  have key : (V.view o).verifyMacAndDecodeWithKid clock compact v (keyKid k) = .ok a := by
    obtain ⟨alg', customKid', data', mac', g1, g2, g3, g4⟩ := mac_primitive hm (H.keys.2 _ hq)
    simp only at g1 g2 g4
    obtain ⟨rfl, rfl⟩ := h1.unique g1
    rw [h2] at g2; cases g2
    rw [h3] at g3; cases g3
    rw [g4]
    exact (decode_iff hu h1.alg_valid).2 h4
  have hall : ∀ q ∈ groupOrder kps, (V.view q.2).verifyMacAndDecodeWithKid clock compact v (keyKid q.1) = .ok a ∨
      Rejects ((V.view q.2).verifyMacAndDecodeWithKid clock compact v (keyKid q.1)) := by
    intro q hq
    obtain ⟨alg', customKid', data', mac', g1, g2, g3, g4⟩ :=
      mac_primitive hm (H.keys.2 _ ((mem_groupOrder H.prop.2).1 hq))
    rw [g4]
    exact decode_other ((decode_iff hu h1.alg_valid).2 h4) (hcc _ _ g3)
  obtain ⟨pre, q, post, g1, g2, g3⟩ := exists_first hall ⟨(k, o), (mem_groupOrder H.prop.2).2 hq, key⟩
  exact (C44_mac_first H clock compact v g1 (not_rejects_ok g3) g2).trans g3

theorem C82_signature_iff_keys {V : View P (JwtPublicKeyVerifyInternal F)} {W : View P (JwtPublicKeyVerify F)}
    {cc : PStr → CcKeyManager PublicKeyVerify}
    (H : Obtained isInst (jwtVerifyWrapper V W t ci c) r h c kps p)
    (hm : VerifyManagers V ci env cc r) (hu : LawfulUpper env.upper)
    (hcc : ∀ kd alg customKid data verifier, VerifyKey kd alg customKid →
      (cc kd.typeUrl).primitive data = .ok verifier → TinkErrorsOnly verifier.verify)
    (clock : Int) (compact : PyStr) (v : JwtValidator) (a : VerifiedJwt F) :
    (W.view p).verifyAndDecode clock compact v = .ok a ↔
    ∃ k ∈ h.keyset.key, Enabled k ∧ ∃ alg customKid data verifier, VerifyKey k.data alg customKid ∧
      k.data.serializeToString = .ok data ∧ (cc k.data.typeUrl).primitive data = .ok verifier ∧
      RightToken env alg (keyKid k) customKid verifier.verify clock v compact a := by
  refine ⟨C82_signature_accepted H hm hu, ?_⟩
  rintro ⟨k, hk, he, alg, customKid, data, verifier, h1, h2, h3, h4⟩
  obtain ⟨o, hq⟩ := enabled_primitive H.keys hk he
  have key : (V.view o).verifyAndDecodeWithKid clock compact v (keyKid k) = .ok a := by
    obtain ⟨alg', customKid', data', verifier', g1, g2, g3, g4⟩ := verify_primitive hm (H.keys.2 _ hq)
    simp only at g1 g2 g3 g4
    obtain ⟨rfl, rfl⟩ := h1.unique g1
    rw [h2] at g2; cases g2
    rw [h3] at g3; cases g3
    rw [g4]
    exact (decode_iff hu h1.alg_valid).2 h4
  have hall : ∀ q ∈ groupOrder kps, (V.view q.2).verifyAndDecodeWithKid clock compact v (keyKid q.1) = .ok a ∨
      Rejects ((V.view q.2).verifyAndDecodeWithKid clock compact v (keyKid q.1)) := by
    intro q hq
    obtain ⟨alg', customKid', data', verifier', g1, g2, g3, g4⟩ :=
      verify_primitive hm (H.keys.2 _ ((mem_groupOrder H.prop.2).1 hq))
    rw [g4]
    exact decode_other ((decode_iff hu h1.alg_valid).2 h4) (hcc _ _ _ _ _ g1 g3)
  obtain ⟨pre, q, post, g1, g2, g3⟩ := exists_first hall ⟨(k, o), (mem_groupOrder H.prop.2).2 hq, key⟩
  exact (C44_signature_first H clock compact v g1 (not_rejects_ok g3) g2).trans g3

theorem C82_signature_iff {V : View P (JwtPublicKeyVerifyInternal F)} {W : View P (JwtPublicKeyVerify F)}
    {cc : PStr → CcKeyManager PublicKeyVerify}
    (H : Obtained isInst (jwtVerifyWrapper V W t ci c) r h c kps p)
    (hm : VerifyManagers V ci env cc r) (hu : LawfulUpper env.upper)
    (hcc : ∀ url data verifier, (cc url).primitive data = .ok verifier → TinkErrorsOnly verifier.verify)
    (clock : Int) (compact : PyStr) (v : JwtValidator) (a : VerifiedJwt F) :
    (W.view p).verifyAndDecode clock compact v = .ok a ↔
    ∃ k ∈ h.keyset.key, Enabled k ∧ ∃ alg customKid data verifier, VerifyKey k.data alg customKid ∧
      k.data.serializeToString = .ok data ∧ (cc k.data.typeUrl).primitive data = .ok verifier ∧
      RightToken env alg (keyKid k) customKid verifier.verify clock v compact a :=
  C82_signature_iff_keys H hm hu (fun _ _ _ _ _ _ h => hcc _ _ _ h) clock compact v a

/-- C41.  A token that was created and encoded with a keyset whose primary key is `k` is accepted by every keyset
that has the key enabled, wherever it is in that keyset, if the validator accepts it. -/
theorem C41_mac_any {isInst' : P → C → Bool} {r' : Registry P C} {h' : KeysetHandle} {kps' : List (Key × P)} {p' : P}
    {t' : Nat} {ci' c' : C} {V V' : View P (JwtMacInternal F)} {W W' : View P (JwtMac F)}
    {cc cc' : CcKeyManager Mac}
    (H : Obtained isInst (jwtMacWrapper V W t ci c) r h c kps p) (hm : MacManagers V ci env cc r)
    (H' : Obtained isInst' (jwtMacWrapper V' W' t' ci' c') r' h' c' kps' p')
    (hm' : MacManagers V' ci' env cc' r') (hl : LawfulFloats env.json.floats) (hu : LawfulUpper env.upper)
    (hcc' : ∀ data mac, cc'.primitive data = .ok mac → TinkErrorsOnly mac.verifyMac)
    {k k' : Key} {o : P} (hk : IsPrimary h.keyset kps (k, o)) (hk' : k' ∈ h'.keyset.key) (hen : Enabled k')
    (hid : k'.keyId = k.keyId) (hpt : k'.outputPrefixType = k.outputPrefixType) (hd : k'.data = k.data)
    (hmac : ∀ data mac mac', cc.primitive data = .ok mac → cc'.primitive data = .ok mac' →
      ∀ d tag, mac.computeMac d = .ok tag → mac'.verifyMac tag d = .ok ())
    {a : RawJwtArgs F} {tok : RawJwt F} (ht : newRawJwt env.json a = .ok tok)
    (hv : ValidObjects (.dict tok.payload)) (hth : ∀ s, a.typeHeader = some s → ValidText s)
    {compact : PyStr} (he : (W.view p).computeMacAndEncode tok = .ok compact)
    {clock : Int} {v : JwtValidator} (ha : validate env.json.floats clock v (written a tok) = .ok ()) :
    (W'.view p').verifyMacAndDecode clock compact v = .ok ⟨written a tok⟩ := by
  obtain ⟨o', hmem'⟩ := enabled_primitive H'.keys hk' hen
  obtain ⟨alg, customKid, data, mac, h1, h2, h3, h4⟩ := mac_primitive hm (H.keys.2 _ hk.mem)
  obtain ⟨alg', customKid', data', mac', g1, g2, g3, g4⟩ := mac_primitive hm' (H'.keys.2 _ hmem')
  simp only at h1 h2 h4 g1 g2 g4
  rw [C82_mac_iff H' hm' hu hcc']
  refine ⟨k', hk', hen, alg', customKid', data', mac', g1, g2, g3, (decode_iff hu g1.alg_valid).1 ?_⟩
  rw [hd] at g1 g2
  rw [h2] at g2
  cases g2
  obtain ⟨rfl, rfl⟩ := h1.unique g1
  rw [compute_eq H hk, h4] at he
  exact round_trip_key hl hu hid hpt h1.kid_valid (.inl rfl) (hmac data mac mac' h3 g3) ht hv hth he ha

/-- C41 for signatures, likewise. -/
theorem C41_signature_any_keys {isInst' : P → C → Bool} {r' : Registry P C} {h' : KeysetHandle}
    {kps' : List (Key × P)} {p' : P} {t' : Nat} {ci' c' : C} {V : View P (JwtPublicKeySignInternal F)}
    {W : View P (JwtPublicKeySign F)} {V' : View P (JwtPublicKeyVerifyInternal F)}
    {W' : View P (JwtPublicKeyVerify F)} {cc : PStr → CcKeyManager PublicKeySign}
    {cc' : PStr → CcKeyManager PublicKeyVerify}
    (H : Obtained isInst (jwtSignWrapper V W t ci c) r h c kps p) (hm : SignManagers V ci env cc r)
    (H' : Obtained isInst' (jwtVerifyWrapper V' W' t' ci' c') r' h' c' kps' p')
    (hm' : VerifyManagers V' ci' env cc' r') (hl : LawfulFloats env.json.floats) (hu : LawfulUpper env.upper)
    (hcc' : ∀ kd alg customKid data verifier, VerifyKey kd alg customKid →
      (cc' kd.typeUrl).primitive data = .ok verifier → TinkErrorsOnly verifier.verify)
    {k k' : Key} {o : P} (hk : IsPrimary h.keyset kps (k, o)) (hk' : k' ∈ h'.keyset.key) (hen : Enabled k')
    (hid : k'.keyId = k.keyId) (hpt : k'.outputPrefixType = k.outputPrefixType)
    {alg : PyStr} {customKid customKid' : Option PyStr} (hs : SignKey k.data alg customKid)
    (hs' : VerifyKey k'.data alg customKid') (hcustom : customKid' = customKid ∨ customKid' = none)
    (hsig : ∀ data data' signer verifier,
      k.data.serializeToString = .ok data → (cc k.data.typeUrl).primitive data = .ok signer →
      k'.data.serializeToString = .ok data' → (cc' k'.data.typeUrl).primitive data' = .ok verifier →
      ∀ seed d sig, signer.sign seed d = .ok sig → verifier.verify sig d = .ok ())
    {a : RawJwtArgs F} {tok : RawJwt F} (ht : newRawJwt env.json a = .ok tok)
    (hv : ValidObjects (.dict tok.payload)) (hth : ∀ s, a.typeHeader = some s → ValidText s)
    {seed : Seed} {compact : PyStr} (he : (W.view p).signAndEncode seed tok = .ok compact)
    {clock : Int} {v : JwtValidator} (ha : validate env.json.floats clock v (written a tok) = .ok ()) :
    (W'.view p').verifyAndDecode clock compact v = .ok ⟨written a tok⟩ := by
  obtain ⟨o', hmem'⟩ := enabled_primitive H'.keys hk' hen
  obtain ⟨alg1, customKid1, data, signer, h1, h2, h3, h4⟩ := sign_primitive hm (H.keys.2 _ hk.mem)
  obtain ⟨alg2, customKid2, data', verifier, g1, g2, g3, g4⟩ := verify_primitive hm' (H'.keys.2 _ hmem')
  simp only at h1 h2 h3 h4 g1 g2 g3 g4
  obtain ⟨rfl, rfl⟩ := hs.unique h1
  obtain ⟨rfl, rfl⟩ := hs'.unique g1
  rw [C82_signature_iff_keys H' hm' hu hcc']
  refine ⟨k', hk', hen, alg, customKid', data', verifier, hs', g2, g3, (decode_iff hu hs'.alg_valid).1 ?_⟩
  rw [sign_eq H hk, h4] at he
  exact round_trip_key hl hu hid hpt hs.kid_valid hcustom
    (hsig data data' signer verifier h2 h3 g2 g3 seed) ht hv hth he ha

theorem C41_signature_any {isInst' : P → C → Bool} {r' : Registry P C} {h' : KeysetHandle}
    {kps' : List (Key × P)} {p' : P} {t' : Nat} {ci' c' : C} {V : View P (JwtPublicKeySignInternal F)}
    {W : View P (JwtPublicKeySign F)} {V' : View P (JwtPublicKeyVerifyInternal F)}
    {W' : View P (JwtPublicKeyVerify F)} {cc : PStr → CcKeyManager PublicKeySign}
    {cc' : PStr → CcKeyManager PublicKeyVerify}
    (H : Obtained isInst (jwtSignWrapper V W t ci c) r h c kps p) (hm : SignManagers V ci env cc r)
    (H' : Obtained isInst' (jwtVerifyWrapper V' W' t' ci' c') r' h' c' kps' p')
    (hm' : VerifyManagers V' ci' env cc' r') (hl : LawfulFloats env.json.floats) (hu : LawfulUpper env.upper)
    (hcc' : ∀ url data verifier, (cc' url).primitive data = .ok verifier → TinkErrorsOnly verifier.verify)
    {k k' : Key} {o : P} (hk : IsPrimary h.keyset kps (k, o)) (hk' : k' ∈ h'.keyset.key) (hen : Enabled k')
    (hid : k'.keyId = k.keyId) (hpt : k'.outputPrefixType = k.outputPrefixType)
    {alg : PyStr} {customKid customKid' : Option PyStr} (hs : SignKey k.data alg customKid)
    (hs' : VerifyKey k'.data alg customKid') (hcustom : customKid' = customKid ∨ customKid' = none)
    (hsig : ∀ data data' signer verifier,
      k.data.serializeToString = .ok data → (cc k.data.typeUrl).primitive data = .ok signer →
      k'.data.serializeToString = .ok data' → (cc' k'.data.typeUrl).primitive data' = .ok verifier →
      ∀ seed d sig, signer.sign seed d = .ok sig → verifier.verify sig d = .ok ())
    {a : RawJwtArgs F} {tok : RawJwt F} (ht : newRawJwt env.json a = .ok tok)
    (hv : ValidObjects (.dict tok.payload)) (hth : ∀ s, a.typeHeader = some s → ValidText s)
    {seed : Seed} {compact : PyStr} (he : (W.view p).signAndEncode seed tok = .ok compact)
    {clock : Int} {v : JwtValidator} (ha : validate env.json.floats clock v (written a tok) = .ok ()) :
    (W'.view p').verifyAndDecode clock compact v = .ok ⟨written a tok⟩ :=
  C41_signature_any_keys H hm H' hm' hl hu (fun _ _ _ _ _ _ h => hcc' _ _ _ h) hk hk' hen hid hpt hs hs' hcustom hsig
    ht hv hth he ha

end

/-! ## Examples -/

section
open ToyJwt

theorem toy_tink_errors (s : Bytes) : TinkErrorsOnly (check s) := by
  intro sig d
  unfold check
  by_cases h : sig = s ++ d
  · exact .inl (if_pos h)
  · exact .inr ⟨.tinkError, if_neg h, rfl⟩

theorem toy_mac_errors (url : PStr) (data : Bytes) (mac : Mac) (h : (library.ccMac url).primitive data = .ok mac) :
    TinkErrorsOnly mac.verifyMac := by
  obtain ⟨v, _, h⟩ := bind_ok h
  cases h
  exact toy_tink_errors v

theorem toy_signature_errors (url : PStr) (data : Bytes) (verifier : PublicKeyVerify)
    (h : (library.ccVerify url).primitive data = .ok verifier) : TinkErrorsOnly verifier.verify := by
  obtain ⟨v, _, h⟩ := bind_ok h
  cases h
  exact toy_tink_errors v

/-- The key is the last one of the keyset that verifies, here and below. -/
example : (library.mac.view (object macKeyset' .mac)).verifyMacAndDecode clock macCompact validator =
    .ok ⟨written args token⟩ :=
  C41_mac_any (k := macKey1) (k' := macKey1) (o := objectOf macKey1 .macInternal) macObtained toyManagers.mac
    macObtained' toyManagers.mac ToyJson.lawful lawfulUpper (toy_mac_errors _) rfl (by simp [macKeyset']) rfl rfl rfl rfl (by
      intro data mac mac' h h' d tag hc
      rw [h] at h'
      cases h'
      obtain ⟨v, _, h⟩ := bind_ok h
      cases h
      cases hc
      exact if_pos rfl) token_created token_valid args_type mac_encodes (by decide +kernel)

theorem toy_sign_verify (data data' : Bytes) (signer : PublicKeySign) (verifier : PublicKeyVerify)
    (h1 : signKey.data.serializeToString = .ok data) (h2 : (library.ccSign signKey.data.typeUrl).primitive data = .ok signer)
    (h3 : verifyKey2.data.serializeToString = .ok data')
    (h4 : (library.ccVerify verifyKey2.data.typeUrl).primitive data' = .ok verifier)
    (seed : Seed) (d sig : Bytes) (hs : signer.sign seed d = .ok sig) : verifier.verify sig d = .ok () := by
  have e1 : signKey.data.serializeToString = .ok (value [] signKey.data.serializeToString) :=
    value_ok (by decide +kernel)
  have e3 : verifyKey2.data.serializeToString = .ok (value [] verifyKey2.data.serializeToString) :=
    value_ok (by decide +kernel)
  rw [e1] at h1
  rw [e3] at h3
  cases h1
  cases h3
  obtain ⟨v, hv, h2⟩ := bind_ok h2
  obtain ⟨w, hw, h4⟩ := bind_ok h4
  cases h2
  cases h4
  cases hs
  have e2 : shared (value [] signKey.data.serializeToString) = .ok [5, 5] := by decide +kernel
  have e4 : shared (value [] verifyKey2.data.serializeToString) = .ok [5, 5] := by decide +kernel
  rw [e2] at hv
  rw [e4] at hw
  cases hv
  cases hw
  exact if_pos rfl

theorem toy_signKey : SignKey signKey.data (py! "ES384") (some [120]) :=
  .ecdsa { publicKey := some (ecdsaPublic JwtEcdsaAlgorithm.ES384 [5, 5] (some ['x'])), keyValue := [9] }
    rfl (by decide +kernel) (by decide) rfl

theorem toy_verifyKey : VerifyKey verifyKey2.data (py! "ES384") (some [120]) :=
  .ecdsa (ecdsaPublic JwtEcdsaAlgorithm.ES384 [5, 5] (some ['x'])) rfl (by decide +kernel) (by decide) rfl

example : (library.verify.view (object verifyKeyset .verify)).verifyAndDecode clock signCompact validator =
    .ok ⟨written args token⟩ :=
  C41_signature_any (k := signKey) (k' := verifyKey2) (o := objectOf signKey .signInternal) signObtained
    toyManagers.sign verifyObtained toyManagers.verify ToyJson.lawful lawfulUpper toy_signature_errors rfl
    (by simp [verifyKeyset]) rfl rfl rfl toy_signKey toy_verifyKey (.inl rfl) toy_sign_verify token_created token_valid args_type
    sign_encodes (by decide +kernel)

example := C82_mac_iff macObtained' toyManagers.mac lawfulUpper (toy_mac_errors _) clock macCompact validator
example := C82_signature_iff verifyObtained toyManagers.verify lawfulUpper toy_signature_errors clock signCompact
  validator

end

end Props
end Tink
