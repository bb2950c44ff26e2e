import Verif.Props.RotationKeysets
import Verif.Props.JwtMacKeys
import Verif.Props.JwtSignatureTemplates

/-!
# C109: rotation of keysets for JWT
-/

namespace Tink.Props
open Spec Cc Jwt

/-! ## Tokens that name a kid -/

theorem compact_unique {compact : PyStr} {h1 p1 s1 h2 p2 s2 : Bytes} (a : Compact compact h1 p1 s1)
    (b : Compact compact h2 p2 s2) : h1 = h2 ∧ p1 = p2 ∧ s1 = s2 := by
  have e : h1 ++ 46 :: p1 ++ 46 :: s1 = h2 ++ 46 :: p2 ++ 46 :: s2 := by
    have := a.form.symm.trans b.form
    exact List.map_inj_right (fun x y h => UInt8.toNat_inj.1 h) |>.1 this
  have r1 := rsplitDot_append (u := h1 ++ 46 :: p1) (no_dot a.signature)
  rw [e, rsplitDot_append (no_dot b.signature), Option.some.injEq, Prod.mk.injEq] at r1
  have d1 := (splitDots_two (b := h1 ++ 46 :: p1)).2 ⟨rfl, no_dot a.header, no_dot a.payload⟩
  rw [← r1.1, splitDots_two.2 ⟨rfl, no_dot b.header, no_dot b.payload⟩] at d1
  simp only [List.cons.injEq, and_true] at d1
  exact ⟨d1.1.symm, d1.2.symm, r1.2.symm⟩

theorem partText_unique {F : Type} {env : JsonEnv F} {part : Bytes} {v w : JVal F} (h1 : PartText env part v)
    (h2 : PartText env part w) : v = w := by
  obtain ⟨b, t, a1, a2, a3⟩ := h1
  obtain ⟨b', t', c1, c2, c3⟩ := h2
  rw [← base64Url_iff] at a1 c1
  rw [a1] at c1; cases c1
  rw [← utf8Text_iff] at a2 c2
  rw [a2] at c2; cases c2
  rw [← Json.parseTree_iff] at a3 c3
  rw [a3] at c3; cases c3
  rfl

theorem partForm_text {F : Type} {env : JsonEnv F} {part : Bytes} {v : JVal F} (h : PartForm env part v) :
    PartText env part v := by
  obtain ⟨b, text, h1, h2, h3⟩ := h
  exact ⟨b, text, C82_form_read h1, h2, h3⟩

theorem keyKid_id {k k' : Key} {kid : PyStr} (h : keyKid k = some kid) (h' : keyKid k' = some kid) :
    k'.keyId = k.keyId := by
  unfold keyKid at h h'
  split at h
  · split at h'
    · have e : base64Encode (be32 k'.keyId.toNat) = base64Encode (be32 k.keyId.toNat) := by
        have := (Option.some.inj h').trans (Option.some.inj h).symm
        exact List.map_inj_right (fun x y h => UInt8.toNat_inj.1 h) |>.1 this
      have e2 := base64Decode_encode (be32 k'.keyId.toNat)
      rw [e, base64Decode_encode] at e2
      exact UInt32.toNat_inj.1 (be32_inj (UInt32.toNat_lt _) (UInt32.toNat_lt _) (Except.ok.inj e2).symm)
    · cases h'
  · cases h

/-- A token that names the kid of a key is right only for keys with its id, and for keys whose id stands for no kid. -/
theorem rightToken_id {F : Type} {env : JwtEnv F} {alg : PyStr} {ck : Option PyStr}
    {check : Bytes → Bytes → Py Unit} {clock : Int} {v : JwtValidator} {compact kid : PyStr} {a : VerifiedJwt F}
    {k k' : Key} (hn : NamesKid env.json compact kid) (hk : keyKid k = some kid)
    (H : RightToken env alg (keyKid k') ck check clock v compact a) :
    k'.outputPrefixType ≠ OutputPrefixType.TINK ∨ k'.keyId = k.keyId := by
  obtain ⟨header, payload, signature, d, n1, n2, n3⟩ := hn
  obtain ⟨header', payload', signature', sig, d', c1, -, ⟨c2, -, c3, -⟩, -⟩ := H
  obtain ⟨rfl, -, -⟩ := compact_unique n1 c1
  cases partText_unique n2 c2
  cases hk' : keyKid k' with
  | none =>
    refine .inl fun e => ?_
    unfold keyKid at hk'
    rw [if_pos e] at hk'
    cases hk'
  | some kid' =>
    have := c3.kid _ hk'
    rw [n3] at this
    cases this
    exact .inr (keyKid_id hk hk')

/-! ## MAC -/

section
variable {F P C : Type} [DecidableEq C] {L : Library F P C} {isInst : P → C → Bool} {r rb : Registry P C}
  {h h' : KeysetHandle} {p p' : P}

section
variable {lib : Ssl}
variable (hcc : L.ccMac jwtHmacType =
  boundKeyManager macCcToPy (RawJwtHmacKeyManager.keyTypeManager lib).toKeyManager)

include hcc in
/-- C109, JWT MAC.  If the primary key is neither disabled nor deleted, the rotated keyset accepts tokens made before. -/
theorem C109_jwt_mac (hl : LawfulSsl lib) (hr : JwtMacRegistered L r) (hfl : LawfulFloats L.env.json.floats)
    (hu : LawfulUpper L.env.upper) {ops : List BuilderOp} (H : Rotated rb h ops h')
    (hp : h.primitive isInst r L.macClass = .ok p) (hp' : h'.primitive isInst r L.macClass = .ok p') {k : Key}
    (hm : k ∈ h.keyset.key) (hpk : IsPrimaryKey h.keyset k) (hs : ∀ op ∈ ops, Spares k.keyId op)
    {a : RawJwtArgs F} {tok : RawJwt F} (ht : newRawJwt L.env.json a = .ok tok)
    (hv : ValidObjects (.dict tok.payload)) (hth : ∀ s, a.typeHeader = some s → ValidText s) {compact : PyStr}
    (he : (L.mac.view p).computeMacAndEncode tok = .ok compact) {clock : Int} {v : JwtValidator}
    (ha : validate L.env.json.floats clock v (written a tok) = .ok ()) :
    (L.mac.view p').verifyMacAndDecode clock compact v = .ok ⟨written a tok⟩ :=
  C95_round_trip hcc hl hr hfl hu hp hm hpk hp' (C12_key_survives hs (rotated_iff_run H).1 hm hpk.1) hpk.1 rfl rfl rfl
    ht hv hth he ha

include hcc in
/-- C109, JWT MAC.  A token made with a TINK key names the kid of the key. -/
theorem C109_jwt_mac_names (hl : LawfulSsl lib) (hr : JwtMacRegistered L r) (hfl : LawfulFloats L.env.json.floats)
    (hp : h.primitive isInst r L.macClass = .ok p) {k : Key} (hm : k ∈ h.keyset.key) (hpk : IsPrimaryKey h.keyset k)
    {kid : PyStr} (hkid : keyKid k = some kid) {a : RawJwtArgs F} {tok : RawJwt F}
    (ht : newRawJwt L.env.json a = .ok tok) (hv : ValidObjects (.dict tok.payload))
    (hth : ∀ s, a.typeHeader = some s → ValidText s) {compact : PyStr}
    (he : (L.mac.view p).computeMacAndEncode tok = .ok compact) : NamesKid L.env.json compact kid := by
  obtain ⟨alg, ck, hash, key, -, header, payload, signature, tag, d, g1, g2, g3, -⟩ :=
    C95_form hcc hl hr hfl hp hm hpk ht hv hth he
  refine ⟨header, payload, signature, d, g1, partForm_text g2, ?_⟩
  rw [g3.kid]
  unfold writtenKid
  rw [hkid]
  rfl

include hcc in
/-- C109, JWT MAC.  After the key has been disabled or deleted, a token that names its kid is accepted only if it is
right for a RAW key. -/
theorem C109_jwt_mac_revoked (hi : JwtMacInstances isInst L) (hl : LawfulSsl lib) (hr : JwtMacRegistered L r)
    (hu : LawfulUpper L.env.upper) {before after : List BuilderOp} {op : BuilderOp}
    (H : Rotated rb h (before ++ op :: after) h') (hp' : h'.primitive isInst r L.macClass = .ok p') {k : Key}
    (h0 : k.keyId ≠ 0) (hone : AtMostOne k.keyId h.keyset) (hop : Revokes k.keyId op)
    (ha : ∀ op ∈ after, KeepsOut k.keyId op) {kid : PyStr} (hkid : keyKid k = some kid) {compact : PyStr}
    (hn : NamesKid L.env.json compact kid) {clock : Int} {v : JwtValidator} {a : VerifiedJwt F}
    (hv : (L.mac.view p').verifyMacAndDecode clock compact v = .ok a) :
    ∃ k' ∈ h'.keyset.key, Enabled k' ∧ k'.outputPrefixType = OutputPrefixType.RAW ∧
      ∃ alg ck hash key, JwsMacKey k'.data alg ck hash key ∧
        RightToken L.env alg none ck (hmacCheck lib hash key) clock v compact a := by
  obtain ⟨k', h1, h2, alg, ck, hash, key, h3, h4⟩ := (C95_accepted_iff hcc hl hr hu hp' clock compact v a).1 hv
  rcases rightToken_id hn hkid h4 with e | e
  · rcases (((C95_primitive hcc hi hr).1 ⟨p', hp'⟩).2 k' h1 h2).1 with e' | e'
    · refine ⟨k', h1, h2, e', alg, ck, hash, key, h3, ?_⟩
      unfold keyKid at h4
      rwa [if_neg e] at h4
    · exact absurd e' e
  · exact absurd e (C109_gone H h0 hone hop ha k' h1 h2)

end

/-! ## Signatures -/

section
variable {lib : SigSsl}
variable (hccs : ∀ url cc, ccJwtSign lib url = some cc → L.ccSign url = boundKeyManager signCcToPy cc)
variable (hccv : ∀ url cc, ccJwtVerify lib url = some cc → L.ccVerify url = boundKeyManager verifyCcToPy cc)

include hccs hccv in
/-- C109, JWT signatures.  The public keyset of the rotated keyset accepts tokens signed before, if the public part of
the key is that of its private part. -/
theorem C109_jwt_signature (hl : LawfulSigSsl lib) (hr : JwtSignatureRegistered L r)
    (hfl : LawfulFloats L.env.json.floats) (hu : LawfulUpper L.env.upper) {ops : List BuilderOp}
    (H : Rotated rb h ops h') (hk' : JwsPrivateKeyset h'.keyset) (hp : h.primitive isInst r L.signClass = .ok p)
    {k : Key} (hm : k ∈ h.keyset.key) (hpk : IsPrimaryKey h.keyset k)
    (hmatch : ∀ i s, JwsPrivateKey k.data i s → s.Matches lib) (hs : ∀ op ∈ ops, Spares k.keyId op)
    {pub : KeysetHandle} (hpub : h'.publicKeysetHandle r = .ok pub) {isInst' : P → C → Bool}
    (hp' : pub.primitive isInst' r L.verifyClass = .ok p')
    {a : RawJwtArgs F} {tok : RawJwt F} (ht : newRawJwt L.env.json a = .ok tok)
    (hv : ValidObjects (.dict tok.payload)) (hth : ∀ s, a.typeHeader = some s → ValidText s) {seed : Seed}
    {compact : PyStr} (he : (L.sign.view p).signAndEncode seed tok = .ok compact) {clock : Int} {v : JwtValidator}
    (ha : validate L.env.json.floats clock v (written a tok) = .ok ()) :
    (L.verify.view p').verifyAndDecode clock compact v = .ok ⟨written a tok⟩ := by
  obtain ⟨-, c2, c3, -, -⟩ := C99_public_keys hccs hl hr hk' hpub
  obtain ⟨kp, hkp, hmem⟩ := zip_mem c2 (C12_key_survives hs (rotated_iff_run H).1 hm hpk.1)
  obtain ⟨g1, g2, g3, -, -, -, i, s, g7, g8⟩ := c3 _ hmem
  dsimp only at g1 g2 g3 g7 g8
  refine C99_round_trip hccs hccv hl hr hfl hu hp hm hpk g7 (hmatch i s g7) hp' hkp ?_ g2 g3 g8 rfl
    (.inl rfl) ht hv hth he ha
  have := hpk.1
  unfold Enabled at this ⊢
  rw [g1]
  exact this

include hccs in
/-- C109, JWT signatures.  A token made with a TINK key names the kid of the key. -/
theorem C109_jwt_signature_names (hl : LawfulSigSsl lib) (hr : JwtSignatureRegistered L r)
    (hfl : LawfulFloats L.env.json.floats) (hp : h.primitive isInst r L.signClass = .ok p) {k : Key}
    (hm : k ∈ h.keyset.key) (hpk : IsPrimaryKey h.keyset k) {kid : PyStr} (hkid : keyKid k = some kid)
    {a : RawJwtArgs F} {tok : RawJwt F} (ht : newRawJwt L.env.json a = .ok tok) (hv : ValidObjects (.dict tok.payload))
    (hth : ∀ s, a.typeHeader = some s → ValidText s) {seed : Seed} {compact : PyStr}
    (he : (L.sign.view p).signAndEncode seed tok = .ok compact) : NamesKid L.env.json compact kid := by
  obtain ⟨i, s, -, -, header, payload, signature, sig, d, g1, g2, g3, -⟩ :=
    C99_form hccs hl hr hfl hp hm hpk ht hv hth he
  refine ⟨header, payload, signature, d, g1, partForm_text g2, ?_⟩
  rw [g3.kid]
  unfold writtenKid
  rw [hkid]
  rfl

include hccs hccv in
/-- C109, JWT signatures.  After the key has been disabled or deleted, the public keyset accepts a token that names its
kid only if it is right for a RAW key. -/
theorem C109_jwt_signature_revoked {isInst' : P → C → Bool} (hi : LawfulClasses isInst' L) (hl : LawfulSigSsl lib)
    (hr : JwtSignatureRegistered L r) (hu : LawfulUpper L.env.upper) {before after : List BuilderOp} {op : BuilderOp}
    (H : Rotated rb h (before ++ op :: after) h') (hk' : JwsPrivateKeyset h'.keyset) {pub : KeysetHandle}
    (hpub : h'.publicKeysetHandle r = .ok pub) (hp' : pub.primitive isInst' r L.verifyClass = .ok p') {k : Key}
    (h0 : k.keyId ≠ 0) (hone : AtMostOne k.keyId h.keyset) (hop : Revokes k.keyId op)
    (ha : ∀ op ∈ after, KeepsOut k.keyId op) {kid : PyStr} (hkid : keyKid k = some kid) {compact : PyStr}
    (hn : NamesKid L.env.json compact kid) {clock : Int} {v : JwtValidator} {a : VerifiedJwt F}
    (hv : (L.verify.view p').verifyAndDecode clock compact v = .ok a) :
    ∃ k' ∈ pub.keyset.key, Enabled k' ∧ k'.outputPrefixType = OutputPrefixType.RAW ∧
      ∃ i key, JwsPublicKey k'.data i key ∧
        RightToken L.env i.alg none i.customKid (sigCheck lib key) clock v compact a := by
  obtain ⟨-, c2, c3, -, -⟩ := C99_public_keys hccs hl hr hk' hpub
  obtain ⟨k', h1, h2, i, key, h3, h4⟩ := (C99_accepted_iff hccv hl hr hu hp' clock compact v a).1 hv
  rcases rightToken_id hn hkid h4 with e | e
  · rcases (((C99_verify_primitive hccv hi hl hr).1 ⟨p', hp'⟩).2 k' h1 h2).1 with e' | e'
    · refine ⟨k', h1, h2, e', i, key, h3, ?_⟩
      unfold keyKid at h4
      rwa [if_neg e] at h4
    · exact absurd e' e
  · obtain ⟨k1, hm1, hmem⟩ := zip_mem' c2 h1
    obtain ⟨g1, g2, -⟩ := c3 _ hmem
    dsimp only at g1 g2
    refine absurd (g2.symm.trans e) (C109_gone H h0 hone hop ha k1 hm1 ?_)
    unfold Enabled at h2 ⊢
    rw [← g1]
    exact h2

end

end

end Tink.Props
