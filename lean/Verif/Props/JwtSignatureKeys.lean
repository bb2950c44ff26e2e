import Verif.Examples.ToyJwt
import Verif.Examples.ToySigSsl
import Verif.Jwt.SigKeyLemmas
import Verif.Props.EndToEnd
import Verif.Props.Handle
import Verif.Props.JwtRoundTrip
import Verif.Props.SignatureKeysets
import Verif.Props.Templates
import Verif.Props.TokenFormat
import Verif.Props.TokenOrder

/-!
# C99: JWT signatures, from Python down to BoringSSL

What the `JwtPublicKeySign` and `JwtPublicKeyVerify` of keysets do, in terms of the keys that the keysets store.  The
C++ key managers are those of `Cc/JwtSignatures.lean`, over any lawful BoringSSL.
-/

namespace Tink.Props
open Spec Cc Jwt

section
variable {F P C : Type} [DecidableEq C] {L : Library F P C} {isInst : P → C → Bool} {r : Registry P C} {lib : SigSsl}
  {h : KeysetHandle} {p : P}

/-! ## Registration -/

/-- The program itself registers nothing in the place of Tink's own JWT key managers and wrappers. -/
structure ForeignToJwtSignature (L : Library F P C) (ops : List (JwtOp P C)) : Prop where
  classes : ∀ m b, .other (.registerKeyManager m b) ∈ ops → m.primitiveClass ≠ L.macInternalClass ∧
    m.primitiveClass ≠ L.signInternalClass ∧ m.primitiveClass ≠ L.verifyInternalClass
  keyType : ∀ m b, .other (.registerKeyManager m b) ∈ ops →
    m.keyType ∉ jwsSigners.map Prod.fst ++ jwsVerifiers.map Prod.fst
  wrapper : ∀ w, .other (.registerPrimitiveWrapper w) ∈ ops →
    w.primitiveClass ≠ L.signClass ∧ w.primitiveClass ≠ L.verifyClass

omit [DecidableEq C] in
theorem sigManager_none {url : PStr} (h : url ∉ jwsSigners.map Prod.fst ++ jwsVerifiers.map Prod.fst) :
    sigManager L url = none := by
  simp only [jwsSigners, jwsVerifiers, List.map_cons, List.map_nil, List.mem_append, List.mem_cons, List.not_mem_nil,
    or_false, not_or] at h
  obtain ⟨⟨h1, h2, h3⟩, h4, h5, h6⟩ := h
  unfold sigManager
  rw [if_neg (show ¬ url = JWT_ECDSA_PRIVATE_KEY_TYPE from h1),
    if_neg (show ¬ url = JWT_ECDSA_PUBLIC_KEY_TYPE from h4),
    if_neg (show ¬ url = JWT_RSA_SSA_PKCS1_PRIVATE_KEY_TYPE from h2),
    if_neg (show ¬ url = JWT_RSA_SSA_PKCS1_PUBLIC_KEY_TYPE from h5),
    if_neg (show ¬ url = JWT_RSA_SSA_PSS_PRIVATE_KEY_TYPE from h3),
    if_neg (show ¬ url = JWT_RSA_SSA_PSS_PUBLIC_KEY_TYPE from h6)]

theorem sig_call (hl : LawfulLibrary L) (hi : LawfulClasses isInst L)
    (hcls : L.macClass ≠ L.signClass ∧ L.macClass ≠ L.verifyClass) {r : Registry P C} {op : JwtOp P C}
    (hk : ∀ m b, op = .other (.registerKeyManager m b) →
      m.keyType ∉ jwsSigners.map Prod.fst ++ jwsVerifiers.map Prod.fst)
    (hw : ∀ w, op = .other (.registerPrimitiveWrapper w) →
      w.primitiveClass ≠ L.signClass ∧ w.primitiveClass ≠ L.verifyClass) :
    (SigCanon L r → SigCanon L (op.call isInst L r).1) ∧
    (op ≠ .other .reset → SigDone L r → SigDone L (op.call isInst L r).1) := by
  have same : SigSame L r (op.call isInst L r).1 → (SigCanon L r → SigCanon L (op.call isInst L r).1) ∧
      (op ≠ .other .reset → SigDone L r → SigDone L (op.call isInst L r).1) :=
    fun h => ⟨h.canon, fun _ => h.done⟩
  cases op with
  | registerJwtMac =>
    refine same ?_
    refine andThen_inv (I := SigSame L r) ?_ fun r' h => h.primitiveWrapper hcls.1 hcls.2
    refine (SigSame.refl r).keyManager _ ?_
    show sigManager L (L.ccMac _).keyType = none
    rw [hl.ccMac]
    rfl
  | registerJwtSignature =>
    exact ⟨fun h => (registerJwtSignature_done hl hi h).1.canon,
      fun _ h => (registerJwtSignature_done hl hi h.canon).1⟩
  | other op =>
    cases op with
    | registerKeyManager m b => exact same ((SigSame.refl r).keyManager b (sigManager_none (hk m b rfl)))
    | registerPrimitiveWrapper w => exact same ((SigSame.refl r).primitiveWrapper (hw w rfl).1 (hw w rfl).2)
    | reset => exact ⟨fun _ => ⟨fun _ _ _ => .inl rfl, .inl rfl, .inl rfl⟩, fun h => absurd rfl h⟩

/-- C99.  Once `register_jwt_signature` has been called, and until `reset`, JWT signatures can be used, whatever else
is registered before and after; and the call succeeds. -/
theorem C99_registered (hl : LawfulLibrary L) (hi : LawfulClasses isInst L)
    (hcls : L.macClass ≠ L.signClass ∧ L.macClass ≠ L.verifyClass) {before after : List (JwtOp P C)}
    (hf : ForeignToJwtSignature L (before ++ .registerJwtSignature :: after)) (hn : .other .reset ∉ after) :
    JwtSignatureRegistered L (runJwt isInst L (before ++ .registerJwtSignature :: after) {}) ∧
    (registerJwtSignature isInst L (runJwt isInst L before {})).2 = .ok () := by
  have canon : ∀ (ops : List (JwtOp P C)) (r : Registry P C), (∀ op ∈ ops, op ∈ before) → SigCanon L r →
      SigCanon L (runJwt isInst L ops r) := by
    intro ops
    induction ops with
    | nil => intro r _ h; exact h
    | cons op ops ih =>
      intro r hs h
      have hm : op ∈ before ++ .registerJwtSignature :: after := by simp [hs op (by simp)]
      exact ih _ (fun x hx => hs x (by simp [hx])) ((sig_call hl hi hcls
        (fun m b e => hf.keyType m b (e ▸ hm)) (fun w e => hf.wrapper w (e ▸ hm))).1 h)
  have done : ∀ (ops : List (JwtOp P C)) (r : Registry P C), (∀ op ∈ ops, op ∈ after) → SigDone L r →
      SigDone L (runJwt isInst L ops r) := by
    intro ops
    induction ops with
    | nil => intro r _ h; exact h
    | cons op ops ih =>
      intro r hs h
      have hm : op ∈ before ++ .registerJwtSignature :: after := by simp [hs op (by simp)]
      exact ih _ (fun x hx => hs x (by simp [hx])) ((sig_call hl hi hcls
        (fun m b e => hf.keyType m b (e ▸ hm)) (fun w e => hf.wrapper w (e ▸ hm))).2
        (fun e => hn (e ▸ hs op (by simp))) h)
  have h1 := registerJwtSignature_done hl hi
    (canon before {} (fun _ h => h) ⟨fun _ _ _ => .inl rfl, .inl rfl, .inl rfl⟩)
  have h2 := done after _ (fun _ h => h) h1.1
  have he : runJwt isInst L (before ++ .registerJwtSignature :: after) {} =
      runJwt isInst L after (registerJwtSignature isInst L (runJwt isInst L before {})).1 := by
    simp [runJwt, JwtOp.call]
  refine ⟨⟨fun q hq => ?_, fun q hq => ?_, (C43_registered isInst hl _ hf.classes).sign,
    (C43_registered isInst hl _ hf.classes).verify, ?_, ?_⟩, h1.2⟩
  · rw [he]
    simp only [jwsSigners, List.mem_cons, List.not_mem_nil, or_false] at hq
    rcases hq with rfl | rfl | rfl <;> exact h2.manager _ _ rfl
  · rw [he]
    simp only [jwsVerifiers, List.mem_cons, List.not_mem_nil, or_false] at hq
    rcases hq with rfl | rfl | rfl <;> exact h2.manager _ _ rfl
  · rw [he]; exact h2.sign
  · rw [he]; exact h2.verify

/-! ## Signing -/

theorem jwtSign_obtained (hr : JwtSignatureRegistered L r) (hp : h.primitive isInst r L.signClass = .ok p) :
    ∃ kps, Obtained isInst (jwtSignWrapper L.signInternal L.sign L.signWrapperType L.signInternalClass L.signClass)
      r h L.signClass kps p := by
  obtain ⟨_, w, kps, h1, h2, _⟩ := primitive_ok_iff.1 hp
  rw [hr.signWrapper] at h1
  cases h1
  exact ⟨kps, hr.signWrapper, hp, h2⟩

theorem jwtVerify_obtained (hr : JwtSignatureRegistered L r) (hp : h.primitive isInst r L.verifyClass = .ok p) :
    ∃ kps, Obtained isInst
      (jwtVerifyWrapper L.verifyInternal L.verify L.verifyWrapperType L.verifyInternalClass L.verifyClass)
      r h L.verifyClass kps p := by
  obtain ⟨_, w, kps, h1, h2, _⟩ := primitive_ok_iff.1 hp
  rw [hr.verifyWrapper] at h1
  cases h1
  exact ⟨kps, hr.verifyWrapper, hp, h2⟩

section
variable (hccs : ∀ url cc, ccJwtSign lib url = some cc → L.ccSign url = boundKeyManager signCcToPy cc)
variable (hccv : ∀ url cc, ccJwtVerify lib url = some cc → L.ccVerify url = boundKeyManager verifyCcToPy cc)

include hccs in
/-- The key and the signatures of it that an entry holds. -/
theorem jwtSign_key (hl : LawfulSigSsl lib) {kd : KeyData} {alg : PyStr} {ck : Option PyStr} {data : Bytes}
    {signer : PublicKeySign} (h1 : SignKey kd alg ck) (h2 : kd.serializeToString = .ok data)
    (h3 : (L.ccSign kd.typeUrl).primitive data = .ok signer) :
    ∃ s, JwsPrivateKey kd ⟨alg, ck⟩ s ∧ s.Ok lib ∧
      ∀ seed d, signer.sign seed d = match s.signature lib seed d with
        | some sig => .ok sig
        | none => .error .tinkError := by
  obtain ⟨cc, hc⟩ := signKey_cc (lib := lib) h1
  obtain ⟨pu, -, M⟩ := jwtSign_manages hl 0 hc
  rw [hccs _ _ hc, bound_primitive _ _ h2, reported_inj_ok] at h3
  obtain ⟨a, h3, rfl⟩ := h3
  obtain ⟨i, s, g1, g2, g3⟩ := M.sound _ _ h3
  obtain ⟨e1, e2⟩ := h1.unique (jwsPrivate_signKey (kd := kd) g1)
  refine ⟨s, by rw [e1, e2]; exact g1, g2, fun seed d => ?_⟩
  rw [C65_primitives.2.2.2.2.2.2.2.2.1]
  cases hx : a.sign seed d with
  | ok x => rw [(g3 _ _ _).1 hx]; rfl
  | error e =>
    cases hy : s.signature lib seed d with
    | some x => rw [(g3 _ _ _).2 hy] at hx; cases hx
    | none => rfl

include hccv in
theorem jwtVerify_key (hl : LawfulSigSsl lib) {kd : KeyData} {alg : PyStr} {ck : Option PyStr} {data : Bytes}
    {verifier : PublicKeyVerify} (h1 : VerifyKey kd alg ck) (h2 : kd.serializeToString = .ok data)
    (h3 : (L.ccVerify kd.typeUrl).primitive data = .ok verifier) :
    ∃ v, JwsPublicKey kd ⟨alg, ck⟩ v ∧ v.Ok lib ∧ verifier.verify = sigCheck lib v := by
  obtain ⟨cc, hc⟩ := verifyKey_cc (lib := lib) h1
  have M := jwtVerify_manages hl hc
  rw [hccv _ _ hc, bound_primitive _ _ h2, reported_inj_ok] at h3
  obtain ⟨a, h3, rfl⟩ := h3
  obtain ⟨i, v, g1, g2, g3⟩ := M.sound _ _ h3
  obtain ⟨e1, e2⟩ := h1.unique (jwsPublic_verifyKey (kd := kd) g1)
  refine ⟨v, by rw [e1, e2]; exact g1, g2, ?_⟩
  funext sig d
  rw [C65_primitives.2.2.2.2.2.2.2.2.2.1]
  unfold sigCheck
  cases hx : a.verify sig d with
  | ok x => rw [if_pos ((g3 _ _).1 hx)]; rfl
  | error e =>
    rw [if_neg fun hv => by rw [(g3 _ _).2 hv] at hx; cases hx]
    rfl

include hccv in
theorem jwtVerify_tinkErrors {kd : KeyData} {alg : PyStr} {ck : Option PyStr} {data : Bytes}
    {verifier : PublicKeyVerify} (h1 : VerifyKey kd alg ck)
    (h : (L.ccVerify kd.typeUrl).primitive data = .ok verifier) : TinkErrorsOnly verifier.verify := by
  obtain ⟨cc, hc⟩ := verifyKey_cc (lib := lib) h1
  rw [hccv _ _ hc] at h
  have h : useTinkErrors (throwTinkException (cc.getPrimitive (Tink.CcKeyManager.parseKeyData data)) >>=
      fun p => pure (verifyCcToPy p)) = .ok verifier := h
  cases hg : cc.getPrimitive (Tink.CcKeyManager.parseKeyData data) with
  | error e => rw [hg] at h; cases h
  | ok a =>
    rw [hg] at h
    cases h
    intro sig d
    rw [C65_primitives.2.2.2.2.2.2.2.2.2.1]
    cases a.verify sig d with
    | ok x => exact .inl rfl
    | error e => exact .inr ⟨_, rfl, rfl⟩

include hccs in
/-- Which key data the registry makes a signer of. -/
theorem jwtSign_key_iff (hl : LawfulSigSsl lib) (hr : JwtSignatureRegistered L r) {kd : KeyData} :
    (∃ o, r.primitive kd L.signInternalClass = .ok o) ↔ Fits kd ∧ ∃ i s, JwsPrivateKey kd i s ∧ s.Ok lib := by
  constructor
  · rintro ⟨o, ho⟩
    obtain ⟨alg, ck, data, signer, h1, h2, h3, h4⟩ := sign_primitive hr.onlySign ho
    obtain ⟨s, h5, h6, -⟩ := jwtSign_key hccs hl h1 h2 h3
    exact ⟨⟨data, h2⟩, _, s, h5, h6⟩
  · rintro ⟨⟨data, hd⟩, i, s, hk, hok⟩
    have h1 := jwsPrivate_signKey hk
    obtain ⟨cc, hc⟩ := signKey_cc (lib := lib) h1
    obtain ⟨pu, -, M⟩ := jwtSign_manages hl 0 hc
    obtain ⟨a, ha⟩ := M.complete kd i s rfl hk hok
    exact ⟨_, registered_sign hr h1 hd (by rw [hccs _ _ hc, bound_primitive _ _ hd, ha]; rfl)⟩

include hccv in
/-- Which key data the registry makes a verifier of. -/
theorem jwtVerify_key_iff (hl : LawfulSigSsl lib) (hr : JwtSignatureRegistered L r) {kd : KeyData} :
    (∃ o, r.primitive kd L.verifyInternalClass = .ok o) ↔ Fits kd ∧ ∃ i v, JwsPublicKey kd i v ∧ v.Ok lib := by
  constructor
  · rintro ⟨o, ho⟩
    obtain ⟨alg, ck, data, signer, h1, h2, h3, h4⟩ := verify_primitive hr.onlyVerify ho
    obtain ⟨s, h5, h6, -⟩ := jwtVerify_key hccv hl h1 h2 h3
    exact ⟨⟨data, h2⟩, _, s, h5, h6⟩
  · rintro ⟨⟨data, hd⟩, i, s, hk, hok⟩
    have h1 := jwsPublic_verifyKey hk
    obtain ⟨cc, hc⟩ := verifyKey_cc (lib := lib) h1
    have M := jwtVerify_manages hl hc
    obtain ⟨a, ha⟩ := M.complete kd i s rfl hk hok
    exact ⟨_, registered_verify hr h1 hd (by rw [hccv _ _ hc, bound_primitive _ _ hd, ha]; rfl)⟩

include hccs in
/-- C99.  A keyset gives a `JwtPublicKeySign` if and only if it is valid, and each of its enabled keys has prefix type
TINK or RAW and holds a private key that can be used. -/
theorem C99_sign_primitive (hi : LawfulClasses isInst L) (hl : LawfulSigSsl lib) (hr : JwtSignatureRegistered L r) :
    (∃ p, h.primitive isInst r L.signClass = .ok p) ↔
      Valid h.keyset ∧ ∀ k ∈ h.keyset.key, Enabled k →
        (k.outputPrefixType = OutputPrefixType.RAW ∨ k.outputPrefixType = OutputPrefixType.TINK) ∧ Fits k.data ∧
        ∃ i s, JwsPrivateKey k.data i s ∧ s.Ok lib := by
  have := handle_primitive_iff (isInst := isInst) (h := h) hr.signWrapper
    (ok := fun k => Fits k.data ∧ ∃ i s, JwsPrivateKey k.data i s ∧ s.Ok lib)
    (good := fun k => k.outputPrefixType = OutputPrefixType.RAW ∨ k.outputPrefixType = OutputPrefixType.TINK)
    (fun k _ _ => jwtSign_key_iff hccs hl hr)
    (fun k _ _ o ho => by
      have ho : r.primitive k.data L.signInternalClass = .ok o := ho
      obtain ⟨alg, ck, data, signer, h1, h2, h3, -⟩ := sign_primitive hr.onlySign ho
      rw [registered_sign hr h1 h2 h3] at ho
      cases ho
      exact hi.signInternal _)
    (fun kps id => by
      rw [← validate_iff L.signInternal.view L.signInternalClass id kps]
      show (∃ p, (WrappedJwtPublicKeySign.wrap ((psetOf L.signInternalClass id kps).map L.signInternal.view) >>= _)
        = .ok p) ↔ _
      unfold WrappedJwtPublicKeySign.wrap
      cases validatePrimitiveSet ((psetOf L.signInternalClass id kps).map L.signInternal.view) with
      | error e => exact ⟨fun h => (by obtain ⟨_, h⟩ := h; cases h), fun h => (by cases h)⟩
      | ok u => exact ⟨fun _ => rfl, fun _ => ⟨_, rfl⟩⟩)
  refine this.trans ⟨fun ⟨hv, hk⟩ => ⟨hv, fun k hm he => (hk k hm he).2⟩,
    fun ⟨hv, hk⟩ => ⟨hv, fun k hm he => ⟨?_, hk k hm he⟩⟩⟩
  rcases (hk k hm he).1 with e | e
  · exact prefixKnown_iff.1 ⟨[], by unfold outputPrefix; rw [e]; rfl⟩
  · exact prefixKnown_iff.1 ⟨_, by unfold outputPrefix; rw [e]; rfl⟩

include hccv in
/-- C99.  A keyset gives a `JwtPublicKeyVerify` if and only if it is valid, and each of its enabled keys has prefix type
TINK or RAW and holds a public key that can be used. -/
theorem C99_verify_primitive (hi : LawfulClasses isInst L) (hl : LawfulSigSsl lib) (hr : JwtSignatureRegistered L r) :
    (∃ p, h.primitive isInst r L.verifyClass = .ok p) ↔
      Valid h.keyset ∧ ∀ k ∈ h.keyset.key, Enabled k →
        (k.outputPrefixType = OutputPrefixType.RAW ∨ k.outputPrefixType = OutputPrefixType.TINK) ∧ Fits k.data ∧
        ∃ i v, JwsPublicKey k.data i v ∧ v.Ok lib := by
  have := handle_primitive_iff (isInst := isInst) (h := h) hr.verifyWrapper
    (ok := fun k => Fits k.data ∧ ∃ i v, JwsPublicKey k.data i v ∧ v.Ok lib)
    (good := fun k => k.outputPrefixType = OutputPrefixType.RAW ∨ k.outputPrefixType = OutputPrefixType.TINK)
    (fun k _ _ => jwtVerify_key_iff hccv hl hr)
    (fun k _ _ o ho => by
      have ho : r.primitive k.data L.verifyInternalClass = .ok o := ho
      obtain ⟨alg, ck, data, signer, h1, h2, h3, -⟩ := verify_primitive hr.onlyVerify ho
      rw [registered_verify hr h1 h2 h3] at ho
      cases ho
      exact hi.verifyInternal _)
    (fun kps id => by
      rw [← validate_iff L.verifyInternal.view L.verifyInternalClass id kps]
      show (∃ p, (WrappedJwtPublicKeyVerify.wrap ((psetOf L.verifyInternalClass id kps).map L.verifyInternal.view)
        >>= _) = .ok p) ↔ _
      unfold WrappedJwtPublicKeyVerify.wrap
      cases validatePrimitiveSet ((psetOf L.verifyInternalClass id kps).map L.verifyInternal.view) with
      | error e => exact ⟨fun h => (by obtain ⟨_, h⟩ := h; cases h), fun h => (by cases h)⟩
      | ok u => exact ⟨fun _ => rfl, fun _ => ⟨_, rfl⟩⟩)
  refine this.trans ⟨fun ⟨hv, hk⟩ => ⟨hv, fun k hm he => (hk k hm he).2⟩,
    fun ⟨hv, hk⟩ => ⟨hv, fun k hm he => ⟨?_, hk k hm he⟩⟩⟩
  rcases (hk k hm he).1 with e | e
  · exact prefixKnown_iff.1 ⟨[], by unfold outputPrefix; rw [e]; rfl⟩
  · exact prefixKnown_iff.1 ⟨_, by unfold outputPrefix; rw [e]; rfl⟩

include hccs in
/-- C99.  A token that is made has three parts: header and payload as in C82, and a signature of the two with the dot
between them, made with the primary key in the way that the header's algorithm says. -/
theorem C99_form (hl : LawfulSigSsl lib) (hr : JwtSignatureRegistered L r) (hfl : LawfulFloats L.env.json.floats)
    (hp : h.primitive isInst r L.signClass = .ok p) {k : Key} (hm : k ∈ h.keyset.key)
    (hpk : IsPrimaryKey h.keyset k) {a : RawJwtArgs F} {tok : RawJwt F}
    (ht : newRawJwt L.env.json a = .ok tok) (hv : ValidObjects (.dict tok.payload))
    (hth : ∀ s, a.typeHeader = some s → ValidText s) {seed : Seed} {compact : PyStr}
    (he : (L.sign.view p).signAndEncode seed tok = .ok compact) :
    ∃ i s, JwsPrivateKey k.data i s ∧ s.Ok lib ∧
      ∃ header payload signature sig d, Compact compact header payload signature ∧
        PartForm L.env.json header (.dict d) ∧
        HeaderFor d i.alg (writtenKid k i.customKid) (nonempty a.typeHeader) ∧
        PartForm L.env.json payload (.dict tok.payload) ∧
        s.signature lib seed (header ++ 46 :: payload) = some sig ∧ Base64UrlForm signature sig := by
  obtain ⟨kps, H⟩ := jwtSign_obtained hr hp
  obtain ⟨o, ho⟩ := isPrimary_of_key ((C20_validate_iff _).1 (primitive_ok_iff.1 hp).1) H.keys.1 hm hpk
  obtain ⟨alg, ck, data, signer, h1, h2, h3, header, payload, signature, sig, d, g1, g2, g3, g4, g5, g6⟩ :=
    C82_signature_form H hr.onlySign hfl ho ht hv hth he
  obtain ⟨s, e1, e2, e3⟩ := jwtSign_key hccs hl h1 h2 h3
  refine ⟨_, s, e1, e2, header, payload, signature, sig, d, g1, g2, g3, g4, ?_, g6⟩
  rw [e3] at g5
  cases hx : s.signature lib seed (header ++ 46 :: payload) with
  | none => rw [hx] at g5; cases g5
  | some x => rw [hx] at g5; cases g5; rfl

include hccv in
/-- C99.  A token is accepted, with a result, exactly if for an enabled key of the keyset: the signature part is a
signature of the first two parts that is valid under the key; and the rest is right for the key, the validator and the
clock. -/
theorem C99_accepted_iff (hl : LawfulSigSsl lib) (hr : JwtSignatureRegistered L r) (hu : LawfulUpper L.env.upper)
    (hp : h.primitive isInst r L.verifyClass = .ok p) (clock : Int) (compact : PyStr) (v : JwtValidator)
    (a : VerifiedJwt F) :
    (L.verify.view p).verifyAndDecode clock compact v = .ok a ↔
    ∃ k ∈ h.keyset.key, Enabled k ∧ ∃ i key, JwsPublicKey k.data i key ∧
      RightToken L.env i.alg (keyKid k) i.customKid (sigCheck lib key) clock v compact a := by
  obtain ⟨kps, H⟩ := jwtVerify_obtained hr hp
  rw [C82_signature_iff_keys H hr.onlyVerify hu fun kd alg ck data ver h1 h2 => jwtVerify_tinkErrors hccv h1 h2]
  constructor
  · rintro ⟨k, hk, he, alg, ck, data, ver, h1, h2, h3, h4⟩
    obtain ⟨key, e1, -, e2⟩ := jwtVerify_key hccv hl h1 h2 h3
    exact ⟨k, hk, he, _, key, e1, e2 ▸ h4⟩
  · rintro ⟨k, hk, he, i, key, h1, h2⟩
    obtain ⟨o, hq⟩ := enabled_primitive H.keys hk he
    obtain ⟨alg', ck', data, ver, g1, g2, g3, -⟩ := verify_primitive hr.onlyVerify (H.keys.2 _ hq)
    dsimp only at g1 g2 g3
    obtain ⟨key', e1, -, e2⟩ := jwtVerify_key hccv hl g1 g2 g3
    obtain ⟨rfl, rfl⟩ := (jws_unique lib hl).2 h1 e1
    exact ⟨k, hk, he, _, _, data, ver, g1, g2, g3, e2 ▸ h2⟩

include hccs hccv in
/-- C99.  What one keyset signs is accepted by every keyset that has the public part of the primary key enabled, with
the same id and kind of prefix, wherever it is, if the validator accepts it.  The public key may lack the kid.  The
public part that is stored in the private key must be that of the private part. -/
theorem C99_round_trip (hl : LawfulSigSsl lib) (hr : JwtSignatureRegistered L r)
    (hfl : LawfulFloats L.env.json.floats) (hu : LawfulUpper L.env.upper)
    (hp : h.primitive isInst r L.signClass = .ok p) {k : Key} (hm : k ∈ h.keyset.key) (hpk : IsPrimaryKey h.keyset k)
    {i : JwsInfo} {s : SigKey} (hs : JwsPrivateKey k.data i s) (hmatch : s.Matches lib)
    {isInst' : P → C → Bool} {h' : KeysetHandle} {p' : P} (hp' : h'.primitive isInst' r L.verifyClass = .ok p')
    {k' : Key} (hm' : k' ∈ h'.keyset.key) (hen : Enabled k') (hid : k'.keyId = k.keyId)
    (hpt : k'.outputPrefixType = k.outputPrefixType) {i' : JwsInfo} (hs' : JwsPublicKey k'.data i' s.publicPart)
    (halg : i'.alg = i.alg) (hkid : i'.customKid = i.customKid ∨ i'.customKid = none)
    {a : RawJwtArgs F} {tok : RawJwt F} (ht : newRawJwt L.env.json a = .ok tok)
    (hv : ValidObjects (.dict tok.payload)) (hth : ∀ s, a.typeHeader = some s → ValidText s) {seed : Seed}
    {compact : PyStr} (he : (L.sign.view p).signAndEncode seed tok = .ok compact) {clock : Int} {v : JwtValidator}
    (ha : validate L.env.json.floats clock v (written a tok) = .ok ()) :
    (L.verify.view p').verifyAndDecode clock compact v = .ok ⟨written a tok⟩ := by
  obtain ⟨kps, H⟩ := jwtSign_obtained hr hp
  obtain ⟨kps', H'⟩ := jwtVerify_obtained hr hp'
  obtain ⟨o, ho⟩ := isPrimary_of_key ((C20_validate_iff _).1 (primitive_ok_iff.1 hp).1) H.keys.1 hm hpk
  have k1 := jwsPrivate_signKey hs
  have k2 := jwsPublic_verifyKey hs'
  rw [halg] at k2
  refine C41_signature_any_keys H hr.onlySign H' hr.onlyVerify hfl hu
    (fun kd alg ck data ver h1 h2 => jwtVerify_tinkErrors hccv h1 h2) ho hm' hen hid hpt k1 k2 hkid
    (fun data data' signer verifier h1 h2 h3 h4 seed d sig hsig => ?_) ht hv hth he ha
  obtain ⟨s1, e1, e2, e3⟩ := jwtSign_key hccs hl k1 h1 h2
  obtain ⟨v1, f1, -, f3⟩ := jwtVerify_key hccv hl k2 h3 h4
  obtain ⟨-, rfl⟩ := (jws_unique lib hl).1 hs e1
  obtain ⟨-, rfl⟩ := (jws_unique lib hl).2 hs' f1
  rw [e3] at hsig
  cases hx : s.signature lib seed d with
  | none => rw [hx] at hsig; cases hsig
  | some x =>
    rw [hx] at hsig
    cases hsig
    rw [f3]
    unfold sigCheck
    rw [if_pos (signature_valid hl e2 hmatch hx)]

end

end

end Tink.Props
