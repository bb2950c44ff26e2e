import Verif.Examples.ToySsl
import Verif.Jwt.MacKeyLemmas
import Verif.Props.EndToEnd
import Verif.Props.Handle
import Verif.Props.Templates
import Verif.Props.TokenFormat
import Verif.Props.TokenOrder

/-!
# C95: JWT MACs, from Python down to HMAC

What the `JwtMac` of a keyset does, in terms of the keys that the keyset stores.  The C++ key manager is that of
`Cc/JwtHmac.lean`, over any lawful BoringSSL.
-/

namespace Tink.Props
open Spec Cc Jwt

section
variable {F P C : Type} [DecidableEq C] {L : Library F P C} {isInst : P → C → Bool} {r : Registry P C} {lib : Ssl}
  {h : KeysetHandle} {p : P}

/-! ## Registration -/

/-- The program itself registers nothing in the place of Tink's own JWT key managers and wrappers. -/
structure ForeignToJwt (L : Library F P C) (ops : List (JwtOp P C)) : Prop where
  classes : ∀ m b, .other (.registerKeyManager m b) ∈ ops → m.primitiveClass ≠ L.macInternalClass ∧
    m.primitiveClass ≠ L.signInternalClass ∧ m.primitiveClass ≠ L.verifyInternalClass
  keyType : ∀ m b, .other (.registerKeyManager m b) ∈ ops → m.keyType ≠ jwtHmacType
  wrapper : ∀ w, .other (.registerPrimitiveWrapper w) ∈ ops → w.primitiveClass ≠ L.macClass

theorem mac_call (hl : LawfulLibrary L) (hi : JwtMacInstances isInst L)
    (hcls : L.signClass ≠ L.macClass ∧ L.verifyClass ≠ L.macClass) {r : Registry P C} {op : JwtOp P C}
    (hk : ∀ m b, op = .other (.registerKeyManager m b) → m.keyType ≠ jwtHmacType)
    (hw : ∀ w, op = .other (.registerPrimitiveWrapper w) → w.primitiveClass ≠ L.macClass) :
    (MacCanon L r → MacCanon L (op.call isInst L r).1) ∧
    (op ≠ .other .reset → MacDone L r → MacDone L (op.call isInst L r).1) := by
  have same : MacSame L r (op.call isInst L r).1 → (MacCanon L r → MacCanon L (op.call isInst L r).1) ∧
      (op ≠ .other .reset → MacDone L r → MacDone L (op.call isInst L r).1) :=
    fun h => ⟨h.canon, fun _ => h.done⟩
  cases op with
  | registerJwtMac =>
    exact ⟨fun h => (registerJwtMac_done hl hi h).1.canon, fun _ h => (registerJwtMac_done hl hi h.canon).1⟩
  | registerJwtSignature =>
    refine same ?_
    have sign : ∀ (url : PStr) f (r' : Registry P C), url ≠ jwtHmacType → MacSame L r r' →
        MacSame L r (registerSignManager L url f r').1 := fun url f r' hu h =>
      h.keyManager _ (by show (L.ccSign url).keyType ≠ _; rw [hl.ccSign]; exact hu)
    have verify : ∀ (url : PStr) f (r' : Registry P C), url ≠ jwtHmacType → MacSame L r r' →
        MacSame L r (registerVerifyManager L url f r').1 := fun url f r' hu h =>
      h.keyManager _ (by show (L.ccVerify url).keyType ≠ _; rw [hl.ccVerify]; exact hu)
    refine andThen_inv (I := MacSame L r) ?_ fun r' h =>
      andThen_inv (I := MacSame L r) (h.primitiveWrapper hcls.1) fun r' h => h.primitiveWrapper hcls.2
    refine andThen_inv (I := MacSame L r) (sign _ _ _ (by decide) (.refl r)) fun r' h => ?_
    refine andThen_inv (I := MacSame L r) (verify _ _ _ (by decide) h) fun r' h => ?_
    refine andThen_inv (I := MacSame L r) (sign _ _ _ (by decide) h) fun r' h => ?_
    refine andThen_inv (I := MacSame L r) (verify _ _ _ (by decide) h) fun r' h => ?_
    refine andThen_inv (I := MacSame L r) (sign _ _ _ (by decide) h) fun r' h => ?_
    exact verify _ _ _ (by decide) h
  | other op =>
    cases op with
    | registerKeyManager m b => exact same ((MacSame.refl r).keyManager b (hk m b rfl))
    | registerPrimitiveWrapper w => exact same ((MacSame.refl r).primitiveWrapper (hw w rfl))
    | reset => exact ⟨fun _ => ⟨.inl rfl, .inl rfl⟩, fun h => absurd rfl h⟩

/-- C95.  Once `register_jwt_mac` has been called, and until `reset`, JWT MACs can be used, whatever else is
registered before and after; and the call succeeds. -/
theorem C95_registered (hl : LawfulLibrary L) (hi : JwtMacInstances isInst L)
    (hcls : L.signClass ≠ L.macClass ∧ L.verifyClass ≠ L.macClass) {before after : List (JwtOp P C)}
    (hf : ForeignToJwt L (before ++ .registerJwtMac :: after)) (hn : .other .reset ∉ after) :
    JwtMacRegistered L (runJwt isInst L (before ++ .registerJwtMac :: after) {}) ∧
    (registerJwtMac isInst L (runJwt isInst L before {})).2 = .ok () := by
  have canon : ∀ (ops : List (JwtOp P C)) (r : Registry P C), (∀ op ∈ ops, op ∈ before) → MacCanon L r →
      MacCanon L (runJwt isInst L ops r) := by
    intro ops
    induction ops with
    | nil => intro r _ h; exact h
    | cons op ops ih =>
      intro r hs h
      have hm : op ∈ before ++ .registerJwtMac :: after := by simp [hs op (by simp)]
      exact ih _ (fun x hx => hs x (by simp [hx])) ((mac_call hl hi hcls
        (fun m b e => hf.keyType m b (e ▸ hm)) (fun w e => hf.wrapper w (e ▸ hm))).1 h)
  have done : ∀ (ops : List (JwtOp P C)) (r : Registry P C), (∀ op ∈ ops, op ∈ after) → MacDone L r →
      MacDone L (runJwt isInst L ops r) := by
    intro ops
    induction ops with
    | nil => intro r _ h; exact h
    | cons op ops ih =>
      intro r hs h
      have hm : op ∈ before ++ .registerJwtMac :: after := by simp [hs op (by simp)]
      exact ih _ (fun x hx => hs x (by simp [hx])) ((mac_call hl hi hcls
        (fun m b e => hf.keyType m b (e ▸ hm)) (fun w e => hf.wrapper w (e ▸ hm))).2
        (fun e => hn (e ▸ hs op (by simp))) h)
  have h1 := registerJwtMac_done hl hi (canon before {} (fun _ h => h) ⟨.inl rfl, .inl rfl⟩)
  have h2 := done after _ (fun _ h => h) h1.1
  have he : runJwt isInst L (before ++ .registerJwtMac :: after) {} =
      runJwt isInst L after (registerJwtMac isInst L (runJwt isInst L before {})).1 := by
    simp [runJwt, JwtOp.call]
  refine ⟨⟨?_, (C43_registered isInst hl _ hf.classes).mac, ?_⟩, h1.2⟩
  · rw [he]; exact h2.manager
  · rw [he]; exact h2.wrapper

/-! ## Keysets -/

section
variable (hcc : L.ccMac jwtHmacType =
  boundKeyManager macCcToPy (RawJwtHmacKeyManager.keyTypeManager lib).toKeyManager)

include hcc in
/-- Which key data the registry makes a primitive of. -/
theorem jwtMac_key_iff (hr : JwtMacRegistered L r) {kd : KeyData} :
    (∃ o, r.primitive kd L.macInternalClass = .ok o) ↔
      Fits kd ∧ ∃ alg ck hash key, JwsMacKey kd alg ck hash key := by
  constructor
  · rintro ⟨o, ho⟩
    obtain ⟨alg, ck, data, mac, h1, h2, h3, h4⟩ := mac_primitive hr.only ho
    rw [hcc, bound_primitive _ _ h2, reported_inj_ok] at h3
    obtain ⟨a, h3, -⟩ := h3
    obtain ⟨alg, ck, hash, key, n, h3, -⟩ := jwtHmac_getPrimitive.1 h3
    exact ⟨⟨data, h2⟩, alg, ck, hash, key, h3⟩
  · rintro ⟨⟨data, hd⟩, alg, ck, hash, key, hk⟩
    have hk' := hk
    obtain ⟨hu, h1, hv, h2, h3⟩ := hk
    have hg : (RawJwtHmacKeyManager.keyTypeManager lib).toKeyManager.getPrimitive kd =
        .ok (hmacPrim lib _ _ _) := jwtHmac_getPrimitive.2 ⟨_, _, _, _, _, hk', JwsMac.digest h2, rfl⟩
    unfold Registry.primitive Registry.keyManager Registry.keyManagerInternal
    rw [show kd.typeUrl = jwtHmacType from hu, hr.manager]
    simp only [bind, Except.bind, pure, Except.pure]
    unfold jwtMacKeyManager hmacPrimitive
    simp only [bind, Except.bind, pure, Except.pure]
    rw [if_neg (by simp), if_neg (by rw [hu]; simp [JWT_HMAC_KEY_TYPE]), h1]
    dsimp only
    rw [JwsMac.in_table h2]
    dsimp only
    rw [hd]
    dsimp only
    rw [hcc, bound_primitive _ _ hd, hg]
    exact ⟨_, rfl⟩

include hcc in
/-- The key and the MAC of it that an entry holds. -/
theorem jwtMac_key (hl : LawfulSsl lib) {kd : KeyData} {alg : PyStr} {ck : Option PyStr} {data : Bytes} {mac : Mac}
    (h1 : TokenMacKey kd alg ck) (h2 : kd.serializeToString = .ok data)
    (h3 : (L.ccMac jwtHmacType).primitive data = .ok mac) :
    ∃ hash key, JwsMacKey kd alg ck hash key ∧
      (∀ d tag, mac.computeMac d = .ok tag ↔ lib.hmac hash key d = some tag) ∧
      mac.verifyMac = hmacCheck lib hash key := by
  rw [hcc, bound_primitive _ _ h2, reported_inj_ok] at h3
  obtain ⟨a, h3, rfl⟩ := h3
  obtain ⟨alg', ck', hash, key, n, h4, hd, rfl⟩ := jwtHmac_getPrimitive.1 h3
  obtain ⟨rfl, rfl⟩ := h1.unique (JwsMacKey.token h4)
  exact ⟨hash, key, h4, hmac_python hl hd key⟩

theorem jwtMac_obtained (hr : JwtMacRegistered L r) (hp : h.primitive isInst r L.macClass = .ok p) :
    ∃ kps, Obtained isInst (jwtMacWrapper L.macInternal L.mac L.macWrapperType L.macInternalClass L.macClass)
      r h L.macClass kps p := by
  obtain ⟨_, w, kps, h1, h2, _⟩ := primitive_ok_iff.1 hp
  rw [hr.wrapper] at h1
  cases h1
  exact ⟨kps, hr.wrapper, hp, h2⟩

include hcc in
/-- C95.  A keyset gives a `JwtMac` if and only if it is valid, and each of its enabled keys has prefix type TINK
or RAW, version 0, an algorithm of RFC 7518, and a secret at least as long as the digest. -/
theorem C95_primitive (hi : JwtMacInstances isInst L) (hr : JwtMacRegistered L r) :
    (∃ p, h.primitive isInst r L.macClass = .ok p) ↔
      Valid h.keyset ∧ ∀ k ∈ h.keyset.key, Enabled k →
        (k.outputPrefixType = OutputPrefixType.RAW ∨ k.outputPrefixType = OutputPrefixType.TINK) ∧ Fits k.data ∧
        ∃ alg ck hash key, JwsMacKey k.data alg ck hash key := by
  have := handle_primitive_iff (isInst := isInst) (h := h) hr.wrapper
    (ok := fun k => Fits k.data ∧ ∃ alg ck hash key, JwsMacKey k.data alg ck hash key)
    (good := fun k => k.outputPrefixType = OutputPrefixType.RAW ∨ k.outputPrefixType = OutputPrefixType.TINK)
    (fun k _ _ => jwtMac_key_iff hcc hr)
    (fun k _ _ o ho => by
      have ho : r.primitive k.data L.macInternalClass = .ok o := ho
      unfold Registry.primitive at ho
      obtain ⟨m, hk, ho⟩ := bind_ok ho
      unfold Registry.keyManager at hk
      obtain ⟨⟨m', b⟩, hg, hk⟩ := bind_ok hk
      cases hk
      unfold Registry.keyManagerInternal at hg
      cases hg' : PyDict.get? r.keyManagers k.data.typeUrl with
      | none => rw [hg'] at hg; cases hg
      | some x =>
        rw [hg'] at hg
        cases hg
        by_cases hcls : m.primitiveClass = L.macInternalClass
        · rw [if_neg (by simpa using hcls)] at ho
          obtain ⟨t, rfl⟩ := hr.only _ _ _ hg' hcls
          obtain ⟨p, -, ho⟩ := bind_ok ho
          cases ho
          exact hi.internal _
        · rw [if_pos hcls] at ho; cases ho)
    (fun kps id => by
      rw [← validate_iff L.macInternal.view L.macInternalClass id kps]
      show (∃ p, (WrappedJwtMac.wrap ((psetOf L.macInternalClass id kps).map L.macInternal.view) >>= _) = .ok p) ↔ _
      unfold WrappedJwtMac.wrap
      cases validatePrimitiveSet ((psetOf L.macInternalClass id kps).map L.macInternal.view) with
      | error e => exact ⟨fun h => (by obtain ⟨_, h⟩ := h; cases h), fun h => (by cases h)⟩
      | ok u => exact ⟨fun _ => rfl, fun _ => ⟨_, rfl⟩⟩)
  refine this.trans ⟨fun ⟨hv, hk⟩ => ⟨hv, fun k hm he => ?_⟩, fun ⟨hv, hk⟩ => ⟨hv, fun k hm he => ?_⟩⟩
  · exact (hk k hm he).2
  · refine ⟨?_, hk k hm he⟩
    rcases (hk k hm he).1 with e | e
    · exact prefixKnown_iff.1 ⟨[], by unfold outputPrefix; rw [e]; rfl⟩
    · exact prefixKnown_iff.1 ⟨_, by unfold outputPrefix; rw [e]; rfl⟩

include hcc in
/-- C95.  A token that is made has three parts: header and payload as in C82, and HMAC of the two with the dot
between them, with the hash function of the header's algorithm and the secret of the primary key. -/
theorem C95_form (hl : LawfulSsl lib) (hr : JwtMacRegistered L r) (hfl : LawfulFloats L.env.json.floats)
    (hp : h.primitive isInst r L.macClass = .ok p) {k : Key} (hm : k ∈ h.keyset.key)
    (hpk : IsPrimaryKey h.keyset k) {a : RawJwtArgs F} {tok : RawJwt F}
    (ht : newRawJwt L.env.json a = .ok tok) (hv : ValidObjects (.dict tok.payload))
    (hth : ∀ s, a.typeHeader = some s → ValidText s) {compact : PyStr}
    (he : (L.mac.view p).computeMacAndEncode tok = .ok compact) :
    ∃ alg ck hash key, JwsMacKey k.data alg ck hash key ∧
      ∃ header payload signature tag d, Compact compact header payload signature ∧
        PartForm L.env.json header (.dict d) ∧ HeaderFor d alg (writtenKid k ck) (nonempty a.typeHeader) ∧
        PartForm L.env.json payload (.dict tok.payload) ∧
        lib.hmac hash key (header ++ 46 :: payload) = some tag ∧ Base64UrlForm signature tag := by
  obtain ⟨kps, H⟩ := jwtMac_obtained hr hp
  obtain ⟨o, ho⟩ := isPrimary_of_key ((C20_validate_iff _).1 (primitive_ok_iff.1 hp).1) H.keys.1 hm hpk
  obtain ⟨alg, ck, data, mac, h1, h2, h3, header, payload, signature, tag, d, g1, g2, g3, g4, g5, g6⟩ :=
    C82_mac_form H hr.only hfl ho ht hv hth he
  obtain ⟨hash, key, e1, e2, -⟩ := jwtMac_key hcc hl h1 h2 h3
  exact ⟨alg, ck, hash, key, e1, header, payload, signature, tag, d, g1, g2, g3, g4, (e2 _ _).1 g5, g6⟩

theorem hmacCheck_tinkErrors (hash : EnumVal) (key : Bytes) : TinkErrorsOnly (hmacCheck lib hash key) := by
  intro tag d
  unfold hmacCheck
  split
  · exact .inl rfl
  · exact .inr ⟨_, rfl, rfl⟩

include hcc in
theorem jwtMac_tinkErrors (hl : LawfulSsl lib) {data : Bytes} {mac : Mac}
    (h : (L.ccMac jwtHmacType).primitive data = .ok mac) :
    (∃ hash key, mac.verifyMac = hmacCheck lib hash key ∧
      ∀ d tag, mac.computeMac d = .ok tag ↔ lib.hmac hash key d = some tag) ∧
    (∀ d, ∃ tag, mac.computeMac d = .ok tag) ∧ TinkErrorsOnly mac.verifyMac := by
  rw [hcc] at h
  have h : useTinkErrors (throwTinkException ((RawJwtHmacKeyManager.keyTypeManager lib).toKeyManager.getPrimitive
      (Tink.CcKeyManager.parseKeyData data)) >>= fun p => pure (macCcToPy p)) = .ok mac := h
  cases hg : (RawJwtHmacKeyManager.keyTypeManager lib).toKeyManager.getPrimitive
      (Tink.CcKeyManager.parseKeyData data) with
  | error e => rw [hg] at h; cases h
  | ok a =>
    rw [hg] at h
    cases h
    obtain ⟨alg, ck, hash, key, n, -, hd, rfl⟩ := jwtHmac_getPrimitive.1 hg
    obtain ⟨e1, e2⟩ := hmac_python hl hd key
    refine ⟨⟨hash, key, e2, e1⟩, fun d => ?_, by rw [e2]; exact hmacCheck_tinkErrors hash key⟩
    obtain ⟨b, hb, -⟩ := hl.hmac hash n hd key d
    exact ⟨b, (e1 d b).2 hb⟩

include hcc in
/-- C95.  A token is accepted, with a result, exactly if for an enabled key of the keyset: the signature part is
HMAC, with the key's secret, of the first two parts; and the rest is right for the key, the validator and the
clock. -/
theorem C95_accepted_iff (hl : LawfulSsl lib) (hr : JwtMacRegistered L r) (hu : LawfulUpper L.env.upper)
    (hp : h.primitive isInst r L.macClass = .ok p) (clock : Int) (compact : PyStr) (v : JwtValidator)
    (a : VerifiedJwt F) :
    (L.mac.view p).verifyMacAndDecode clock compact v = .ok a ↔
    ∃ k ∈ h.keyset.key, Enabled k ∧ ∃ alg ck hash key, JwsMacKey k.data alg ck hash key ∧
      RightToken L.env alg (keyKid k) ck (hmacCheck lib hash key) clock v compact a := by
  obtain ⟨kps, H⟩ := jwtMac_obtained hr hp
  rw [C82_mac_iff H hr.only hu fun data mac hm => (jwtMac_tinkErrors hcc hl hm).2.2]
  constructor
  · rintro ⟨k, hk, he, alg, ck, data, mac, h1, h2, h3, h4⟩
    obtain ⟨hash, key, e1, -, e2⟩ := jwtMac_key hcc hl h1 h2 h3
    exact ⟨k, hk, he, alg, ck, hash, key, e1, e2 ▸ h4⟩
  · rintro ⟨k, hk, he, alg, ck, hash, key, h1, h2⟩
    obtain ⟨o, hq⟩ := enabled_primitive H.keys hk he
    obtain ⟨alg', ck', data, mac, g1, g2, g3, -⟩ := mac_primitive hr.only (H.keys.2 _ hq)
    dsimp only at g1 g2
    obtain ⟨hash', key', e1, -, e2⟩ := jwtMac_key hcc hl g1 g2 g3
    obtain ⟨rfl, rfl, rfl, rfl⟩ := JwsMacKey.unique h1 e1
    exact ⟨k, hk, he, _, _, data, mac, g1, g2, g3, e2 ▸ h2⟩

include hcc in
/-- C95.  What one keyset makes is accepted by every keyset that has the primary key enabled, wherever it is, if
the validator accepts it. -/
theorem C95_round_trip (hl : LawfulSsl lib) (hr : JwtMacRegistered L r) (hfl : LawfulFloats L.env.json.floats)
    (hu : LawfulUpper L.env.upper) (hp : h.primitive isInst r L.macClass = .ok p) {k : Key}
    (hm : k ∈ h.keyset.key) (hpk : IsPrimaryKey h.keyset k) {h' : KeysetHandle} {p' : P}
    (hp' : h'.primitive isInst r L.macClass = .ok p') {k' : Key} (hm' : k' ∈ h'.keyset.key) (hen : Enabled k')
    (hid : k'.keyId = k.keyId) (hpt : k'.outputPrefixType = k.outputPrefixType) (hd : k'.data = k.data)
    {a : RawJwtArgs F} {tok : RawJwt F} (ht : newRawJwt L.env.json a = .ok tok)
    (hv : ValidObjects (.dict tok.payload)) (hth : ∀ s, a.typeHeader = some s → ValidText s) {compact : PyStr}
    (he : (L.mac.view p).computeMacAndEncode tok = .ok compact) {clock : Int} {v : JwtValidator}
    (ha : validate L.env.json.floats clock v (written a tok) = .ok ()) :
    (L.mac.view p').verifyMacAndDecode clock compact v = .ok ⟨written a tok⟩ := by
  obtain ⟨kps, H⟩ := jwtMac_obtained hr hp
  obtain ⟨kps', H'⟩ := jwtMac_obtained hr hp'
  obtain ⟨o, ho⟩ := isPrimary_of_key ((C20_validate_iff _).1 (primitive_ok_iff.1 hp).1) H.keys.1 hm hpk
  refine C41_mac_any H hr.only H' hr.only hfl hu (fun data mac hm => (jwtMac_tinkErrors hcc hl hm).2.2) ho hm' hen
    hid hpt hd (fun data mac mac' h1 h2 d tag h3 => ?_) ht hv hth he ha
  rw [h1] at h2
  cases h2
  obtain ⟨⟨hash, key, e1, e2⟩, -⟩ := jwtMac_tinkErrors hcc hl h1
  rw [e1]
  unfold hmacCheck
  rw [if_pos ((e2 _ _).1 h3)]

/-! ## New keys -/

include hcc in
/-- C95.  A template gives a new key if and only if it holds a format with an algorithm of RFC 7518 and a key size
that is at least the size of the digest; others are refused with a `TinkError`. -/
theorem C95_formats (hl : LawfulSsl lib) (hr : JwtMacRegistered L r) {t : KeyTemplate} (hft : FitsTemplate t)
    (hu : t.typeUrl = jwtHmacType) (seed : Seed)
    (hs : ∀ f, JwtHmacKeyFormat.fromString t.value = .ok f → f.keySize.toNat < 2 ^ 31 - 1000) :
    ((∃ kd, r.newKeyData seed t = .ok kd) ↔ ∃ f alg hash n, JwtHmacKeyFormat.fromString t.value = .ok f ∧
      JwsMac f.algorithm alg hash n ∧ n ≤ f.keySize.toNat) ∧
    (∀ e, r.newKeyData seed t = .error e → e = .tinkError) ∧
    ∀ kd, r.newKeyData seed t = .ok kd → Fits kd ∧ kd.keyMaterialType = KeyMaterialType.SYMMETRIC ∧
      ∃ f alg hash, JwtHmacKeyFormat.fromString t.value = .ok f ∧
        JwsMacKey kd alg none hash (lib.random seed 0 f.keySize.toNat) ∧ ∃ n, JwsMac f.algorithm alg hash n := by
  have D := jwtHmac_describes hl seed
  have huse : ∀ kd, (RawJwtHmacKeyManager.keyTypeManager lib).newKeyData seed t.value = .ok kd →
      Fits kd ∧ kd.keyMaterialType = KeyMaterialType.SYMMETRIC ∧
      ∃ f alg hash, JwtHmacKeyFormat.fromString t.value = .ok f ∧
        JwsMacKey kd alg none hash (lib.random seed 0 f.keySize.toNat) ∧ ∃ n, JwsMac f.algorithm alg hash n := by
    intro kd hkd
    obtain ⟨f, h1, -, ⟨alg, hash, n, h2, h2'⟩, h3, h4, h5⟩ := D.usable hkd
    have hsz : TokenSecret.size ⟨f.algorithm, lib.random seed 0 f.keySize.toNat, none⟩ < 2 ^ 31 - 1000 := by
      have := hs f h1
      show (lib.random seed 0 f.keySize.toNat).length + 4 * 0 < _
      rw [hl.random_length]
      omega
    obtain ⟨h6, -, k, h7, h8, h9⟩ := h5 hsz
    refine ⟨h6, h4, f, alg, hash, h1, ?_, n, h2⟩
    injection h9 with e1 e2 e3
    dsimp only at h2 h2'
    rw [← e1] at h2
    rw [← e2] at h2' ⊢
    have := JwsMacKey.mk (kd := kd) h3 h7 h8 h2 h2'
    rw [e3] at this
    exact this
  have hnew : r.newKeyData seed t = reported id ((RawJwtHmacKeyManager.keyTypeManager lib).newKeyData seed t.value) := by
    unfold Registry.newKeyData Registry.keyManagerInternal
    rw [hu, hr.manager, hcc]
    exact bound_newKeyData _ _ hft hu fun kd hkd => (huse kd hkd).1
  rw [hnew]
  refine ⟨?_, ?_, ?_⟩
  · simp only [reported_ok]
    rw [D.formats]
    constructor
    · rintro ⟨f, h1, -, alg, hash, n, h2, h3⟩
      dsimp only at h3
      rw [hl.random_length] at h3
      exact ⟨f, alg, hash, n, h1, h2, h3⟩
    · rintro ⟨f, alg, hash, n, h1, h2, h3⟩
      refine ⟨f, h1, trivial, alg, hash, n, h2, ?_⟩
      dsimp only
      rw [hl.random_length]
      exact h3
  · intro e he
    cases hx : (RawJwtHmacKeyManager.keyTypeManager lib).newKeyData seed t.value with
    | ok kd => rw [hx] at he; cases he
    | error s => rw [hx] at he; cases he; rfl
  · intro kd hkd
    exact huse kd (reported_ok.1 hkd)

include hcc in
/-- C95.  From each predefined template a new keyset can be made.  Its key is random and has the size of the digest.
Its `JwtMac` makes a token of everything that can be written as JSON, and accepts the token if the validator accepts
what is in it. -/
theorem C95_templates (hi : JwtMacInstances isInst L) (hl : LawfulSsl lib) (hr : JwtMacRegistered L r)
    (hfl : LawfulFloats L.env.json.floats) (hu : LawfulUpper L.env.upper) {t : KeyTemplate}
    (ht : .ok t ∈ [Templates.jwt_hs256_template, Templates.raw_jwt_hs256_template, Templates.jwt_hs384_template,
      Templates.raw_jwt_hs384_template, Templates.jwt_hs512_template, Templates.raw_jwt_hs512_template])
    (seed : Seed) (d : UInt32) (draws : List UInt32) :
    ∃ h p k f alg hash n, KeysetHandle.generateNew r seed (d :: draws) t = some (.ok h) ∧ h.keyset = ⟨d, [k]⟩ ∧
      JwtHmacKeyFormat.fromString t.value = .ok f ∧ JwsMac f.algorithm alg hash n ∧
      JwsMacKey k.data alg none hash (lib.random seed 0 n) ∧ k.outputPrefixType = t.outputPrefixType ∧
      h.primitive isInst r L.macClass = .ok p ∧
      ∀ a tok text, newRawJwt L.env.json a = .ok tok → tok.jsonPayload L.env.json = .ok text →
        ∃ compact, (L.mac.view p).computeMacAndEncode tok = .ok compact ∧
          (ValidObjects (.dict tok.payload) → (∀ s, a.typeHeader = some s → ValidText s) → ∀ clock v,
            validate L.env.json.floats clock v (written a tok) = .ok () →
            (L.mac.view p).verifyMacAndDecode clock compact v = .ok ⟨written a tok⟩) := by
  obtain ⟨htu, hpt, f, alg, hash, n, hf, hmac, hn⟩ : t.typeUrl = jwtHmacType ∧
      (t.outputPrefixType = OutputPrefixType.RAW ∨ t.outputPrefixType = OutputPrefixType.TINK) ∧
      ∃ f alg hash n, JwtHmacKeyFormat.fromString t.value = .ok f ∧ JwsMac f.algorithm alg hash n ∧
        f.keySize.toNat = n := by
    obtain ⟨c1, c2, c3, c4, c5, c6, -⟩ := C60_jwt
    simp only [List.mem_cons, List.not_mem_nil, or_false] at ht
    rcases ht with e | e | e | e | e | e
    · obtain ⟨t', h1, h2, h3, h4⟩ := c1
      rw [h1] at e; cases e
      exact ⟨h2, .inr h3, _, _, _, _, h4, .hs256, rfl⟩
    · obtain ⟨t', h1, h2, h3, h4⟩ := c2
      rw [h1] at e; cases e
      exact ⟨h2, .inl h3, _, _, _, _, h4, .hs256, rfl⟩
    · obtain ⟨t', h1, h2, h3, h4⟩ := c3
      rw [h1] at e; cases e
      exact ⟨h2, .inr h3, _, _, _, _, h4, .hs384, rfl⟩
    · obtain ⟨t', h1, h2, h3, h4⟩ := c4
      rw [h1] at e; cases e
      exact ⟨h2, .inl h3, _, _, _, _, h4, .hs384, rfl⟩
    · obtain ⟨t', h1, h2, h3, h4⟩ := c5
      rw [h1] at e; cases e
      exact ⟨h2, .inr h3, _, _, _, _, h4, .hs512, rfl⟩
    · obtain ⟨t', h1, h2, h3, h4⟩ := c6
      rw [h1] at e; cases e
      exact ⟨h2, .inl h3, _, _, _, _, h4, .hs512, rfl⟩
  have hft : FitsTemplate t := by
    have key : ∀ x ∈ [Templates.jwt_hs256_template, Templates.raw_jwt_hs256_template, Templates.jwt_hs384_template,
        Templates.raw_jwt_hs384_template, Templates.jwt_hs512_template, Templates.raw_jwt_hs512_template],
        (do let t ← x; t.serializeToString).toBool = true := by
      decide +kernel
    have := key _ ht
    cases hs : t.serializeToString with
    | ok b => exact ⟨b, hs⟩
    | error e =>
      rw [show (do let t ← (Except.ok t : Py KeyTemplate); t.serializeToString) = t.serializeToString from rfl, hs]
        at this
      cases this
  obtain ⟨hnew, -, hmade⟩ := C95_formats hcc hl hr hft htu seed (fun f' h' => by
    rw [hf] at h'; cases h'
    rw [hn]
    have := JwsMac.digest hmac
    generalize f.algorithm = x at hmac
    cases hmac <;> decide)
  obtain ⟨kd, hkd⟩ := hnew.2 ⟨f, alg, hash, n, hf, hmac, by omega⟩
  obtain ⟨hfit, -, f', alg', hash', hf', hkey, n', hmac'⟩ := hmade kd hkd
  rw [hf] at hf'; cases hf'
  obtain ⟨rfl, rfl, rfl⟩ := JwsMac.unique hmac hmac'
  have hne : t.outputPrefixType ≠ OutputPrefixType.UNKNOWN_PREFIX := by
    rcases hpt with e | e <;> rw [e] <;> decide
  have hgen := C19_generate_new_ok (d := d) (draws := draws) hkd hne
  obtain ⟨p, hp⟩ := (C95_primitive (h := ⟨⟨d, [⟨some kd, KeyStatusType.ENABLED, d, t.outputPrefixType⟩]⟩⟩) hcc hi hr).2
    ⟨single_valid hne, fun k hk _ => by
      rw [List.mem_singleton.1 hk]
      exact ⟨hpt, hfit, _, _, _, _, hkey⟩⟩
  rw [hn] at hkey
  refine ⟨_, p, _, f, alg', hash', _, hgen, rfl, hf, hmac, hkey, rfl, hp, fun a tok text hat htext => ?_⟩
  have hmem := List.mem_singleton.2 (rfl : (⟨some kd, KeyStatusType.ENABLED, d, t.outputPrefixType⟩ : Key) = _)
  have hpk : IsPrimaryKey ⟨d, [⟨some kd, KeyStatusType.ENABLED, d, t.outputPrefixType⟩]⟩
      ⟨some kd, KeyStatusType.ENABLED, d, t.outputPrefixType⟩ := ⟨rfl, rfl⟩
  obtain ⟨kps, H⟩ := jwtMac_obtained hr hp
  obtain ⟨o, ho⟩ := isPrimary_of_key ((C20_validate_iff _).1 (primitive_ok_iff.1 hp).1) H.keys.1 hmem hpk
  obtain ⟨compact, he⟩ := C41_mac_encodes H hr.only hfl ho (.inr fun alg' ck h1 => (h1.unique (JwsMacKey.token hkey)).2)
    (fun data mac hm => (jwtMac_tinkErrors hcc hl hm).2.1) hat htext
  exact ⟨compact, he, fun hv hth clock v ha => C95_round_trip hcc hl hr hfl hu hp hmem hpk hp hmem rfl rfl rfl rfl
    hat hv hth he ha⟩

end

end

/-! ## Examples -/

namespace JwtMacKeysExample
open ToyJwt

/-- The toy library with the C++ key manager as modelled, over the toy BoringSSL. -/
def library : Library Int Prim Cls :=
  { ToyJwt.library with
    ccMac := fun url =>
      { boundKeyManager macCcToPy (RawJwtHmacKeyManager.keyTypeManager ToySsl.lib).toKeyManager with
        keyType := url } }

theorem cc : library.ccMac jwtHmacType =
    boundKeyManager macCcToPy (RawJwtHmacKeyManager.keyTypeManager ToySsl.lib).toKeyManager := rfl

theorem lawful : LawfulLibrary library :=
  ⟨by decide, by decide, by decide, fun _ => rfl, fun _ => rfl, fun _ => rfl⟩

theorem instances : JwtMacInstances isInst library := ⟨fun _ => rfl, fun _ => rfl⟩

/-- A key manager of the program itself. -/
def foreign : KeyManager Prim Cls where
  pyType := 9
  primitiveClass := .sign
  keyType := ps! "mine"
  doesSupport _ := true
  primitive _ := .error .tinkError
  newKeyData _ _ := .error .tinkError

def history : List (JwtOp Prim Cls) :=
  [.registerJwtMac, .other .reset, .other (.registerKeyManager foreign true), .registerJwtSignature] ++
    .registerJwtMac :: [.registerJwtMac, .registerJwtSignature]

def registry : Registry Prim Cls := runJwt isInst library history {}

theorem registered : JwtMacRegistered library registry :=
  (C95_registered lawful instances ⟨by decide, by decide⟩
    (before := [.registerJwtMac, .other .reset, .other (.registerKeyManager foreign true), .registerJwtSignature])
    (after := [.registerJwtMac, .registerJwtSignature])
    ⟨by intro m b h; simp at h; obtain ⟨rfl, rfl⟩ := h; decide, by intro m b h; simp at h; obtain ⟨rfl, rfl⟩ := h; decide,
      by intro w h; simp at h⟩ (by simp)).1

def secret1 : Bytes := List.replicate 32 7
def secret2 : Bytes := List.replicate 70 9
def key1 : Key := ToyJwt.hmacKey JwtHmacAlgorithm.HS256 secret1 none 7 OutputPrefixType.TINK
def key2 : Key := ToyJwt.hmacKey JwtHmacAlgorithm.HS512 secret2 (some ['x']) 8 OutputPrefixType.RAW
/-- A key that is too short, disabled. -/
def key3 : Key := { ToyJwt.hmacKey JwtHmacAlgorithm.HS384 secret1 none 9 OutputPrefixType.TINK with
  status := KeyStatusType.DISABLED }

def handle : KeysetHandle := ⟨{ primaryKeyId := 7, key := [key1, key3, key2] }⟩
def handle' : KeysetHandle := ⟨{ primaryKeyId := 8, key := [key2, key1] }⟩

theorem holds1 : JwsMacKey key1.data (py! "HS256") none HashType.SHA256 secret1 :=
  .mk (k := { algorithm := 1, keyValue := secret1 }) rfl (by decide +kernel) rfl .hs256 (by decide)

theorem holds2 : JwsMacKey key2.data (py! "HS512") (some (py! "x")) HashType.SHA512 secret2 :=
  .mk (k := { algorithm := 3, keyValue := secret2, customKid := some { value := ['x'] } }) rfl (by decide +kernel)
    rfl .hs512 (by decide)

theorem fits {kd : KeyData} (h : ToyJwt.isOk kd.serializeToString = true) : Fits kd := ⟨_, value_ok (d := []) h⟩

theorem handle_valid : Valid handle.keyset := (C20_validate_iff _).1 (by decide +kernel)
theorem handle'_valid : Valid handle'.keyset := (C20_validate_iff _).1 (by decide +kernel)

theorem works : ∃ p, handle.primitive isInst registry .mac = .ok p := by
  refine (C95_primitive cc instances registered).2 ⟨handle_valid, fun k hk he => ?_⟩
  simp only [handle, List.mem_cons, List.not_mem_nil, or_false] at hk
  rcases hk with rfl | rfl | rfl
  · exact ⟨.inr rfl, fits (by decide +kernel), _, _, _, _, holds1⟩
  · exact absurd he (by decide)
  · exact ⟨.inl rfl, fits (by decide +kernel), _, _, _, _, holds2⟩

theorem works' : ∃ p, handle'.primitive isInst registry .mac = .ok p := by
  refine (C95_primitive cc instances registered).2 ⟨handle'_valid, fun k hk he => ?_⟩
  simp only [handle', List.mem_cons, List.not_mem_nil, or_false] at hk
  rcases hk with rfl | rfl
  · exact ⟨.inl rfl, fits (by decide +kernel), _, _, _, _, holds2⟩
  · exact ⟨.inr rfl, fits (by decide +kernel), _, _, _, _, holds1⟩

/-- With the short key enabled there is no `JwtMac`. -/
example : ¬ ∃ p, KeysetHandle.primitive isInst registry
    ⟨{ primaryKeyId := 9, key := [{ key3 with status := KeyStatusType.ENABLED }] }⟩ Cls.mac = .ok p := by
  intro hp
  obtain ⟨-, hk⟩ := (C95_primitive cc instances registered).1 hp
  obtain ⟨-, -, alg, ck, hash, key, h⟩ := hk _ (List.mem_singleton.2 rfl) rfl
  obtain ⟨-, h1, -, h2, h3⟩ := h
  have : JwtHmacKey.fromString key3.data.value = .ok { algorithm := 2, keyValue := secret1 } := by decide +kernel
  cases this.symm.trans h1
  cases h2
  exact absurd h3 (by decide)

/-- A token made with the one keyset has the HMAC in it, and is accepted by the other. -/
example : ∃ p p' compact, handle.primitive isInst registry .mac = .ok p ∧
    handle'.primitive isInst registry .mac = .ok p' ∧
    (library.mac.view p).computeMacAndEncode token = .ok compact ∧
    (library.mac.view p').verifyMacAndDecode clock compact validator = .ok ⟨written args token⟩ ∧
    ∃ header payload signature tag, Compact compact header payload signature ∧
      ToySsl.lib.hmac HashType.SHA256 secret1 (header ++ 46 :: payload) = some tag ∧ Base64UrlForm signature tag := by
  obtain ⟨p, hp⟩ := works
  obtain ⟨p', hp'⟩ := works'
  obtain ⟨kps, H⟩ := jwtMac_obtained registered hp
  obtain ⟨o, ho⟩ := isPrimary_of_key handle_valid H.keys.1 (k := key1) (by simp [handle]) ⟨rfl, rfl⟩
  obtain ⟨compact, he⟩ := C41_mac_encodes H registered.only ToyJson.lawful ho
    (.inr fun alg' ck h1 => (h1.unique (JwsMacKey.token holds1)).2)
    (fun data mac hm => (jwtMac_tinkErrors cc ToySsl.lawful hm).2.1) token_created
    (value_ok (d := []) (by decide +kernel))
  obtain ⟨alg, ck, hash, key, h1, header, payload, signature, tag, d, g1, -, -, -, g5, g6⟩ :=
    C95_form (k := key1) cc ToySsl.lawful registered ToyJson.lawful hp (by simp [handle]) ⟨rfl, rfl⟩ token_created
      token_valid args_type he
  obtain ⟨-, -, rfl, rfl⟩ := JwsMacKey.unique holds1 h1
  refine ⟨p, p', compact, hp, hp', he, ?_, header, payload, signature, tag, g1, g5, g6⟩
  exact C95_round_trip (k := key1) (k' := key1) cc ToySsl.lawful registered ToyJson.lawful lawfulUpper hp
    (by simp [handle]) ⟨rfl, rfl⟩ hp' (by simp [handle']) rfl rfl rfl rfl token_created token_valid args_type he
    (by decide +kernel)

example (p : Prim) (hp : handle'.primitive isInst registry .mac = .ok p) (compact : PyStr) :=
  C95_accepted_iff cc ToySsl.lawful registered lawfulUpper hp clock compact validator

example {t : KeyTemplate} (ht : Templates.raw_jwt_hs384_template = .ok t) :=
  C95_templates cc instances ToySsl.lawful registered ToyJson.lawful lawfulUpper (t := t)
    (by rw [← ht]; simp) 5 77 []

/-- A format for a short key. -/
def short : KeyTemplate where
  typeUrl := jwtHmacType
  value := [16, 2, 24, 32]
  outputPrefixType := OutputPrefixType.RAW

example : ∀ kd, registry.newKeyData 3 short ≠ .ok kd := by
  intro kd hkd
  have hf : JwtHmacKeyFormat.fromString [16, 2, 24, 32] = .ok { algorithm := 2, keySize := 32 } := by decide +kernel
  obtain ⟨f, alg, hash, n, h1, h2, h3⟩ := (C95_formats (t := short) cc ToySsl.lawful registered
    ⟨_, value_ok (d := []) (by decide +kernel)⟩ rfl 3 (fun f h => by
    rw [show short.value = [16, 2, 24, 32] from rfl, hf] at h; cases h; decide)).1.1 ⟨kd, hkd⟩
  rw [show short.value = [16, 2, 24, 32] from rfl, hf] at h1
  cases h1
  cases h2
  exact absurd h3 (by decide)

end JwtMacKeysExample

end Tink.Props
