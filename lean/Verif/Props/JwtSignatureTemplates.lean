import Verif.Cc.TemplateLemmas
import Verif.Props.JwtSignatureKeys

/-!
# C99: public keysets and new keysets for JWT signatures
-/

namespace Tink.Props
open Spec Cc Jwt

section
variable {F P C : Type} [DecidableEq C] {L : Library F P C} {isInst : P → C → Bool} {r : Registry P C} {lib : SigSsl}
  {h : KeysetHandle} {p : P}
variable (hccs : ∀ url cc, ccJwtSign lib url = some cc → L.ccSign url = boundKeyManager signCcToPy cc)
variable (hccv : ∀ url cc, ccJwtVerify lib url = some cc → L.ccVerify url = boundKeyManager verifyCcToPy cc)

theorem jwsSigners_cc {url : PStr} (h : url ∈ jwsSigners.map Prod.fst) :
    (∃ cc, ccJwtSign lib url = some cc) ∧ ∃ q ∈ jwsSigners, q.1 = url := by
  constructor
  · simp only [jwsSigners, List.map_cons, List.map_nil, List.mem_cons, List.not_mem_nil, or_false] at h
    rcases h with rfl | rfl | rfl <;> exact ⟨_, rfl⟩
  · obtain ⟨q, h1, h2⟩ := List.mem_map.1 h
    exact ⟨q, h1, h2⟩

/-! ## The public keyset -/

include hccs in
theorem jws_public_registry (hl : LawfulSigSsl lib) (hr : JwtSignatureRegistered L r) {k : Key}
    (hk : k.data.typeUrl ∈ jwsSigners.map Prod.fst ∧ Fits k.data ∧
      k.data.keyMaterialType = KeyMaterialType.ASYMMETRIC_PRIVATE ∧
      ∀ i s, JwsPrivateKey k.data i s → s.size + i.kidSize < 2 ^ 31 - 1000) :
    ((∃ kd, r.publicKeyData k.data = .ok kd) ↔ ∃ i s, JwsPrivateKey k.data i s ∧ s.Checked) ∧
    ∀ kd, r.publicKeyData k.data = .ok kd → JwsPublicType k.data.typeUrl kd.typeUrl ∧
      kd.keyMaterialType = KeyMaterialType.ASYMMETRIC_PUBLIC ∧ Fits kd ∧
      ∃ i s, JwsPrivateKey k.data i s ∧ JwsPublicKey kd i s.publicPart := by
  obtain ⟨hu, hf, hm, hs⟩ := hk
  obtain ⟨⟨cc, hc⟩, q, hq, hqu⟩ := jwsSigners_cc (lib := lib) hu
  obtain ⟨pu, hpu, M⟩ := jwtSign_manages hl 0 hc
  obtain ⟨f, hff, hpub⟩ := M.publicKey
  have hpk : r.publicKeyData k.data = reported id (f k.data.value) := by
    have hg := hr.sign q hq
    rw [hqu] at hg
    unfold Registry.publicKeyData Registry.keyManager Registry.keyManagerInternal
    rw [if_neg (by simp [hm]), hg, hccs _ _ hc]
    show ccPublicKeyData (boundKeyManager signCcToPy cc) k.data = _
    refine bound_publicKeyData _ _ hff hf fun pub hp => ?_
    obtain ⟨-, -, i, s, g1, g2⟩ := (hpub k.data.value).2 pub hp
    exact (g2 (hs i s g1)).1
  rw [hpk]
  constructor
  · simp only [reported_ok]
    exact (hpub k.data.value).1
  · intro kd hkd
    obtain ⟨g1, g2, i, s, g3, g4⟩ := (hpub k.data.value).2 kd (reported_ok.1 hkd)
    obtain ⟨g5, g6⟩ := g4 (hs i s g3)
    refine ⟨by rw [g1]; exact hpu, g2, g5, i, s, g3, ?_⟩
    unfold JwsPublicKey
    rw [g1]
    exact g6

include hccs in
/-- C99.  When the public keyset is handed out.  This looks at all keys, also at those that are disabled or
destroyed. -/
theorem C99_public (hl : LawfulSigSsl lib) (hr : JwtSignatureRegistered L r) (hv : Valid h.keyset)
    (hk : JwsPrivateKeyset h.keyset) :
    (∃ pub, h.publicKeysetHandle r = .ok pub) ↔
      ∀ k ∈ h.keyset.key, k.outputPrefixType ≠ OutputPrefixType.UNKNOWN_PREFIX ∧
        k.status ≠ KeyStatusType.UNKNOWN_STATUS ∧ ∃ i s, JwsPrivateKey k.data i s ∧ s.Checked := by
  constructor
  · rintro ⟨pub, hp⟩ k hkm
    unfold KeysetHandle.publicKeysetHandle at hp
    obtain ⟨keys, hkeys, -⟩ := bind_ok_iff.1 hp
    rw [mapM_ok_iff] at hkeys
    obtain ⟨hlen, hall⟩ := hkeys
    obtain ⟨i, hi, rfl⟩ := List.getElem_of_mem hkm
    have hmem : (h.keyset.key[i], keys[i]'(by omega)) ∈ h.keyset.key.zip keys := by
      rw [List.mem_iff_getElem]
      exact ⟨i, by simp [← hlen, hi], by simp⟩
    obtain ⟨kd, hkd, h2⟩ := bind_ok_iff.1 (hall _ hmem)
    obtain ⟨⟨⟩, hval, -⟩ := bind_ok_iff.1 h2
    obtain ⟨-, v2, v3⟩ := validateKey_iff.1 hval
    exact ⟨v2, v3, (jws_public_registry hccs hl hr (hk _ hkm)).1.1 ⟨kd, hkd⟩⟩
  · intro hall
    have hex : ∀ l : List Key, (∀ k ∈ l, k ∈ h.keyset.key) → ∃ kds : List KeyData, kds.length = l.length ∧
        ∀ q ∈ l.zip kds, r.publicKeyData q.1.data = .ok q.2 ∧
          q.2.keyMaterialType = KeyMaterialType.ASYMMETRIC_PUBLIC := by
      intro l
      induction l with
      | nil => intro _; exact ⟨[], rfl, by simp⟩
      | cons k l ih =>
        intro hl'
        obtain ⟨kds, h1, h2⟩ := ih fun k hk => hl' k (by simp [hk])
        have hkm := hl' k (by simp)
        obtain ⟨kd, hkd⟩ := (jws_public_registry hccs hl hr (hk _ hkm)).1.2 (hall k hkm).2.2
        refine ⟨kd :: kds, by simp [h1], fun q hq => ?_⟩
        rw [List.zip_cons_cons] at hq
        rcases List.mem_cons.1 hq with rfl | hq
        · exact ⟨hkd, ((jws_public_registry hccs hl hr (hk _ hkm)).2 kd hkd).2.1⟩
        · exact h2 q hq
    obtain ⟨kds, h1, h2⟩ := hex _ fun _ h => h
    refine ⟨_, C27_public_keyset_ok h1 (fun q hq => (h2 q hq).1)
      (fun k hkm => ⟨(hall k hkm).1, (hall k hkm).2.1⟩)
      (valid_withKeyData hv h1 fun kd hkd => ?_)⟩
    obtain ⟨i, hi, rfl⟩ := List.getElem_of_mem hkd
    have hmem : (h.keyset.key[i]'(by omega), kds[i]) ∈ h.keyset.key.zip kds := by
      rw [List.mem_iff_getElem]
      exact ⟨i, by simp [h1] at hi ⊢; exact hi, by simp⟩
    exact (h2 _ hmem).2

include hccs in
/-- C99.  The public keyset has the same primary key id and, key by key, the public counterparts, with algorithm and
kid.  It contains nothing secret. -/
theorem C99_public_keys (hl : LawfulSigSsl lib) (hr : JwtSignatureRegistered L r) (hk : JwsPrivateKeyset h.keyset)
    {pub : KeysetHandle} (hp : h.publicKeysetHandle r = .ok pub) :
    pub.keyset.primaryKeyId = h.keyset.primaryKeyId ∧ pub.keyset.key.length = h.keyset.key.length ∧
      (∀ q ∈ h.keyset.key.zip pub.keyset.key, JwsCounterpart q.1 q.2) ∧ Valid pub.keyset ∧ NoSecret pub.keyset := by
  obtain ⟨kds, h1, h2, h3, h4⟩ := C27_public_keyset hp
  have hkey : ∀ q ∈ h.keyset.key.zip kds,
      JwsCounterpart q.1 ⟨some q.2, q.1.status, q.1.keyId, q.1.outputPrefixType⟩ := by
    intro q hq
    have hok := C18_public_key_data_iff.2 (h2 q hq)
    exact ⟨rfl, rfl, rfl, (jws_public_registry hccs hl hr (hk _ (List.of_mem_zip hq).1)).2 _ hok⟩
  have hall : ∀ q ∈ h.keyset.key.zip pub.keyset.key, JwsCounterpart q.1 q.2 := by
    rw [h3]
    unfold withKeyData
    dsimp only
    generalize h.keyset.key = l at h1 hkey
    clear hp h2 h3 h4 hk
    induction l generalizing kds with
    | nil => simp
    | cons k l ih =>
      cases kds with
      | nil => simp at h1
      | cons kd kds =>
        intro q hq
        simp only [List.zip_cons_cons, List.map_cons, List.mem_cons] at hq
        rcases hq with rfl | hq
        · exact hkey (k, kd) (by simp)
        · exact ih kds (by simpa using h1) (fun q hq => hkey q (by simp [hq])) q hq
  have hlen : pub.keyset.key.length = h.keyset.key.length := by
    rw [h3]
    simp [withKeyData, h1]
  refine ⟨by rw [h3]; rfl, hlen, hall, h4, fun k hkm => ?_⟩
  obtain ⟨i, hi, rfl⟩ := List.getElem_of_mem hkm
  have hmem : (h.keyset.key[i]'(by omega), pub.keyset.key[i]) ∈ h.keyset.key.zip pub.keyset.key := by
    rw [List.mem_iff_getElem]
    exact ⟨i, by simp; omega, by simp⟩
  have := (hall _ hmem).2.2.2.2.1
  unfold Secret
  dsimp only at this
  rw [this]
  decide

include hccs hccv in
/-- C99.  If the public part of the primary key is that of its private part, then the public keyset accepts whatever
the private keyset signs, if the validator accepts it. -/
theorem C99_public_round_trip (hl : LawfulSigSsl lib) (hr : JwtSignatureRegistered L r)
    (hfl : LawfulFloats L.env.json.floats) (hu : LawfulUpper L.env.upper) (hks : JwsPrivateKeyset h.keyset)
    (hp : h.primitive isInst r L.signClass = .ok p) {k : Key} (hm : k ∈ h.keyset.key) (hpk : IsPrimaryKey h.keyset k)
    (hmatch : ∀ i s, JwsPrivateKey k.data i s → s.Matches lib)
    {pub : KeysetHandle} (hpub : h.publicKeysetHandle r = .ok pub) {isInst' : P → C → Bool} {p' : P}
    (hp' : pub.primitive isInst' r L.verifyClass = .ok p')
    {a : RawJwtArgs F} {tok : RawJwt F} (ht : newRawJwt L.env.json a = .ok tok)
    (hv : ValidObjects (.dict tok.payload)) (hth : ∀ s, a.typeHeader = some s → ValidText s) {seed : Seed}
    {compact : PyStr} (he : (L.sign.view p).signAndEncode seed tok = .ok compact) {clock : Int} {v : JwtValidator}
    (ha : validate L.env.json.floats clock v (written a tok) = .ok ()) :
    (L.verify.view p').verifyAndDecode clock compact v = .ok ⟨written a tok⟩ := by
  obtain ⟨c1, c2, c3, c4, c5⟩ := C99_public_keys hccs hl hr hks hpub
  obtain ⟨n, hn, hkn⟩ := List.getElem_of_mem hm
  have hmem : (k, pub.keyset.key[n]'(by omega)) ∈ h.keyset.key.zip pub.keyset.key := by
    rw [List.mem_iff_getElem]
    exact ⟨n, by simp; omega, by simp [hkn]⟩
  obtain ⟨g1, g2, g3, -, -, -, i, s, g7, g8⟩ := c3 _ hmem
  dsimp only at g1 g2 g3 g7 g8
  refine C99_round_trip hccs hccv hl hr hfl hu hp hm hpk g7 (hmatch i s g7) hp' (List.getElem_mem _) ?_ g2 g3 g8 rfl
    (.inl rfl) ht hv hth he ha
  have := hpk.1
  unfold Enabled at this ⊢
  rw [g1]
  exact this

/-! ## New keys -/

include hccs in
/-- C99.  A template for JWT signatures gives a new key if and only if it asks for a key, with an algorithm of RFC 7518,
whose public part is acceptable; others are refused with a `TinkError`.  The new key is what the template asks for, with
no kid of its own, can be used, and its parts belong together. -/
theorem C99_formats (hl : LawfulSigSsl lib) (hr : JwtSignatureRegistered L r) {t : KeyTemplate} (hft : FitsTemplate t)
    (hu : t.typeUrl ∈ jwsSigners.map Prod.fst) (seed : Seed) :
    ((∃ kd, r.newKeyData seed t = .ok kd) ↔
      ∃ alg s, SigKey.JwsAskedFor lib seed t.typeUrl t.value alg s ∧ s.publicPart.Ok lib) ∧
    (∀ e, r.newKeyData seed t = .error e → e = .tinkError) ∧
    ∀ kd, r.newKeyData seed t = .ok kd → Fits kd ∧ kd.typeUrl = t.typeUrl ∧
      kd.keyMaterialType = KeyMaterialType.ASYMMETRIC_PRIVATE ∧
      ∃ alg s, SigKey.JwsAskedFor lib seed t.typeUrl t.value alg s ∧ JwsPrivateKey kd ⟨alg, none⟩ s ∧ s.Ok lib ∧
        s.Matches lib := by
  obtain ⟨⟨cc, hc⟩, q, hq, hqu⟩ := jwsSigners_cc (lib := lib) hu
  obtain ⟨pu, hpu, M⟩ := jwtSign_manages hl seed hc
  have huse : ∀ kd, cc.newKeyData seed t.value = .ok kd → Fits kd ∧ kd.typeUrl = t.typeUrl ∧
      kd.keyMaterialType = KeyMaterialType.ASYMMETRIC_PRIVATE ∧
      ∃ alg s, SigKey.JwsAskedFor lib seed t.typeUrl t.value alg s ∧ JwsPrivateKey kd ⟨alg, none⟩ s ∧ s.Ok lib ∧
        s.Matches lib := by
    intro kd hkd
    obtain ⟨alg, s, h1, h2, h3, h4, h5⟩ := M.made _ _ hkd
    obtain ⟨h6, h7⟩ := h5 (jwsAsked_size hl h1 h2)
    refine ⟨h6, h3, h4, alg, s, h1, ?_, jwsAsked_ok hl h1 h2, jwsAsked_matches hl h1⟩
    unfold JwsPrivateKey
    rw [h3]
    exact h7
  have hnew : r.newKeyData seed t = reported id (cc.newKeyData seed t.value) := by
    have hg := hr.sign q hq
    rw [hqu] at hg
    unfold Registry.newKeyData Registry.keyManagerInternal
    rw [hg, hccs _ _ hc]
    exact bound_newKeyData _ _ hft M.keyType.symm fun kd hkd => (huse kd hkd).1
  rw [hnew]
  refine ⟨?_, ?_, fun kd hkd => huse kd (reported_ok.1 hkd)⟩
  · simp only [reported_ok]
    exact M.formats _
  · intro e he
    cases hx : cc.newKeyData seed t.value with
    | ok kd => rw [hx] at he; cases he
    | error s => rw [hx] at he; cases he; rfl

include hccv in
/-- C99.  There are no new keys for the key types of public keys. -/
theorem C99_no_public_keys (hl : LawfulSigSsl lib) (hr : JwtSignatureRegistered L r) {t : KeyTemplate}
    (hft : FitsTemplate t) (hu : t.typeUrl ∈ jwsVerifiers.map Prod.fst) (seed : Seed) :
    r.newKeyData seed t = .error .tinkError := by
  have hcc : ∃ cc, ccJwtVerify lib t.typeUrl = some cc := by
    simp only [jwsVerifiers, List.map_cons, List.map_nil, List.mem_cons, List.not_mem_nil, or_false] at hu
    rcases hu with e | e | e <;> rw [e] <;> exact ⟨_, rfl⟩
  obtain ⟨cc, hc⟩ := hcc
  have M := jwtVerify_manages hl hc
  obtain ⟨q, hq, hqu⟩ := List.mem_map.1 hu
  have hg := hr.verify q hq
  rw [hqu] at hg
  unfold Registry.newKeyData Registry.keyManagerInternal
  rw [hg, hccv _ _ hc]
  show ccNewKeyData (boundKeyManager verifyCcToPy cc) seed t = _
  rw [bound_newKeyData _ _ hft M.keyType.symm (fun kd hkd => by rw [M.noKeys] at hkd; cases hkd), M.noKeys]
  rfl

/-- What the templates ask for. -/
theorem jws_template (hl : LawfulSigSsl lib) {t : KeyTemplate} (ht : .ok t ∈ jwsTemplates) (seed : Seed) :
    t.typeUrl ∈ jwsSigners.map Prod.fst ∧ FitsTemplate t ∧
    (t.outputPrefixType = OutputPrefixType.RAW ∨ t.outputPrefixType = OutputPrefixType.TINK) ∧
    (t.typeUrl = ps! "type.googleapis.com/google.crypto.tink.JwtEcdsaPrivateKey" ∨
      (∀ bits ∈ [2048, 3072, 4096], ∃ k, lib.rsaGenerate seed bits 65537 = some k) →
      ∃ alg s, SigKey.JwsAskedFor lib seed t.typeUrl t.value alg s ∧ s.publicPart.Ok lib) := by
  have hcheck : ∀ x ∈ jwsTemplates, parsed x (fun t =>
      parsed t.serializeToString (fun _ => true) &&
      decide (t.outputPrefixType = OutputPrefixType.RAW ∨ t.outputPrefixType = OutputPrefixType.TINK) &&
      ((decide (t.typeUrl = ps! "type.googleapis.com/google.crypto.tink.JwtEcdsaPrivateKey") &&
        parsed (JwtEcdsaKeyFormat.fromString t.value) fun f =>
          decide (f.algorithm = 1 ∨ f.algorithm = 2 ∨ f.algorithm = 3)) ||
      ((decide (t.typeUrl = ps! "type.googleapis.com/google.crypto.tink.JwtRsaSsaPkcs1PrivateKey") &&
        parsed (JwtRsaSsaPkcs1KeyFormat.fromString t.value) fun f =>
          decide ((f.modulusSizeInBits = 2048 ∨ f.modulusSizeInBits = 3072 ∨ f.modulusSizeInBits = 4096) ∧
            f.publicExponent = [1, 0, 1] ∧ (f.algorithm = 1 ∨ f.algorithm = 2 ∨ f.algorithm = 3))) ||
      (decide (t.typeUrl = ps! "type.googleapis.com/google.crypto.tink.JwtRsaSsaPssPrivateKey") &&
        parsed (JwtRsaSsaPssKeyFormat.fromString t.value) fun f =>
          decide ((f.modulusSizeInBits = 2048 ∨ f.modulusSizeInBits = 3072 ∨ f.modulusSizeInBits = 4096) ∧
            f.publicExponent = [1, 0, 1] ∧ (f.algorithm = 1 ∨ f.algorithm = 2 ∨ f.algorithm = 3))))))
      = true := by decide +kernel
  have hexp : fromBytesBE [1, 0, 1] = 65537 := by decide
  have hbits : ∀ x : UInt32, x = 2048 ∨ x = 3072 ∨ x = 4096 →
      Cpp.toInt x ∈ [(2048 : Int), 3072, 4096] ∧ 2048 ≤ x.toNat := by
    rintro x (rfl | rfl | rfl) <;> exact ⟨by decide, by decide⟩
  obtain ⟨t', h0, h⟩ := parsed_iff.1 (hcheck _ ht)
  cases h0
  simp only [Bool.or_eq_true, Bool.and_eq_true, decide_eq_true_eq, parsed_iff] at h
  obtain ⟨⟨⟨b, hser, -⟩, hpt⟩, h⟩ := h
  refine ⟨?_, ⟨b, hser⟩, hpt, fun hrsa => ?_⟩
  · rcases h with ⟨hu, -⟩ | ⟨hu, -⟩ | ⟨hu, -⟩ <;> rw [hu] <;> decide
  rcases h with ⟨hu, f, hf, ha⟩ | ⟨hu, f, hf, hm, he, ha⟩ | ⟨hu, f, hf, hm, he, ha⟩
  · have hj : ∃ alg g hash, JwsEcdsa f.algorithm alg g hash := by
      rcases ha with e | e | e <;> rw [e]
      · exact ⟨_, _, _, .es256⟩
      · exact ⟨_, _, _, .es384⟩
      · exact ⟨_, _, _, .es512⟩
    obtain ⟨alg, g, hash, hj⟩ := hj
    obtain ⟨q1, q2⟩ := hl.generate seed g
    have q3 := hl.onCurve g _ q1
    obtain ⟨q4, q5⟩ := hl.point _ _ _ q3
    rw [hu]
    refine ⟨alg, _, .ecdsa hf hj rfl, hj.hashFor, .inr rfl, ?_⟩
    rw [fromBytesBE_digits _ _ q4, fromBytesBE_digits _ _ q5]
    exact q3
  · have hj : ∃ alg hash, JwsPkcs1 f.algorithm alg hash := by
      rcases ha with e | e | e <;> rw [e]
      · exact ⟨_, _, .rs256⟩
      · exact ⟨_, _, .rs384⟩
      · exact ⟨_, _, .rs512⟩
    obtain ⟨alg, hash, hj⟩ := hj
    rcases hrsa with h | h
    · rw [hu] at h
      exact absurd h (by decide)
    obtain ⟨k, hk⟩ := h _ (hbits _ hm).1
    rw [hu]
    have hk' : lib.rsaGenerate seed (Cpp.toInt f.modulusSizeInBits) (fromBytesBE f.publicExponent) = some k := by
      rw [he, hexp]; exact hk
    refine ⟨alg, _, .rsaPkcs1 hf hj hk', (rsaOk_generate hl hk').2 ?_, hj.safe⟩
    rw [he, hexp]
    exact ⟨(hbits _ hm).2, by decide⟩
  · have hj : ∃ alg hash salt, JwsPss f.algorithm alg hash salt := by
      rcases ha with e | e | e <;> rw [e]
      · exact ⟨_, _, _, .ps256⟩
      · exact ⟨_, _, _, .ps384⟩
      · exact ⟨_, _, _, .ps512⟩
    obtain ⟨alg, hash, salt, hj⟩ := hj
    rcases hrsa with h | h
    · rw [hu] at h
      exact absurd h (by decide)
    obtain ⟨k, hk⟩ := h _ (hbits _ hm).1
    rw [hu]
    have hk' : lib.rsaGenerate seed (Cpp.toInt f.modulusSizeInBits) (fromBytesBE f.publicExponent) = some k := by
      rw [he, hexp]; exact hk
    refine ⟨alg, _, .rsaPss hf hj hk', (rsaOk_generate hl hk').2 ?_, hj.safe, rfl, hj.salt⟩
    rw [he, hexp]
    exact ⟨(hbits _ hm).2, by decide⟩

include hccs hccv in
/-- C99.  From each predefined template a new keyset can be made, if BoringSSL makes RSA keys (which only matters for
the RSA templates).  It holds the key that the template asks for; it makes a token of everything that can be written as
JSON; and its public keyset, which can be had, accepts the token if the validator accepts what is in it. -/
theorem C99_templates (hi : LawfulClasses isInst L) (hl : LawfulSigSsl lib) (hr : JwtSignatureRegistered L r)
    (hfl : LawfulFloats L.env.json.floats) (hu : LawfulUpper L.env.upper) {t : KeyTemplate}
    (ht : .ok t ∈ jwsTemplates) (seed : Seed)
    (hrsa : t.typeUrl = ps! "type.googleapis.com/google.crypto.tink.JwtEcdsaPrivateKey" ∨
      (∀ bits ∈ [2048, 3072, 4096], ∃ k, lib.rsaGenerate seed bits 65537 = some k))
    (d : UInt32) (draws : List UInt32) :
    ∃ h p pub p' k alg s, KeysetHandle.generateNew r seed (d :: draws) t = some (.ok h) ∧ h.keyset = ⟨d, [k]⟩ ∧
      SigKey.JwsAskedFor lib seed t.typeUrl t.value alg s ∧ JwsPrivateKey k.data ⟨alg, none⟩ s ∧
      k.outputPrefixType = t.outputPrefixType ∧ h.primitive isInst r L.signClass = .ok p ∧
      h.publicKeysetHandle r = .ok pub ∧ pub.primitive isInst r L.verifyClass = .ok p' ∧
      ∀ seed' a tok text, newRawJwt L.env.json a = .ok tok → tok.jsonPayload L.env.json = .ok text →
        ∃ compact, (L.sign.view p).signAndEncode seed' tok = .ok compact ∧
          (ValidObjects (.dict tok.payload) → (∀ s, a.typeHeader = some s → ValidText s) → ∀ clock v,
            validate L.env.json.floats clock v (written a tok) = .ok () →
            (L.verify.view p').verifyAndDecode clock compact v = .ok ⟨written a tok⟩) := by
  obtain ⟨htu, hft, hpt, hask⟩ := jws_template (lib := lib) hl ht seed
  obtain ⟨hnew, -, hmade⟩ := C99_formats hccs hl hr hft htu seed
  obtain ⟨kd, hkd⟩ := hnew.2 (hask hrsa)
  obtain ⟨hfit, hkdu, hmat, alg, s, h1, h2, h3, h4⟩ := hmade kd hkd
  have hne : t.outputPrefixType ≠ OutputPrefixType.UNKNOWN_PREFIX := by
    rcases hpt with e | e <;> rw [e] <;> decide
  have hgen := C19_generate_new_ok (d := d) (draws := draws) hkd hne
  generalize hkk : (⟨some kd, KeyStatusType.ENABLED, d, t.outputPrefixType⟩ : Key) = k at hgen
  have kdata : k.data = kd := by rw [← hkk]; rfl
  have kpt : k.outputPrefixType = t.outputPrefixType := by rw [← hkk]
  have kst : k.status = KeyStatusType.ENABLED := by rw [← hkk]
  have kid : k.keyId = d := by rw [← hkk]
  have hv : Valid ⟨d, [k]⟩ := by rw [← hkk]; exact single_valid hne
  obtain ⟨p, hp⟩ := (C99_sign_primitive (h := ⟨⟨d, [k]⟩⟩) hccs hi hl hr).2
    ⟨hv, fun k' hk' _ => by
      rw [List.mem_singleton.1 hk', kdata, kpt]
      exact ⟨hpt, hfit, _, s, h2, h3⟩⟩
  have hsize := jwsAsked_size hl h1 h3.1
  have hks : JwsPrivateKeyset ⟨d, [k]⟩ := by
    intro k' hk'
    rw [List.mem_singleton.1 hk', kdata]
    refine ⟨by rw [hkdu]; exact htu, hfit, hmat, fun i' s' hs' => ?_⟩
    obtain ⟨rfl, rfl⟩ := (jws_unique lib hl).1 h2 hs'
    exact hsize
  obtain ⟨pub, hpub⟩ := (C99_public (h := ⟨⟨d, [k]⟩⟩) hccs hl hr hv hks).2 fun k' hk' => by
    rw [List.mem_singleton.1 hk', kdata, kpt, kst]
    exact ⟨hne, by decide, _, s, h2, checked_of_ok h3⟩
  obtain ⟨c1, c2, c3, c4, -⟩ := C99_public_keys hccs hl hr hks hpub
  obtain ⟨p', hp'⟩ := (C99_verify_primitive (h := pub) hccv hi hl hr).2 ⟨c4, fun k' hk' _ => by
    obtain ⟨n, hn, rfl⟩ := List.getElem_of_mem hk'
    have hn0 : n = 0 := by
      have : pub.keyset.key.length = 1 := c2
      omega
    subst hn0
    obtain ⟨-, -, g3, -, -, g6, i', s', g7, g8⟩ := c3 (k, pub.keyset.key[0]) (by
      rw [List.mem_iff_getElem]
      exact ⟨0, by simp; omega, by simp⟩)
    dsimp only at g3 g6 g7 g8
    rw [kdata] at g7
    obtain ⟨rfl, rfl⟩ := (jws_unique lib hl).1 h2 g7
    rw [g3, kpt]
    exact ⟨hpt, g6, _, _, g8, h3.1⟩⟩
  have hpk : IsPrimaryKey ⟨d, [k]⟩ k := ⟨kst, kid⟩
  refine ⟨⟨⟨d, [k]⟩⟩, p, pub, p', k, alg, s, hgen, rfl, h1, by rw [kdata]; exact h2, kpt, hp, hpub, hp',
    fun seed' a tok text hat htext => ?_⟩
  obtain ⟨kps, H⟩ := jwtSign_obtained hr hp
  obtain ⟨o, ho⟩ := isPrimary_of_key hv H.keys.1 (List.mem_singleton.2 rfl) hpk
  have hkey : JwsPrivateKey k.data ⟨alg, none⟩ s := by rw [kdata]; exact h2
  obtain ⟨compact, he⟩ := C41_signature_encodes H hr.onlySign hfl ho
    (.inr fun alg' ck g1 => (g1.unique (jwsPrivate_signKey hkey)).2)
    (fun data signer g1 g2 seed'' dd => by
      obtain ⟨s', e1, -, e3⟩ := jwtSign_key hccs hl (jwsPrivate_signKey hkey) g1 g2
      obtain ⟨-, rfl⟩ := (jws_unique lib hl).1 hkey e1
      obtain ⟨sig, hsig⟩ := jwsAsked_total hl h1 h3.1 seed'' dd
      exact ⟨sig, by rw [e3, hsig]⟩) hat htext seed'
  refine ⟨compact, he, fun hvo hth clock v ha => ?_⟩
  exact C99_public_round_trip hccs hccv hl hr hfl hu hks hp (List.mem_singleton.2 rfl) hpk (fun i' s' hs' => by
    obtain ⟨-, rfl⟩ := (jws_unique lib hl).1 hkey hs'
    exact h4) hpub hp' hat hvo hth he ha

end

/-! ## Examples -/

namespace JwtSignatureKeysExample
open ToyJwt

/-- The toy library with the C++ key managers as modelled, over the toy BoringSSL. -/
def library : Library Int Prim Cls :=
  { ToyJwt.library with
    ccSign := fun url => match ccJwtSign ToySig.lib url with
      | some cc => { boundKeyManager signCcToPy cc with keyType := url }
      | none => ToyJwt.library.ccSign url
    ccVerify := fun url => match ccJwtVerify ToySig.lib url with
      | some cc => { boundKeyManager verifyCcToPy cc with keyType := url }
      | none => ToyJwt.library.ccVerify url }

theorem ccs (url : PStr) (cc : Cpp.KeyManager Cpp.PublicKeySign) (h : ccJwtSign ToySig.lib url = some cc) :
    library.ccSign url = boundKeyManager signCcToPy cc := by
  obtain ⟨pu, -, M⟩ := jwtSign_manages ToySig.lawful 0 h
  show (match ccJwtSign ToySig.lib url with | some cc => _ | none => _) = _
  rw [h]
  show ({ boundKeyManager signCcToPy cc with keyType := url } : CcKeyManager PublicKeySign) = _
  rw [← M.keyType]
  rfl

theorem ccv (url : PStr) (cc : Cpp.KeyManager Cpp.PublicKeyVerify) (h : ccJwtVerify ToySig.lib url = some cc) :
    library.ccVerify url = boundKeyManager verifyCcToPy cc := by
  have M := jwtVerify_manages ToySig.lawful h
  show (match ccJwtVerify ToySig.lib url with | some cc => _ | none => _) = _
  rw [h]
  show ({ boundKeyManager verifyCcToPy cc with keyType := url } : CcKeyManager PublicKeyVerify) = _
  rw [← M.keyType]
  rfl

theorem lawful : LawfulLibrary library where
  mac_sign := by decide
  mac_verify := by decide
  sign_verify := by decide
  ccMac _ := rfl
  ccSign url := by
    show (match ccJwtSign ToySig.lib url with | some cc => _ | none => _ : CcKeyManager PublicKeySign).keyType = _
    split <;> rfl
  ccVerify url := by
    show (match ccJwtVerify ToySig.lib url with | some cc => _ | none => _ : CcKeyManager PublicKeyVerify).keyType = _
    split <;> rfl

theorem classes : LawfulClasses isInst library :=
  ⟨fun _ => rfl, fun _ => rfl, fun _ => rfl, fun _ => rfl, by decide⟩

/-- A key manager of the program itself. -/
def foreign : KeyManager Prim Cls where
  pyType := 9
  primitiveClass := .sign
  keyType := ps! "mine"
  doesSupport _ := true
  primitive _ := .error .tinkError
  newKeyData _ _ := .error .tinkError

def history : List (JwtOp Prim Cls) :=
  [.registerJwtSignature, .other .reset, .other (.registerKeyManager foreign true), .registerJwtMac] ++
    .registerJwtSignature :: [.registerJwtSignature, .registerJwtMac]

def registry : Registry Prim Cls := runJwt isInst library history {}

theorem registered : JwtSignatureRegistered library registry :=
  (C99_registered lawful classes ⟨by decide, by decide⟩
    (before := [.registerJwtSignature, .other .reset, .other (.registerKeyManager foreign true), .registerJwtMac])
    (after := [.registerJwtSignature, .registerJwtMac])
    ⟨by intro m b h; simp at h; obtain ⟨rfl, rfl⟩ := h; decide,
      by intro m b h; simp at h; obtain ⟨rfl, rfl⟩ := h; decide, by intro w h; simp at h⟩ (by simp)).1

def pub1 : JwtEcdsaPublicKey := { algorithm := 1, x := [5], y := [6] }
def priv1 : JwtEcdsaPrivateKey := { publicKey := some pub1, keyValue := [5] }
/-- The public part does not belong to the private part. -/
def priv2 : JwtEcdsaPrivateKey where
  publicKey := some { algorithm := 3, x := [8], y := [9], customKid := some { value := ['x'] } }
  keyValue := [5]

def key1 : Key := ToyJwt.key JWT_ECDSA_PRIVATE_KEY_TYPE (ToyJwt.value [] priv1.serializeToString)
  KeyMaterialType.ASYMMETRIC_PRIVATE 7 OutputPrefixType.TINK
def key2 : Key := ToyJwt.key JWT_ECDSA_PRIVATE_KEY_TYPE (ToyJwt.value [] priv2.serializeToString)
  KeyMaterialType.ASYMMETRIC_PRIVATE 8 OutputPrefixType.RAW
def key3 : Key := { key2 with status := KeyStatusType.DISABLED, keyId := 9 }

def handle : KeysetHandle := ⟨{ primaryKeyId := 7, key := [key2, key1, key3] }⟩

def secret1 : SigKey := .ecdsa .p256 [5] [6] [5] HashType.SHA256 EcdsaSignatureEncoding.IEEE_P1363
def secret2 : SigKey := .ecdsa .p521 [8] [9] [5] HashType.SHA512 EcdsaSignatureEncoding.IEEE_P1363

theorem holds1 : JwsPrivateKey key1.data ⟨py! "ES256", none⟩ secret1 :=
  .ecdsa (k := priv1) (by decide +kernel) (.mk rfl (.mk rfl .es256))

theorem holds2 : JwsPrivateKey key2.data ⟨py! "ES512", some (py! "x")⟩ secret2 :=
  .ecdsa (k := priv2) (by decide +kernel) (.mk rfl (.mk rfl .es512))

theorem ok1 : secret1.Ok ToySig.lib :=
  ⟨⟨.p256, .inr rfl, by decide +kernel⟩, show ToySig.lib.ecScalar .p256 (fromBytesBE [5]) = true by decide +kernel⟩
theorem ok2 : secret2.Ok ToySig.lib :=
  ⟨⟨.p521, .inr rfl, by decide +kernel⟩, show ToySig.lib.ecScalar .p521 (fromBytesBE [5]) = true by decide +kernel⟩

theorem fits {kd : KeyData} (h : ToyJwt.isOk kd.serializeToString = true) : Fits kd := ⟨_, value_ok (d := []) h⟩

theorem handle_valid : Valid handle.keyset := (C20_validate_iff _).1 (by decide +kernel)

theorem handle_private : JwsPrivateKeyset handle.keyset := by
  intro k hk
  simp only [handle, List.mem_cons, List.not_mem_nil, or_false] at hk
  rcases hk with rfl | rfl | rfl
  · refine ⟨by decide +kernel, fits (by decide +kernel), rfl, fun i s hs => ?_⟩
    obtain ⟨rfl, rfl⟩ := (jws_unique ToySig.lib ToySig.lawful).1 holds2 hs
    decide
  · refine ⟨by decide +kernel, fits (by decide +kernel), rfl, fun i s hs => ?_⟩
    obtain ⟨rfl, rfl⟩ := (jws_unique ToySig.lib ToySig.lawful).1 holds1 hs
    decide
  · refine ⟨by decide +kernel, fits (by decide +kernel), rfl, fun i s hs => ?_⟩
    obtain ⟨rfl, rfl⟩ := (jws_unique ToySig.lib ToySig.lawful).1 holds2 hs
    decide

theorem works : ∃ p, handle.primitive isInst registry .sign = .ok p := by
  refine (C99_sign_primitive ccs classes ToySig.lawful registered).2 ⟨handle_valid, fun k hk he => ?_⟩
  simp only [handle, List.mem_cons, List.not_mem_nil, or_false] at hk
  rcases hk with rfl | rfl | rfl
  · exact ⟨.inl rfl, fits (by decide +kernel), _, _, holds2, ok2⟩
  · exact ⟨.inr rfl, fits (by decide +kernel), _, _, holds1, ok1⟩
  · exact absurd he (by decide)

theorem public_works : ∃ pub, handle.publicKeysetHandle registry = .ok pub := by
  refine (C99_public ccs ToySig.lawful registered handle_valid handle_private).2 fun k hk => ?_
  simp only [handle, List.mem_cons, List.not_mem_nil, or_false] at hk
  rcases hk with rfl | rfl | rfl
  · exact ⟨by decide, by decide, _, _, holds2, checked_of_ok ok2⟩
  · exact ⟨by decide, by decide, _, _, holds1, checked_of_ok ok1⟩
  · exact ⟨by decide, by decide, _, _, holds2, checked_of_ok ok2⟩

theorem verify_works {pub : KeysetHandle} (hpub : handle.publicKeysetHandle registry = .ok pub) :
    ∃ p, pub.primitive isInst registry .verify = .ok p := by
  obtain ⟨c1, c2, c3, c4, -⟩ := C99_public_keys ccs ToySig.lawful registered handle_private hpub
  refine (C99_verify_primitive ccv classes ToySig.lawful registered).2 ⟨c4, fun k' hk' he => ?_⟩
  obtain ⟨n, hn, rfl⟩ := List.getElem_of_mem hk'
  have hmem : (handle.keyset.key[n]'(by omega), pub.keyset.key[n]) ∈ handle.keyset.key.zip pub.keyset.key := by
    rw [List.mem_iff_getElem]
    exact ⟨n, by simp; omega, by simp⟩
  obtain ⟨-, -, g3, -, -, g6, i, s, g7, g8⟩ := c3 _ hmem
  dsimp only at g3 g7
  have hk := List.getElem_mem (l := handle.keyset.key) (n := n) (by omega)
  revert hk g3 g7
  generalize handle.keyset.key[n]'(by omega) = k
  intro g3 g7 hk
  simp only [handle, List.mem_cons, List.not_mem_nil, or_false] at hk
  rw [g3]
  rcases hk with rfl | rfl | rfl
  · obtain ⟨rfl, rfl⟩ := (jws_unique ToySig.lib ToySig.lawful).1 holds2 g7
    exact ⟨.inl rfl, g6, _, _, g8, ok2.1⟩
  · obtain ⟨rfl, rfl⟩ := (jws_unique ToySig.lib ToySig.lawful).1 holds1 g7
    exact ⟨.inr rfl, g6, _, _, g8, ok1.1⟩
  · obtain ⟨rfl, rfl⟩ := (jws_unique ToySig.lib ToySig.lawful).1 holds2 g7
    exact ⟨.inl rfl, g6, _, _, g8, ok2.1⟩

/-- A token is signed with the primary key, and accepted by the public keyset. -/
example : ∃ p pub p' compact, handle.primitive isInst registry .sign = .ok p ∧
    handle.publicKeysetHandle registry = .ok pub ∧ pub.primitive isInst registry .verify = .ok p' ∧
    (library.sign.view p).signAndEncode 3 token = .ok compact ∧
    (library.verify.view p').verifyAndDecode clock compact validator = .ok ⟨written args token⟩ ∧
    ∃ header payload signature sig, Compact compact header payload signature ∧
      secret1.signature ToySig.lib 3 (header ++ 46 :: payload) = some sig ∧ Base64UrlForm signature sig := by
  obtain ⟨p, hp⟩ := works
  obtain ⟨pub, hpub⟩ := public_works
  obtain ⟨p', hp'⟩ := verify_works hpub
  obtain ⟨kps, H⟩ := jwtSign_obtained registered hp
  obtain ⟨o, ho⟩ := isPrimary_of_key handle_valid H.keys.1 (k := key1) (by simp [handle]) ⟨rfl, rfl⟩
  obtain ⟨compact, he⟩ := C41_signature_encodes H registered.onlySign ToyJson.lawful ho
    (.inr fun alg' ck h1 => (h1.unique (jwsPrivate_signKey holds1)).2)
    (fun data signer g1 g2 seed d => by
      obtain ⟨s', e1, -, e3⟩ := jwtSign_key ccs ToySig.lawful (jwsPrivate_signKey holds1) g1 g2
      obtain ⟨-, rfl⟩ := (jws_unique ToySig.lib ToySig.lawful).1 holds1 e1
      obtain ⟨sig, hsig⟩ := ecdsa_total ToySig.lawful ok1 seed d
      exact ⟨sig, by rw [e3]; unfold secret1; rw [hsig]⟩) token_created
    (value_ok (d := []) (by decide +kernel)) 3
  obtain ⟨i, s, h1, h2, header, payload, signature, sig, d, g1, -, -, -, g5, g6⟩ :=
    C99_form (k := key1) ccs ToySig.lawful registered ToyJson.lawful hp (by simp [handle]) ⟨rfl, rfl⟩ token_created
      token_valid args_type he
  obtain ⟨-, rfl⟩ := (jws_unique ToySig.lib ToySig.lawful).1 holds1 h1
  refine ⟨p, pub, p', compact, hp, hpub, hp', he, ?_, header, payload, signature, sig, g1, g5, g6⟩
  exact C99_public_round_trip (k := key1) ccs ccv ToySig.lawful registered ToyJson.lawful lawfulUpper handle_private hp
    (by simp [handle]) ⟨rfl, rfl⟩ (fun i s hs => by
      obtain ⟨-, rfl⟩ := (jws_unique ToySig.lib ToySig.lawful).1 holds1 hs
      unfold SigKey.Matches secret1
      decide +kernel) hpub hp' token_created token_valid args_type he (by decide +kernel)

example {pub : KeysetHandle} (p : Prim) (hp : pub.primitive isInst registry .verify = .ok p) (compact : PyStr) :=
  C99_accepted_iff ccv ToySig.lawful registered lawfulUpper hp clock compact validator

example {t : KeyTemplate} (ht : .ok t ∈ jwsTemplates) :=
  C99_templates ccs ccv classes ToySig.lawful registered ToyJson.lawful lawfulUpper (t := t) ht 5
    (.inr (by
      intro bits hb
      simp only [List.mem_cons, List.not_mem_nil, or_false] at hb
      rcases hb with rfl | rfl | rfl <;> exact ⟨_, rfl⟩)) 77 []

/-- An algorithm that does not exist. -/
def unknown : KeyTemplate where
  typeUrl := JWT_ECDSA_PRIVATE_KEY_TYPE
  value := [16, 4]
  outputPrefixType := OutputPrefixType.RAW

example : ∀ kd, registry.newKeyData 3 unknown ≠ .ok kd := by
  intro kd hkd
  have hf : JwtEcdsaKeyFormat.fromString unknown.value = .ok { algorithm := 4 } := by decide +kernel
  obtain ⟨alg, s, h1, -⟩ := (C99_formats (t := unknown) ccs ToySig.lawful registered
    ⟨_, value_ok (d := []) (by decide +kernel)⟩ (by decide +kernel) 3).1.1 ⟨kd, hkd⟩
  generalize hw : unknown.typeUrl = w at h1
  cases h1 with
  | ecdsa g1 g2 g3 =>
    cases hf.symm.trans g1
    cases g2
  | rsaPkcs1 => exact absurd hw (by decide +kernel)
  | rsaPss => exact absurd hw (by decide +kernel)

/-- There are no new public keys. -/
example : registry.newKeyData 3 ⟨JWT_RSA_SSA_PSS_PUBLIC_KEY_TYPE, [], OutputPrefixType.RAW⟩ = .error .tinkError :=
  C99_no_public_keys ccv ToySig.lawful registered ⟨_, value_ok (d := []) (by decide +kernel)⟩ (by decide +kernel) 3

end JwtSignatureKeysExample

end Tink.Props
