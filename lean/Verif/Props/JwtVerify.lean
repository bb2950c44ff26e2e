import Verif.Jwt.DecodeLemmas
import Verif.Props.JwtKeyset
import Verif.Props.JwtRegister

/-!
# C42, C43: what an accepted token proves
-/

namespace Tink
namespace Props
open Jwt Spec Json JsonUtil

section
variable {F P C : Type} [DecidableEq C] {isInst : P → C → Bool} {r : Registry P C} {h : KeysetHandle}
  {kps : List (Key × P)} {p : P} {t : Nat} {ci c : C} {env : JwtEnv F}

/-! ## C42 -/

/-- If a token is accepted, it has the form `header.payload.signature`, an enabled key of the keyset
verified the signature over the bytes before the last dot, the claims are the contents of the payload,
the type header is that of the header, and the validator accepted them. -/
theorem C42_mac {V : View P (JwtMacInternal F)} {W : View P (JwtMac F)} {cc : CcKeyManager Mac}
    (H : Obtained isInst (jwtMacWrapper V W t ci c) r h c kps p) (hm : MacManagers V ci env cc r)
    (hu : LawfulUpper env.upper) (clock : Int) (compact : PyStr) (v : JwtValidator) (a : VerifiedJwt F)
    (ha : (W.view p).verifyMacAndDecode clock compact v = .ok a) :
    ∃ k ∈ h.keyset.key, Enabled k ∧ ∃ alg customKid data mac, TokenMacKey k.data alg customKid ∧
      k.data.serializeToString = .ok data ∧ cc.primitive data = .ok mac ∧
      ∃ header payload signature sig d, Compact compact header payload signature ∧
        base64Decode signature = .ok sig ∧ mac.verifyMac sig (header ++ 46 :: payload) = .ok () ∧
        Holds env.json payload (.dict a.raw.payload) ∧
        Holds env.json header (.dict d) ∧
        a.raw.typeHeader = (PyDict.get? d (py! "typ")).bind optional ∧
        validate env.json.floats clock v a.raw = .ok () := by
  obtain ⟨_, q, _, _, hq, hv, _⟩ := C44_mac_ok H clock compact v a ha
  obtain ⟨alg, customKid, data, mac, h1, h2, h3, h4⟩ := mac_primitive hm (H.keys.2 q hq)
  rw [h4] at hv
  obtain ⟨header, payload, signature, sig, d, g1, g2, g3, g4, _, g6, g7, g8, _⟩ := decode_ok hu hv
  have hmem : q.1 ∈ h.keyset.key.filter (fun k => Enabled k) := by
    rw [← H.keys.1]; exact List.mem_map.2 ⟨q, hq, rfl⟩
  rw [List.mem_filter] at hmem
  exact ⟨q.1, hmem.1, by simpa using hmem.2, alg, customKid, data, mac, h1, h2, h3,
    header, payload, signature, sig, d, g1, g2, g3, g6, g4, g7, g8⟩

theorem C42_signature {V : View P (JwtPublicKeyVerifyInternal F)} {W : View P (JwtPublicKeyVerify F)}
    {cc : PStr → CcKeyManager PublicKeyVerify}
    (H : Obtained isInst (jwtVerifyWrapper V W t ci c) r h c kps p) (hm : VerifyManagers V ci env cc r)
    (hu : LawfulUpper env.upper) (clock : Int) (compact : PyStr) (v : JwtValidator) (a : VerifiedJwt F)
    (ha : (W.view p).verifyAndDecode clock compact v = .ok a) :
    ∃ k ∈ h.keyset.key, Enabled k ∧ ∃ alg customKid data verifier, VerifyKey k.data alg customKid ∧
      k.data.serializeToString = .ok data ∧ (cc k.data.typeUrl).primitive data = .ok verifier ∧
      ∃ header payload signature sig d, Compact compact header payload signature ∧
        base64Decode signature = .ok sig ∧ verifier.verify sig (header ++ 46 :: payload) = .ok () ∧
        Holds env.json payload (.dict a.raw.payload) ∧
        Holds env.json header (.dict d) ∧
        a.raw.typeHeader = (PyDict.get? d (py! "typ")).bind optional ∧
        validate env.json.floats clock v a.raw = .ok () := by
  obtain ⟨_, q, _, _, hq, hv, _⟩ := C44_signature_ok H clock compact v a ha
  obtain ⟨alg, customKid, data, mac, h1, h2, h3, h4⟩ := verify_primitive hm (H.keys.2 q hq)
  rw [h4] at hv
  obtain ⟨header, payload, signature, sig, d, g1, g2, g3, g4, _, g6, g7, g8, _⟩ := decode_ok hu hv
  have hmem : q.1 ∈ h.keyset.key.filter (fun k => Enabled k) := by
    rw [← H.keys.1]; exact List.mem_map.2 ⟨q, hq, rfl⟩
  rw [List.mem_filter] at hmem
  exact ⟨q.1, hmem.1, by simpa using hmem.2, alg, customKid, data, mac, h1, h2, h3,
    header, payload, signature, sig, d, g1, g2, g3, g6, g4, g7, g8⟩

/-! ## C43 -/

/-- Base64url, UTF-8 and JSON are functions: a part has one content. -/
theorem Holds.unique {env : JsonEnv F} {part : Bytes} {v w : JVal F} (h1 : Holds env part v)
    (h2 : Holds env part w) : v = w := by
  obtain ⟨b, s, x1, x2, x3⟩ := h1
  obtain ⟨b', s', y1, y2, y3⟩ := h2
  rw [x1] at y1; cases y1
  rw [x2] at y2; cases y2
  rw [x3] at y3; cases y3
  rfl

/-- A token has one decomposition. -/
theorem Compact.unique {compact : PyStr} {a b c a' b' c' : Bytes} (h : Compact compact a b c)
    (h' : Compact compact a' b' c') : a = a' ∧ b = b' ∧ c = c' := by
  have inj : ∀ s t : Bytes, s.map UInt8.toNat = t.map UInt8.toNat → s = t := by
    intro s
    induction s with
    | nil => intro t h; cases t with
      | nil => rfl
      | cons => cases h
    | cons a s ih => intro t h; cases t with
      | nil => cases h
      | cons b t =>
        simp only [List.map_cons, List.cons.injEq] at h
        rw [UInt8.toNat_inj.1 h.1, ih t h.2]
  have e := inj _ _ (h.form.symm.trans h'.form)
  have e1 := rsplitDot_append (u := a ++ 46 :: b) (no_dot h.signature)
  rw [e, rsplitDot_append (no_dot h'.signature)] at e1
  simp only [Option.some.injEq, Prod.mk.injEq] at e1
  obtain ⟨e1, e2⟩ := e1
  have e3 := splitDots_two.2 ⟨rfl, no_dot h.header, no_dot h.payload⟩
  rw [← e1, splitDots_two.2 ⟨rfl, no_dot h'.header, no_dot h'.payload⟩] at e3
  simp only [List.cons.injEq, and_true] at e3
  exact ⟨e3.1.symm, e3.2.symm, e2.symm⟩

/-- If a token is accepted, its header is a JSON object that names the algorithm of an enabled key, in
upper or lower case, has no `crit`, and agrees with the kid of the key: a TINK key needs its own kid, a
custom kid must agree if the header has one.  A key has only one of the two. -/
theorem C43_mac {V : View P (JwtMacInternal F)} {W : View P (JwtMac F)} {cc : CcKeyManager Mac}
    (H : Obtained isInst (jwtMacWrapper V W t ci c) r h c kps p) (hm : MacManagers V ci env cc r)
    (hu : LawfulUpper env.upper) (clock : Int) (compact : PyStr) (v : JwtValidator) (a : VerifiedJwt F)
    (ha : (W.view p).verifyMacAndDecode clock compact v = .ok a) :
    ∃ k ∈ h.keyset.key, Enabled k ∧ ∃ alg customKid, TokenMacKey k.data alg customKid ∧
      (keyKid k = none ∨ customKid = none) ∧
      ∃ header payload signature d, Compact compact header payload signature ∧
        Holds env.json header (.dict d) ∧ HeaderMatches env.upper d alg (keyKid k) customKid := by
  obtain ⟨_, q, _, _, hq, hv, _⟩ := C44_mac_ok H clock compact v a ha
  obtain ⟨alg, customKid, data, mac, h1, h2, h3, h4⟩ := mac_primitive hm (H.keys.2 q hq)
  rw [h4] at hv
  obtain ⟨header, payload, signature, sig, d, g1, g2, g3, g4, g5, g6, g7, g8, g9⟩ := decode_ok hu hv
  have hmem : q.1 ∈ h.keyset.key.filter (fun k => Enabled k) := by
    rw [← H.keys.1]; exact List.mem_map.2 ⟨q, hq, rfl⟩
  rw [List.mem_filter] at hmem
  exact ⟨q.1, hmem.1, by simpa using hmem.2, alg, customKid, h1, g9, header, payload, signature, d,
    g1, g4, g5⟩

theorem C43_signature {V : View P (JwtPublicKeyVerifyInternal F)} {W : View P (JwtPublicKeyVerify F)}
    {cc : PStr → CcKeyManager PublicKeyVerify}
    (H : Obtained isInst (jwtVerifyWrapper V W t ci c) r h c kps p) (hm : VerifyManagers V ci env cc r)
    (hu : LawfulUpper env.upper) (clock : Int) (compact : PyStr) (v : JwtValidator) (a : VerifiedJwt F)
    (ha : (W.view p).verifyAndDecode clock compact v = .ok a) :
    ∃ k ∈ h.keyset.key, Enabled k ∧ ∃ alg customKid, VerifyKey k.data alg customKid ∧
      (keyKid k = none ∨ customKid = none) ∧
      ∃ header payload signature d, Compact compact header payload signature ∧
        Holds env.json header (.dict d) ∧ HeaderMatches env.upper d alg (keyKid k) customKid := by
  obtain ⟨_, q, _, _, hq, hv, _⟩ := C44_signature_ok H clock compact v a ha
  obtain ⟨alg, customKid, data, mac, h1, h2, h3, h4⟩ := verify_primitive hm (H.keys.2 q hq)
  rw [h4] at hv
  obtain ⟨header, payload, signature, sig, d, g1, g2, g3, g4, g5, g6, g7, g8, g9⟩ := decode_ok hu hv
  have hmem : q.1 ∈ h.keyset.key.filter (fun k => Enabled k) := by
    rw [← H.keys.1]; exact List.mem_map.2 ⟨q, hq, rfl⟩
  rw [List.mem_filter] at hmem
  exact ⟨q.1, hmem.1, by simpa using hmem.2, alg, customKid, h1, g9, header, payload, signature, d,
    g1, g4, g5⟩

/-- The algorithms of HMAC keys. -/
theorem TokenMacKey.algs {kd : KeyData} {alg : PyStr} {kid : Option PyStr} (h : TokenMacKey kd alg kid) :
    alg = py! "HS256" ∨ alg = py! "HS384" ∨ alg = py! "HS512" := by
  obtain ⟨k, _, h, _⟩ := h.key
  simp only [List.mem_cons, Prod.mk.injEq, List.not_mem_nil, or_false] at h
  rcases h with h | h | h <;> simp [h.2]

/-- Of a token whose header names its algorithm in ASCII, letters count without regard to case: a `JwtMac`
accepts it only if it is HS256, HS384 or HS512 (not `none`, and no signature algorithm) and the
algorithm of an enabled key. -/
theorem C43_mac_algorithm {V : View P (JwtMacInternal F)} {W : View P (JwtMac F)} {cc : CcKeyManager Mac}
    (H : Obtained isInst (jwtMacWrapper V W t ci c) r h c kps p) (hm : MacManagers V ci env cc r)
    (hu : LawfulUpper env.upper) (clock : Int) (compact : PyStr) (v : JwtValidator) (a : VerifiedJwt F)
    (ha : (W.view p).verifyMacAndDecode clock compact v = .ok a)
    {header payload signature : Bytes} (hc : Compact compact header payload signature)
    {d : List (PyStr × JVal F)} (hd : Holds env.json header (.dict d)) {s : PyStr}
    (hs : PyDict.get? d (py! "alg") = some (.str s)) (hascii : ∀ x ∈ s, x < 128) :
    (s.map asciiUpper = py! "HS256" ∨ s.map asciiUpper = py! "HS384" ∨ s.map asciiUpper = py! "HS512") ∧
      ∃ k ∈ h.keyset.key, Enabled k ∧ ∃ customKid, TokenMacKey k.data (s.map asciiUpper) customKid := by
  obtain ⟨k, hk, he, alg, customKid, hkey, _, _, _, _, d', hc', hd', hmatch⟩ :=
    C43_mac H hm hu clock compact v a ha
  obtain ⟨rfl, _⟩ := Compact.unique hc hc'
  cases Holds.unique hd hd'
  obtain ⟨s', hs', hup⟩ := hmatch.alg
  rw [hs] at hs'
  cases hs'
  rw [hu.ascii s hascii] at hup
  subst hup
  exact ⟨TokenMacKey.algs hkey, k, hk, he, customKid, hkey⟩

/-- The algorithms of public keys. -/
theorem VerifyKey.algs {kd : KeyData} {alg : PyStr} {kid : Option PyStr} (h : VerifyKey kd alg kid) :
    alg ∈ [py! "ES256", py! "ES384", py! "ES512", py! "RS256", py! "RS384", py! "RS512", py! "PS256",
      py! "PS384", py! "PS512"] := by
  rcases h with ⟨k, _, _, h, _⟩ | ⟨k, _, _, h, _⟩ | ⟨k, _, _, h, _⟩ <;>
  · simp only [List.mem_cons, Prod.mk.injEq, List.not_mem_nil, or_false] at h
    rcases h with h | h | h <;> simp [h.2]

theorem C43_signature_algorithm {V : View P (JwtPublicKeyVerifyInternal F)}
    {W : View P (JwtPublicKeyVerify F)} {cc : PStr → CcKeyManager PublicKeyVerify}
    (H : Obtained isInst (jwtVerifyWrapper V W t ci c) r h c kps p) (hm : VerifyManagers V ci env cc r)
    (hu : LawfulUpper env.upper) (clock : Int) (compact : PyStr) (v : JwtValidator) (a : VerifiedJwt F)
    (ha : (W.view p).verifyAndDecode clock compact v = .ok a)
    {header payload signature : Bytes} (hc : Compact compact header payload signature)
    {d : List (PyStr × JVal F)} (hd : Holds env.json header (.dict d)) {s : PyStr}
    (hs : PyDict.get? d (py! "alg") = some (.str s)) (hascii : ∀ x ∈ s, x < 128) :
    s.map asciiUpper ∈ [py! "ES256", py! "ES384", py! "ES512", py! "RS256", py! "RS384", py! "RS512",
        py! "PS256", py! "PS384", py! "PS512"] ∧
      ∃ k ∈ h.keyset.key, Enabled k ∧ ∃ customKid, VerifyKey k.data (s.map asciiUpper) customKid := by
  obtain ⟨k, hk, he, alg, customKid, hkey, _, _, _, _, d', hc', hd', hmatch⟩ :=
    C43_signature H hm hu clock compact v a ha
  obtain ⟨rfl, _⟩ := Compact.unique hc hc'
  cases Holds.unique hd hd'
  obtain ⟨s', hs', hup⟩ := hmatch.alg
  rw [hs] at hs'
  cases hs'
  rw [hu.ascii s hascii] at hup
  subst hup
  exact ⟨VerifyKey.algs hkey, k, hk, he, customKid, hkey⟩

/-! ## C44: what the errors mean -/

theorem jwt_enabled_mem (hk : EnabledPrimitives r ci h.keyset kps) {q : Key × P} (hq : q ∈ kps) :
    q.1 ∈ h.keyset.key ∧ Enabled q.1 := by
  have hmem : q.1 ∈ h.keyset.key.filter (fun k => Enabled k) := by
    rw [← hk.1]; exact List.mem_map.2 ⟨q, hq, rfl⟩
  rw [List.mem_filter] at hmem
  exact ⟨hmem.1, by simpa using hmem.2⟩

omit [DecidableEq C] in
theorem combine_group_invalid {α : Type} {f : Key × P → Py α}
    (hk : ∀ q ∈ kps, ∃ id, outputPrefix q.1 = .ok id)
    (h : combine false ((groupOrder kps).map f) = .error .jwtInvalidError) :
    ∃ q ∈ kps, f q = .error .jwtInvalidError := by
  rcases first_or_none ((groupOrder kps).map f) with hn | ⟨pre, y, post, he, h1, h2⟩
  · by_cases hm : (.error .jwtInvalidError : Py α) ∈ (groupOrder kps).map f
    · obtain ⟨q, hq, hf⟩ := List.mem_map.1 hm
      exact ⟨q, (mem_groupOrder hk).1 hq, hf⟩
    · rw [(combine_none hn).2 hm] at h; cases h
  · rw [he, combine_first h1 false h2] at h
    subst h
    exact absurd ⟨_, rfl, rfl⟩ h2

/-- `JwtInvalidError` means that the token is malformed, or that an enabled key found its MAC right (and
refused it for another reason). -/
theorem C44_mac_invalid {V : View P (JwtMacInternal F)} {W : View P (JwtMac F)} {cc : CcKeyManager Mac}
    (H : Obtained isInst (jwtMacWrapper V W t ci c) r h c kps p) (hm : MacManagers V ci env cc r)
    (hcc : ∀ data mac, cc.primitive data = .ok mac →
      ∀ tag d, mac.verifyMac tag d ≠ .error .jwtInvalidError)
    (clock : Int) (compact : PyStr) (v : JwtValidator)
    (he : (W.view p).verifyMacAndDecode clock compact v = .error .jwtInvalidError) :
    ¬ WellFormed compact ∨ ∃ k ∈ h.keyset.key, Enabled k ∧ ∃ data mac,
      k.data.serializeToString = .ok data ∧ cc.primitive data = .ok mac ∧
      SignedFor mac.verifyMac compact := by
  rw [(mac_obtained H).1] at he
  obtain ⟨q, hq, hf⟩ := combine_group_invalid (f := fun q =>
    (V.view q.2).verifyMacAndDecodeWithKid clock compact v (keyKid q.1)) H.prop.2 he
  obtain ⟨alg, customKid, data, mac, h1, h2, h3, h4⟩ := mac_primitive hm (H.keys.2 q hq)
  simp only [h4] at hf
  rcases decode_invalid (hcc data mac h3) hf with h | h
  · exact .inl h
  · exact .inr ⟨q.1, (jwt_enabled_mem H.keys hq).1, (jwt_enabled_mem H.keys hq).2, data, mac, h2, h3, h⟩

/-- A malformed token gives `JwtInvalidError`. -/
theorem C44_mac_malformed {V : View P (JwtMacInternal F)} {W : View P (JwtMac F)} {cc : CcKeyManager Mac}
    (H : Obtained isInst (jwtMacWrapper V W t ci c) r h c kps p) (hm : MacManagers V ci env cc r)
    (hne : kps ≠ []) (clock : Int) (compact : PyStr) (v : JwtValidator) (hw : ¬ WellFormed compact) :
    (W.view p).verifyMacAndDecode clock compact v = .error .jwtInvalidError := by
  have key : ∀ q ∈ kps, (V.view q.2).verifyMacAndDecodeWithKid clock compact v (keyKid q.1) =
      .error .jwtInvalidError := by
    intro q hq
    obtain ⟨alg, customKid, data, mac, h1, h2, h3, h4⟩ := mac_primitive hm (H.keys.2 q hq)
    rw [h4]
    exact decode_malformed hw
  refine (C44_mac_rejects H clock compact v fun q hq => ⟨_, key q hq, rfl⟩).1 ?_
  obtain ⟨q, hq⟩ := List.exists_mem_of_ne_nil kps hne
  exact ⟨q, hq, key q hq⟩

/-- A well-formed token whose MAC no enabled key finds right gives a `TinkError` that is not a
`JwtInvalidError`. -/
theorem C44_mac_unauthentic {V : View P (JwtMacInternal F)} {W : View P (JwtMac F)}
    {cc : CcKeyManager Mac}
    (H : Obtained isInst (jwtMacWrapper V W t ci c) r h c kps p) (hm : MacManagers V ci env cc r)
    (hcc : ∀ data mac, cc.primitive data = .ok mac →
      ∀ tag d, mac.verifyMac tag d = .ok () ∨ mac.verifyMac tag d = .error .tinkError)
    (clock : Int) (compact : PyStr) (v : JwtValidator) (hw : WellFormed compact)
    (hno : ∀ k ∈ h.keyset.key, Enabled k → ∀ data mac, k.data.serializeToString = .ok data →
      cc.primitive data = .ok mac → ¬ SignedFor mac.verifyMac compact) :
    (W.view p).verifyMacAndDecode clock compact v = .error .tinkError := by
  have key : ∀ q ∈ kps, (V.view q.2).verifyMacAndDecodeWithKid clock compact v (keyKid q.1) =
      .error .tinkError := by
    intro q hq
    obtain ⟨alg, customKid, data, mac, h1, h2, h3, h4⟩ := mac_primitive hm (H.keys.2 q hq)
    rw [h4]
    exact decode_unsigned hw (hcc data mac h3)
      (hno q.1 (jwt_enabled_mem H.keys hq).1 (jwt_enabled_mem H.keys hq).2 data mac h2 h3)
  refine (C44_mac_rejects H clock compact v fun q hq => ⟨_, key q hq, rfl⟩).2 fun q hq => ?_
  rw [key q hq]
  simp

theorem C44_signature_invalid {V : View P (JwtPublicKeyVerifyInternal F)}
    {W : View P (JwtPublicKeyVerify F)} {cc : PStr → CcKeyManager PublicKeyVerify}
    (H : Obtained isInst (jwtVerifyWrapper V W t ci c) r h c kps p) (hm : VerifyManagers V ci env cc r)
    (hcc : ∀ url data verifier, (cc url).primitive data = .ok verifier →
      ∀ sig d, verifier.verify sig d ≠ .error .jwtInvalidError)
    (clock : Int) (compact : PyStr) (v : JwtValidator)
    (he : (W.view p).verifyAndDecode clock compact v = .error .jwtInvalidError) :
    ¬ WellFormed compact ∨ ∃ k ∈ h.keyset.key, Enabled k ∧ ∃ data verifier,
      k.data.serializeToString = .ok data ∧ (cc k.data.typeUrl).primitive data = .ok verifier ∧
      SignedFor verifier.verify compact := by
  rw [(verify_obtained H).1] at he
  obtain ⟨q, hq, hf⟩ := combine_group_invalid (f := fun q =>
    (V.view q.2).verifyAndDecodeWithKid clock compact v (keyKid q.1)) H.prop.2 he
  obtain ⟨alg, customKid, data, verifier, h1, h2, h3, h4⟩ := verify_primitive hm (H.keys.2 q hq)
  simp only [h4] at hf
  rcases decode_invalid (hcc _ data verifier h3) hf with h | h
  · exact .inl h
  · exact .inr ⟨q.1, (jwt_enabled_mem H.keys hq).1, (jwt_enabled_mem H.keys hq).2, data, verifier, h2, h3, h⟩

theorem C44_signature_malformed {V : View P (JwtPublicKeyVerifyInternal F)}
    {W : View P (JwtPublicKeyVerify F)} {cc : PStr → CcKeyManager PublicKeyVerify}
    (H : Obtained isInst (jwtVerifyWrapper V W t ci c) r h c kps p) (hm : VerifyManagers V ci env cc r)
    (hne : kps ≠ []) (clock : Int) (compact : PyStr) (v : JwtValidator) (hw : ¬ WellFormed compact) :
    (W.view p).verifyAndDecode clock compact v = .error .jwtInvalidError := by
  have key : ∀ q ∈ kps, (V.view q.2).verifyAndDecodeWithKid clock compact v (keyKid q.1) =
      .error .jwtInvalidError := by
    intro q hq
    obtain ⟨alg, customKid, data, verifier, h1, h2, h3, h4⟩ := verify_primitive hm (H.keys.2 q hq)
    rw [h4]
    exact decode_malformed hw
  refine (C44_signature_rejects H clock compact v fun q hq => ⟨_, key q hq, rfl⟩).1 ?_
  obtain ⟨q, hq⟩ := List.exists_mem_of_ne_nil kps hne
  exact ⟨q, hq, key q hq⟩

theorem C44_signature_unauthentic {V : View P (JwtPublicKeyVerifyInternal F)}
    {W : View P (JwtPublicKeyVerify F)} {cc : PStr → CcKeyManager PublicKeyVerify}
    (H : Obtained isInst (jwtVerifyWrapper V W t ci c) r h c kps p) (hm : VerifyManagers V ci env cc r)
    (hcc : ∀ url data verifier, (cc url).primitive data = .ok verifier →
      ∀ sig d, verifier.verify sig d = .ok () ∨ verifier.verify sig d = .error .tinkError)
    (clock : Int) (compact : PyStr) (v : JwtValidator) (hw : WellFormed compact)
    (hno : ∀ k ∈ h.keyset.key, Enabled k → ∀ data verifier, k.data.serializeToString = .ok data →
      (cc k.data.typeUrl).primitive data = .ok verifier → ¬ SignedFor verifier.verify compact) :
    (W.view p).verifyAndDecode clock compact v = .error .tinkError := by
  have key : ∀ q ∈ kps, (V.view q.2).verifyAndDecodeWithKid clock compact v (keyKid q.1) =
      .error .tinkError := by
    intro q hq
    obtain ⟨alg, customKid, data, verifier, h1, h2, h3, h4⟩ := verify_primitive hm (H.keys.2 q hq)
    rw [h4]
    exact decode_unsigned hw (hcc _ data verifier h3)
      (hno q.1 (jwt_enabled_mem H.keys hq).1 (jwt_enabled_mem H.keys hq).2 data verifier h2 h3)
  refine (C44_signature_rejects H clock compact v fun q hq => ⟨_, key q hq, rfl⟩).2 fun q hq => ?_
  rw [key q hq]
  simp

end

/-! ## Examples -/

section
open ToyJwt

/-- The hypotheses of `C42_mac`, `C43_mac`, `C42_signature` and `C43_signature`. -/
example : ∃ a, (library.mac.view (object macKeyset' .mac)).verifyMacAndDecode clock macCompact validator =
      .ok a ∧
    ∃ k ∈ macKeyset'.key, Enabled k ∧ ∃ alg customKid, TokenMacKey k.data alg customKid ∧
      (keyKid k = none ∨ customKid = none) ∧
      ∃ header payload signature d, Compact macCompact header payload signature ∧
        Holds library.env.json header (.dict d) ∧
        HeaderMatches library.env.upper d alg (keyKid k) customKid := by
  have h : _ = Except.ok _ := value_ok (d := ⟨⟨none, []⟩⟩) (x := (library.mac.view
    (object macKeyset' .mac)).verifyMacAndDecode clock macCompact validator) (by decide +kernel)
  exact ⟨_, h, C43_mac macObtained' toyManagers.mac lawfulUpper clock macCompact validator _ h⟩

example : ∃ a, (library.verify.view (object verifyKeyset .verify)).verifyAndDecode clock signCompact
      validator = .ok a ∧
    ∃ k ∈ verifyKeyset.key, Enabled k ∧ ∃ alg customKid, VerifyKey k.data alg customKid ∧
      (keyKid k = none ∨ customKid = none) ∧
      ∃ header payload signature d, Compact signCompact header payload signature ∧
        Holds library.env.json header (.dict d) ∧
        HeaderMatches library.env.upper d alg (keyKid k) customKid := by
  have h : _ = Except.ok _ := value_ok (d := ⟨⟨none, []⟩⟩) (x := (library.verify.view
    (object verifyKeyset .verify)).verifyAndDecode clock signCompact validator) (by decide +kernel)
  exact ⟨_, h, C43_signature verifyObtained toyManagers.verify lawfulUpper clock signCompact validator _ h⟩

/-- A token with this header, a valid payload and the MAC of the second key. -/
def withHeader (header : Bytes) : PyStr :=
  let unsigned := base64Encode header ++ 46 :: base64Encode (by! "{\"exp\":1700000000}")
  (unsigned ++ 46 :: base64Encode ([3] ++ unsigned)).map UInt8.toNat

theorem withHeader_compact (header : Bytes) : Compact (withHeader header) (base64Encode header)
    (base64Encode (by! "{\"exp\":1700000000}")) (base64Encode ([3] ++ (base64Encode header ++
      46 :: base64Encode (by! "{\"exp\":1700000000}")))) :=
  ⟨rfl, fun c hc => (encode_spec _).1 c hc, fun c hc => (encode_spec _).1 c hc,
    fun c hc => (encode_spec _).1 c hc⟩

/-- C43, violation of exact equality: a token with the algorithm `hs512` is accepted by a key with the
algorithm `HS512`. -/
theorem C43_alg_case_violated : ∃ (ks : Keyset) (p : Prim) (compact : PyStr) (a : VerifiedJwt Int)
    (header payload signature : Bytes) (d : List (PyStr × JVal Int)),
    Obtained isInst (jwtMacWrapper library.macInternal library.mac 2 Cls.macInternal .mac) registry ⟨ks⟩
      .mac (objects ks .macInternal) p ∧
    (library.mac.view p).verifyMacAndDecode clock compact validator = .ok a ∧
    Compact compact header payload signature ∧ Holds library.env.json header (.dict d) ∧
    PyDict.get? d (py! "alg") = some (.str (py! "hs512")) :=
  ⟨macKeyset', object macKeyset' .mac, withHeader (by! "{\"alg\":\"hs512\",\"typ\":\"JWT\"}"), _, _, _, _,
    [(py! "alg", .str (py! "hs512")), (py! "typ", .str (py! "JWT"))], macObtained',
    value_ok (d := ⟨⟨none, []⟩⟩) (by decide +kernel), withHeader_compact _, ⟨_, _, rfl, rfl, rfl⟩, rfl⟩

/-- In an interpreter whose `str.upper` makes `S` of the long s (as CPython's does), an algorithm need not
even be ASCII. -/
theorem C43_alg_unicode_violated : ∃ (ks : Keyset) (p : Prim) (compact : PyStr) (a : VerifiedJwt Int)
    (header payload signature : Bytes) (d : List (PyStr × JVal Int)),
    Obtained isInst (jwtMacWrapper library.macInternal library.mac 2 Cls.macInternal .mac) registry ⟨ks⟩
      .mac (objects ks .macInternal) p ∧
    (library.mac.view p).verifyMacAndDecode clock compact validator = .ok a ∧
    Compact compact header payload signature ∧ Holds library.env.json header (.dict d) ∧
    PyDict.get? d (py! "alg") = some (.str [72, 0x17f, 53, 49, 50]) :=
  ⟨macKeyset', object macKeyset' .mac, withHeader (by! "{\"alg\":\"H\\u017f512\",\"typ\":\"JWT\"}"), _, _, _, _,
    [(py! "alg", .str [72, 0x17f, 53, 49, 50]), (py! "typ", .str (py! "JWT"))], macObtained',
    value_ok (d := ⟨⟨none, []⟩⟩) (by decide +kernel), withHeader_compact _, ⟨_, _, rfl, rfl, rfl⟩, rfl⟩

/-- A wrong kid and a `crit` entry are refused. -/
example : raised ((library.mac.view (object macKeyset' .mac)).verifyMacAndDecode clock
      (withHeader (by! "{\"alg\":\"HS512\",\"typ\":\"JWT\",\"kid\":\"y\"}")) validator) =
      some .jwtInvalidError ∧
    raised ((library.mac.view (object macKeyset' .mac)).verifyMacAndDecode clock
      (withHeader (by! "{\"alg\":\"HS512\",\"typ\":\"JWT\",\"crit\":null}")) validator) =
      some .jwtInvalidError ∧
    raised ((library.mac.view (object macKeyset' .mac)).verifyMacAndDecode clock
      (withHeader (by! "{\"alg\":\"HS512\",\"typ\":\"JWT\",\"kid\":\"x\"}")) validator) = none := by
  decide +kernel

theorem toy_verify_errors (data : Bytes) (mac : Mac) (h : (library.ccMac (ps!
    "type.googleapis.com/google.crypto.tink.JwtHmacKey")).primitive data = .ok mac) (tag d : Bytes) :
    mac.verifyMac tag d = .ok () ∨ mac.verifyMac tag d = .error .tinkError := by
  obtain ⟨v, _, h⟩ := bind_ok h
  cases h
  show check v tag d = _ ∨ check v tag d = _
  unfold check
  by_cases h : tag = v ++ d
  · rw [if_pos h]; exact .inl rfl
  · rw [if_neg h]; exact .inr rfl

/-- A string that is no token. -/
example : (library.mac.view (object macKeyset' .mac)).verifyMacAndDecode clock (py! "a.b") validator =
    .error .jwtInvalidError :=
  C44_mac_malformed macObtained' toyManagers.mac (by simp [objects, macKeyset', Enabled, macKey1, macKey2,
    hmacKey, key]) clock (py! "a.b") validator (by
      intro h
      obtain ⟨parts, h⟩ := split_wellFormed.2 h
      have h' : isOk (splitSignedCompact (py! "a.b")) = true := by rw [h]; rfl
      exact absurd h' (by decide +kernel))

/-- An expired token: an enabled key found its MAC right. -/
example : ∃ k ∈ macKeyset'.key, Enabled k ∧ ∃ data mac, k.data.serializeToString = .ok data ∧
    (library.ccMac (ps! "type.googleapis.com/google.crypto.tink.JwtHmacKey")).primitive data = .ok mac ∧
    SignedFor mac.verifyMac macCompact := by
  refine (C44_mac_invalid macObtained' toyManagers.mac (fun data mac h tag d he => ?_) 1800000000000000
    macCompact validator (raised_iff.1 (by decide +kernel))).resolve_left fun h => h ?_
  · rcases toy_verify_errors data mac h tag d with h | h <;> rw [h] at he <;> cases he
  · exact split_wellFormed.1 ⟨_, value_ok (d := ⟨[], [], [], []⟩) (by decide +kernel)⟩

end

end Props
end Tink
