import Verif.Jwt.KeyLemmas
import Verif.Jwt.SplitLemmas

/-!
# Lemmas about verifying tokens with one key
-/

namespace Tink
namespace Jwt
open Spec Json JsonUtil

variable {F P C : Type}

theorem validateHeader_ok {env : JwtEnv F} (hu : LawfulUpper env.upper) {header : JVal F} {alg : PyStr}
    {kid customKid : Option PyStr} (h : validateHeader env header alg kid customKid = .ok ()) :
    ∃ d, header = .dict d ∧ HeaderMatches env.upper d alg kid customKid ∧
      (kid = none ∨ customKid = none) := by
  unfold validateHeader at h
  obtain ⟨_, ha, h⟩ := bind_ok h
  have halg : alg ∈ validAlgorithms := by
    unfold validateAlgorithm at ha
    by_cases hm : alg ∈ validAlgorithms
    · exact hm
    · rw [if_neg hm] at ha; cases ha
  cases header with
  | dict d =>
    simp only at h
    obtain ⟨_, hc, h⟩ := bind_ok h
    cases hcrit : PyDict.get? d (py! "crit") with
    | some v => rw [hcrit] at h; cases h
    | none =>
      rw [hcrit] at h
      replace h : checkKid d kid customKid = .ok () := h
      have halg' : ∃ s, PyDict.get? d (py! "alg") = some (.str s) ∧ env.upper s = alg := by
        unfold checkAlg at hc
        cases hg : PyDict.get? d (py! "alg") with
        | none =>
          rw [hg] at hc
          simp only [Option.getD_none] at hc
          have hnil : env.upper [] = [] := hu.ascii [] (by simp)
          by_cases he : env.upper [] = alg
          · rw [hnil] at he
            subst he
            exact absurd halg (by decide)
          · rw [if_neg he] at hc; cases hc
        | some v =>
          rw [hg] at hc
          simp only [Option.getD_some] at hc
          cases v with
          | str s =>
            simp only at hc
            by_cases he : env.upper s = alg
            · exact ⟨s, rfl, he⟩
            · rw [if_neg he] at hc; cases hc
          | _ => cases hc
      have kidIs_ok : ∀ (v : JVal F) (k : PyStr), kidIs v k = .ok () → v = .str k := by
        intro v k hk
        unfold kidIs at hk
        cases v with
        | str s =>
          simp only at hk
          by_cases he : s = k
          · rw [he]
          · rw [if_neg he] at hk; cases hk
        | _ => cases hk
      unfold checkKid at h
      cases kid with
      | some k =>
        cases customKid with
        | some k' => cases h
        | none =>
          simp only at h
          cases hg : PyDict.get? d (py! "kid") with
          | none => rw [hg] at h; cases h
          | some v =>
            rw [hg] at h
            refine ⟨d, rfl, ⟨halg', hcrit, ?_, by simp⟩, .inr rfl⟩
            rintro k' ⟨⟩
            rw [hg, kidIs_ok v k h]
      | none =>
        cases customKid with
        | none => exact ⟨d, rfl, ⟨halg', hcrit, by simp, by simp⟩, .inl rfl⟩
        | some k' =>
          simp only at h
          refine ⟨d, rfl, ⟨halg', hcrit, by simp, ?_⟩, .inl rfl⟩
          rintro k ⟨⟩
          cases hg : PyDict.get? d (py! "kid") with
          | none => exact .inl rfl
          | some v =>
            rw [hg] at h
            exact .inr (by rw [kidIs_ok v k' h])
  | _ => cases h

/-- What is known of a token that a key accepted. -/
theorem decode_ok {env : JwtEnv F} (hu : LawfulUpper env.upper) {alg : PyStr}
    {customKid kid : Option PyStr} {check : Bytes → Bytes → Py Unit} {clock : Int} {compact : PyStr}
    {v : JwtValidator} {a : VerifiedJwt F}
    (h : decodeWithKid env alg customKid check clock compact v kid = .ok a) :
    ∃ header payload signature sig d, Compact compact header payload signature ∧
      base64Decode signature = .ok sig ∧ check sig (header ++ 46 :: payload) = .ok () ∧
      Holds env.json header (.dict d) ∧ HeaderMatches env.upper d alg kid customKid ∧
      Holds env.json payload (.dict a.raw.payload) ∧
      a.raw.typeHeader = (PyDict.get? d (py! "typ")).bind optional ∧
      validate env.json.floats clock v a.raw = .ok () ∧ (kid = none ∨ customKid = none) := by
  unfold decodeWithKid at h
  obtain ⟨parts, hs, h⟩ := bind_ok h
  obtain ⟨_, hc, h⟩ := bind_ok h
  obtain ⟨header, hj, h⟩ := bind_ok h
  obtain ⟨_, hv, h⟩ := bind_ok h
  obtain ⟨raw, hr, h⟩ := bind_ok h
  obtain ⟨_, hval, h⟩ := bind_ok h
  cases h
  obtain ⟨hd, pl, sg, h1, h2, h3, h4, h5⟩ := split_ok hs
  obtain ⟨d, rfl, hm, hk⟩ := validateHeader_ok hu hv
  obtain ⟨hb, hb1, hb2⟩ := decodeText_ok h3
  obtain ⟨pb, pb1, pb2⟩ := decodeText_ok h4
  unfold RawJwt.fromJson at hr
  cases hp : jsonLoads env.json parts.payload with
  | error e => rw [hp] at hr; cases hr
  | ok w =>
    rw [hp] at hr
    obtain ⟨rfl, ht, _⟩ := init_ok hr
    exact ⟨hd, pl, sg, parts.signature, d, h1, h5, h2 ▸ hc, ⟨hb, _, hb1, hb2, hj⟩, hm,
      ⟨pb, _, pb1, pb2, hp⟩, ht, hval, hk⟩

/-! ## Keys -/

theorem decodeText_of {part : Bytes} (h : IsText part) : ∃ text, decodeText part = .ok text := by
  obtain ⟨b, text, h1, h2⟩ := h
  exact ⟨text, by unfold decodeText; simp only [h1, h2]⟩

theorem split_wellFormed {compact : PyStr} :
    (∃ parts, splitSignedCompact compact = .ok parts) ↔ WellFormed compact := by
  constructor
  · rintro ⟨parts, h⟩
    obtain ⟨header, payload, signature, hc, _, h1, h2, h3⟩ := split_ok h
    obtain ⟨b1, x1, y1⟩ := decodeText_ok h1
    obtain ⟨b2, x2, y2⟩ := decodeText_ok h2
    exact ⟨header, payload, signature, hc, ⟨b1, _, x1, y1⟩, ⟨b2, _, x2, y2⟩, _, h3⟩
  · rintro ⟨header, payload, signature, hc, h1, h2, sig, h3⟩
    obtain ⟨t1, h1⟩ := decodeText_of h1
    obtain ⟨t2, h2⟩ := decodeText_of h2
    exact ⟨_, split_of hc h3 h1 h2⟩

theorem decode_malformed {env : JwtEnv F} {alg : PyStr} {customKid kid : Option PyStr}
    {check : Bytes → Bytes → Py Unit} {clock : Int} {compact : PyStr} {v : JwtValidator}
    (h : ¬ WellFormed compact) :
    decodeWithKid env alg customKid check clock compact v kid = .error .jwtInvalidError := by
  unfold decodeWithKid
  cases hs : splitSignedCompact compact with
  | ok parts => exact absurd (split_wellFormed.1 ⟨parts, hs⟩) h
  | error e => rw [split_error hs]; rfl

theorem decode_invalid {env : JwtEnv F} {alg : PyStr} {customKid kid : Option PyStr}
    {check : Bytes → Bytes → Py Unit} {clock : Int} {compact : PyStr} {v : JwtValidator}
    (hcheck : ∀ sig data, check sig data ≠ .error .jwtInvalidError)
    (h : decodeWithKid env alg customKid check clock compact v kid = .error .jwtInvalidError) :
    ¬ WellFormed compact ∨ SignedFor check compact := by
  by_cases hw : WellFormed compact
  · right
    obtain ⟨parts, hs⟩ := split_wellFormed.2 hw
    obtain ⟨header, payload, signature, hc, hun, _, _, h3⟩ := split_ok hs
    refine ⟨header, payload, signature, parts.signature, hc, h3, ?_⟩
    unfold decodeWithKid at h
    rw [hs] at h
    replace h : (check parts.signature parts.unsigned >>= _) = _ := h
    rw [hun] at h
    cases hk : check parts.signature (header ++ 46 :: payload) with
    | ok u => rfl
    | error e =>
      rw [hk] at h
      cases h
      exact absurd hk (hcheck _ _)
  · exact .inl hw

/-- A key that finds no signature refuses with the error of the check. -/
theorem decode_unsigned {env : JwtEnv F} {alg : PyStr} {customKid kid : Option PyStr}
    {check : Bytes → Bytes → Py Unit} {clock : Int} {compact : PyStr} {v : JwtValidator}
    (hw : WellFormed compact)
    (hcheck : ∀ sig data, check sig data = .ok () ∨ check sig data = .error .tinkError)
    (h : ¬ SignedFor check compact) :
    decodeWithKid env alg customKid check clock compact v kid = .error .tinkError := by
  obtain ⟨parts, hs⟩ := split_wellFormed.2 hw
  obtain ⟨header, payload, signature, hc, hun, _, _, h3⟩ := split_ok hs
  unfold decodeWithKid
  rw [hs]
  show (check parts.signature parts.unsigned >>= _) = _
  rcases hcheck parts.signature parts.unsigned with hk | hk
  · rw [hun] at hk
    exact absurd ⟨header, payload, signature, parts.signature, hc, h3, hk⟩ h
  · rw [hk]; rfl

theorem get_hmac {a : EnumVal} {alg : PyStr} (h : PyDict.get? hmacAlgorithms a = some alg) :
    (a, alg) ∈ [((1 : EnumVal), py! "HS256"), (2, py! "HS384"), (3, py! "HS512")] :=
  PyDict.get?_mem _ _ _ h

theorem mac_primitive [DecidableEq C] {V : View P (JwtMacInternal F)} {ci : C} {env : JwtEnv F}
    {cc : CcKeyManager Mac} {r : Registry P C} (hm : MacManagers V ci env cc r) {kd : KeyData} {o : P}
    (h : r.primitive kd ci = .ok o) :
    ∃ alg customKid data mac, TokenMacKey kd alg customKid ∧ kd.serializeToString = .ok data ∧
      cc.primitive data = .ok mac ∧ V.view o = jwtHmac env mac alg customKid := by
  unfold Registry.primitive at h
  obtain ⟨m, hk, h⟩ := bind_ok h
  unfold Registry.keyManager at hk
  obtain ⟨⟨m', b⟩, hg, hk⟩ := bind_ok hk
  cases hk
  unfold Registry.keyManagerInternal at hg
  cases hg' : PyDict.get? r.keyManagers kd.typeUrl with
  | none => rw [hg'] at hg; cases hg
  | some x =>
    rw [hg'] at hg
    cases hg
    by_cases hcls : m.primitiveClass = ci
    · rw [if_neg (by simpa using hcls)] at h
      obtain ⟨t, rfl⟩ := hm _ _ _ hg' hcls
      obtain ⟨p, hp, h⟩ := bind_ok h
      cases h
      unfold hmacPrimitive at hp
      by_cases hu : kd.typeUrl = JWT_HMAC_KEY_TYPE
      · rw [if_neg (by simpa using hu)] at hp
        obtain ⟨key, hkey, hp⟩ := bind_ok hp
        cases halg : PyDict.get? hmacAlgorithms key.algorithm with
        | none => rw [halg] at hp; cases hp
        | some alg =>
          rw [halg] at hp
          obtain ⟨data, hd, hp⟩ := bind_ok hp
          obtain ⟨mac, hmac, hp⟩ := bind_ok hp
          cases hp
          exact ⟨alg, _, data, mac, ⟨hu, key, hkey, get_hmac halg, rfl⟩, hd, hmac, V.view_inj _⟩
      · rw [if_pos hu] at hp; cases hp
    · rw [if_pos hcls] at h; cases h

theorem public_reader {kd : KeyData} {f : KeyData → Py (PyStr × Option PyStr)} (hf : f ∈ publicReaders)
    {alg : PyStr} {customKid : Option PyStr} (h : f kd = .ok (alg, customKid)) :
    VerifyKey kd alg customKid := by
  have text : ∀ {table : PyDict EnumVal PyStr} {a : EnumVal} {alg : PyStr},
      algorithmText table a = .ok alg → (a, alg) ∈ table := by
    intro table a alg h
    unfold algorithmText at h
    cases hg : PyDict.get? table a with
    | none => rw [hg] at h; cases h
    | some x => rw [hg] at h; cases h; exact PyDict.get?_mem _ _ _ hg
  simp only [publicReaders, List.mem_cons, List.not_mem_nil, or_false] at hf
  rcases hf with rfl | rfl | rfl
  · unfold ecdsaPublicAlgKid at h
    by_cases hu : kd.typeUrl = JWT_ECDSA_PUBLIC_KEY_TYPE
    · rw [if_neg (by simpa using hu)] at h
      obtain ⟨key, hkey, h⟩ := bind_ok h
      obtain ⟨a, ha, h⟩ := bind_ok h
      cases h
      exact .ecdsa key hu hkey (text ha) rfl
    · rw [if_pos hu] at h; cases h
  · unfold rsaSsaPkcs1PublicAlgKid at h
    by_cases hu : kd.typeUrl = JWT_RSA_SSA_PKCS1_PUBLIC_KEY_TYPE
    · rw [if_neg (by simpa using hu)] at h
      obtain ⟨key, hkey, h⟩ := bind_ok h
      obtain ⟨a, ha, h⟩ := bind_ok h
      cases h
      exact .rsaSsaPkcs1 key hu hkey (text ha) rfl
    · rw [if_pos hu] at h; cases h
  · unfold rsaSsaPssPublicAlgKid at h
    by_cases hu : kd.typeUrl = JWT_RSA_SSA_PSS_PUBLIC_KEY_TYPE
    · rw [if_neg (by simpa using hu)] at h
      obtain ⟨key, hkey, h⟩ := bind_ok h
      obtain ⟨a, ha, h⟩ := bind_ok h
      cases h
      exact .rsaSsaPss key hu hkey (text ha) rfl
    · rw [if_pos hu] at h; cases h

theorem private_reader {kd : KeyData} {f : KeyData → Py (PyStr × Option PyStr)} (hf : f ∈ privateReaders)
    {alg : PyStr} {customKid : Option PyStr} (h : f kd = .ok (alg, customKid)) :
    SignKey kd alg customKid := by
  have text : ∀ {table : PyDict EnumVal PyStr} {a : EnumVal} {alg : PyStr},
      algorithmText table a = .ok alg → (a, alg) ∈ table := by
    intro table a alg h
    unfold algorithmText at h
    cases hg : PyDict.get? table a with
    | none => rw [hg] at h; cases h
    | some x => rw [hg] at h; cases h; exact PyDict.get?_mem _ _ _ hg
  simp only [privateReaders, List.mem_cons, List.not_mem_nil, or_false] at hf
  rcases hf with rfl | rfl | rfl
  · unfold ecdsaPrivateAlgKid at h
    by_cases hu : kd.typeUrl = JWT_ECDSA_PRIVATE_KEY_TYPE
    · rw [if_neg (by simpa using hu)] at h
      obtain ⟨key, hkey, h⟩ := bind_ok h
      obtain ⟨a, ha, h⟩ := bind_ok h
      cases h
      exact .ecdsa key hu hkey (text ha) rfl
    · rw [if_pos hu] at h; cases h
  · unfold rsaSsaPkcs1PrivateAlgKid at h
    by_cases hu : kd.typeUrl = JWT_RSA_SSA_PKCS1_PRIVATE_KEY_TYPE
    · rw [if_neg (by simpa using hu)] at h
      obtain ⟨key, hkey, h⟩ := bind_ok h
      obtain ⟨a, ha, h⟩ := bind_ok h
      cases h
      exact .rsaSsaPkcs1 key hu hkey (text ha) rfl
    · rw [if_pos hu] at h; cases h
  · unfold rsaSsaPssPrivateAlgKid at h
    by_cases hu : kd.typeUrl = JWT_RSA_SSA_PSS_PRIVATE_KEY_TYPE
    · rw [if_neg (by simpa using hu)] at h
      obtain ⟨key, hkey, h⟩ := bind_ok h
      obtain ⟨a, ha, h⟩ := bind_ok h
      cases h
      exact .rsaSsaPss key hu hkey (text ha) rfl
    · rw [if_pos hu] at h; cases h

theorem verify_primitive [DecidableEq C] {V : View P (JwtPublicKeyVerifyInternal F)} {ci : C}
    {env : JwtEnv F} {cc : PStr → CcKeyManager PublicKeyVerify} {r : Registry P C}
    (hm : VerifyManagers V ci env cc r) {kd : KeyData} {o : P} (h : r.primitive kd ci = .ok o) :
    ∃ alg customKid data verifier, VerifyKey kd alg customKid ∧ kd.serializeToString = .ok data ∧
      (cc kd.typeUrl).primitive data = .ok verifier ∧
      V.view o = jwtPublicKeyVerify env verifier alg customKid := by
  unfold Registry.primitive at h
  obtain ⟨m, hk, h⟩ := bind_ok h
  unfold Registry.keyManager at hk
  obtain ⟨⟨m', b⟩, hg, hk⟩ := bind_ok hk
  cases hk
  unfold Registry.keyManagerInternal at hg
  cases hg' : PyDict.get? r.keyManagers kd.typeUrl with
  | none => rw [hg'] at hg; cases hg
  | some x =>
    rw [hg'] at hg
    cases hg
    by_cases hcls : m.primitiveClass = ci
    · rw [if_neg (by simpa using hcls)] at h
      obtain ⟨t, f, hf, rfl⟩ := hm _ _ _ hg' hcls
      obtain ⟨p, hp, h⟩ := bind_ok h
      cases h
      unfold verifyPrimitive at hp
      obtain ⟨data, hd, hp⟩ := bind_ok hp
      obtain ⟨verifier, hv, hp⟩ := bind_ok hp
      obtain ⟨⟨alg, customKid⟩, ha, hp⟩ := bind_ok hp
      cases hp
      exact ⟨alg, customKid, data, verifier, public_reader hf ha, hd, hv, V.view_inj _⟩
    · rw [if_pos hcls] at h; cases h

theorem sign_primitive [DecidableEq C] {V : View P (JwtPublicKeySignInternal F)} {ci : C}
    {env : JwtEnv F} {cc : PStr → CcKeyManager PublicKeySign} {r : Registry P C}
    (hm : SignManagers V ci env cc r) {kd : KeyData} {o : P} (h : r.primitive kd ci = .ok o) :
    ∃ alg customKid data signer, SignKey kd alg customKid ∧ kd.serializeToString = .ok data ∧
      (cc kd.typeUrl).primitive data = .ok signer ∧
      V.view o = jwtPublicKeySign env signer alg customKid := by
  unfold Registry.primitive at h
  obtain ⟨m, hk, h⟩ := bind_ok h
  unfold Registry.keyManager at hk
  obtain ⟨⟨m', b⟩, hg, hk⟩ := bind_ok hk
  cases hk
  unfold Registry.keyManagerInternal at hg
  cases hg' : PyDict.get? r.keyManagers kd.typeUrl with
  | none => rw [hg'] at hg; cases hg
  | some x =>
    rw [hg'] at hg
    cases hg
    by_cases hcls : m.primitiveClass = ci
    · rw [if_neg (by simpa using hcls)] at h
      obtain ⟨t, f, hf, rfl⟩ := hm _ _ _ hg' hcls
      obtain ⟨p, hp, h⟩ := bind_ok h
      cases h
      unfold signPrimitive at hp
      obtain ⟨data, hd, hp⟩ := bind_ok hp
      obtain ⟨signer, hv, hp⟩ := bind_ok hp
      obtain ⟨⟨alg, customKid⟩, ha, hp⟩ := bind_ok hp
      cases hp
      exact ⟨alg, customKid, data, signer, private_reader hf ha, hd, hv, V.view_inj _⟩
    · rw [if_pos hcls] at h; cases h

end Jwt
end Tink
