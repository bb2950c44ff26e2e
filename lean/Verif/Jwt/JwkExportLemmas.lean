import Verif.Jwt.JwkLemmas
import Verif.Jwt.KeyLemmas
import Verif.Json.RoundTrip

/-!
# Lemmas about exported JWKs
-/

namespace Tink
namespace Jwk
open Json Jwt Spec

variable {F : Type}

/-- The member `kid` of an exported JWK. -/
def kidMember (kid : Option PyStr) : List (PyStr × JVal F) :=
  match kid with
  | some s => [(py! "kid", .str s)]
  | none => []

theorem kidEntry_eq (k : Key) (ck : Option PyStr) :
    (kidEntry (keyKid k) ck : List (PyStr × JVal F)) = kidMember (exportedKid k ck) := by
  have := keyKid_valid k
  unfold kidEntry exportedKid kidMember
  cases h : keyKid k with
  | none => cases ck <;> rfl
  | some s =>
    cases s with
    | nil => exact absurd rfl (this [] h).2
    | cons c s => rfl

theorem base64EncodeStr_eq (b : Bytes) : base64EncodeStr b = .ok ((base64Encode b).map UInt8.toNat) :=
  utf8Decode_ascii _ fun c hc => UrlChar.ascii ((encode_spec b).1 c hc)

theorem encoded_valid (b : Bytes) : ValidText ((base64Encode b).map UInt8.toNat) := by
  refine ascii_valid fun x hx => ?_
  obtain ⟨c, hc, rfl⟩ := List.mem_map.1 hx
  exact UrlChar.ascii ((encode_spec _).1 c hc)

theorem number_encoded {d : List (PyStr × JVal F)} {k : PyStr} {b : Bytes}
    (h : PyDict.get? d k = some (.str ((base64Encode b).map UInt8.toNat))) : Number d k b := by
  apply (number_iff d k b).1
  unfold item
  rw [h]
  show base64DecodeStr (JVal.str (F := F) _) = _
  simp only [base64DecodeStr]
  rw [utf8Encode_ascii _ fun c hc => UrlChar.ascii ((encode_spec b).1 c hc)]
  exact base64Decode_encode b

/-- The JWK of an EC key. -/
def ecJwk (alg crv : PyStr) (a b : Bytes) (kid : Option PyStr) : List (PyStr × JVal F) :=
  [(py! "kty", .str (py! "EC")), (py! "crv", .str crv), (py! "x", .str ((base64Encode a).map UInt8.toNat)),
    (py! "y", .str ((base64Encode b).map UInt8.toNat)), (py! "use", .str (py! "sig")), (py! "alg", .str alg),
    (py! "key_ops", .list [.str (py! "verify")])] ++ kidMember kid

/-- The JWK of an RSA key. -/
def rsaJwkOf (alg : PyStr) (a b : Bytes) (kid : Option PyStr) : List (PyStr × JVal F) :=
  [(py! "kty", .str (py! "RSA")), (py! "n", .str ((base64Encode a).map UInt8.toNat)),
    (py! "e", .str ((base64Encode b).map UInt8.toNat)), (py! "use", .str (py! "sig")), (py! "alg", .str alg),
    (py! "key_ops", .list [.str (py! "verify")])] ++ kidMember kid

/-- An exported JWK is an object of strings of valid Unicode, apart from `key_ops`. -/
structure PlainJwk (d : List (PyStr × JVal F)) : Prop where
  nodup : (d.map Prod.fst).Nodup
  members : ∀ p ∈ d, ValidText p.1 ∧
    ((∃ s, p.2 = .str s ∧ ValidText s) ∨ p.2 = .list [.str (py! "verify")])

theorem ecJwk_denotes {alg crv : PyStr} {a b : Bytes} {kid : Option PyStr}
    (halg : (alg, crv) ∈ [(py! "ES256", py! "P-256"), (py! "ES384", py! "P-384"), (py! "ES512", py! "P-521")])
    (hkid : ∀ s ∈ kid, ValidText s) :
    Denotes (F := F) (ecJwk alg crv a b kid) alg a b kid := by
  cases kid <;>
  exact .ec crv rfl ⟨rfl, halg⟩ rfl (number_encoded rfl) (number_encoded rfl) ⟨rfl, hkid⟩
    ⟨fun v hv => by cases hv; rfl, fun v hv => by cases hv; rfl⟩ rfl

theorem rsaJwk_denotes {alg : PyStr} {a b : Bytes} {kid : Option PyStr}
    (halg : alg ∈ [py! "RS256", py! "RS384", py! "RS512", py! "PS256", py! "PS384", py! "PS512"])
    (hkid : ∀ s ∈ kid, ValidText s) :
    Denotes (F := F) (rsaJwkOf alg a b kid) alg a b kid := by
  cases kid <;>
  refine .rsa rfl ⟨rfl, halg⟩ (number_encoded rfl) (number_encoded rfl) ⟨rfl, hkid⟩
    ⟨fun v hv => by cases hv; rfl, fun v hv => by cases hv; rfl⟩ ?_ <;>
  · intro m hm
    simp only [rsaPrivateMembers, List.mem_cons, List.not_mem_nil, or_false] at hm
    rcases hm with rfl | rfl | rfl | rfl | rfl | rfl <;> rfl

theorem kidMember_plain {kid : Option PyStr} (hkid : ∀ s ∈ kid, ValidText s) :
    ∀ p ∈ (kidMember kid : List (PyStr × JVal F)), ValidText p.1 ∧
      ((∃ s, p.2 = .str s ∧ ValidText s) ∨ p.2 = .list [.str (py! "verify")]) := by
  intro p hp
  cases kid with
  | none => cases hp
  | some s =>
    simp only [kidMember, List.mem_singleton] at hp
    subst hp
    exact ⟨valid_lit (by rfl), .inl ⟨s, rfl, hkid s rfl⟩⟩

theorem ecJwk_plain {alg crv : PyStr} {a b : Bytes} {kid : Option PyStr} (halg : ValidText alg)
    (hcrv : ValidText crv) (hkid : ∀ s ∈ kid, ValidText s) :
    PlainJwk (F := F) (ecJwk alg crv a b kid) := by
  constructor
  · cases kid <;> simp [ecJwk, kidMember]
  · intro p hp
    unfold ecJwk at hp
    rcases List.mem_append.1 hp with hp | hp
    · simp only [List.mem_cons, List.not_mem_nil, or_false] at hp
      rcases hp with rfl | rfl | rfl | rfl | rfl | rfl | rfl
      · exact ⟨valid_lit (by rfl), .inl ⟨_, rfl, valid_lit (by decide)⟩⟩
      · exact ⟨valid_lit (by rfl), .inl ⟨_, rfl, hcrv⟩⟩
      · exact ⟨valid_lit (by rfl), .inl ⟨_, rfl, encoded_valid a⟩⟩
      · exact ⟨valid_lit (by rfl), .inl ⟨_, rfl, encoded_valid b⟩⟩
      · exact ⟨valid_lit (by rfl), .inl ⟨_, rfl, valid_lit (by decide)⟩⟩
      · exact ⟨valid_lit (by rfl), .inl ⟨_, rfl, halg⟩⟩
      · exact ⟨valid_lit (by rfl), .inr rfl⟩
    · exact kidMember_plain hkid p hp

theorem rsaJwk_plain {alg : PyStr} {a b : Bytes} {kid : Option PyStr} (halg : ValidText alg)
    (hkid : ∀ s ∈ kid, ValidText s) : PlainJwk (F := F) (rsaJwkOf alg a b kid) := by
  constructor
  · cases kid <;> simp [rsaJwkOf, kidMember]
  · intro p hp
    unfold rsaJwkOf at hp
    rcases List.mem_append.1 hp with hp | hp
    · simp only [List.mem_cons, List.not_mem_nil, or_false] at hp
      rcases hp with rfl | rfl | rfl | rfl | rfl | rfl
      · exact ⟨valid_lit (by rfl), .inl ⟨_, rfl, valid_lit (by decide)⟩⟩
      · exact ⟨valid_lit (by rfl), .inl ⟨_, rfl, encoded_valid a⟩⟩
      · exact ⟨valid_lit (by rfl), .inl ⟨_, rfl, encoded_valid b⟩⟩
      · exact ⟨valid_lit (by rfl), .inl ⟨_, rfl, valid_lit (by decide)⟩⟩
      · exact ⟨valid_lit (by rfl), .inl ⟨_, rfl, halg⟩⟩
      · exact ⟨valid_lit (by rfl), .inr rfl⟩
    · exact kidMember_plain hkid p hp

theorem exportedKid_valid (k : Key) (ck : Option PStr) :
    ∀ s ∈ exportedKid k (ck.map PStr.toPy), ValidText s := by
  intro s hs
  unfold exportedKid at hs
  cases h : keyKid k with
  | none =>
    rw [h] at hs
    cases ck with
    | none => cases hs
    | some t => cases hs; exact toPy_valid t
  | some t => rw [h] at hs; cases hs; exact (keyKid_valid k _ h).1

theorem rsaJwk_eq {k : Key} (hp : k.outputPrefixType = OutputPrefixType.RAW ∨
    k.outputPrefixType = OutputPrefixType.TINK) (alg : PyStr) (a b : Bytes) (ck : Option PyStr) :
    (rsaJwk alg a b k ck : Py (JVal F)) = .ok (.dict (rsaJwkOf alg a b (exportedKid k ck))) := by
  unfold rsaJwk rsaJwkOf
  rw [base64EncodeStr_eq, base64EncodeStr_eq, getKid_key hp, ← kidEntry_eq]
  rfl

/-- The JWK that a key is exported as. -/
theorem exportKey_ok {k : Key} {v : JVal F} (h : exportKey k = .ok v) :
    ∃ d alg a b kid, v = .dict d ∧ PublicKey k.data alg a b kid ∧ Denotes d alg a b (exportedKid k kid) ∧
      PlainJwk d ∧ (k.outputPrefixType = OutputPrefixType.RAW ∨
        k.outputPrefixType = OutputPrefixType.TINK) := by
  unfold exportKey at h
  by_cases h1 : k.data.keyMaterialType ≠ KeyMaterialType.ASYMMETRIC_PUBLIC
  · rw [if_pos h1] at h; cases h
  rw [if_neg h1] at h
  by_cases h2 : k.outputPrefixType ∉ [OutputPrefixType.RAW, OutputPrefixType.TINK]
  · rw [if_pos h2] at h; cases h
  rw [if_neg h2] at h
  have hp : k.outputPrefixType = OutputPrefixType.RAW ∨ k.outputPrefixType = OutputPrefixType.TINK := by
    simpa using Decidable.not_not.1 h2
  by_cases u1 : k.data.typeUrl = JWT_ECDSA_PUBLIC_KEY_TYPE
  · rw [if_pos u1] at h
    unfold convertEcdsa at h
    obtain ⟨pk, h3, h⟩ := bind_ok_iff.1 h
    cases h4 : PyDict.get? ecdsaParams pk.algorithm with
    | none => rw [h4] at h; cases h
    | some q =>
      obtain ⟨alg, crv⟩ := q
      rw [h4] at h
      simp only [base64EncodeStr_eq, getKid_key hp, kidEntry_eq, bind, Except.bind, pure, Except.pure] at h
      have hm := PyDict.get?_mem _ _ _ h4
      have ht : (pk.algorithm, alg, crv) ∈ [((1 : EnumVal), py! "ES256", py! "P-256"),
          (2, py! "ES384", py! "P-384"), (3, py! "ES512", py! "P-521")] := hm
      obtain ⟨_, _, _, ha, hc, _⟩ := ecdsa_table ht
      have hv : ValidText alg ∧ ValidText crv := by
        simp only [List.mem_cons, List.not_mem_nil, or_false, Prod.mk.injEq] at hc
        rcases hc with ⟨rfl, rfl⟩ | ⟨rfl, rfl⟩ | ⟨rfl, rfl⟩ <;>
          exact ⟨valid_lit (by rfl), valid_lit (by decide)⟩
      have hk : (pk.customKid.map fun c => c.value.toPy) =
          (pk.customKid.map fun c => c.value).map PStr.toPy := by simp [Function.comp_def]
      rw [hk] at h
      have hkv := exportedKid_valid k (pk.customKid.map fun c => c.value)
      cases h
      exact ⟨_, alg, pk.x, pk.y, _, rfl, .ecdsa pk u1 h3 ha ⟨rfl, rfl⟩ hk.symm, ecJwk_denotes hc hkv,
        ecJwk_plain hv.1 hv.2 hkv, hp⟩
  rw [if_neg u1] at h
  by_cases u2 : k.data.typeUrl = JWT_RSA_SSA_PKCS1_PUBLIC_KEY_TYPE
  · rw [if_pos u2] at h
    unfold convertRsaSsaPkcs1 at h
    obtain ⟨pk, h3, h⟩ := bind_ok_iff.1 h
    cases h4 : PyDict.get? rsaSsaPkcs1Params pk.algorithm with
    | none => rw [h4] at h; cases h
    | some alg =>
      rw [h4] at h
      have hk : (pk.customKid.map fun c => c.value.toPy) =
          (pk.customKid.map fun c => c.value).map PStr.toPy := by simp [Function.comp_def]
      simp only [rsaJwk_eq hp] at h
      rw [hk] at h
      have ht : (pk.algorithm, alg) ∈ [((1 : EnumVal), py! "RS256"), (2, py! "RS384"), (3, py! "RS512")] :=
        PyDict.get?_mem _ _ _ h4
      have hv : ValidText alg := by
        simp only [List.mem_cons, List.not_mem_nil, or_false, Prod.mk.injEq] at ht
        rcases ht with ⟨_, rfl⟩ | ⟨_, rfl⟩ | ⟨_, rfl⟩ <;> exact valid_lit (by decide)
      have hkv := exportedKid_valid k (pk.customKid.map fun c => c.value)
      cases h
      exact ⟨_, alg, pk.n, pk.e, _, rfl, .rsaSsaPkcs1 pk u2 h3 ht ⟨rfl, rfl⟩ hk.symm,
        rsaJwk_denotes (pkcs1_table ht).2.2.2.1 hkv, rsaJwk_plain hv hkv, hp⟩
  rw [if_neg u2] at h
  by_cases u3 : k.data.typeUrl = JWT_RSA_SSA_PSS_PUBLIC_KEY_TYPE
  · rw [if_pos u3] at h
    unfold convertRsaSsaPss at h
    obtain ⟨pk, h3, h⟩ := bind_ok_iff.1 h
    cases h4 : PyDict.get? rsaSsaPssParams pk.algorithm with
    | none => rw [h4] at h; cases h
    | some alg =>
      rw [h4] at h
      have hk : (pk.customKid.map fun c => c.value.toPy) =
          (pk.customKid.map fun c => c.value).map PStr.toPy := by simp [Function.comp_def]
      simp only [rsaJwk_eq hp] at h
      rw [hk] at h
      have ht : (pk.algorithm, alg) ∈ [((1 : EnumVal), py! "PS256"), (2, py! "PS384"), (3, py! "PS512")] :=
        PyDict.get?_mem _ _ _ h4
      have hv : ValidText alg := by
        simp only [List.mem_cons, List.not_mem_nil, or_false, Prod.mk.injEq] at ht
        rcases ht with ⟨_, rfl⟩ | ⟨_, rfl⟩ | ⟨_, rfl⟩ <;> exact valid_lit (by decide)
      have hkv := exportedKid_valid k (pk.customKid.map fun c => c.value)
      cases h
      exact ⟨_, alg, pk.n, pk.e, _, rfl, .rsaSsaPss pk u3 h3 ht ⟨rfl, rfl⟩ hk.symm,
        rsaJwk_denotes (pss_table ht).2.2.2.1 hkv, rsaJwk_plain hv hkv, hp⟩
  · rw [if_neg u3] at h; cases h

/-- A supported public key is exported. -/
theorem exportKey_of {k : Key} {alg : PyStr} {a b : Bytes} {kid : Option PyStr}
    (hm : k.data.keyMaterialType = KeyMaterialType.ASYMMETRIC_PUBLIC)
    (hp : k.outputPrefixType = OutputPrefixType.RAW ∨ k.outputPrefixType = OutputPrefixType.TINK)
    (h : PublicKey k.data alg a b kid) : ∃ v : JVal F, exportKey k = .ok v := by
  unfold exportKey
  rw [if_neg (by rw [hm]; simp), if_neg (by rcases hp with h | h <;> simp [h])]
  cases h with
  | ecdsa pk u h3 ha =>
    rw [if_pos (show k.data.typeUrl = JWT_ECDSA_PUBLIC_KEY_TYPE from u)]
    unfold convertEcdsa
    have : ∃ q, PyDict.get? ecdsaParams pk.algorithm = some q := by
      simp only [List.mem_cons, List.not_mem_nil, or_false, Prod.mk.injEq] at ha
      rcases ha with ⟨h, _⟩ | ⟨h, _⟩ | ⟨h, _⟩ <;> rw [h] <;> exact ⟨_, rfl⟩
    obtain ⟨q, hq⟩ := this
    rw [h3]
    simp [bind, Except.bind, hq, base64EncodeStr_eq, getKid_key hp, pure, Except.pure]
  | rsaSsaPkcs1 pk u h3 ha =>
    rw [if_neg (by rw [u]; decide), if_pos (show k.data.typeUrl = JWT_RSA_SSA_PKCS1_PUBLIC_KEY_TYPE from u)]
    unfold convertRsaSsaPkcs1
    have : ∃ q, PyDict.get? rsaSsaPkcs1Params pk.algorithm = some q := by
      simp only [List.mem_cons, List.not_mem_nil, or_false, Prod.mk.injEq] at ha
      rcases ha with ⟨h, _⟩ | ⟨h, _⟩ | ⟨h, _⟩ <;> rw [h] <;> exact ⟨_, rfl⟩
    obtain ⟨q, hq⟩ := this
    rw [h3]
    simp [bind, Except.bind, hq, rsaJwk_eq hp]
  | rsaSsaPss pk u h3 ha =>
    rw [if_neg (by rw [u]; decide), if_neg (by rw [u]; decide),
      if_pos (show k.data.typeUrl = JWT_RSA_SSA_PSS_PUBLIC_KEY_TYPE from u)]
    unfold convertRsaSsaPss
    have : ∃ q, PyDict.get? rsaSsaPssParams pk.algorithm = some q := by
      simp only [List.mem_cons, List.not_mem_nil, or_false, Prod.mk.injEq] at ha
      rcases ha with ⟨h, _⟩ | ⟨h, _⟩ | ⟨h, _⟩ <;> rw [h] <;> exact ⟨_, rfl⟩
    obtain ⟨q, hq⟩ := this
    rw [h3]
    simp [bind, Except.bind, hq, rsaJwk_eq hp]

end Jwk
end Tink
