import Verif.Jwt.JwkSetLemmas
import Verif.Keyset.WireSize

/-!
# Lemmas about imported JWK sets: sizes and errors
-/

namespace Tink
namespace Jwk
open Json Jwt Spec

variable {F : Type}

/-! ## Sizes -/

theorem length_kidField {o : Option PStr} {f : PStr → List Field} {m : Nat}
    (hf : ∀ s, f s = strField 1 s) (hm : 4 * (o.getD []).length ≤ m) (h : m < 2147483648) :
    (encodeFields (msgField 5 (o.map f))).length ≤ m + 40 := by
  have := length_msgField (num := 5) (o := o.map f) (m := m + 20) (by decide) (by omega) (by
    intro fs hfs
    cases o with
    | none => cases hfs
    | some s =>
      cases hfs
      rw [hf]
      simp only [Option.getD_some] at hm
      have := length_strField (num := 1) (s := s) (by decide) (by omega)
      omega)
  omega

theorem length_ecdsaProto {i : EnumVal} {a b : Bytes} {kid : Option PStr} {m : Nat}
    (hm : a.length + b.length + 4 * (kid.getD []).length ≤ m) (h : m + 1000 < 2147483648) :
    (encodeFields (ecdsaProto i a b kid).fields).length ≤ m + 120 := by
  unfold JwtEcdsaPublicKey.fields
  rw [length_encodeFields_append, length_encodeFields_append, length_encodeFields_append,
    length_encodeFields_append]
  have h1 := length_uint32Field (num := 1) (n := (ecdsaProto i a b kid).version) (by decide)
  have h2 := length_enumField (num := 2) (e := (ecdsaProto i a b kid).algorithm) (by decide)
  have h3 := length_bytesField (num := 3) (b := a) (by decide) (by omega)
  have h4 := length_bytesField (num := 4) (b := b) (by decide) (by omega)
  have h5 := length_kidField (o := kid) (f := fun k => JwtEcdsaPublicKey.CustomKid.fields ⟨k⟩)
    (m := 4 * (kid.getD []).length) (fun _ => rfl) (Nat.le_refl _) (by omega)
  have h6 : (ecdsaProto i a b kid).customKid.map JwtEcdsaPublicKey.CustomKid.fields =
      kid.map fun k => JwtEcdsaPublicKey.CustomKid.fields ⟨k⟩ := by cases kid <;> rfl
  rw [h6]
  have h7 : (ecdsaProto i a b kid).x = a := rfl
  have h8 : (ecdsaProto i a b kid).y = b := rfl
  rw [h7, h8]
  omega

theorem length_pkcs1Proto {i : EnumVal} {a b : Bytes} {kid : Option PStr} {m : Nat}
    (hm : a.length + b.length + 4 * (kid.getD []).length ≤ m) (h : m + 1000 < 2147483648) :
    (encodeFields (pkcs1Proto i a b kid).fields).length ≤ m + 120 := by
  unfold JwtRsaSsaPkcs1PublicKey.fields
  rw [length_encodeFields_append, length_encodeFields_append, length_encodeFields_append,
    length_encodeFields_append]
  have h1 := length_uint32Field (num := 1) (n := (pkcs1Proto i a b kid).version) (by decide)
  have h2 := length_enumField (num := 2) (e := (pkcs1Proto i a b kid).algorithm) (by decide)
  have h3 := length_bytesField (num := 3) (b := a) (by decide) (by omega)
  have h4 := length_bytesField (num := 4) (b := b) (by decide) (by omega)
  have h5 := length_kidField (o := kid) (f := fun k => JwtRsaSsaPkcs1PublicKey.CustomKid.fields ⟨k⟩)
    (m := 4 * (kid.getD []).length) (fun _ => rfl) (Nat.le_refl _) (by omega)
  have h6 : (pkcs1Proto i a b kid).customKid.map JwtRsaSsaPkcs1PublicKey.CustomKid.fields =
      kid.map fun k => JwtRsaSsaPkcs1PublicKey.CustomKid.fields ⟨k⟩ := by cases kid <;> rfl
  rw [h6]
  have h7 : (pkcs1Proto i a b kid).n = a := rfl
  have h8 : (pkcs1Proto i a b kid).e = b := rfl
  rw [h7, h8]
  omega

theorem length_pssProto {i : EnumVal} {a b : Bytes} {kid : Option PStr} {m : Nat}
    (hm : a.length + b.length + 4 * (kid.getD []).length ≤ m) (h : m + 1000 < 2147483648) :
    (encodeFields (pssProto i a b kid).fields).length ≤ m + 120 := by
  unfold JwtRsaSsaPssPublicKey.fields
  rw [length_encodeFields_append, length_encodeFields_append, length_encodeFields_append,
    length_encodeFields_append]
  have h1 := length_uint32Field (num := 1) (n := (pssProto i a b kid).version) (by decide)
  have h2 := length_enumField (num := 2) (e := (pssProto i a b kid).algorithm) (by decide)
  have h3 := length_bytesField (num := 3) (b := a) (by decide) (by omega)
  have h4 := length_bytesField (num := 4) (b := b) (by decide) (by omega)
  have h5 := length_kidField (o := kid) (f := fun k => JwtRsaSsaPssPublicKey.CustomKid.fields ⟨k⟩)
    (m := 4 * (kid.getD []).length) (fun _ => rfl) (Nat.le_refl _) (by omega)
  have h6 : (pssProto i a b kid).customKid.map JwtRsaSsaPssPublicKey.CustomKid.fields =
      kid.map fun k => JwtRsaSsaPssPublicKey.CustomKid.fields ⟨k⟩ := by cases kid <;> rfl
  rw [h6]
  have h7 : (pssProto i a b kid).n = a := rfl
  have h8 : (pssProto i a b kid).e = b := rfl
  rw [h7, h8]
  omega

theorem wrapped_of {url : PStr} {fs : List Field} {m : Nat} (hu : url.length ≤ 80)
    (hl : (encodeFields fs).length ≤ m + 120) (h : m + 1000 < 2147483648) :
    ∃ k, wrapped url (serializeFields fs) = .ok k ∧
      ∀ id, (encodeFields ({ k with keyId := id } : Key).fields).length ≤ m + 600 := by
  rw [serializeFields_of_length (by omega)]
  refine ⟨_, rfl, fun id => ?_⟩
  have := length_keyFields (k := { protoKey url (encodeFields fs) with keyId := id }) (u := 80)
    (v := m + 120) hu hl (by omega)
  exact Nat.le_trans this (by omega)

/-- Keys of JWKs that are not too big are serialized. -/
theorem keyFor_of {alg : PyStr} {a b : Bytes} {kid : Option PStr} {m : Nat}
    (halg : alg ∈ [py! "ES256", py! "ES384", py! "ES512", py! "RS256", py! "RS384", py! "RS512",
      py! "PS256", py! "PS384", py! "PS512"])
    (hm : a.length + b.length + 4 * (kid.getD []).length ≤ m) (h : m + 1000 < 2147483648) :
    ∃ k, keyFor alg a b kid = .ok k ∧
      ∀ id, (encodeFields ({ k with keyId := id } : Key).fields).length ≤ m + 600 := by
  simp only [List.mem_cons, List.not_mem_nil, or_false] at halg
  rcases halg with rfl | rfl | rfl | rfl | rfl | rfl | rfl | rfl | rfl
  · exact wrapped_of (by decide) (length_ecdsaProto (i := 1) hm h) h
  · exact wrapped_of (by decide) (length_ecdsaProto (i := 2) hm h) h
  · exact wrapped_of (by decide) (length_ecdsaProto (i := 3) hm h) h
  · exact wrapped_of (by decide) (length_pkcs1Proto (i := 1) hm h) h
  · exact wrapped_of (by decide) (length_pkcs1Proto (i := 2) hm h) h
  · exact wrapped_of (by decide) (length_pkcs1Proto (i := 3) hm h) h
  · exact wrapped_of (by decide) (length_pssProto (i := 1) hm h) h
  · exact wrapped_of (by decide) (length_pssProto (i := 2) hm h) h
  · exact wrapped_of (by decide) (length_pssProto (i := 3) hm h) h

theorem Denotes.algs {d : List (PyStr × JVal F)} {alg : PyStr} {a b : Bytes} {kid : Option PyStr}
    (h : Denotes d alg a b kid) :
    alg ∈ [py! "ES256", py! "ES384", py! "ES512", py! "RS256", py! "RS384", py! "RS512",
      py! "PS256", py! "PS384", py! "PS512"] := by
  cases h with
  | ec crv _ h =>
    have h := h.2
    simp only [List.mem_cons, List.not_mem_nil, or_false, Prod.mk.injEq] at h
    rcases h with ⟨rfl, _⟩ | ⟨rfl, _⟩ | ⟨rfl, _⟩ <;> decide
  | rsa _ h =>
    have h := h.2
    simp only [List.mem_cons, List.not_mem_nil, or_false] at h
    rcases h with rfl | rfl | rfl | rfl | rfl | rfl <;> decide

theorem importKey_small {d : List (PyStr × JVal F)} {alg : PyStr} {a b : Bytes} {kid : Option PyStr}
    {m : Nat} (h : Denotes d alg a b kid) (hs : SizeAtMost m d) (hm : m + 1000 < 2147483648) :
    ∃ k, importKey (.dict d) = .ok k ∧
      ∀ id, (encodeFields ({ k with keyId := id } : Key).fields).length ≤ m + 600 := by
  obtain ⟨kid', rfl, h1⟩ := importKey_denotes h
  rw [h1]
  refine keyFor_of (Denotes.algs h) ?_ hm
  have := hs _ _ _ _ h
  cases kid' with
  | none => exact this
  | some s => simpa [PStr.toPy] using this

/-! ## Errors -/

theorem read_error {α : Type} {d : List (PyStr × JVal F)} {k : PyStr} {f : Bytes → Py α} {e : Exc}
    (hs : ∀ v, PyDict.get? d k = some v → ∃ s, v = .str s ∧ ValidText s) (hp : PyDict.get? d k ≠ none)
    (h : (do let v ← item d k; let b ← base64DecodeStr v; f b) = Except.error e) :
    e.isTink = true ∨ ∃ b, Number d k b ∧ f b = .error e := by
  rw [read_bind] at h
  cases h1 : (do let v ← item d k; base64DecodeStr v : Py Bytes) with
  | ok b =>
    rw [h1] at h
    exact .inr ⟨b, (number_iff d k b).1 h1, h⟩
  | error e' =>
    rw [h1] at h
    cases h
    left
    cases h2 : PyDict.get? d k with
    | none => exact absurd h2 hp
    | some v =>
      obtain ⟨s, rfl, hv⟩ := hs v h2
      unfold item at h1
      rw [h2] at h1
      have h3 : utf8Encode s = .ok (s.flatMap utf8EncodeCp) := by
        unfold utf8Encode
        rw [if_pos (List.all_eq_true.2 hv)]
      have h1 : (do let b ← utf8Encode s; base64Decode b : Py Bytes) = .error e := h1
      rw [h3] at h1
      have h1 : base64Decode (s.flatMap utf8EncodeCp) = .error e := h1
      rcases base64Decode_cases (s.flatMap utf8EncodeCp) with ⟨h4, _⟩ | ⟨_, _, b', h5, _⟩
      · rw [h4] at h1; cases h1; rfl
      · rw [h5] at h1; cases h1

theorem validate_error {d : List (PyStr × JVal F)} {e : Exc}
    (hk : ∀ v, PyDict.get? d (py! "key_ops") = some v → ∃ l, v = .list l)
    (h : validateUseAndKeyOps d = .error e) : e.isTink = true := by
  have huse : ∀ e, (match PyDict.get? d (py! "use") with
      | none => (pure () : Py Unit)
      | some v => if isStr (py! "sig") v then pure () else .error .tinkError) = .error e →
      e.isTink = true := by
    intro e h
    cases h2 : PyDict.get? d (py! "use") with
    | none => rw [h2] at h; cases h
    | some v =>
      rw [h2] at h
      by_cases hv : isStr (py! "sig") v = true
      · simp only [hv, if_true] at h; cases h
      · simp only [hv] at h; cases h; rfl
  unfold validateUseAndKeyOps at h
  cases h1 : PyDict.get? d (py! "key_ops") with
  | none => rw [h1] at h; exact huse e h
  | some w =>
    rw [h1] at h
    obtain ⟨l, rfl⟩ := hk w h1
    have hb : ∃ bad, badKeyOps (F := F) (.list l) = .ok bad := by
      match l with
      | [] => exact ⟨_, rfl⟩
      | [_] => exact ⟨_, rfl⟩
      | _ :: _ :: _ => exact ⟨_, rfl⟩
    obtain ⟨bad, hb⟩ := hb
    simp only [hb] at h
    cases bad with
    | true => cases h; rfl
    | false => exact huse e h

theorem customKid_error {d : List (PyStr × JVal F)} {e : Exc}
    (hs : ∀ v, PyDict.get? d (py! "kid") = some v → ∃ s, v = .str s ∧ ValidText s) :
    customKidOf d ≠ .error e := by
  unfold customKidOf
  cases h : PyDict.get? d (py! "kid") with
  | none => intro h; cases h
  | some v =>
    obtain ⟨s, rfl, hv⟩ := hs v h
    have : s.toProto = .ok (s.map Char.ofNat) := by
      unfold PyStr.toProto
      rw [if_pos (List.all_eq_true.2 hv)]
    simp [bind, Except.bind, this, pure, Except.pure]

theorem bind_error {α β : Type} {x : Py α} {f : α → Py β} {e : Exc} (h : (x >>= f) = .error e) :
    x = .error e ∨ ∃ a, x = .ok a ∧ f a = .error e := by
  cases x with
  | error e' => cases h; exact .inl rfl
  | ok a => exact .inr ⟨a, rfl, h⟩

theorem convertToEcdsa_error {d : List (PyStr × JVal F)} {alg : PyStr} {e : Exc} (hw : WellTyped d)
    (h : convertToEcdsa d alg = .error e) : e.isTink = true ∨ ∃ i crv a b kid,
      (i, alg, crv) ∈ [((1 : EnumVal), py! "ES256", py! "P-256"), (2, py! "ES384", py! "P-384"),
        (3, py! "ES512", py! "P-521")] ∧ EcOk d crv a b kid := by
  unfold convertToEcdsa at h
  cases h0 : PyDict.get? ecdsaNames alg with
  | none => rw [h0] at h; cases h; exact .inl rfl
  | some i =>
    rw [h0] at h
    obtain ⟨crv, ht⟩ := ecdsaNames_iff h0
    obtain ⟨_, h2, h3, _⟩ := ecdsa_table ht
    simp only [h2, if_false, h3] at h
    cases hk : differs d (py! "kty") (py! "EC") with
    | true => rw [hk] at h; cases h; exact .inl rfl
    | false =>
      cases hc : differs d (py! "crv") crv with
      | true => rw [hk, hc] at h; cases h; exact .inl rfl
      | false =>
        rw [hk, hc] at h
        simp only [Bool.false_eq_true, if_false] at h
        have hkty := (differs_iff d _ _).1 hk
        rcases bind_error h with h | ⟨_, hu, h⟩
        · exact .inl (validate_error hw.keyOps h)
        by_cases hd : (PyDict.get? d (py! "d")).isSome = true
        · rw [if_pos hd] at h; cases h; exact .inl rfl
        · rw [if_neg hd] at h
          rcases read_error (hw.strings _ (by decide)) (hw.ec hkty).1 h with h | ⟨a, ha, h⟩
          · exact .inl h
          rcases read_error (hw.strings _ (by decide)) (hw.ec hkty).2 h with h | ⟨b, hb, h⟩
          · exact .inl h
          rcases bind_error h with h | ⟨kid, hkid, h⟩
          · exact absurd h (customKid_error (hw.strings _ (by decide)))
          exact .inr ⟨i, crv, a, b, kid, ht, hkty, (differs_iff d _ _).1 hc,
            (validate_ok_iff d).1 hu, by simpa using hd, ha, hb, (customKid_ok_iff d kid).1 hkid⟩

theorem convertToRsaSsaPkcs1_error {d : List (PyStr × JVal F)} {alg : PyStr} {e : Exc} (hw : WellTyped d)
    (h : convertToRsaSsaPkcs1 d alg = .error e) : e.isTink = true ∨ ∃ i a b kid,
      (i, alg) ∈ [((1 : EnumVal), py! "RS256"), (2, py! "RS384"), (3, py! "RS512")] ∧ RsaOk d a b kid := by
  unfold convertToRsaSsaPkcs1 at h
  cases h0 : PyDict.get? rsaSsaPkcs1Names alg with
  | none => rw [h0] at h; cases h; exact .inl rfl
  | some i =>
    rw [h0] at h
    have ht := pkcs1Names_iff h0
    obtain ⟨_, h2, _⟩ := pkcs1_table ht
    simp only [h2, if_false] at h
    cases hk : differs d (py! "kty") (py! "RSA") with
    | true => rw [hk] at h; cases h; exact .inl rfl
    | false =>
      rw [hk] at h
      simp only [Bool.false_eq_true, if_false] at h
      have hkty := (differs_iff d _ _).1 hk
      rcases bind_error h with h | ⟨_, hu, h⟩
      · exact .inl (validate_error hw.keyOps h)
      by_cases hd : rsaPrivate d = true
      · rw [if_pos hd] at h; cases h; exact .inl rfl
      · rw [if_neg hd] at h
        rcases read_error (hw.strings _ (by decide)) (hw.rsa hkty).1 h with h | ⟨a, ha, h⟩
        · exact .inl h
        rcases read_error (hw.strings _ (by decide)) (hw.rsa hkty).2 h with h | ⟨b, hb, h⟩
        · exact .inl h
        rcases bind_error h with h | ⟨kid, hkid, h⟩
        · exact absurd h (customKid_error (hw.strings _ (by decide)))
        exact .inr ⟨i, a, b, kid, ht, hkty, (validate_ok_iff d).1 hu, by simpa using hd, ha, hb,
          (customKid_ok_iff d kid).1 hkid⟩

theorem convertToRsaSsaPss_error {d : List (PyStr × JVal F)} {alg : PyStr} {e : Exc} (hw : WellTyped d)
    (h : convertToRsaSsaPss d alg = .error e) : e.isTink = true ∨ ∃ i a b kid,
      (i, alg) ∈ [((1 : EnumVal), py! "PS256"), (2, py! "PS384"), (3, py! "PS512")] ∧ RsaOk d a b kid := by
  unfold convertToRsaSsaPss at h
  cases h0 : PyDict.get? rsaSsaPssNames alg with
  | none => rw [h0] at h; cases h; exact .inl rfl
  | some i =>
    rw [h0] at h
    have ht := pssNames_iff h0
    obtain ⟨_, h2, _⟩ := pss_table ht
    simp only [h2, if_false] at h
    cases hk : differs d (py! "kty") (py! "RSA") with
    | true => rw [hk] at h; cases h; exact .inl rfl
    | false =>
      rw [hk] at h
      simp only [Bool.false_eq_true, if_false] at h
      have hkty := (differs_iff d _ _).1 hk
      rcases bind_error h with h | ⟨_, hu, h⟩
      · exact .inl (validate_error hw.keyOps h)
      by_cases hd : rsaPrivate d = true
      · rw [if_pos hd] at h; cases h; exact .inl rfl
      · rw [if_neg hd] at h
        rcases read_error (hw.strings _ (by decide)) (hw.rsa hkty).1 h with h | ⟨a, ha, h⟩
        · exact .inl h
        rcases read_error (hw.strings _ (by decide)) (hw.rsa hkty).2 h with h | ⟨b, hb, h⟩
        · exact .inl h
        rcases bind_error h with h | ⟨kid, hkid, h⟩
        · exact absurd h (customKid_error (hw.strings _ (by decide)))
        exact .inr ⟨i, a, b, kid, ht, hkty, (validate_ok_iff d).1 hu, by simpa using hd, ha, hb,
          (customKid_ok_iff d kid).1 hkid⟩

/-- A well-typed JWK is refused with a Tink error, unless it describes a key. -/
theorem importKey_error {d : List (PyStr × JVal F)} {e : Exc} (hw : WellTyped d)
    (h : importKey (.dict d) = .error e) :
    e.isTink = true ∨ ∃ alg a b kid, Denotes d alg a b kid := by
  cases h3 : PyDict.get? d (py! "alg") with
  | none =>
    unfold importKey contains at h
    simp only [h3] at h
    cases h; exact .inl rfl
  | some v =>
    obtain ⟨alg, rfl, _⟩ := hw.strings _ (by decide) v h3
    rw [importKey_dict h3] at h
    simp only [importDict] at h
    by_cases p1 : (py! "ES").isPrefixOf alg = true
    · rw [if_pos p1] at h
      rcases convertToEcdsa_error hw h with h | ⟨i, crv, a, b, kid, ht, ho⟩
      · exact .inl h
      · exact .inr ⟨alg, a, b, _, .ec crv ho.kty ⟨h3, (ecdsa_table ht).2.2.2.2.1⟩ ho.crv ho.a ho.b
          (kid_of ho.kid) ho.use ho.isPublic⟩
    rw [if_neg p1] at h
    by_cases p2 : (py! "RS").isPrefixOf alg = true
    · rw [if_pos p2] at h
      rcases convertToRsaSsaPkcs1_error hw h with h | ⟨i, a, b, kid, ht, ho⟩
      · exact .inl h
      · exact .inr ⟨alg, a, b, _, .rsa ho.kty ⟨h3, (pkcs1_table ht).2.2.2.1⟩ ho.a ho.b
          (kid_of ho.kid) ho.use ((rsaPrivate_iff d).1 ho.isPublic)⟩
    rw [if_neg p2] at h
    by_cases p3 : (py! "PS").isPrefixOf alg = true
    · rw [if_pos p3] at h
      rcases convertToRsaSsaPss_error hw h with h | ⟨i, a, b, kid, ht, ho⟩
      · exact .inl h
      · exact .inr ⟨alg, a, b, _, .rsa ho.kty ⟨h3, (pss_table ht).2.2.2.1⟩ ho.a ho.b
          (kid_of ho.kid) ho.use ((rsaPrivate_iff d).1 ho.isPublic)⟩
    · rw [if_neg p3] at h; cases h; exact .inl rfl

/-- A private JWK does not describe a public key. -/
theorem private_not_denotes {d : List (PyStr × JVal F)} {alg : PyStr} {a b : Bytes} {kid : Option PyStr}
    (hp : PrivateJwk d) (h : Denotes d alg a b kid) : False := by
  cases h with
  | ec crv kty _ _ _ _ _ _ pub =>
    rcases hp with ⟨_, hp⟩ | ⟨hk, _⟩
    · exact hp pub
    · rw [kty] at hk; simp at hk
  | rsa kty _ _ _ _ _ pub =>
    rcases hp with ⟨hk, _⟩ | ⟨_, m, hm, hp⟩
    · rw [kty] at hk; simp at hk
    · exact hp (pub m hm)

/-! ## The beginning of the import -/

theorem importKey_str (s : PyStr) (k : Key) : importKey (F := F) (.str s) ≠ .ok k := by
  unfold importKey contains
  simp only [bind, Except.bind]
  cases isSubstring (py! "alg") s <;> simp

/-- The list of keys is an array, if any key is imported. -/
theorem jwks_list {env : JsonEnv F} {text : PyStr} {vs : List (JVal F)}
    (h : (do let v ← loadsJwkSet env text; jwksOf v) = Except.ok vs)
    (hk : ∀ v ∈ vs, ∃ k, importKey v = .ok k) (hne : vs ≠ []) : IsJwkSet env text vs := by
  obtain ⟨v, h1, h2⟩ := bind_ok_iff.1 h
  unfold jwksOf at h2
  obtain ⟨has, h3, h4⟩ := bind_ok_iff.1 h2
  cases has with
  | false => cases h4
  | true =>
    cases v with
    | dict d =>
      obtain ⟨ks, h5, h6⟩ := bind_ok_iff.1 h4
      have h7 : PyDict.get? d (py! "keys") = some ks := by
        unfold item at h5
        cases h8 : PyDict.get? d (py! "keys") with
        | none => rw [h8] at h5; cases h5
        | some x => rw [h8] at h5; cases h5; rfl
      have hstr : (∀ v ∈ vs, ∃ s, v = JVal.str s) → False := by
        intro hs
        cases vs with
        | nil => exact hne rfl
        | cons x xs =>
          obtain ⟨s, rfl⟩ := hs x List.mem_cons_self
          obtain ⟨k, hk⟩ := hk _ List.mem_cons_self
          exact importKey_str s k hk
      have h8 : loads env text = .ok (.dict d) := by
        unfold loadsJwkSet at h1
        split at h1
        · cases h1
        · exact h1
      cases ks with
      | list l => cases h6; exact ⟨d, h8, h7⟩
      | dict d' =>
        cases h6
        refine (hstr ?_).elim
        intro v hv
        obtain ⟨p, _, rfl⟩ := List.mem_map.1 hv
        exact ⟨_, rfl⟩
      | str s =>
        cases h6
        refine (hstr ?_).elim
        intro v hv
        obtain ⟨p, _, rfl⟩ := List.mem_map.1 hv
        exact ⟨_, rfl⟩
      | _ => cases h6
    | _ => cases h4

theorem jwks_of {env : JsonEnv F} {text : PyStr} {vs : List (JVal F)} (h : IsJwkSet env text vs) :
    (do let v ← loadsJwkSet env text; jwksOf v) = Except.ok vs := by
  obtain ⟨d, h1, h2⟩ := h
  have h3 : loadsJwkSet env text = .ok (.dict d) := by
    unfold loadsJwkSet
    rw [h1]
  rw [h3]
  show jwksOf (.dict d) = _
  unfold jwksOf contains item
  simp [bind, Except.bind, h2, iterate]

theorem IsJwkSet.unique {env : JsonEnv F} {text : PyStr} {vs ws : List (JVal F)}
    (h : IsJwkSet env text vs) (h' : IsJwkSet env text ws) : vs = ws := by
  have h1 := jwks_of h
  rw [jwks_of h'] at h1
  cases h1; rfl

/-- What the import of a JWK set amounts to. -/
theorem to_of {env : JsonEnv F} {text : PyStr} {vs : List (JVal F)} (h : IsJwkSet env text vs)
    (draws : List UInt32) : toPublicKeysetHandle env draws text =
      match importKeys vs draws {} with
      | none => none
      | some (.error e) => some (.error e)
      | some (.ok ks) => some (parseImported ks) := by
  unfold toPublicKeysetHandle
  rw [jwks_of h]
  rfl

/-! ## Writing -/

theorem mapPy_of {α β : Type} {f : α → Py β} {l : List α} (h : ∀ a ∈ l, ∃ b, f a = .ok b) :
    ∃ bs, mapPy f l = .ok bs := by
  induction l with
  | nil => exact ⟨[], rfl⟩
  | cons a l ih =>
    obtain ⟨b, hb⟩ := h a List.mem_cons_self
    obtain ⟨bs, hbs⟩ := ih fun a ha => h a (List.mem_cons_of_mem _ ha)
    exact ⟨b :: bs, by unfold mapPy; rw [hb, hbs]⟩

/-- A JWK set is written, unless the recursion limit is tiny. -/
theorem dumps_set {env : JsonEnv F} (hd : 4 ≤ env.depth) {vs : List (JVal F)}
    (h : ∀ v ∈ vs, ∃ d, v = .dict d ∧ PlainJwk d) :
    ∃ text, dumpsCompact env (.dict [(py! "keys", .list vs)]) = .ok text := by
  obtain ⟨n, hn⟩ : ∃ n, env.depth = n + 4 := ⟨env.depth - 4, by omega⟩
  unfold dumpsCompact
  rw [hn]
  have h1 : ∀ v ∈ vs, ∃ t, dumpsDepth env [] (n + 2) v = .ok t := by
    intro v hv
    obtain ⟨d, rfl, hp⟩ := h v hv
    have : ∀ p ∈ d, ∃ t, encodePair [] (dumpsDepth env [] (n + 1)) p = .ok t := by
      intro p hp'
      unfold encodePair
      rcases (hp.members p hp').2 with ⟨s, hs, _⟩ | hs
      · rw [hs]; simp only [dumpsDepth]; exact ⟨_, rfl⟩
      · rw [hs]; simp only [dumpsDepth, mapPy, bracket]; exact ⟨_, rfl⟩
    obtain ⟨ts, hts⟩ := mapPy_of this
    simp only [dumpsDepth, hts, bracket]
    exact ⟨_, rfl⟩
  obtain ⟨ts, hts⟩ := mapPy_of h1
  simp only [dumpsDepth, mapPy, encodePair, hts, bracket]
  exact ⟨_, rfl⟩

end Jwk
end Tink
