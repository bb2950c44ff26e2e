import Verif.Cc.JwtSigManages
import Verif.Cc.SigNewLemmas
import Verif.Jwt.FreshLemmas
import Verif.Jwt.MacKeyLemmas

/-!
# Lemmas for C99
-/

namespace Tink.Props
open Spec Cc Jwt

/-! ## Registration -/

section
variable {F P C : Type} [DecidableEq C] {L : Library F P C} {isInst : P → C → Bool}

/-- The key manager that `register_jwt_signature` registers for a type URL. -/
def sigManager (L : Library F P C) (url : PStr) : Option (KeyManager P C) :=
  if url = JWT_ECDSA_PRIVATE_KEY_TYPE then some (signManager L url ecdsaPrivateAlgKid)
  else if url = JWT_ECDSA_PUBLIC_KEY_TYPE then some (verifyManager L url ecdsaPublicAlgKid)
  else if url = JWT_RSA_SSA_PKCS1_PRIVATE_KEY_TYPE then some (signManager L url rsaSsaPkcs1PrivateAlgKid)
  else if url = JWT_RSA_SSA_PKCS1_PUBLIC_KEY_TYPE then some (verifyManager L url rsaSsaPkcs1PublicAlgKid)
  else if url = JWT_RSA_SSA_PSS_PRIVATE_KEY_TYPE then some (signManager L url rsaSsaPssPrivateAlgKid)
  else if url = JWT_RSA_SSA_PSS_PUBLIC_KEY_TYPE then some (verifyManager L url rsaSsaPssPublicAlgKid)
  else none

/-- What is registered for JWT signatures is Tink's. -/
structure SigCanon (L : Library F P C) (r : Registry P C) : Prop where
  manager : ∀ url m, sigManager L url = some m →
    PyDict.get? r.keyManagers url = none ∨ PyDict.get? r.keyManagers url = some (m, true)
  sign : PyDict.get? r.wrappers L.signClass = none ∨ PyDict.get? r.wrappers L.signClass = some (signWrapper L)
  verify : PyDict.get? r.wrappers L.verifyClass = none ∨
    PyDict.get? r.wrappers L.verifyClass = some (verifyWrapper L)

/-- And it is registered. -/
structure SigDone (L : Library F P C) (r : Registry P C) : Prop where
  manager : ∀ url m, sigManager L url = some m → PyDict.get? r.keyManagers url = some (m, true)
  sign : PyDict.get? r.wrappers L.signClass = some (signWrapper L)
  verify : PyDict.get? r.wrappers L.verifyClass = some (verifyWrapper L)

theorem SigDone.canon {r : Registry P C} (h : SigDone L r) : SigCanon L r :=
  ⟨fun u m hm => .inr (h.manager u m hm), .inr h.sign, .inr h.verify⟩

/-- Nothing has changed for JWT signatures. -/
structure SigSame (L : Library F P C) (r r' : Registry P C) : Prop where
  manager : ∀ url m, sigManager L url = some m → PyDict.get? r'.keyManagers url = PyDict.get? r.keyManagers url
  sign : PyDict.get? r'.wrappers L.signClass = PyDict.get? r.wrappers L.signClass
  verify : PyDict.get? r'.wrappers L.verifyClass = PyDict.get? r.wrappers L.verifyClass

theorem SigSame.refl (r : Registry P C) : SigSame L r r := ⟨fun _ _ _ => rfl, rfl, rfl⟩

theorem SigSame.canon {r r' : Registry P C} (h : SigSame L r r') (hc : SigCanon L r) : SigCanon L r' :=
  ⟨fun u m hm => by rw [h.manager u m hm]; exact hc.manager u m hm, by rw [h.sign]; exact hc.sign,
    by rw [h.verify]; exact hc.verify⟩

theorem SigSame.done {r r' : Registry P C} (h : SigSame L r r') (hc : SigDone L r) : SigDone L r' :=
  ⟨fun u m hm => (h.manager u m hm).trans (hc.manager u m hm), h.sign.trans hc.sign, h.verify.trans hc.verify⟩

theorem SigSame.keyManager {r₀ r : Registry P C} (h : SigSame L r₀ r) {m : KeyManager P C} (b : Bool)
    (hu : sigManager L m.keyType = none) : SigSame L r₀ (r.registerKeyManager m b).1 :=
  ⟨fun u m' hm => (register_get_other (fun e => by rw [← e, hu] at hm; cases hm)).trans (h.manager u m' hm),
    by rw [register_manager_wrappers]; exact h.sign, by rw [register_manager_wrappers]; exact h.verify⟩

theorem SigSame.primitiveWrapper {r₀ r : Registry P C} (h : SigSame L r₀ r) {w : PrimitiveWrapper P C}
    (hs : w.primitiveClass ≠ L.signClass) (hv : w.primitiveClass ≠ L.verifyClass) :
    SigSame L r₀ (r.registerPrimitiveWrapper isInst w).1 :=
  ⟨fun u m hm => by rw [register_wrapper_managers]; exact h.manager u m hm,
    (wrapper_get_other hs).trans h.sign, (wrapper_get_other hv).trans h.verify⟩

/-- Registering one of the key managers. -/
theorem canon_register {r : Registry P C} (hc : SigCanon L r) {url : PStr} {m : KeyManager P C}
    (hm : sigManager L url = some m) (hk : m.keyType = url) (hs : m.doesSupport url = true) :
    SigCanon L (r.registerKeyManager m true).1 ∧ (r.registerKeyManager m true).2 = .ok () ∧
    PyDict.get? (r.registerKeyManager m true).1.keyManagers url = some (m, true) ∧
    ∀ u m', sigManager L u = some m' → PyDict.get? r.keyManagers u = some (m', true) →
      PyDict.get? (r.registerKeyManager m true).1.keyManagers u = some (m', true) := by
  have h1 : (r.registerKeyManager m true).2 = .ok () ∧
      PyDict.get? (r.registerKeyManager m true).1.keyManagers url = some (m, true) := by
    unfold Registry.registerKeyManager
    dsimp only
    rw [hk, hs]
    rcases hc.manager url m hm with h | h <;> rw [h] <;> simp [PyDict.get?_set]
  have h2 : ∀ u, u ≠ url → PyDict.get? (r.registerKeyManager m true).1.keyManagers u =
      PyDict.get? r.keyManagers u := fun u hu => register_get_other (by rw [hk]; exact fun e => hu e.symm)
  refine ⟨⟨fun u m' hm' => ?_, ?_, ?_⟩, h1.1, h1.2, fun u m' hm' hg => ?_⟩
  · by_cases hu : u = url
    · subst hu
      rw [hm] at hm'
      cases hm'
      exact .inr h1.2
    · rw [h2 u hu]
      exact hc.manager u m' hm'
  · rw [register_manager_wrappers]; exact hc.sign
  · rw [register_manager_wrappers]; exact hc.verify
  · by_cases hu : u = url
    · subst hu
      rw [hm] at hm'
      cases hm'
      exact h1.2
    · rw [h2 u hu]
      exact hg

theorem andThen_ok {x : Registry P C × Py Unit} {f : Registry P C → Registry P C × Py Unit} (h : x.2 = .ok ()) :
    andThen x f = f x.1 := by
  obtain ⟨x1, x2⟩ := x
  dsimp only at h
  subst h
  rfl

theorem registerJwtSignature_done (hl : LawfulLibrary L) (hi : LawfulClasses isInst L) {r : Registry P C}
    (hc : SigCanon L r) :
    SigDone L (registerJwtSignature isInst L r).1 ∧ (registerJwtSignature isInst L r).2 = .ok () := by
  have sgn : ∀ {r : Registry P C} (url : PStr) (f : KeyData → Py (PyStr × Option PyStr)), SigCanon L r →
      sigManager L url = some (signManager L url f) → _ := fun {r} url f hc hm =>
    canon_register (r := r) hc hm (hl.ccSign url) (decide_eq_true (hl.ccSign url))
  have ver : ∀ {r : Registry P C} (url : PStr) (f : KeyData → Py (PyStr × Option PyStr)), SigCanon L r →
      sigManager L url = some (verifyManager L url f) → _ := fun {r} url f hc hm =>
    canon_register (r := r) hc hm (hl.ccVerify url) (decide_eq_true (hl.ccVerify url))
  unfold registerJwtSignature registerSignatureManagers
  obtain ⟨c1, o1, g1, k1⟩ := sgn JWT_ECDSA_PRIVATE_KEY_TYPE ecdsaPrivateAlgKid hc rfl
  rw [andThen_ok (x := registerSignManager L _ _ r) o1]
  generalize hr1 : (registerSignManager L JWT_ECDSA_PRIVATE_KEY_TYPE ecdsaPrivateAlgKid r).1 = r1
  change SigCanon L (registerSignManager L JWT_ECDSA_PRIVATE_KEY_TYPE ecdsaPrivateAlgKid r).1 at c1
  change PyDict.get? (registerSignManager L JWT_ECDSA_PRIVATE_KEY_TYPE ecdsaPrivateAlgKid r).1.keyManagers _ = _ at g1
  rw [hr1] at c1 g1
  clear o1 k1
  obtain ⟨c2, o2, g2, k2⟩ := ver JWT_ECDSA_PUBLIC_KEY_TYPE ecdsaPublicAlgKid c1 rfl
  rw [andThen_ok (x := registerVerifyManager L _ _ r1) o2]
  generalize hr2 : (registerVerifyManager L JWT_ECDSA_PUBLIC_KEY_TYPE ecdsaPublicAlgKid r1).1 = r2
  change SigCanon L (registerVerifyManager L JWT_ECDSA_PUBLIC_KEY_TYPE ecdsaPublicAlgKid r1).1 at c2
  change PyDict.get? (registerVerifyManager L JWT_ECDSA_PUBLIC_KEY_TYPE ecdsaPublicAlgKid r1).1.keyManagers _ = _ at g2
  replace g1 : PyDict.get? (registerVerifyManager L JWT_ECDSA_PUBLIC_KEY_TYPE ecdsaPublicAlgKid r1).1.keyManagers _ = _ :=
    k2 _ _ rfl g1
  rw [hr2] at c2 g1 g2
  clear o2 k2
  obtain ⟨c3, o3, g3, k3⟩ := sgn JWT_RSA_SSA_PKCS1_PRIVATE_KEY_TYPE rsaSsaPkcs1PrivateAlgKid c2 rfl
  rw [andThen_ok (x := registerSignManager L _ _ r2) o3]
  generalize hr3 : (registerSignManager L JWT_RSA_SSA_PKCS1_PRIVATE_KEY_TYPE rsaSsaPkcs1PrivateAlgKid r2).1 = r3
  change SigCanon L (registerSignManager L JWT_RSA_SSA_PKCS1_PRIVATE_KEY_TYPE rsaSsaPkcs1PrivateAlgKid r2).1 at c3
  change PyDict.get? (registerSignManager L JWT_RSA_SSA_PKCS1_PRIVATE_KEY_TYPE rsaSsaPkcs1PrivateAlgKid
    r2).1.keyManagers _ = _ at g3
  replace g1 : PyDict.get? (registerSignManager L JWT_RSA_SSA_PKCS1_PRIVATE_KEY_TYPE rsaSsaPkcs1PrivateAlgKid
    r2).1.keyManagers _ = _ := k3 _ _ rfl g1
  replace g2 : PyDict.get? (registerSignManager L JWT_RSA_SSA_PKCS1_PRIVATE_KEY_TYPE rsaSsaPkcs1PrivateAlgKid
    r2).1.keyManagers _ = _ := k3 _ _ rfl g2
  rw [hr3] at c3 g1 g2 g3
  clear o3 k3
  obtain ⟨c4, o4, g4, k4⟩ := ver JWT_RSA_SSA_PKCS1_PUBLIC_KEY_TYPE rsaSsaPkcs1PublicAlgKid c3 rfl
  rw [andThen_ok (x := registerVerifyManager L _ _ r3) o4]
  generalize hr4 : (registerVerifyManager L JWT_RSA_SSA_PKCS1_PUBLIC_KEY_TYPE rsaSsaPkcs1PublicAlgKid r3).1 = r4
  change SigCanon L (registerVerifyManager L JWT_RSA_SSA_PKCS1_PUBLIC_KEY_TYPE rsaSsaPkcs1PublicAlgKid r3).1 at c4
  change PyDict.get? (registerVerifyManager L JWT_RSA_SSA_PKCS1_PUBLIC_KEY_TYPE rsaSsaPkcs1PublicAlgKid
    r3).1.keyManagers _ = _ at g4
  replace g1 : PyDict.get? (registerVerifyManager L JWT_RSA_SSA_PKCS1_PUBLIC_KEY_TYPE rsaSsaPkcs1PublicAlgKid
    r3).1.keyManagers _ = _ := k4 _ _ rfl g1
  replace g2 : PyDict.get? (registerVerifyManager L JWT_RSA_SSA_PKCS1_PUBLIC_KEY_TYPE rsaSsaPkcs1PublicAlgKid
    r3).1.keyManagers _ = _ := k4 _ _ rfl g2
  replace g3 : PyDict.get? (registerVerifyManager L JWT_RSA_SSA_PKCS1_PUBLIC_KEY_TYPE rsaSsaPkcs1PublicAlgKid
    r3).1.keyManagers _ = _ := k4 _ _ rfl g3
  rw [hr4] at c4 g1 g2 g3 g4
  clear o4 k4
  obtain ⟨c5, o5, g5, k5⟩ := sgn JWT_RSA_SSA_PSS_PRIVATE_KEY_TYPE rsaSsaPssPrivateAlgKid c4 rfl
  rw [andThen_ok (x := registerSignManager L _ _ r4) o5]
  generalize hr5 : (registerSignManager L JWT_RSA_SSA_PSS_PRIVATE_KEY_TYPE rsaSsaPssPrivateAlgKid r4).1 = r5
  change SigCanon L (registerSignManager L JWT_RSA_SSA_PSS_PRIVATE_KEY_TYPE rsaSsaPssPrivateAlgKid r4).1 at c5
  change PyDict.get? (registerSignManager L JWT_RSA_SSA_PSS_PRIVATE_KEY_TYPE rsaSsaPssPrivateAlgKid
    r4).1.keyManagers _ = _ at g5
  replace g1 : PyDict.get? (registerSignManager L JWT_RSA_SSA_PSS_PRIVATE_KEY_TYPE rsaSsaPssPrivateAlgKid
    r4).1.keyManagers _ = _ := k5 _ _ rfl g1
  replace g2 : PyDict.get? (registerSignManager L JWT_RSA_SSA_PSS_PRIVATE_KEY_TYPE rsaSsaPssPrivateAlgKid
    r4).1.keyManagers _ = _ := k5 _ _ rfl g2
  replace g3 : PyDict.get? (registerSignManager L JWT_RSA_SSA_PSS_PRIVATE_KEY_TYPE rsaSsaPssPrivateAlgKid
    r4).1.keyManagers _ = _ := k5 _ _ rfl g3
  replace g4 : PyDict.get? (registerSignManager L JWT_RSA_SSA_PSS_PRIVATE_KEY_TYPE rsaSsaPssPrivateAlgKid
    r4).1.keyManagers _ = _ := k5 _ _ rfl g4
  rw [hr5] at c5 g1 g2 g3 g4 g5
  clear o5 k5
  obtain ⟨c6, o6, g6, k6⟩ := ver JWT_RSA_SSA_PSS_PUBLIC_KEY_TYPE rsaSsaPssPublicAlgKid c5 rfl
  rw [andThen_ok (x := registerVerifyManager L _ _ r5) o6]
  generalize hr6 : (registerVerifyManager L JWT_RSA_SSA_PSS_PUBLIC_KEY_TYPE rsaSsaPssPublicAlgKid r5).1 = r6
  change SigCanon L (registerVerifyManager L JWT_RSA_SSA_PSS_PUBLIC_KEY_TYPE rsaSsaPssPublicAlgKid r5).1 at c6
  change PyDict.get? (registerVerifyManager L JWT_RSA_SSA_PSS_PUBLIC_KEY_TYPE rsaSsaPssPublicAlgKid
    r5).1.keyManagers _ = _ at g6
  replace g1 : PyDict.get? (registerVerifyManager L JWT_RSA_SSA_PSS_PUBLIC_KEY_TYPE rsaSsaPssPublicAlgKid
    r5).1.keyManagers _ = _ := k6 _ _ rfl g1
  replace g2 : PyDict.get? (registerVerifyManager L JWT_RSA_SSA_PSS_PUBLIC_KEY_TYPE rsaSsaPssPublicAlgKid
    r5).1.keyManagers _ = _ := k6 _ _ rfl g2
  replace g3 : PyDict.get? (registerVerifyManager L JWT_RSA_SSA_PSS_PUBLIC_KEY_TYPE rsaSsaPssPublicAlgKid
    r5).1.keyManagers _ = _ := k6 _ _ rfl g3
  replace g4 : PyDict.get? (registerVerifyManager L JWT_RSA_SSA_PSS_PUBLIC_KEY_TYPE rsaSsaPssPublicAlgKid
    r5).1.keyManagers _ = _ := k6 _ _ rfl g4
  replace g5 : PyDict.get? (registerVerifyManager L JWT_RSA_SSA_PSS_PUBLIC_KEY_TYPE rsaSsaPssPublicAlgKid
    r5).1.keyManagers _ = _ := k6 _ _ rfl g5
  rw [hr6] at c6 g1 g2 g3 g4 g5 g6
  clear o6 k6
  -- the wrappers
  have hw1 : r6.registerPrimitiveWrapper isInst (signWrapper L) =
      ({ r6 with wrappers := PyDict.set r6.wrappers L.signClass (signWrapper L) }, .ok ()) := by
    unfold Registry.registerPrimitiveWrapper
    dsimp only
    rw [show (signWrapper L).wrap { primitiveClass := (signWrapper L).inputPrimitiveClass } = .ok (L.sign.inj
      ⟨WrappedJwtPublicKeySign.signAndEncode
        (PrimitiveSet.map L.signInternal.view { primitiveClass := L.signInternalClass })⟩) from rfl]
    dsimp only
    rw [show (signWrapper L).primitiveClass = L.signClass from rfl, hi.sign]
    rcases c6.sign with h | h <;> rw [h] <;> simp
  rw [show jwtSignWrapper L.signInternal L.sign L.signWrapperType L.signInternalClass L.signClass = signWrapper L
    from rfl, hw1, andThen_ok rfl]
  dsimp only
  have hget : PyDict.get? (PyDict.set r6.wrappers L.signClass (signWrapper L)) L.verifyClass =
      PyDict.get? r6.wrappers L.verifyClass := by rw [PyDict.get?_set, if_neg hi.different]
  have hw2 : ∀ r7 : Registry P C, r7.wrappers = PyDict.set r6.wrappers L.signClass (signWrapper L) →
      r7.registerPrimitiveWrapper isInst (verifyWrapper L) =
      ({ r7 with wrappers := PyDict.set r7.wrappers L.verifyClass (verifyWrapper L) }, .ok ()) := by
    intro r7 h7
    unfold Registry.registerPrimitiveWrapper
    dsimp only
    rw [show (verifyWrapper L).wrap { primitiveClass := (verifyWrapper L).inputPrimitiveClass } = .ok (L.verify.inj
      ⟨WrappedJwtPublicKeyVerify.verifyAndDecode
        (PrimitiveSet.map L.verifyInternal.view { primitiveClass := L.verifyInternalClass })⟩) from rfl]
    dsimp only
    rw [show (verifyWrapper L).primitiveClass = L.verifyClass from rfl, hi.verify, h7, hget]
    rcases c6.verify with h | h <;> rw [h] <;> simp
  rw [show jwtVerifyWrapper L.verifyInternal L.verify L.verifyWrapperType L.verifyInternalClass L.verifyClass =
    verifyWrapper L from rfl, hw2 _ rfl]
  refine ⟨⟨fun u m hm => ?_, ?_, ?_⟩, rfl⟩
  · dsimp only
    unfold sigManager at hm
    split at hm
    · rename_i hu; subst hu; cases hm; exact g1
    split at hm
    · rename_i hu; subst hu; cases hm; exact g2
    split at hm
    · rename_i hu; subst hu; cases hm; exact g3
    split at hm
    · rename_i hu; subst hu; cases hm; exact g4
    split at hm
    · rename_i hu; subst hu; cases hm; exact g5
    split at hm
    · rename_i hu; subst hu; cases hm; exact g6
    · cases hm
  · dsimp only
    rw [PyDict.get?_set, if_neg (fun e => hi.different e.symm), PyDict.get?_set, if_pos rfl]
  · dsimp only
    rw [PyDict.get?_set, if_pos rfl]

end

/-! ## Keys -/

theorem JwsEcdsa.table {a : EnumVal} {alg : PyStr} {g : EcGroup} {hash : EnumVal} (h : JwsEcdsa a alg g hash) :
    (a, alg) ∈ [((1 : EnumVal), py! "ES256"), (2, py! "ES384"), (3, py! "ES512")] := by
  cases h <;> simp

theorem JwsPkcs1.table {a : EnumVal} {alg : PyStr} {hash : EnumVal} (h : JwsPkcs1 a alg hash) :
    (a, alg) ∈ [((1 : EnumVal), py! "RS256"), (2, py! "RS384"), (3, py! "RS512")] := by
  cases h <;> simp

theorem JwsPss.table {a : EnumVal} {alg : PyStr} {hash : EnumVal} {salt : Int} (h : JwsPss a alg hash salt) :
    (a, alg) ∈ [((1 : EnumVal), py! "PS256"), (2, py! "PS384"), (3, py! "PS512")] := by
  cases h <;> simp

theorem jwsPrivate_signKey {kd : KeyData} {i : JwsInfo} {s : SigKey} (h : JwsPrivateKey kd i s) :
    SignKey kd i.alg i.customKid := by
  unfold JwsPrivateKey at h
  generalize hu : kd.typeUrl = u at h
  cases h with
  | ecdsa h1 h2 =>
    cases h2 with
    | mk hv hp =>
      cases hp with
      | mk hv' ha => exact .ecdsa _ hu h1 (JwsEcdsa.table ha) rfl
  | rsaPkcs1 h1 h2 =>
    cases h2 with
    | mk hv hp =>
      cases hp with
      | mk hv' ha => exact .rsaSsaPkcs1 _ hu h1 (JwsPkcs1.table ha) rfl
  | rsaPss h1 h2 =>
    cases h2 with
    | mk hv hp =>
      cases hp with
      | mk hv' ha => exact .rsaSsaPss _ hu h1 (JwsPss.table ha) rfl

theorem jwsPublic_verifyKey {kd : KeyData} {i : JwsInfo} {v : PubKey} (h : JwsPublicKey kd i v) :
    VerifyKey kd i.alg i.customKid := by
  unfold JwsPublicKey at h
  generalize hu : kd.typeUrl = u at h
  cases h with
  | ecdsa h1 hp =>
    cases hp with
    | mk hv' ha => exact .ecdsa _ hu h1 (JwsEcdsa.table ha) rfl
  | rsaPkcs1 h1 hp =>
    cases hp with
    | mk hv' ha => exact .rsaSsaPkcs1 _ hu h1 (JwsPkcs1.table ha) rfl
  | rsaPss h1 hp =>
    cases hp with
    | mk hv' ha => exact .rsaSsaPss _ hu h1 (JwsPss.table ha) rfl

/-- The key managers for signing. -/
theorem signKey_cc {lib : SigSsl} {kd : KeyData} {alg : PyStr} {kid : Option PyStr} (h : SignKey kd alg kid) :
    ∃ cc, ccJwtSign lib kd.typeUrl = some cc := by
  cases h with
  | ecdsa k u => rw [u]; exact ⟨_, rfl⟩
  | rsaSsaPkcs1 k u => rw [u]; exact ⟨_, rfl⟩
  | rsaSsaPss k u => rw [u]; exact ⟨_, rfl⟩

theorem verifyKey_cc {lib : SigSsl} {kd : KeyData} {alg : PyStr} {kid : Option PyStr} (h : VerifyKey kd alg kid) :
    ∃ cc, ccJwtVerify lib kd.typeUrl = some cc := by
  cases h with
  | ecdsa k u => rw [u]; exact ⟨_, rfl⟩
  | rsaSsaPkcs1 k u => rw [u]; exact ⟨_, rfl⟩
  | rsaSsaPss k u => rw [u]; exact ⟨_, rfl⟩

theorem jws_unique (lib : SigSsl) (hl : LawfulSigSsl lib) {kd : KeyData} :
    (∀ {i s i' s'}, JwsPrivateKey kd i s → JwsPrivateKey kd i' s' → i = i' ∧ s = s') ∧
    (∀ {i v i' v'}, JwsPublicKey kd i v → JwsPublicKey kd i' v' → i = i' ∧ v = v') := by
  constructor
  · intro i s i' s' h h'
    obtain ⟨cc, hc⟩ := jwtSign_exists (lib := lib) h
    obtain ⟨pu, -, hm⟩ := jwtSign_manages hl 0 hc
    exact hm.unique _ _ _ _ _ h h'
  · intro i s i' s' h h'
    obtain ⟨cc, hc⟩ := jwtVerify_exists (lib := lib) h
    exact (jwtVerify_manages hl hc).unique _ _ _ _ _ h h'

section
variable {F P C : Type} [DecidableEq C] {L : Library F P C} {isInst : P → C → Bool} {r : Registry P C}

/-- A key manager gives an object for every key that C++ takes. -/
theorem registered_sign (hr : JwtSignatureRegistered L r) {kd : KeyData} {alg : PyStr} {kid : Option PyStr}
    (hk : SignKey kd alg kid) {data : Bytes} {v : PublicKeySign} (hd : kd.serializeToString = .ok data)
    (hv : (L.ccSign kd.typeUrl).primitive data = .ok v) :
    r.primitive kd L.signInternalClass = .ok (L.signInternal.inj (jwtPublicKeySign L.env v alg kid)) := by
  have go : ∀ (url : PStr) (f : KeyData → Py (PyStr × Option PyStr)), kd.typeUrl = url → (url, f) ∈ jwsSigners →
      f kd = .ok (alg, kid) → r.primitive kd L.signInternalClass =
        .ok (L.signInternal.inj (jwtPublicKeySign L.env v alg kid)) := by
    rintro url f rfl hg hf
    unfold Registry.primitive Registry.keyManager Registry.keyManagerInternal
    rw [hr.sign _ hg]
    simp only [bind, Except.bind, pure, Except.pure, jwtSignKeyManager, ne_eq, not_true_eq_false,
      if_false, signPrimitive, hd, hv, hf]
  cases hk with
  | ecdsa k u hk ha hkid =>
    refine go _ ecdsaPrivateAlgKid u (by simp [jwsSigners]) ?_
    unfold ecdsaPrivateAlgKid
    rw [if_neg (show ¬ kd.typeUrl ≠ JWT_ECDSA_PRIVATE_KEY_TYPE from Decidable.not_not.2 u), hk, hkid]
    simp only [bind, Except.bind]
    rw [algorithmText_of (table := ecdsaAlgorithms) ha (by decide)]
    rfl
  | rsaSsaPkcs1 k u hk ha hkid =>
    refine go _ rsaSsaPkcs1PrivateAlgKid u (by simp [jwsSigners]) ?_
    unfold rsaSsaPkcs1PrivateAlgKid
    rw [if_neg (show ¬ kd.typeUrl ≠ JWT_RSA_SSA_PKCS1_PRIVATE_KEY_TYPE from Decidable.not_not.2 u), hk, hkid]
    simp only [bind, Except.bind]
    rw [algorithmText_of (table := rsaSsaPkcs1Algorithms) ha (by decide)]
    rfl
  | rsaSsaPss k u hk ha hkid =>
    refine go _ rsaSsaPssPrivateAlgKid u (by simp [jwsSigners]) ?_
    unfold rsaSsaPssPrivateAlgKid
    rw [if_neg (show ¬ kd.typeUrl ≠ JWT_RSA_SSA_PSS_PRIVATE_KEY_TYPE from Decidable.not_not.2 u), hk, hkid]
    simp only [bind, Except.bind]
    rw [algorithmText_of (table := rsaSsaPssAlgorithms) ha (by decide)]
    rfl

theorem registered_verify (hr : JwtSignatureRegistered L r) {kd : KeyData} {alg : PyStr} {kid : Option PyStr}
    (hk : VerifyKey kd alg kid) {data : Bytes} {v : PublicKeyVerify} (hd : kd.serializeToString = .ok data)
    (hv : (L.ccVerify kd.typeUrl).primitive data = .ok v) :
    r.primitive kd L.verifyInternalClass = .ok (L.verifyInternal.inj (jwtPublicKeyVerify L.env v alg kid)) := by
  have go : ∀ (url : PStr) (f : KeyData → Py (PyStr × Option PyStr)), kd.typeUrl = url → (url, f) ∈ jwsVerifiers →
      f kd = .ok (alg, kid) → r.primitive kd L.verifyInternalClass =
        .ok (L.verifyInternal.inj (jwtPublicKeyVerify L.env v alg kid)) := by
    rintro url f rfl hg hf
    unfold Registry.primitive Registry.keyManager Registry.keyManagerInternal
    rw [hr.verify _ hg]
    simp only [bind, Except.bind, pure, Except.pure, jwtVerifyKeyManager, ne_eq, not_true_eq_false,
      if_false, verifyPrimitive, hd, hv, hf]
  cases hk with
  | ecdsa k u hk ha hkid =>
    refine go _ ecdsaPublicAlgKid u (by simp [jwsVerifiers]) ?_
    unfold ecdsaPublicAlgKid
    rw [if_neg (show ¬ kd.typeUrl ≠ JWT_ECDSA_PUBLIC_KEY_TYPE from Decidable.not_not.2 u), hk, hkid]
    simp only [bind, Except.bind]
    rw [algorithmText_of (table := ecdsaAlgorithms) ha (by decide)]
    rfl
  | rsaSsaPkcs1 k u hk ha hkid =>
    refine go _ rsaSsaPkcs1PublicAlgKid u (by simp [jwsVerifiers]) ?_
    unfold rsaSsaPkcs1PublicAlgKid
    rw [if_neg (show ¬ kd.typeUrl ≠ JWT_RSA_SSA_PKCS1_PUBLIC_KEY_TYPE from Decidable.not_not.2 u), hk, hkid]
    simp only [bind, Except.bind]
    rw [algorithmText_of (table := rsaSsaPkcs1Algorithms) ha (by decide)]
    rfl
  | rsaSsaPss k u hk ha hkid =>
    refine go _ rsaSsaPssPublicAlgKid u (by simp [jwsVerifiers]) ?_
    unfold rsaSsaPssPublicAlgKid
    rw [if_neg (show ¬ kd.typeUrl ≠ JWT_RSA_SSA_PSS_PUBLIC_KEY_TYPE from Decidable.not_not.2 u), hk, hkid]
    simp only [bind, Except.bind]
    rw [algorithmText_of (table := rsaSsaPssAlgorithms) ha (by decide)]
    rfl

end

theorem bound_publicKeyData {A B : Type} (toPy : B → A) (m : Cpp.KeyManager B) {f : Bytes → StatusOr KeyData}
    (hm : m.publicKeyData = some f) {kd : KeyData} (hd : Fits kd) (hf : ∀ pub, f kd.value = .ok pub → Fits pub) :
    ccPublicKeyData (boundKeyManager toPy m) kd = reported id (f kd.value) := by
  obtain ⟨b, hb⟩ := hd
  unfold ccPublicKeyData boundKeyManager Tink.CcKeyManager.publicKeyData
  rw [hb]
  simp only [bind, Except.bind, hm, parseKeyData_serialize hb]
  cases hk : f kd.value with
  | error e => rfl
  | ok pub =>
    simp only [throwTinkException, pure, Except.pure, useTinkErrors]
    rw [fromString_serializeAsString (hf pub hk)]
    rfl

/-! ## New keys -/

section
variable {lib : SigSsl}

theorem jwsAsked_matches (hl : LawfulSigSsl lib) {seed : Seed} {url : PStr} {b : Bytes} {alg : PyStr} {s : SigKey}
    (h : SigKey.JwsAskedFor lib seed url b alg s) : s.Matches lib := by
  cases h with
  | @ecdsa b f alg g hash x y h1 h2 h3 =>
    obtain ⟨q1, q2⟩ := hl.generate seed g
    have q3 := hl.onCurve g _ q1
    rw [h3] at q3
    obtain ⟨q4, q5⟩ := hl.point _ _ _ q3
    unfold SigKey.Matches
    dsimp only
    rw [fromBytesBE_digits _ _ q2, fromBytesBE_digits _ _ q4, fromBytesBE_digits _ _ q5, h3]
  | rsaPkcs1 h1 h2 => trivial
  | rsaPss h1 h2 => trivial

theorem jwsAsked_size (hl : LawfulSigSsl lib) {seed : Seed} {url : PStr} {b : Bytes} {alg : PyStr} {s : SigKey}
    (h : SigKey.JwsAskedFor lib seed url b alg s) (hp : s.publicPart.Ok lib) : s.size < 2 ^ 31 - 1000 := by
  cases h with
  | @ecdsa b f alg g hash x y h1 h2 h3 =>
    unfold SigKey.size
    simp only [digitsBE_length]
    cases g <;> decide
  | rsaPkcs1 h1 _ h2 =>
    have h3 := rsaOk_bits hp.1
    have h4 := (hl.rsaGenerate _ _ _ _ h2).1
    exact rsaKey_size hl h2 (by rw [← h4]; exact h3.2)
  | rsaPss h1 _ h2 =>
    have h3 := rsaOk_bits hp.1
    have h4 := (hl.rsaGenerate _ _ _ _ h2).1
    exact rsaKey_size hl h2 (by rw [← h4]; exact h3.2)

/-- The salts of JWT algorithms fit. -/
theorem jwsPss_fits {a : EnumVal} {alg : PyStr} {hash : EnumVal} {salt : Int} (h : JwsPss a alg hash salt) {n : Nat}
    (hb : 2048 ≤ bitLength n) {d : Nat} (hd : Digest hash d) : SaltFits n d salt := by
  unfold SaltFits
  cases h <;> cases hd <;> omega

theorem jwsAsked_total (hl : LawfulSigSsl lib) {seed : Seed} {url : PStr} {b : Bytes} {alg : PyStr} {s : SigKey}
    (h : SigKey.JwsAskedFor lib seed url b alg s) (hp : s.publicPart.Ok lib) (seed' : Seed)
    (data : Bytes) : ∃ sig, s.signature lib seed' data = some sig := by
  cases h with
  | @ecdsa b f alg g hash x y h1 h2 h3 =>
    obtain ⟨q1, q2⟩ := hl.generate seed g
    refine ecdsa_total hl ⟨hp, ?_⟩ seed' data
    dsimp only
    rw [fromBytesBE_digits _ _ q2]
    exact q1
  | rsaPkcs1 h1 _ h2 =>
    obtain ⟨n, hn⟩ := digest_of_safe hp.2
    unfold SigKey.signature
    dsimp only
    rw [numbers_rsaKey]
    exact hl.rsaSignTotal _ _ _ _ _ n _ h2 (rsa_bits hl h2 (rsaOk_bits hp.1).1) hp.2 hn (hl.digest _ _ _ hn)
  | @rsaPss b f alg hash salt k h1 ha h2 =>
    obtain ⟨hp1, hp2, hp3, hp4⟩ := hp
    obtain ⟨n, hn⟩ := digest_of_safe hp2
    obtain ⟨em, hem⟩ := (hl.pssTotal seed' k.n _ n _ (lib.digest hash data) hp2 hn
      (hl.digest _ _ _ hn) hp4).2 (jwsPss_fits ha (rsaOk_bits hp1).1 hn)
    unfold SigKey.signature
    dsimp only
    rw [numbers_rsaKey, hem]
    exact hl.rsaEncryptTotal _ _ _ _ _ _ _ _ _ h2 (rsa_bits hl h2 (rsaOk_bits hp1).1) hem

theorem jwsAsked_ok (hl : LawfulSigSsl lib) {seed : Seed} {url : PStr} {b : Bytes} {alg : PyStr} {s : SigKey}
    (h : SigKey.JwsAskedFor lib seed url b alg s) (hp : s.publicPart.Ok lib) : s.Ok lib := by
  refine ⟨hp, ?_⟩
  have ht := jwsAsked_total hl h hp lib.testSeed (by! "Wycheproof and Tink.")
  cases h with
  | @ecdsa b f alg g hash x y h1 h2 h3 =>
    obtain ⟨q1, q2⟩ := hl.generate seed g
    dsimp only
    rw [fromBytesBE_digits _ _ q2]
    exact q1
  | rsaPkcs1 h1 _ h2 =>
    obtain ⟨-, -, -, g1, g2, -⟩ := hl.rsaGenerate _ _ _ _ h2
    dsimp only
    rw [numbers_rsaKey]
    exact ⟨g1, g2, ht⟩
  | rsaPss h1 _ h2 =>
    obtain ⟨-, -, -, g1, g2, -⟩ := hl.rsaGenerate _ _ _ _ h2
    dsimp only
    rw [numbers_rsaKey]
    exact ⟨g1, g2, ht⟩

end

end Tink.Props
