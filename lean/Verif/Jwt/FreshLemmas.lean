import Verif.Props.JwtRegister
import Verif.Props.JwkSet
import Verif.Jwt.KeyLemmas

/-!
# Objects in a program that has called `register_jwt_signature`
-/

namespace Tink
namespace Props
open Jwt Spec

variable {F P C : Type} [DecidableEq C]

/-- The objects of a library are instances of their classes. -/
structure LawfulClasses (isInst : P → C → Bool) (L : Jwt.Library F P C) : Prop where
  sign : ∀ a, isInst (L.sign.inj a) L.signClass = true
  verify : ∀ a, isInst (L.verify.inj a) L.verifyClass = true
  signInternal : ∀ a, isInst (L.signInternal.inj a) L.signInternalClass = true
  verifyInternal : ∀ a, isInst (L.verifyInternal.inj a) L.verifyInternalClass = true
  different : L.signClass ≠ L.verifyClass

/-- A key manager for signing. -/
def signManager (L : Jwt.Library F P C) (url : PStr) (f : KeyData → Py (PyStr × Option PyStr)) : KeyManager P C :=
  jwtSignKeyManager L.signInternal L.signManagerType L.signInternalClass L.env (L.ccSign url) f

def verifyManager (L : Jwt.Library F P C) (url : PStr) (f : KeyData → Py (PyStr × Option PyStr)) : KeyManager P C :=
  jwtVerifyKeyManager L.verifyInternal L.verifyManagerType L.verifyInternalClass L.env (L.ccVerify url) f

def signWrapper (L : Jwt.Library F P C) : PrimitiveWrapper P C :=
  jwtSignWrapper L.signInternal L.sign L.signWrapperType L.signInternalClass L.signClass

def verifyWrapper (L : Jwt.Library F P C) : PrimitiveWrapper P C :=
  jwtVerifyWrapper L.verifyInternal L.verify L.verifyWrapperType L.verifyInternalClass L.verifyClass

/-- The registry after `register_jwt_signature` in a new process. -/
def freshRegistry (L : Jwt.Library F P C) : Registry P C where
  keyManagers :=
    [(JWT_ECDSA_PRIVATE_KEY_TYPE, (signManager L JWT_ECDSA_PRIVATE_KEY_TYPE ecdsaPrivateAlgKid, true)),
     (JWT_ECDSA_PUBLIC_KEY_TYPE, (verifyManager L JWT_ECDSA_PUBLIC_KEY_TYPE ecdsaPublicAlgKid, true)),
     (JWT_RSA_SSA_PKCS1_PRIVATE_KEY_TYPE,
       (signManager L JWT_RSA_SSA_PKCS1_PRIVATE_KEY_TYPE rsaSsaPkcs1PrivateAlgKid, true)),
     (JWT_RSA_SSA_PKCS1_PUBLIC_KEY_TYPE,
       (verifyManager L JWT_RSA_SSA_PKCS1_PUBLIC_KEY_TYPE rsaSsaPkcs1PublicAlgKid, true)),
     (JWT_RSA_SSA_PSS_PRIVATE_KEY_TYPE,
       (signManager L JWT_RSA_SSA_PSS_PRIVATE_KEY_TYPE rsaSsaPssPrivateAlgKid, true)),
     (JWT_RSA_SSA_PSS_PUBLIC_KEY_TYPE,
       (verifyManager L JWT_RSA_SSA_PSS_PUBLIC_KEY_TYPE rsaSsaPssPublicAlgKid, true))]
  wrappers := [(L.signClass, signWrapper L), (L.verifyClass, verifyWrapper L)]

theorem register_new {r : Registry P C} {m : KeyManager P C} {url : PStr} (hu : m.keyType = url)
    (hs : m.doesSupport url = true) (hg : PyDict.get? r.keyManagers url = none) :
    r.registerKeyManager m true =
      ({ r with keyManagers := PyDict.set r.keyManagers url (m, true) }, .ok ()) := by
  subst hu
  unfold Registry.registerKeyManager
  simp only [hs, hg, Bool.not_true, Bool.false_eq_true, if_false]

theorem sign_new {L : Jwt.Library F P C} (hl : LawfulLibrary L) {r : Registry P C} {url : PStr}
    {f : KeyData → Py (PyStr × Option PyStr)} (hg : PyDict.get? r.keyManagers url = none) :
    registerSignManager L url f r =
      ({ r with keyManagers := PyDict.set r.keyManagers url (signManager L url f, true) }, .ok ()) :=
  register_new (hl.ccSign url) (decide_eq_true (hl.ccSign url)) hg

theorem verify_new {L : Jwt.Library F P C} (hl : LawfulLibrary L) {r : Registry P C} {url : PStr}
    {f : KeyData → Py (PyStr × Option PyStr)} (hg : PyDict.get? r.keyManagers url = none) :
    registerVerifyManager L url f r =
      ({ r with keyManagers := PyDict.set r.keyManagers url (verifyManager L url f, true) }, .ok ()) :=
  register_new (hl.ccVerify url) (decide_eq_true (hl.ccVerify url)) hg

theorem wrapper_new {isInst : P → C → Bool} {r : Registry P C} {w : PrimitiveWrapper P C} {p : P}
    (hg : PyDict.get? r.wrappers w.primitiveClass = none) (hw : w.wrap { primitiveClass := w.inputPrimitiveClass } = .ok p)
    (hi : isInst p w.primitiveClass = true) : r.registerPrimitiveWrapper isInst w =
      ({ r with wrappers := PyDict.set r.wrappers w.primitiveClass w }, .ok ()) := by
  unfold Registry.registerPrimitiveWrapper
  rw [hg, hw]
  simp [hi]

theorem algorithmText_of {table : PyDict EnumVal PyStr} {a : EnumVal} {alg : PyStr} (h : (a, alg) ∈ table)
    (hn : (table.map Prod.fst).Nodup) : algorithmText table a = .ok alg := by
  unfold algorithmText
  have : PyDict.get? table a = some alg := by
    induction table with
    | nil => cases h
    | cons x t ih =>
      rw [List.map_cons, List.nodup_cons] at hn
      unfold PyDict.get?
      rcases List.mem_cons.1 h with rfl | h
      · exact if_pos rfl
      · rw [if_neg]
        · exact ih h hn.2
        · rintro rfl; exact hn.1 (List.mem_map.2 ⟨_, h, rfl⟩)
  rw [this]

theorem register_fresh {isInst : P → C → Bool} {L : Jwt.Library F P C} (hl : LawfulLibrary L)
    (hc : LawfulClasses isInst L) : registerJwtSignature isInst L {} = (freshRegistry L, .ok ()) := by
  unfold registerJwtSignature registerSignatureManagers
  rw [sign_new hl rfl]; simp only [andThen]
  rw [verify_new hl rfl]; simp only
  rw [sign_new hl rfl]; simp only
  rw [verify_new hl rfl]; simp only
  rw [sign_new hl rfl]; simp only
  rw [verify_new hl rfl]; simp only
  rw [show jwtSignWrapper L.signInternal L.sign L.signWrapperType L.signInternalClass L.signClass = signWrapper L
    from rfl, wrapper_new (w := signWrapper L) (hg := rfl) (hw := rfl) (hi := hc.sign _)]; simp only
  refine (wrapper_new (w := verifyWrapper L) (hg := ?_) (hw := rfl) (hi := hc.verify _)).trans ?_
  · exact if_neg hc.different
  · simp only [PyDict.set]
    rw [if_neg (show (signWrapper L).primitiveClass ≠ (verifyWrapper L).primitiveClass from hc.different)]
    rfl

/-- A key manager of the fresh registry gives an object for every key that C++ takes. -/
theorem fresh_verify {L : Jwt.Library F P C} {kd : KeyData} {alg : PyStr} {kid : Option PyStr}
    (hk : VerifyKey kd alg kid) {data : Bytes} {v : PublicKeyVerify} (hd : kd.serializeToString = .ok data)
    (hv : (L.ccVerify kd.typeUrl).primitive data = .ok v) :
    (freshRegistry L).primitive kd L.verifyInternalClass =
      .ok (L.verifyInternal.inj (jwtPublicKeyVerify L.env v alg kid)) := by
  have go : ∀ (url : PStr) (f : KeyData → Py (PyStr × Option PyStr)), kd.typeUrl = url →
      PyDict.get? (freshRegistry L).keyManagers url = some (verifyManager L url f, true) →
      f kd = .ok (alg, kid) → (freshRegistry L).primitive kd L.verifyInternalClass =
        .ok (L.verifyInternal.inj (jwtPublicKeyVerify L.env v alg kid)) := by
    rintro url f rfl hg hf
    unfold Registry.primitive Registry.keyManager Registry.keyManagerInternal
    rw [hg]
    simp only [bind, Except.bind, pure, Except.pure, verifyManager, jwtVerifyKeyManager, ne_eq, not_true_eq_false,
      if_false, verifyPrimitive, hd, hv, hf]
  cases hk with
  | ecdsa k u hk ha hkid =>
    refine go JWT_ECDSA_PUBLIC_KEY_TYPE ecdsaPublicAlgKid u rfl ?_
    unfold ecdsaPublicAlgKid
    rw [if_neg (show ¬ kd.typeUrl ≠ JWT_ECDSA_PUBLIC_KEY_TYPE from Decidable.not_not.2 u), hk, hkid]
    simp only [bind, Except.bind]
    rw [algorithmText_of (table := ecdsaAlgorithms) ha (by decide)]
    rfl
  | rsaSsaPkcs1 k u hk ha hkid =>
    refine go JWT_RSA_SSA_PKCS1_PUBLIC_KEY_TYPE rsaSsaPkcs1PublicAlgKid u rfl ?_
    unfold rsaSsaPkcs1PublicAlgKid
    rw [if_neg (show ¬ kd.typeUrl ≠ JWT_RSA_SSA_PKCS1_PUBLIC_KEY_TYPE from Decidable.not_not.2 u), hk, hkid]
    simp only [bind, Except.bind]
    rw [algorithmText_of (table := rsaSsaPkcs1Algorithms) ha (by decide)]
    rfl
  | rsaSsaPss k u hk ha hkid =>
    refine go JWT_RSA_SSA_PSS_PUBLIC_KEY_TYPE rsaSsaPssPublicAlgKid u rfl ?_
    unfold rsaSsaPssPublicAlgKid
    rw [if_neg (show ¬ kd.typeUrl ≠ JWT_RSA_SSA_PSS_PUBLIC_KEY_TYPE from Decidable.not_not.2 u), hk, hkid]
    simp only [bind, Except.bind]
    rw [algorithmText_of (table := rsaSsaPssAlgorithms) ha (by decide)]
    rfl

theorem fresh_sign {L : Jwt.Library F P C} {kd : KeyData} {alg : PyStr} {kid : Option PyStr}
    (hk : SignKey kd alg kid) {data : Bytes} {v : PublicKeySign} (hd : kd.serializeToString = .ok data)
    (hv : (L.ccSign kd.typeUrl).primitive data = .ok v) :
    (freshRegistry L).primitive kd L.signInternalClass =
      .ok (L.signInternal.inj (jwtPublicKeySign L.env v alg kid)) := by
  have go : ∀ (url : PStr) (f : KeyData → Py (PyStr × Option PyStr)), kd.typeUrl = url →
      PyDict.get? (freshRegistry L).keyManagers url = some (signManager L url f, true) →
      f kd = .ok (alg, kid) → (freshRegistry L).primitive kd L.signInternalClass =
        .ok (L.signInternal.inj (jwtPublicKeySign L.env v alg kid)) := by
    rintro url f rfl hg hf
    unfold Registry.primitive Registry.keyManager Registry.keyManagerInternal
    rw [hg]
    simp only [bind, Except.bind, pure, Except.pure, signManager, jwtSignKeyManager, ne_eq, not_true_eq_false,
      if_false, signPrimitive, hd, hv, hf]
  cases hk with
  | ecdsa k u hk ha hkid =>
    refine go JWT_ECDSA_PRIVATE_KEY_TYPE ecdsaPrivateAlgKid u rfl ?_
    unfold ecdsaPrivateAlgKid
    rw [if_neg (show ¬ kd.typeUrl ≠ JWT_ECDSA_PRIVATE_KEY_TYPE from Decidable.not_not.2 u), hk, hkid]
    simp only [bind, Except.bind]
    rw [algorithmText_of (table := ecdsaAlgorithms) ha (by decide)]
    rfl
  | rsaSsaPkcs1 k u hk ha hkid =>
    refine go JWT_RSA_SSA_PKCS1_PRIVATE_KEY_TYPE rsaSsaPkcs1PrivateAlgKid u rfl ?_
    unfold rsaSsaPkcs1PrivateAlgKid
    rw [if_neg (show ¬ kd.typeUrl ≠ JWT_RSA_SSA_PKCS1_PRIVATE_KEY_TYPE from Decidable.not_not.2 u), hk, hkid]
    simp only [bind, Except.bind]
    rw [algorithmText_of (table := rsaSsaPkcs1Algorithms) ha (by decide)]
    rfl
  | rsaSsaPss k u hk ha hkid =>
    refine go JWT_RSA_SSA_PSS_PRIVATE_KEY_TYPE rsaSsaPssPrivateAlgKid u rfl ?_
    unfold rsaSsaPssPrivateAlgKid
    rw [if_neg (show ¬ kd.typeUrl ≠ JWT_RSA_SSA_PSS_PRIVATE_KEY_TYPE from Decidable.not_not.2 u), hk, hkid]
    simp only [bind, Except.bind]
    rw [algorithmText_of (table := rsaSsaPssAlgorithms) ha (by decide)]
    rfl

/-- A primitive for every enabled key. -/
theorem enabled_choice {r : Registry P C} {ci : C} {ks : Keyset} {Q : Key → P → Prop}
    (h : ∀ k ∈ ks.key, Enabled k → ∃ o, r.primitive k.data ci = .ok o ∧ Q k o) :
    ∃ kps, EnabledPrimitives r ci ks kps ∧ ∀ q ∈ kps, q.1 ∈ ks.key ∧ Enabled q.1 ∧ Q q.1 q.2 := by
  have go : ∀ l : List Key, (∀ k ∈ l, ∃ o, r.primitive k.data ci = .ok o ∧ Q k o) →
      ∃ kps : List (Key × P), kps.map Prod.fst = l ∧
        ∀ q ∈ kps, r.primitive q.1.data ci = .ok q.2 ∧ Q q.1 q.2 := by
    intro l
    induction l with
    | nil => intro _; exact ⟨[], rfl, by simp⟩
    | cons k l ih =>
      intro hk
      obtain ⟨o, ho⟩ := hk k (by simp)
      obtain ⟨kps, h1, h2⟩ := ih fun k' hk' => hk k' (by simp [hk'])
      refine ⟨(k, o) :: kps, by simp [h1], ?_⟩
      intro q hq
      rcases List.mem_cons.1 hq with rfl | hq
      · exact ho
      · exact h2 q hq
  obtain ⟨kps, h1, h2⟩ := go (ks.key.filter fun k => Enabled k) (by
    intro k hk
    rw [List.mem_filter, decide_eq_true_eq] at hk
    exact h k hk.1 hk.2)
  refine ⟨kps, ⟨h1, fun q hq => (h2 q hq).1⟩, fun q hq => ?_⟩
  have : q.1 ∈ ks.key.filter fun k => Enabled k := h1 ▸ List.mem_map.2 ⟨q, hq, rfl⟩
  rw [List.mem_filter, decide_eq_true_eq] at this
  exact ⟨this.1, this.2, (h2 q hq).2⟩

/-- A field of bytes is at least as long as the bytes. -/
theorem length_len_field {fs : List Field} {num : Nat} {b : Bytes} (h : (⟨num, .len b⟩ : Field) ∈ fs) :
    b.length ≤ (encodeFields fs).length := by
  unfold encodeFields
  induction fs with
  | nil => cases h
  | cons f fs ih =>
    rw [List.flatMap_cons, List.length_append]
    rcases List.mem_cons.1 h with rfl | h
    · simp only [Field.encode, WireVal.encode, List.length_append]
      omega
    · have := ih h
      omega

/-- The key data of a keyset that can be serialized can be serialized. -/
theorem keyData_serializes {ks : Keyset} {b : Bytes} (hs : ks.serializeToString = .ok b) {k : Key} (hk : k ∈ ks.key) :
    ∃ data, k.data.serializeToString = .ok data := by
  have h1 := (serializeFields_ok hs).2
  have h2 : (encodeFields k.fields).length ≤ (encodeFields ks.fields).length := by
    refine length_len_field (num := 2) ?_
    unfold Keyset.fields
    exact List.mem_append_right _ (List.mem_map.2 ⟨k, hk, rfl⟩)
  have h3 : (encodeFields k.data.fields).length ≤ (encodeFields k.fields).length := by
    cases hd : k.keyData with
    | none =>
      have : encodeFields k.data.fields = [] := by unfold Key.data; rw [hd]; rfl
      rw [this]; exact Nat.zero_le _
    | some d =>
      refine length_len_field (num := 1) ?_
      unfold Key.fields Key.data
      rw [hd]
      simp [msgField]
  exact ⟨_, if_pos (by omega)⟩

theorem outputPrefix_jwt {k : Key}
    (h : k.outputPrefixType = OutputPrefixType.RAW ∨ k.outputPrefixType = OutputPrefixType.TINK) :
    ∃ id, outputPrefix k = .ok id := by
  unfold outputPrefix
  rcases h with h | h <;> rw [h] <;> exact ⟨_, rfl⟩

/-- A valid keyset of public keys that C++ takes gives a `JwtPublicKeyVerify`. -/
theorem verify_obtained {isInst : P → C → Bool} {L : Jwt.Library F P C} (hc : LawfulClasses isInst L)
    {h : KeysetHandle} (hv : Valid h.keyset)
    (hk : ∀ k ∈ h.keyset.key, Enabled k →
      (k.outputPrefixType = OutputPrefixType.RAW ∨ k.outputPrefixType = OutputPrefixType.TINK) ∧
      ∃ alg kid data v, VerifyKey k.data alg kid ∧ k.data.serializeToString = .ok data ∧
        (L.ccVerify k.data.typeUrl).primitive data = .ok v) :
    ∃ kps p, Obtained isInst (verifyWrapper L) (freshRegistry L) h L.verifyClass kps p := by
  obtain ⟨kps, h1, h2⟩ := enabled_choice (r := freshRegistry L) (ci := L.verifyInternalClass) (ks := h.keyset)
    (Q := fun k o => isInst o L.verifyInternalClass = true ∧
      (k.outputPrefixType = OutputPrefixType.RAW ∨ k.outputPrefixType = OutputPrefixType.TINK)) (by
    intro k hm he
    obtain ⟨hp, alg, kid, data, v, g1, g2, g3⟩ := hk k hm he
    exact ⟨_, fresh_verify g1 g2 g3, hc.verifyInternal _, hp⟩)
  have hw : PyDict.get? (freshRegistry L).wrappers L.verifyClass = some (verifyWrapper L) := by
    unfold freshRegistry PyDict.get?
    rw [if_neg hc.different]
    exact if_pos rfl
  have hval := (validate_iff L.verifyInternal.view L.verifyInternalClass h.keyset.primaryKeyId kps).2
    fun q hq => (h2 q hq).2.2.2
  refine ⟨kps, L.verify.inj ⟨WrappedJwtPublicKeyVerify.verifyAndDecode
    ((psetOf L.verifyInternalClass h.keyset.primaryKeyId kps).map L.verifyInternal.view)⟩, hw, ?_, h1⟩
  refine primitive_ok_iff.2 ⟨(C20_validate_iff _).2 hv, verifyWrapper L, kps, hw, h1, fun q hq => ?_, ?_⟩
  · exact ⟨(h2 q hq).2.2.1, outputPrefix_jwt (h2 q hq).2.2.2⟩
  · show (do let p ← WrappedJwtPublicKeyVerify.wrap _; return L.verify.inj p : Py P) = _
    unfold WrappedJwtPublicKeyVerify.wrap
    show (do let p ← (do validatePrimitiveSet ((psetOf L.verifyInternalClass h.keyset.primaryKeyId kps).map
      L.verifyInternal.view); return _ : Py _); return L.verify.inj p : Py P) = _
    rw [hval]
    rfl

theorem sign_obtained {isInst : P → C → Bool} {L : Jwt.Library F P C} (hc : LawfulClasses isInst L)
    {h : KeysetHandle} (hv : Valid h.keyset)
    (hk : ∀ k ∈ h.keyset.key, Enabled k →
      (k.outputPrefixType = OutputPrefixType.RAW ∨ k.outputPrefixType = OutputPrefixType.TINK) ∧
      ∃ alg kid data v, SignKey k.data alg kid ∧ k.data.serializeToString = .ok data ∧
        (L.ccSign k.data.typeUrl).primitive data = .ok v) :
    ∃ kps p, Obtained isInst (signWrapper L) (freshRegistry L) h L.signClass kps p := by
  obtain ⟨kps, h1, h2⟩ := enabled_choice (r := freshRegistry L) (ci := L.signInternalClass) (ks := h.keyset)
    (Q := fun k o => isInst o L.signInternalClass = true ∧
      (k.outputPrefixType = OutputPrefixType.RAW ∨ k.outputPrefixType = OutputPrefixType.TINK)) (by
    intro k hm he
    obtain ⟨hp, alg, kid, data, v, g1, g2, g3⟩ := hk k hm he
    exact ⟨_, fresh_sign g1 g2 g3, hc.signInternal _, hp⟩)
  have hw : PyDict.get? (freshRegistry L).wrappers L.signClass = some (signWrapper L) := by
    unfold freshRegistry PyDict.get?
    exact if_pos rfl
  have hval := (validate_iff L.signInternal.view L.signInternalClass h.keyset.primaryKeyId kps).2
    fun q hq => (h2 q hq).2.2.2
  refine ⟨kps, L.sign.inj ⟨WrappedJwtPublicKeySign.signAndEncode
    ((psetOf L.signInternalClass h.keyset.primaryKeyId kps).map L.signInternal.view)⟩, hw, ?_, h1⟩
  refine primitive_ok_iff.2 ⟨(C20_validate_iff _).2 hv, signWrapper L, kps, hw, h1, fun q hq => ?_, ?_⟩
  · exact ⟨(h2 q hq).2.2.1, outputPrefix_jwt (h2 q hq).2.2.2⟩
  · show (do let p ← WrappedJwtPublicKeySign.wrap _; return L.sign.inj p : Py P) = _
    unfold WrappedJwtPublicKeySign.wrap
    show (do let p ← (do validatePrimitiveSet ((psetOf L.signInternalClass h.keyset.primaryKeyId kps).map
      L.signInternal.view); return _ : Py _); return L.sign.inj p : Py P) = _
    rw [hval]
    rfl

end Props
end Tink
