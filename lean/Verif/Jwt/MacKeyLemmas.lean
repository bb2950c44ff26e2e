import Verif.Cc.JwtHmacLemmas
import Verif.Cc.KeysetLemmas
import Verif.Jwt.DecodeLemmas
import Verif.Props.JwtRegister

/-!
# Lemmas for C95
-/

namespace Tink.Props
open Spec Cc Jwt

/-! ## Registration -/

section
variable {F P C : Type} [DecidableEq C]

theorem register_get_other {r : Registry P C} {m : KeyManager P C} {b : Bool} {url : PStr} (hu : m.keyType ≠ url) :
    PyDict.get? (r.registerKeyManager m b).1.keyManagers url = PyDict.get? r.keyManagers url := by
  unfold Registry.registerKeyManager
  dsimp only
  repeat' split
  all_goals first
    | rfl
    | (show PyDict.get? (PyDict.set _ _ _) _ = _; rw [PyDict.get?_set, if_neg hu])

theorem register_manager_wrappers (r : Registry P C) (m : KeyManager P C) (b : Bool) :
    (r.registerKeyManager m b).1.wrappers = r.wrappers := by
  unfold Registry.registerKeyManager
  dsimp only
  repeat' split
  all_goals rfl

theorem wrapper_get_other {isInst : P → C → Bool} {r : Registry P C} {w : PrimitiveWrapper P C} {c : C}
    (hc : w.primitiveClass ≠ c) :
    PyDict.get? (r.registerPrimitiveWrapper isInst w).1.wrappers c = PyDict.get? r.wrappers c := by
  unfold Registry.registerPrimitiveWrapper
  dsimp only
  repeat' split
  all_goals first
    | rfl
    | (show PyDict.get? (PyDict.set _ _ _) _ = _; rw [PyDict.get?_set, if_neg hc])

variable {L : Library F P C} {isInst : P → C → Bool}

/-- The manager and the wrapper that `register_jwt_mac` registers. -/
def macManager (L : Library F P C) : KeyManager P C :=
  jwtMacKeyManager L.macInternal L.macManagerType L.macInternalClass L.env (L.ccMac jwtHmacType)

def macWrapper (L : Library F P C) : PrimitiveWrapper P C :=
  jwtMacWrapper L.macInternal L.mac L.macWrapperType L.macInternalClass L.macClass

/-- What is registered for JWT MACs is Tink's. -/
structure MacCanon (L : Library F P C) (r : Registry P C) : Prop where
  manager : PyDict.get? r.keyManagers jwtHmacType = none ∨
    PyDict.get? r.keyManagers jwtHmacType = some (macManager L, true)
  wrapper : PyDict.get? r.wrappers L.macClass = none ∨ PyDict.get? r.wrappers L.macClass = some (macWrapper L)

/-- And it is registered. -/
structure MacDone (L : Library F P C) (r : Registry P C) : Prop where
  manager : PyDict.get? r.keyManagers jwtHmacType = some (macManager L, true)
  wrapper : PyDict.get? r.wrappers L.macClass = some (macWrapper L)

omit [DecidableEq C] in
theorem MacDone.canon [DecidableEq C] {r : Registry P C} (h : MacDone L r) : MacCanon L r :=
  ⟨.inr h.manager, .inr h.wrapper⟩

/-- Nothing has changed for JWT MACs. -/
structure MacSame (L : Library F P C) (r r' : Registry P C) : Prop where
  manager : PyDict.get? r'.keyManagers jwtHmacType = PyDict.get? r.keyManagers jwtHmacType
  wrapper : PyDict.get? r'.wrappers L.macClass = PyDict.get? r.wrappers L.macClass

theorem MacSame.refl (r : Registry P C) : MacSame L r r := ⟨rfl, rfl⟩

theorem MacSame.canon {r r' : Registry P C} (h : MacSame L r r') (hc : MacCanon L r) : MacCanon L r' :=
  ⟨by rw [h.manager]; exact hc.manager, by rw [h.wrapper]; exact hc.wrapper⟩

theorem MacSame.done {r r' : Registry P C} (h : MacSame L r r') (hc : MacDone L r) : MacDone L r' :=
  ⟨h.manager.trans hc.manager, h.wrapper.trans hc.wrapper⟩

theorem MacSame.keyManager {r₀ r : Registry P C} (h : MacSame L r₀ r) {m : KeyManager P C} (b : Bool)
    (hu : m.keyType ≠ jwtHmacType) : MacSame L r₀ (r.registerKeyManager m b).1 :=
  ⟨(register_get_other hu).trans h.manager, by rw [register_manager_wrappers]; exact h.wrapper⟩

theorem MacSame.primitiveWrapper {r₀ r : Registry P C} (h : MacSame L r₀ r) {w : PrimitiveWrapper P C}
    (hc : w.primitiveClass ≠ L.macClass) : MacSame L r₀ (r.registerPrimitiveWrapper isInst w).1 :=
  ⟨by rw [register_wrapper_managers]; exact h.manager, (wrapper_get_other hc).trans h.wrapper⟩

theorem registerJwtMac_done (hl : LawfulLibrary L) (hi : JwtMacInstances isInst L) {r : Registry P C}
    (hc : MacCanon L r) : MacDone L (registerJwtMac isInst L r).1 ∧ (registerJwtMac isInst L r).2 = .ok () := by
  have hkt : (macManager L).keyType = jwtHmacType := hl.ccMac _
  have hsup : (macManager L).doesSupport jwtHmacType = true := decide_eq_true (hl.ccMac _)
  have h1 : PyDict.get? (registerHmac L r).1.keyManagers jwtHmacType = some (macManager L, true) ∧
      (registerHmac L r).2 = .ok () ∧ (registerHmac L r).1.wrappers = r.wrappers := by
    show PyDict.get? (r.registerKeyManager (macManager L) true).1.keyManagers _ = _ ∧
      (r.registerKeyManager (macManager L) true).2 = _ ∧ _
    refine ⟨?_, ?_, register_manager_wrappers ..⟩
    all_goals
      unfold Registry.registerKeyManager
      dsimp only
      rw [hkt, hsup]
      rcases hc.manager with h | h <;> rw [h] <;> simp [PyDict.get?_set]
  obtain ⟨h1, h2, h3⟩ := h1
  have h4 : registerJwtMac isInst L r =
      (registerHmac L r).1.registerPrimitiveWrapper isInst (macWrapper L) := by
    unfold registerJwtMac
    generalize registerHmac L r = x at h2
    obtain ⟨x1, x2⟩ := x
    dsimp only at h2
    subst h2
    rfl
  have hw : (macWrapper L).wrap { primitiveClass := (macWrapper L).inputPrimitiveClass } =
      .ok (L.mac.inj
        { computeMacAndEncode := WrappedJwtMac.computeMacAndEncode
            (PrimitiveSet.map L.macInternal.view { primitiveClass := L.macInternalClass })
          verifyMacAndDecode := WrappedJwtMac.verifyMacAndDecode
            (PrimitiveSet.map L.macInternal.view { primitiveClass := L.macInternalClass }) }) := rfl
  have hreg : (registerHmac L r).1.registerPrimitiveWrapper isInst (macWrapper L) =
      ({ (registerHmac L r).1 with
          wrappers := PyDict.set (registerHmac L r).1.wrappers L.macClass (macWrapper L) }, .ok ()) := by
    unfold Registry.registerPrimitiveWrapper
    dsimp only
    rw [hw, h3]
    dsimp only
    rw [show (macWrapper L).primitiveClass = L.macClass from rfl, hi.mac]
    rcases hc.wrapper with h | h <;> rw [h] <;> simp
  rw [h4, hreg]
  exact ⟨⟨h1, by simp [PyDict.get?_set]⟩, rfl⟩

end

/-! ## Keys -/

theorem JwsMac.in_table {a : EnumVal} {alg : PyStr} {hash : EnumVal} {n : Nat} (h : JwsMac a alg hash n) :
    PyDict.get? hmacAlgorithms a = some alg := by
  cases h <;> rfl

theorem JwsMac.digest {a : EnumVal} {alg : PyStr} {hash : EnumVal} {n : Nat} (h : JwsMac a alg hash n) :
    Digest hash n := by
  cases h
  · exact .sha256
  · exact .sha384
  · exact .sha512

theorem JwsMac.unique {a : EnumVal} {alg alg' : PyStr} {hash hash' : EnumVal} {n n' : Nat}
    (h : JwsMac a alg hash n) (h' : JwsMac a alg' hash' n') : alg' = alg ∧ hash' = hash ∧ n' = n := by
  cases h <;> cases h' <;> exact ⟨rfl, rfl, rfl⟩

theorem JwsMacKey.unique {kd : KeyData} {alg alg' : PyStr} {ck ck' : Option PyStr} {hash hash' : EnumVal}
    {key key' : Bytes} (h : JwsMacKey kd alg ck hash key) (h' : JwsMacKey kd alg' ck' hash' key') :
    alg' = alg ∧ ck' = ck ∧ hash' = hash ∧ key' = key := by
  obtain ⟨-, h1, -, h2, -⟩ := h
  obtain ⟨-, g1, -, g2, -⟩ := h'
  rw [h1] at g1
  cases g1
  obtain ⟨e1, e2, -⟩ := JwsMac.unique h2 g2
  exact ⟨e1, rfl, e2, rfl⟩

theorem JwsMacKey.token {kd : KeyData} {alg : PyStr} {ck : Option PyStr} {hash : EnumVal} {key : Bytes}
    (h : JwsMacKey kd alg ck hash key) : TokenMacKey kd alg ck := by
  obtain ⟨h0, h1, -, h2, -⟩ := h
  exact ⟨h0, _, h1, get_hmac (JwsMac.in_table h2), rfl⟩

/-- The Python object for the MAC of a key. -/
theorem bound_primitive {A B : Type} (toPy : B → A) (m : Cpp.KeyManager B) {kd : KeyData} {data : Bytes}
    (hd : kd.serializeToString = .ok data) :
    (boundKeyManager toPy m).primitive data = reported toPy (m.getPrimitive kd) := by
  show useTinkErrors (throwTinkException (m.getPrimitive (Tink.CcKeyManager.parseKeyData data)) >>= _) = _
  rw [parseKeyData_serialize hd]
  cases m.getPrimitive kd <;> rfl

theorem bound_newKeyData {A B : Type} (toPy : B → A) (m : Cpp.KeyManager B) {seed : Seed} {t : KeyTemplate}
    (h : FitsTemplate t) (hu : t.typeUrl = m.keyType)
    (hf : ∀ kd, m.newKeyData seed t.value = .ok kd → Fits kd) :
    ccNewKeyData (boundKeyManager toPy m) seed t = reported id (m.newKeyData seed t.value) := by
  obtain ⟨b, hb⟩ := h
  unfold ccNewKeyData boundKeyManager Tink.CcKeyManager.newKeyData
  rw [hb]
  simp only [bind, Except.bind, parseKeyTemplate_serialize hb, hu, ne_eq, not_true, if_false]
  cases hk : m.newKeyData seed t.value with
  | error e => rfl
  | ok kd =>
    simp only [throwTinkException, pure, Except.pure, useTinkErrors]
    rw [fromString_serializeAsString (hf kd hk)]
    rfl

section
variable {lib : Ssl}

theorem jwtHmac_getPrimitive {kd : KeyData} {a : Cpp.Mac} :
    (RawJwtHmacKeyManager.keyTypeManager lib).toKeyManager.getPrimitive kd = .ok a ↔
      ∃ alg ck hash key n, JwsMacKey kd alg ck hash key ∧ Digest hash n ∧ a = hmacPrim lib key hash n := by
  have hprim : ∀ {k : JwtHmacKey} {alg hash n}, JwsMac k.algorithm alg hash n →
      tokenPrim lib ⟨k.algorithm, k.keyValue, k.customKid⟩ = hmacPrim lib k.keyValue hash n := by
    intro k alg hash n h
    unfold tokenPrim TokenSecret.hash TokenSecret.digest
    dsimp only
    generalize k.algorithm = a at h
    cases h <;> rfl
  show (RawJwtHmacKeyManager.keyTypeManager lib).getPrimitive kd = .ok a ↔ _
  rw [getPrimitive_iff]
  constructor
  · rintro ⟨hu, k, h1, h2⟩
    obtain ⟨hv, ⟨alg, hash, n, h3, h4⟩, rfl⟩ := jwtHmac_key.1 h2
    exact ⟨alg, _, hash, _, n, ⟨hu, h1, hv, h3, h4⟩, JwsMac.digest h3, hprim h3⟩
  · rintro ⟨alg, ck, hash, key, n, ⟨hu, h1, hv, h3, h4⟩, hd, rfl⟩
    refine ⟨hu, _, h1, jwtHmac_key.2 ⟨hv, ⟨_, _, _, h3, h4⟩, ?_⟩⟩
    rw [hprim h3]
    congr 1
    have hd' := JwsMac.digest h3
    clear hprim h3 h4
    cases hd' <;> cases hd <;> rfl

theorem hmac_python (hl : LawfulSsl lib) {hash : EnumVal} {n : Nat} (hd : Digest hash n) (key : Bytes) :
    (∀ data tag, (macCcToPy (hmacPrim lib key hash n)).computeMac data = .ok tag ↔
      lib.hmac hash key data = some tag) ∧
    (macCcToPy (hmacPrim lib key hash n)).verifyMac = hmacCheck lib hash key := by
  have hc : ∀ data, ∃ b, lib.hmac hash key data = some b ∧ b.length = n := hl.hmac hash n hd key
  constructor
  · intro data tag
    obtain ⟨b, hb, hn⟩ := hc data
    rw [C65_primitives.2.2.2.2.2.2.1, reported_ok]
    show hmacCompute lib hash n key data = _ ↔ _
    unfold hmacCompute
    rw [hb]
    dsimp only
    rw [List.take_of_length_le (by omega)]
    simp
  · funext tag data
    obtain ⟨b, hb, hn⟩ := hc data
    rw [C65_primitives.2.2.2.2.2.2.2.1]
    show reported id (hmacVerify lib hash n key tag data) = _
    unfold hmacVerify hmacCheck
    rw [hb]
    dsimp only
    rw [List.take_of_length_le (by omega : b.length ≤ n)]
    by_cases ht : b = tag
    · subst ht
      rw [if_neg (by simpa using hn), List.take_of_length_le (by omega)]
      simp [reported]
    · by_cases h2 : tag.length = n
      · rw [if_neg (by simpa using h2), List.take_of_length_le (by omega), if_pos ht, if_neg (by simpa using ht)]
        rfl
      · rw [if_pos h2, if_neg (by simpa using ht)]
        rfl

end

end Tink.Props
