import Verif.Spec.Config
import Verif.Examples.ToyConfig
import Verif.Keyset.WireLemmas
import Verif.Keyset.HandleLemmas

/-!
# C65: what passes between Python and C++

Key data, templates and arguments reach the C++ key managers and primitives unchanged, their results
come back unchanged, and their errors are `TinkError`s.
-/

namespace Tink.Props
open Spec Config

/-! ## Helpers -/

theorem useTinkErrors_throw {α : Type} (x : StatusOr α) :
    useTinkErrors (throwTinkException x) = reported id x := by
  cases x <;> rfl

theorem parseKeyData_serialize {kd : KeyData} {b : Bytes} (h : kd.serializeToString = .ok b) :
    CcKeyManager.parseKeyData b = kd := by
  unfold CcKeyManager.parseKeyData
  rw [KeyData.fromString_serializeToString h]

theorem parseKeyTemplate_serialize {t : KeyTemplate} {b : Bytes} (h : t.serializeToString = .ok b) :
    CcKeyManager.parseKeyTemplate b = t := by
  unfold CcKeyManager.parseKeyTemplate
  rw [KeyTemplate.fromString_serializeToString h]

theorem fromString_serializeAsString {kd : KeyData} (h : Fits kd) :
    KeyData.fromString (CcKeyManager.serializeAsString kd) = .ok kd := by
  obtain ⟨b, hb⟩ := h
  unfold CcKeyManager.serializeAsString
  rw [hb]
  exact KeyData.fromString_serializeToString hb

theorem serialize_error {kd : KeyData} (h : ¬ Fits kd) : kd.serializeToString = .error .encodeError := by
  unfold Fits KeyData.serializeToString serializeFields at *
  dsimp only at *
  split
  · rename_i hl; exact absurd ⟨_, if_pos hl⟩ h
  · rfl

theorem fromString_oversize {kd : KeyData} (h : ¬ Fits kd) :
    KeyData.fromString (CcKeyManager.serializeAsString kd) = .ok {} := by
  unfold CcKeyManager.serializeAsString
  rw [serialize_error h]
  rfl

theorem serialize_template_error {t : KeyTemplate} (h : ¬ FitsTemplate t) :
    t.serializeToString = .error .encodeError := by
  unfold FitsTemplate KeyTemplate.serializeToString serializeFields at *
  dsimp only at *
  split
  · rename_i hl; exact absurd ⟨_, if_pos hl⟩ h
  · rfl

section
variable {A B P C : Type}

theorem ccToPyPrimitive_eq (V : View P A) (toPy : B → A) (cc : Cpp.KeyManager B) {kd : KeyData}
    (h : Fits kd) :
    ccToPyPrimitive V toPy cc kd = reported (fun b => V.inj (toPy b)) (cc.getPrimitive kd) := by
  obtain ⟨b, hb⟩ := h
  unfold ccToPyPrimitive CcKeyManager.primitive
  rw [hb]
  show useTinkErrors (throwTinkException (cc.getPrimitive (CcKeyManager.parseKeyData b)) >>= _) = _
  rw [parseKeyData_serialize hb]
  cases cc.getPrimitive kd <;> rfl

theorem ccToPyNewKeyData_eq (cc : Cpp.KeyManager B) {seed : Seed} {t : KeyTemplate}
    (h : FitsTemplate t) (hu : t.typeUrl = cc.keyType)
    (hf : ∀ kd, cc.newKeyData seed t.value = .ok kd → Fits kd) :
    ccToPyNewKeyData cc seed t = reported id (cc.newKeyData seed t.value) := by
  obtain ⟨b, hb⟩ := h
  unfold ccToPyNewKeyData CcKeyManager.newKeyData
  rw [hb]
  simp only [bind, Except.bind, parseKeyTemplate_serialize hb, hu, ne_eq, not_true, if_false]
  cases hk : cc.newKeyData seed t.value with
  | error e => rfl
  | ok kd =>
    simp only [throwTinkException, pure, Except.pure]
    rw [fromString_serializeAsString (hf kd hk)]
    rfl

theorem ccToPyNewKeyData_other (cc : Cpp.KeyManager B) {seed : Seed} {t : KeyTemplate}
    (h : FitsTemplate t) (hu : t.typeUrl ≠ cc.keyType) :
    ccToPyNewKeyData cc seed t = .error .tinkError := by
  obtain ⟨b, hb⟩ := h
  unfold ccToPyNewKeyData CcKeyManager.newKeyData
  rw [hb]
  have hu' : ¬ cc.keyType = t.typeUrl := fun h => hu h.symm
  simp only [bind, Except.bind, parseKeyTemplate_serialize hb, ne_eq]
  rw [if_pos hu']
  rfl

theorem ccToPyPublicKeyData_eq (cc : Cpp.KeyManager B) {kd : KeyData} (h : Fits kd)
    (hf : ∀ f pub, cc.publicKeyData = some f → f kd.value = .ok pub → Fits pub) :
    ccToPyPublicKeyData cc kd = match cc.publicKeyData with
      | some f => reported id (f kd.value)
      | none => .error .tinkError := by
  obtain ⟨b, hb⟩ := h
  unfold ccToPyPublicKeyData CcKeyManager.publicKeyData
  rw [hb]
  simp only [bind, Except.bind, parseKeyData_serialize hb]
  cases hc : cc.publicKeyData with
  | none => rfl
  | some f =>
    dsimp only
    cases hk : f kd.value with
    | error e => rfl
    | ok pub =>
      simp only [throwTinkException, pure, Except.pure]
      rw [fromString_serializeAsString (hf f pub hc hk)]
      rfl

/-! ## The property -/

/-- C65.  The Python key manager hands key data and templates to the C++ key manager, and its results
back. -/
theorem C65_serves (V : View P A) (toPy : B → A) (t : Nat) (c : C) (cc : Cpp.KeyManager B) :
    Serves V toPy cc false (keyManagerCcToPy V toPy t c cc) where
  keyType := rfl
  primitive _ h := ccToPyPrimitive_eq V toPy cc h
  newKeyData _ _ h hu hf := ccToPyNewKeyData_eq cc h hu hf
  isPrivate := rfl
  publicKeyData _ h := by cases h

/-- C65.  So does the key manager for private keys; the public part of a private key is what the C++ key
manager makes of the private key's value (and a `TinkError` if that has no public keys). -/
theorem C65_serves_private (V : View P A) (toPy : B → A) (t : Nat) (c : C) (cc : Cpp.KeyManager B) :
    Serves V toPy cc true (privateKeyManagerCcToPy V toPy t c cc) where
  keyType := rfl
  primitive _ h := ccToPyPrimitive_eq V toPy cc h
  newKeyData _ _ h hu hf := ccToPyNewKeyData_eq cc h hu hf
  isPrivate := rfl
  publicKeyData _ h _ hk hf := by cases h; exact ccToPyPublicKeyData_eq cc hk hf

/-- C65.  A template for another key type is refused with a `TinkError`. -/
theorem C65_other_template (V : View P A) (toPy : B → A) (t : Nat) (c : C) (cc : Cpp.KeyManager B)
    (seed : Seed) {template : KeyTemplate} (h : FitsTemplate template)
    (hu : template.typeUrl ≠ cc.keyType) :
    (keyManagerCcToPy V toPy t c cc).newKeyData seed template = .error .tinkError ∧
    (privateKeyManagerCcToPy V toPy t c cc).newKeyData seed template = .error .tinkError :=
  ⟨ccToPyNewKeyData_other cc h hu, ccToPyNewKeyData_other cc h hu⟩

/-- C65.  Messages too large to be serialized never reach C++; protobuf's exception is passed on. -/
theorem C65_oversize (V : View P A) (toPy : B → A) (t : Nat) (c : C) (cc : Cpp.KeyManager B) :
    (∀ kd, ¬ Fits kd →
      (keyManagerCcToPy V toPy t c cc).primitive kd = .error .encodeError ∧
      (privateKeyManagerCcToPy V toPy t c cc).primitive kd = .error .encodeError) ∧
    (∀ seed template, ¬ FitsTemplate template →
      (keyManagerCcToPy V toPy t c cc).newKeyData seed template = .error .encodeError ∧
      (privateKeyManagerCcToPy V toPy t c cc).newKeyData seed template = .error .encodeError) := by
  have hp : ∀ kd, ¬ Fits kd → ccToPyPrimitive V toPy cc kd = .error .encodeError := by
    intro kd h; unfold ccToPyPrimitive; rw [serialize_error h]; rfl
  have hn : ∀ seed template, ¬ FitsTemplate template →
      ccToPyNewKeyData cc seed template = .error .encodeError := by
    intro seed template h; unfold ccToPyNewKeyData; rw [serialize_template_error h]; rfl
  exact ⟨fun kd h => ⟨hp kd h, hp kd h⟩, fun s t h => ⟨hn s t h, hn s t h⟩⟩

/-- C65, violation.  Key data that C++ makes and that are too large to be serialized do not come back: the
program gets key data that are empty, and no exception. -/
theorem C65_oversize_result_lost (V : View P A) (toPy : B → A) (t : Nat) (c : C) (cc : Cpp.KeyManager B) :
    (∀ seed template made, FitsTemplate template → template.typeUrl = cc.keyType →
      cc.newKeyData seed template.value = .ok made → ¬ Fits made →
      (keyManagerCcToPy V toPy t c cc).newKeyData seed template = .ok {} ∧
      (privateKeyManagerCcToPy V toPy t c cc).newKeyData seed template = .ok {}) ∧
    (∀ g kd f pub, (privateKeyManagerCcToPy V toPy t c cc).publicKeyData = some g → Fits kd →
      cc.publicKeyData = some f → f kd.value = .ok pub → ¬ Fits pub → g kd = .ok {}) := by
  refine ⟨fun seed template made h hu hk hf => ?_, fun g kd f pub hg h hc hk hf => ?_⟩
  · have : ccToPyNewKeyData cc seed template = .ok {} := by
      obtain ⟨b, hb⟩ := h
      unfold ccToPyNewKeyData CcKeyManager.newKeyData
      rw [hb]
      simp only [bind, Except.bind, parseKeyTemplate_serialize hb, hu, ne_eq, not_true, if_false, hk,
        throwTinkException, pure, Except.pure]
      rw [fromString_oversize hf]
      rfl
    exact ⟨this, this⟩
  · cases hg
    obtain ⟨b, hb⟩ := h
    unfold ccToPyPublicKeyData CcKeyManager.publicKeyData
    rw [hb]
    simp only [bind, Except.bind, parseKeyData_serialize hb, hc, hk, throwTinkException, pure, Except.pure]
    rw [fromString_oversize hf]
    rfl

/-- The exceptions that can come out of a call that goes to C++ with a message. -/
def CcError (e : Exc) : Prop := e = .tinkError ∨ e = .encodeError

/-- C65.  However C++ fails, the program sees `TinkError`, unless its own message was too large. -/
theorem C65_errors (V : View P A) (toPy : B → A) (t : Nat) (c : C) (cc : Cpp.KeyManager B) (e : Exc)
    {m : KeyManager P C}
    (hm : m = keyManagerCcToPy V toPy t c cc ∨ m = privateKeyManagerCcToPy V toPy t c cc) :
    (∀ kd, m.primitive kd = .error e → CcError e) ∧
    (∀ seed template, m.newKeyData seed template = .error e → CcError e) ∧
    (∀ g kd, m.publicKeyData = some g → g kd = .error e → CcError e) := by
  have hrep : ∀ {α β : Type} {f : α → β} {x : StatusOr α}, reported f x = .error e → CcError e := by
    intro α β f x h
    cases x with
    | ok a => cases h
    | error _ => cases h; exact .inl rfl
  have hp : m.primitive = ccToPyPrimitive V toPy cc := by rcases hm with rfl | rfl <;> rfl
  have hn : m.newKeyData = ccToPyNewKeyData cc := by rcases hm with rfl | rfl <;> rfl
  refine ⟨fun kd he => ?_, fun seed template he => ?_, fun g kd hg he => ?_⟩
  · rw [hp] at he
    by_cases h : Fits kd
    · rw [ccToPyPrimitive_eq V toPy cc h] at he
      exact hrep he
    · unfold ccToPyPrimitive at he
      rw [serialize_error h] at he
      cases he; exact .inr rfl
  · rw [hn] at he
    by_cases h : FitsTemplate template
    · by_cases hu : template.typeUrl = cc.keyType
      · by_cases hf : ∀ kd, cc.newKeyData seed template.value = .ok kd → Fits kd
        · rw [ccToPyNewKeyData_eq cc h hu hf] at he
          exact hrep he
        · simp only [Classical.not_forall, not_imp] at hf
          obtain ⟨kd, hk, hf⟩ := hf
          have := ((C65_oversize_result_lost V toPy t c cc).1 seed template kd h hu hk hf).1
          rw [show ccToPyNewKeyData cc seed template = .ok {} from this] at he
          cases he
      · rw [ccToPyNewKeyData_other cc h hu] at he
        cases he; exact .inl rfl
    · unfold ccToPyNewKeyData at he
      rw [serialize_template_error h] at he
      cases he; exact .inr rfl
  · have hg' : g = ccToPyPublicKeyData cc := by rcases hm with rfl | rfl <;> cases hg; rfl
    rw [hg'] at he
    by_cases h : Fits kd
    · by_cases hf : ∀ f pub, cc.publicKeyData = some f → f kd.value = .ok pub → Fits pub
      · rw [ccToPyPublicKeyData_eq cc h hf] at he
        split at he
        · exact hrep he
        · cases he; exact .inl rfl
      · simp only [Classical.not_forall, not_imp] at hf
        obtain ⟨f, pub, hc, hk, hf⟩ := hf
        have := (C65_oversize_result_lost V toPy t c cc).2 (ccToPyPublicKeyData cc) kd f pub rfl h hc hk hf
        rw [this] at he
        cases he
    · unfold ccToPyPublicKeyData at he
      rw [serialize_error h] at he
      cases he; exact .inr rfl

end

/-- C65.  The primitives: arguments in their order to C++, its result or a `TinkError` back. -/
theorem C65_primitives :
    (∀ a seed pt ad, (aeadCcToPy a).encrypt seed pt ad = reported id (a.encrypt seed pt ad)) ∧
    (∀ a ct ad, (aeadCcToPy a).decrypt ct ad = reported id (a.decrypt ct ad)) ∧
    (∀ a pt ad, (daeadCcToPy a).encryptDeterministically pt ad =
      reported id (a.encryptDeterministically pt ad)) ∧
    (∀ a ct ad, (daeadCcToPy a).decryptDeterministically ct ad =
      reported id (a.decryptDeterministically ct ad)) ∧
    (∀ a seed pt info, (hybridEncryptCcToPy a).encrypt seed pt info =
      reported id (a.encrypt seed pt info)) ∧
    (∀ a ct info, (hybridDecryptCcToPy a).decrypt ct info = reported id (a.decrypt ct info)) ∧
    (∀ a data, (macCcToPy a).computeMac data = reported id (a.computeMac data)) ∧
    (∀ a mac data, (macCcToPy a).verifyMac mac data = reported id (a.verifyMac mac data)) ∧
    (∀ a seed data, (signCcToPy a).sign seed data = reported id (a.sign seed data)) ∧
    (∀ a signature data, (verifyCcToPy a).verify signature data =
      reported id (a.verify signature data)) ∧
    (∀ a input length, (prfCcToPy a).compute input length = reported id (a.compute input length)) :=
  ⟨fun _ _ _ _ => useTinkErrors_throw _, fun _ _ _ => useTinkErrors_throw _,
   fun _ _ _ => useTinkErrors_throw _, fun _ _ _ => useTinkErrors_throw _,
   fun _ _ _ _ => useTinkErrors_throw _, fun _ _ _ => useTinkErrors_throw _,
   fun _ _ => useTinkErrors_throw _, fun _ _ _ => useTinkErrors_throw _,
   fun _ _ _ => useTinkErrors_throw _, fun _ _ _ => useTinkErrors_throw _,
   fun _ _ _ => useTinkErrors_throw _⟩

/-! ## Examples -/

section
open ToyConfig

def ecdsaUrl : PStr := ps! "type.googleapis.com/google.crypto.tink.EcdsaPrivateKey"
def ecdsaKd : KeyData := ⟨ecdsaUrl, [7], KeyMaterialType.ASYMMETRIC_PRIVATE⟩
def ecdsaCc : Cpp.KeyManager Cpp.PublicKeySign :=
  ToyConfig.manager ecdsaUrl KeyMaterialType.ASYMMETRIC_PRIVATE ToyConfig.sign (some (publicUrl ecdsaUrl))

theorem fits_of {kd : KeyData} (h : Except.isOk kd.serializeToString = true) :
    Fits kd := by
  cases hs : kd.serializeToString with
  | ok b => exact ⟨b, hs⟩
  | error e => rw [hs] at h; cases h

theorem fitsTemplate_of {t : KeyTemplate}
    (h : Except.isOk t.serializeToString = true) : FitsTemplate t := by
  cases hs : t.serializeToString with
  | ok b => exact ⟨b, hs⟩
  | error e => rw [hs] at h; cases h

/-- `C65_serves_private`: the hypotheses of its parts hold of an ECDSA key, with values and with errors. -/
example :
    Fits ecdsaKd ∧ FitsTemplate ⟨ecdsaUrl, [1], OutputPrefixType.TINK⟩ ∧
    (∃ kd, ecdsaCc.newKeyData 7 [1] = .ok kd ∧ kd = ecdsaKd ∧ Fits kd) ∧
    (∃ f pub, ecdsaCc.publicKeyData = some f ∧ f ecdsaKd.value = .ok pub ∧ Fits pub ∧
      pub.typeUrl = ps! "type.googleapis.com/google.crypto.tink.EcdsaPublicKey") ∧
    (∃ e, ecdsaCc.getPrimitive { ecdsaKd with value := [] } = .error e) :=
  ⟨fits_of (by decide +kernel), fitsTemplate_of (by decide +kernel),
   ⟨_, rfl, rfl, fits_of (by decide +kernel)⟩,
   ⟨_, _, rfl, rfl, fits_of (by decide +kernel), by decide +kernel⟩, ⟨_, rfl⟩⟩

/-- `C65_serves` and `C65_primitives`: an AEAD key manager gives the C++ primitive, which refuses a wrong
ciphertext. -/
example :
    (keyManagerCcToPy library.aead aeadCcToPy 1 PrimClass.aead
      (ToyConfig.manager (ps! "u") KeyMaterialType.SYMMETRIC ToyConfig.aead)).primitive ⟨ps! "u", [9], 1⟩ =
      .ok (.aead (aeadCcToPy (ToyConfig.aead [9]))) ∧
    (aeadCcToPy (ToyConfig.aead [9])).decrypt [1, 2] [] = .error .tinkError :=
  ⟨(C65_serves library.aead aeadCcToPy 1 PrimClass.aead
      (ToyConfig.manager (ps! "u") KeyMaterialType.SYMMETRIC ToyConfig.aead)).primitive _
      (fits_of (by decide +kernel)), rfl⟩

/-- `C65_other_template`. -/
example : FitsTemplate ⟨ps! "other", [1], OutputPrefixType.TINK⟩ ∧ ps! "other" ≠ ecdsaCc.keyType :=
  ⟨fitsTemplate_of (by decide +kernel), by decide +kernel⟩

theorem not_fits {v : Bytes} (h : 2 ^ 31 ≤ v.length) : ¬ Fits ⟨[], v, 0⟩ := by
  rintro ⟨b, hb⟩
  have hne : v ≠ [] := by rintro rfl; simp at h
  have hf : (⟨[], v, 0⟩ : KeyData).fields = [⟨2, .len v⟩] := by
    simp [KeyData.fields, strField, bytesField, enumField, hne]
  unfold KeyData.serializeToString serializeFields at hb
  rw [hf] at hb
  have hlen : v.length ≤ (encodeFields [⟨2, .len v⟩]).length := by
    simp [encodeFields, Field.encode, WireVal.encode]
    omega
  rw [if_neg (by omega)] at hb
  cases hb

/-- `C65_oversize`: there are messages that do not fit. -/
example : ¬ Fits ⟨[], List.replicate (2 ^ 31) 0, 0⟩ := not_fits (by rw [List.length_replicate]; exact Nat.le_refl _)

/-- `C65_oversize_result_lost`: a key manager that makes keys of 2 GiB. -/
example : (keyManagerCcToPy library.aead aeadCcToPy 1 PrimClass.aead
      { ToyConfig.manager (ps! "u") KeyMaterialType.SYMMETRIC ToyConfig.aead with
        newKeyData := fun _ _ => .ok ⟨[], List.replicate (2 ^ 31) 0, 0⟩ }).newKeyData 7
      ⟨ps! "u", [1], OutputPrefixType.TINK⟩ = .ok {} :=
  ((C65_oversize_result_lost library.aead aeadCcToPy 1 PrimClass.aead
    { ToyConfig.manager (ps! "u") KeyMaterialType.SYMMETRIC ToyConfig.aead with
      newKeyData := fun _ _ => .ok ⟨[], List.replicate (2 ^ 31) 0, 0⟩ }).1 7
    ⟨ps! "u", [1], OutputPrefixType.TINK⟩ _ (fitsTemplate_of (by decide +kernel)) rfl rfl
    (not_fits (by rw [List.length_replicate]; exact Nat.le_refl _))).1

/-- `C65_errors`: an error of C++. -/
example : (privateKeyManagerCcToPy library.sign signCcToPy 2 PrimClass.sign ecdsaCc).primitive
    { ecdsaKd with value := [] } = .error .tinkError :=
  (C65_serves_private library.sign signCcToPy 2 PrimClass.sign ecdsaCc).primitive _
    (fits_of (by decide +kernel))

end

end Tink.Props
