import Verif.Props.Builder
import Verif.Props.Config

/-!
# C59: keys made of `raw_template` and `legacy_template`
-/

namespace Tink.Props
open Spec Config

section
variable {σ δ ε τ S P C : Type} [DecidableEq C] {L : Library σ δ ε τ S P C}

theorem changed_templates_fit (pkg : Package) : ∀ t, .ok t ∈ templates pkg →
    FitsTemplate (KeysetBuilder.rawTemplate t) ∧ FitsTemplate (KeysetBuilder.legacyTemplate t) := by
  have hcheck : ∀ pkg ∈ packages, ∀ x ∈ templates pkg, (match x with
      | .error _ => false
      | .ok t => Except.isOk (KeysetBuilder.rawTemplate t).serializeToString &&
        Except.isOk (KeysetBuilder.legacyTemplate t).serializeToString) = true := by decide +kernel
  have hok : ∀ {t : KeyTemplate}, Except.isOk t.serializeToString = true → FitsTemplate t := by
    intro t h
    unfold FitsTemplate
    cases hs : t.serializeToString with
    | ok b => exact ⟨b, rfl⟩
    | error e => rw [hs] at h; cases h
  intro t ht
  have := hcheck pkg (mem_packages pkg) _ ht
  simp only [Bool.and_eq_true] at this
  exact ⟨hok this.1, hok this.2⟩

theorem add_changed {r : Registry P C} {pkg : Package} (hr : PackageRegistered L r pkg) {t t' : KeyTemplate}
    (ht : .ok t ∈ templates pkg) (hf : FitsTemplate t') (e1 : t'.typeUrl = t.typeUrl) (e2 : t'.value = t.value)
    {seed : Seed} {kd : KeyData} {o : P} (hm : CcMakes L t.typeUrl seed t.value kd (keyClass pkg) o) (hfk : Fits kd)
    (hu : kd.typeUrl = t.typeUrl) {draws : List UInt32} {ks ks' : Keyset} {x : Py UInt32}
    (h : KeysetBuilder.addNewKey r seed draws t' ks = some (ks', x)) :
    r.primitive kd (L.cls (keyClass pkg)) = .ok o ∧ ∃ id, x = .ok id ∧
      ks' = ⟨ks.primaryKeyId, ks.key ++ [⟨some kd, KeyStatusType.ENABLED, id, t'.outputPrefixType⟩]⟩ := by
  obtain ⟨t2, h0, -, hk, h1, h2, -⟩ := C64_templates pkg _ ht
  cases h0
  rw [← e1] at hk h1 h2 hu
  rw [← e1, ← e2] at hm
  obtain ⟨hn, hp⟩ := registry_makes hr hk h1 h2 hf hm hfk hu
  refine ⟨hp, ?_⟩
  cases x with
  | error e =>
    exfalso
    unfold KeysetBuilder.addNewKey at h
    rw [hn] at h
    dsimp only at h
    split at h <;> cases h
  | ok id =>
    obtain ⟨kd', g1, -, -, -, g2⟩ := C59_add_new_key h
    rw [hn] at g1
    cases g1
    exact ⟨id, rfl, g2⟩

/-- C59.  A key added with `raw_template(t)`, for a predefined template `t`, is the key that `t` stands for, but nothing is
put in front of what it makes. -/
theorem C59_raw_template {r : Registry P C} {pkg : Package} (hr : PackageRegistered L r pkg) {t : KeyTemplate}
    (ht : .ok t ∈ templates pkg) {seed : Seed} {kd : KeyData} {o : P}
    (hm : CcMakes L t.typeUrl seed t.value kd (keyClass pkg) o) (hfk : Fits kd) (hu : kd.typeUrl = t.typeUrl)
    {draws : List UInt32} {ks ks' : Keyset} {x : Py UInt32}
    (h : KeysetBuilder.addNewKey r seed draws (KeysetBuilder.rawTemplate t) ks = some (ks', x)) :
    r.primitive kd (L.cls (keyClass pkg)) = .ok o ∧
      ∃ k, x = .ok k.keyId ∧ ks' = ⟨ks.primaryKeyId, ks.key ++ [k]⟩ ∧ k.keyData = some kd ∧
        k.status = KeyStatusType.ENABLED ∧ k.outputPrefixType = OutputPrefixType.RAW ∧ outputPrefix k = .ok [] := by
  obtain ⟨h1, id, h2, h3⟩ := add_changed hr ht (changed_templates_fit pkg t ht).1 rfl rfl hm hfk hu h
  exact ⟨h1, _, h2, h3, rfl, rfl, rfl, rfl⟩

/-- C59.  A key added with `legacy_template(t)`: in front of what it makes there are a zero byte and the key id. -/
theorem C59_legacy_template {r : Registry P C} {pkg : Package} (hr : PackageRegistered L r pkg) {t : KeyTemplate}
    (ht : .ok t ∈ templates pkg) {seed : Seed} {kd : KeyData} {o : P}
    (hm : CcMakes L t.typeUrl seed t.value kd (keyClass pkg) o) (hfk : Fits kd) (hu : kd.typeUrl = t.typeUrl)
    {draws : List UInt32} {ks ks' : Keyset} {x : Py UInt32}
    (h : KeysetBuilder.addNewKey r seed draws (KeysetBuilder.legacyTemplate t) ks = some (ks', x)) :
    r.primitive kd (L.cls (keyClass pkg)) = .ok o ∧
      ∃ k, x = .ok k.keyId ∧ ks' = ⟨ks.primaryKeyId, ks.key ++ [k]⟩ ∧ k.keyData = some kd ∧
        k.status = KeyStatusType.ENABLED ∧ k.outputPrefixType = OutputPrefixType.LEGACY ∧
        outputPrefix k = .ok (0 :: be32 k.keyId.toNat) := by
  obtain ⟨h1, id, h2, h3⟩ := add_changed hr ht (changed_templates_fit pkg t ht).2 rfl rfl hm hfk hu h
  exact ⟨h1, _, h2, h3, rfl, rfl, rfl, rfl⟩

end

namespace BuilderTemplatesExample
open ToyConfig

/-- With the registry after the configurations in the examples of C64, every predefined template for MACs gives a RAW key
and a LEGACY key. -/
example {t : KeyTemplate} (ht : .ok t ∈ templates .mac) :
    let r := runConfig ToyConfig.isInst library (history ++ .registerTinkConfig :: later) {}
    ∃ kd ks ks', KeysetBuilder.addNewKey r 7 [0, 4] (KeysetBuilder.rawTemplate t) {} = some (ks, .ok 4) ∧
      KeysetBuilder.addNewKey r 7 [4, 5] (KeysetBuilder.legacyTemplate t) ks = some (ks', .ok 5) ∧
      ks'.key = [⟨some kd, KeyStatusType.ENABLED, 4, OutputPrefixType.RAW⟩,
        ⟨some kd, KeyStatusType.ENABLED, 5, OutputPrefixType.LEGACY⟩] := by
  intro r
  have hk : (t.typeUrl, PrimClass.mac) ∈ keyTypes .mac := by
    obtain ⟨_, h0, _, hk, _⟩ := C64_templates .mac _ ht
    cases h0
    exact hk
  have hall : ∀ url ∈ (keyTypes .mac).map Prod.fst,
      Except.isOk (KeyData.serializeToString ⟨url, [7], KeyMaterialType.SYMMETRIC⟩) = true := by
    decide +kernel
  have hfk := fits_of (hall _ (List.mem_map.2 ⟨_, hk, rfl⟩))
  have hm : CcMakes library t.typeUrl 7 t.value ⟨t.typeUrl, [7], KeyMaterialType.SYMMETRIC⟩ (keyClass .mac) _ :=
    .mac (a := ToyConfig.mac [7]) (if_pos hk) rfl rfl
  have hr : PackageRegistered library r .mac :=
    C64_registered lawful (.inr rfl) toy_foreign (by simp [later])
  have some1 : ∃ y, KeysetBuilder.addNewKey r 7 [0, 4] (KeysetBuilder.rawTemplate t) {} = some y := by
    unfold KeysetBuilder.addNewKey
    split <;> exact ⟨_, rfl⟩
  obtain ⟨⟨ks, x⟩, h1⟩ := some1
  obtain ⟨-, k, hx, hks, e1, e2, e3, -⟩ := C59_raw_template hr ht hm hfk rfl h1
  subst hx
  obtain ⟨_, _, hd, hz, _⟩ := C59_add_new_key h1
  have hid : k.keyId = 4 := by simpa [hz] using hd
  have some2 : ∃ y, KeysetBuilder.addNewKey r 7 [4, 5] (KeysetBuilder.legacyTemplate t) ks = some y := by
    subst hks
    unfold KeysetBuilder.addNewKey
    split
    · exact ⟨_, rfl⟩
    · simp [KeysetBuilder.generateUnusedKeyId, generateUnusedKeyId, hid]
  obtain ⟨⟨ks', x'⟩, h2⟩ := some2
  obtain ⟨-, k', hx', hks', f1, f2, f3, -⟩ := C59_legacy_template hr ht hm hfk rfl h2
  subst hx'
  obtain ⟨_, _, hd', hz', hn', _⟩ := C59_add_new_key h2
  have hne := hn' k (by rw [hks]; simp)
  have hid' : k'.keyId = 5 := by
    rw [hid] at hne
    simpa [Ne.symm hne] using hd'
  refine ⟨⟨t.typeUrl, [7], KeyMaterialType.SYMMETRIC⟩, ks, ks', by rw [h1, hid], by rw [h2, hid'], ?_⟩
  rw [hks', hks]
  obtain ⟨_, _, _, _⟩ := k
  obtain ⟨_, _, _, _⟩ := k'
  simp only at e1 e2 e3 f1 f2 f3 hid hid'
  subst e1 e2 e3 f1 f2 f3 hid hid'
  rfl

end BuilderTemplatesExample
end Tink.Props
