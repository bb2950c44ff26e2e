import Verif.Props.BuilderTemplates
import Verif.Props.RotationKeysets
import Verif.Props.SignatureTemplates
import Verif.Props.HybridTemplates
import Verif.Spec.RotationWorks

/-!
# C109: rotated keysets keep working

A keyset in which every key could be used (of symmetric keys: except keys that are never enabled) gives a primitive after every rotation with predefined templates and their raw
and legacy variants, and again every key of it could be used.  So rotations can follow each other.
-/

namespace Tink.Props
open Spec Config Cc

section
variable {P C : Type} {r : Registry P C} {h h' : KeysetHandle} {ops : List BuilderOp}

/-- What holds of all keys before, whatever their status is, and of new keys, holds of all keys afterwards. -/
theorem rotated_all {Q : Key → Prop} (H : Rotated r h ops h') (hs : ∀ k k', SameButStatus k k' → Q k → Q k')
    (h0 : ∀ k ∈ h.keyset.key, Q k) (ha : ∀ k, AddedBy r ops k → Q k) : ∀ k ∈ h'.keyset.key, Q k := by
  intro k hk
  rcases C109_origin H hk with ⟨k0, hk0, hsame⟩ | hadd
  · exact hs _ _ hsame (h0 _ hk0)
  · exact ha _ hadd

/-- What holds of all keys before, unless they are not enabled and have one of the ids, which are never enabled, and of
new keys, holds of all keys afterwards with the same exceptions. -/
theorem rotated_except {Q : Key → Prop} {ids : List UInt32} (H : Rotated r h ops h')
    (hs : ∀ k k', SameButStatus k k' → Q k → Q k') (hids : NeverEnables ids ops)
    (h0 : ∀ k ∈ h.keyset.key, Q k ∨ (k.keyId ∈ ids ∧ ¬ Enabled k)) (ha : ∀ k, AddedBy r ops k → Q k) :
    ∀ k ∈ h'.keyset.key, Q k ∨ (k.keyId ∈ ids ∧ ¬ Enabled k) := by
  obtain ⟨h1, h2⟩ := rotated_iff_run H
  have := keyStep_invariant (I := fun ks => ∀ k ∈ ks, (Q k ∨ (k.keyId ∈ ids ∧ ¬ Enabled k)) ∨
      k.keyData = none ∧ k.status ≠ KeyStatusType.DESTROYED) ?_ h1 (fun k hk => .inl (h0 k hk))
  · intro k hk
    rcases this k hk with g | ⟨g, gs⟩
    · exact g
    · exact absurd g (h2.complete k hk gs).1
  · intro op hop ks ks' hst hI k' hk'
    cases hst with
    | same => exact hI k' hk'
    | added g1 g2 g3 g4 =>
      rw [List.mem_append, List.mem_singleton] at hk'
      rcases hk' with hk' | rfl
      · exact hI k' hk'
      · exact .inl (.inl (ha _ ⟨_, _, _, _, hop, g1, rfl, g2, rfl⟩))
    | blank =>
      rw [List.mem_append, List.mem_singleton] at hk'
      rcases hk' with hk' | rfl
      · exact hI k' hk'
      · exact .inr ⟨rfl, by decide⟩
    | @enabled id pre k post hf =>
      simp only [List.mem_append, List.mem_cons] at hk' hI
      rcases hk' with hk' | rfl | hk'
      · exact hI k' (.inl hk')
      · rcases hI k (.inr (.inl rfl)) with (g | ⟨g, -⟩) | ⟨e, _⟩
        · exact .inl (.inl (hs k _ ⟨rfl, rfl, rfl⟩ g))
        · rw [hf.2.1] at g
          exact absurd hop (hids _ g)
        · exact .inr ⟨e, by dsimp only; decide⟩
      · exact hI k' (.inr (.inr hk'))
    | @disabled id pre k post _ =>
      simp only [List.mem_append, List.mem_cons] at hk' hI
      rcases hk' with hk' | rfl | hk'
      · exact hI k' (.inl hk')
      · rcases hI k (.inr (.inl rfl)) with (g | ⟨g, -⟩) | ⟨e, _⟩
        · exact .inl (.inl (hs k _ ⟨rfl, rfl, rfl⟩ g))
        · exact .inl (.inr ⟨g, by unfold Enabled; dsimp only; decide⟩)
        · exact .inr ⟨e, by dsimp only; decide⟩
      · exact hI k' (.inr (.inr hk'))
    | @deleted id pre k post _ =>
      simp only [List.mem_append, List.mem_cons] at hk' hI
      rcases hk' with hk' | hk'
      · exact hI k' (.inl hk')
      · exact hI k' (.inr (.inr hk'))

theorem usable_same {types : List PStr} {good : KeyData → Prop} {k k' : Key} (hs : SameButStatus k k')
    (g : k.data.typeUrl ∈ types ∧ Fits k.data ∧ PrefixKnown k ∧ good k.data) :
    k'.data.typeUrl ∈ types ∧ Fits k'.data ∧ PrefixKnown k' ∧ good k'.data := by
  obtain ⟨h1, h2, h3⟩ := hs
  obtain ⟨g1, g2, g3, g4⟩ := g
  have : k'.data = k.data := by unfold Key.data; rw [h1]
  rw [this]
  refine ⟨g1, g2, ?_, g4⟩
  unfold PrefixKnown
  rw [h3]
  exact g3

theorem added_usable {types : List PStr} {good : KeyData → Prop} {pkg : Package} (hops : FromPredefined pkg ops)
    (hnew : ∀ seed t tv kd, .ok t ∈ templates pkg → VariantOf t tv → r.newKeyData seed tv = .ok kd →
      kd.typeUrl ∈ types ∧ Fits kd ∧ good kd) {k : Key} (ha : AddedBy r ops k) :
    k.data.typeUrl ∈ types ∧ Fits k.data ∧ PrefixKnown k ∧ good k.data := by
  obtain ⟨seed, draws, tv, kd, h1, h2, h3, -, h5⟩ := ha
  have : k.data = kd := by unfold Key.data; rw [h3]; rfl
  obtain ⟨t, ht, hv⟩ := hops _ _ _ h1
  obtain ⟨g1, g2, g3⟩ := hnew _ _ _ _ ht hv h2
  rw [this]
  refine ⟨g1, g2, ?_, g3⟩
  obtain ⟨t', e, -, -, -, -, hpt⟩ := C64_templates _ _ ht
  cases e
  unfold PrefixKnown
  rw [h5]
  rcases hv with rfl | rfl | rfl
  · rcases hpt with ⟨e, -⟩ | e <;> rw [e] <;> decide
  · show OutputPrefixType.RAW ∈ _; decide
  · show OutputPrefixType.LEGACY ∈ _; decide

theorem rotated_usable_except {ids : List UInt32} {types : List PStr} {good : KeyData → Prop} {pkg : Package}
    (H : Rotated r h ops h') (hops : FromPredefined pkg ops) (hids : NeverEnables ids ops)
    (h0 : UsableExcept ids types good h.keyset)
    (hnew : ∀ seed t tv kd, .ok t ∈ templates pkg → VariantOf t tv → r.newKeyData seed tv = .ok kd →
      kd.typeUrl ∈ types ∧ Fits kd ∧ good kd) : UsableExcept ids types good h'.keyset :=
  rotated_except H (fun _ _ => usable_same) hids h0 fun _ => added_usable hops hnew

theorem rotated_usable {types : List PStr} {good : KeyData → Prop} {pkg : Package} (H : Rotated r h ops h')
    (hops : FromPredefined pkg ops) (h0 : AllUsable types good h.keyset)
    (hnew : ∀ seed t tv kd, .ok t ∈ templates pkg → VariantOf t tv → r.newKeyData seed tv = .ok kd →
      kd.typeUrl ∈ types ∧ Fits kd ∧ good kd) : AllUsable types good h'.keyset :=
  rotated_all H (fun _ _ => usable_same) h0 fun _ => added_usable hops hnew

theorem usable_keysOf {types : List PStr} {good : KeyData → Prop} {ks : Keyset} (h : AllUsable types good ks) :
    KeysOf types ks := fun k hk _ => ⟨(h k hk).1, (h k hk).2.1⟩

theorem usable_enabled {ids : List UInt32} {types : List PStr} {good : KeyData → Prop} {ks : Keyset}
    (h : UsableExcept ids types good ks) {k : Key} (hk : k ∈ ks.key) (he : Enabled k) :
    k.data.typeUrl ∈ types ∧ Fits k.data ∧ PrefixKnown k ∧ good k.data :=
  (h k hk).resolve_right fun g => g.2 he

theorem except_keysOf {ids : List UInt32} {types : List PStr} {good : KeyData → Prop} {ks : Keyset}
    (h : UsableExcept ids types good ks) : KeysOf types ks :=
  fun _ hk he => ⟨(usable_enabled h hk he).1, (usable_enabled h hk he).2.1⟩

end

section
variable {σ δ ε τ S P C : Type} [DecidableEq C] {L : Library σ δ ε τ S P C} {isInst isInst' : P → C → Bool}
  {r : Registry P C} {h h' : KeysetHandle} {p p' : P} {ops : List BuilderOp}

omit [DecidableEq C] in
theorem registry_new {A B : Type} {V : View P A} {toPy : B → A} {cc : Cpp.KeyManager B} {b : Bool}
    {m : KeyManager P C} {t : KeyTemplate} (hg : PyDict.get? r.keyManagers t.typeUrl = some (m, true))
    (hk : m.keyType = t.typeUrl) (hs : Serves V toPy cc b m) {seed : Seed} (hft : FitsTemplate t)
    (hfk : ∀ kd, cc.newKeyData seed t.value = .ok kd → Fits kd) {kd : KeyData} (hn : r.newKeyData seed t = .ok kd) :
    cc.newKeyData seed t.value = .ok kd := by
  unfold Registry.newKeyData Registry.keyManagerInternal at hn
  rw [hg] at hn
  have hn : m.newKeyData seed t = .ok kd := hn
  rw [hs.newKeyData seed t hft (by rw [← hk, hs.keyType]) hfk] at hn
  exact reported_ok.1 hn

omit [DecidableEq C] in
theorem registry_variant {A B : Type} {V : View P A} {toPy : B → A} {cc : Cpp.KeyManager B} {b : Bool}
    {m : KeyManager P C} {t tv : KeyTemplate} (hg : PyDict.get? r.keyManagers t.typeUrl = some (m, true))
    (hk : m.keyType = t.typeUrl) (hs : Serves V toPy cc b m) {seed : Seed} (hv : VariantOf t tv)
    (hft : FitsTemplate tv) (hfk : ∀ kd, cc.newKeyData seed t.value = .ok kd → Fits kd) {kd : KeyData}
    (hn : r.newKeyData seed tv = .ok kd) : cc.newKeyData seed t.value = .ok kd := by
  rcases hv with rfl | rfl | rfl
  · exact registry_new hg hk hs hft hfk hn
  · exact registry_new (t := KeysetBuilder.rawTemplate t) hg hk hs hft hfk hn
  · exact registry_new (t := KeysetBuilder.legacyTemplate t) hg hk hs hft hfk hn

theorem variant_fits {pkg : Package} {t tv : KeyTemplate} (ht : .ok t ∈ templates pkg) (hft : FitsTemplate t)
    (hv : VariantOf t tv) : FitsTemplate tv := by
  rcases hv with rfl | rfl | rfl
  · exact hft
  · exact (changed_templates_fit pkg t ht).1
  · exact (changed_templates_fit pkg t ht).2

/-! ## AEAD -/

theorem aead_new_key {lib : Ssl} (hl : LawfulSsl lib) (hcc : ∀ u cc, ccAead lib u = some cc → L.ccAead u = some cc)
    (hr : PackageRegistered L r .aead) (seed : Seed) (t tv : KeyTemplate) (kd : KeyData)
    (ht : .ok t ∈ templates .aead) (hv : VariantOf t tv) (hn : r.newKeyData seed tv = .ok kd) :
    kd.typeUrl ∈ aeadTypes ∧ Fits kd ∧ GoodAead kd := by
  obtain ⟨htt, key, h1, h2, h3⟩ := aead_template (hl.random_length seed) ht
  obtain ⟨cc, hc⟩ := (C89_aead_types (lib := lib)).2 htt
  have hgood : ∀ kd, cc.newKeyData seed t.value = .ok kd →
      kd.typeUrl ∈ aeadTypes ∧ Fits kd ∧ GoodAead kd := by
    intro kd hkd
    obtain ⟨k', g1, g0, g2, -, g3⟩ := C89_aead_new hl hc hkd
    obtain ⟨g4, g5, -⟩ := g3 (by cases aead_asked_unique h1 g1; omega)
    exact ⟨by rw [g2]; exact htt, g4, k', by rw [g2]; exact g5, g0⟩
  obtain ⟨t', e, hft, hk, k1, k2, -⟩ := C64_templates _ _ ht
  cases e
  obtain ⟨m, hm, -, hkt, htm⟩ := hr.managers _ _ hk
  cases htm with
  | aead _ _ found serves =>
    rw [hcc _ _ hc] at found
    cases found
    exact hgood _ (registry_variant hm hkt serves hv (variant_fits ht hft hv) (fun kd hkd => (hgood kd hkd).2.1) hn)
  | kmsAead e => exact absurd e k1
  | kmsEnvelopeAead e => exact absurd e k2

/-- C109, AEAD.  A rotated keyset works. -/
theorem C109_aead_works {lib : Ssl} (hi : LawfulConfig L isInst) (hl : LawfulSsl lib)
    (hcc : ∀ u cc, ccAead lib u = some cc → L.ccAead u = some cc) (hr : PackageRegistered L r .aead)
    (H : Rotated r h ops h') (hops : FromPredefined .aead ops) {ids : List UInt32}
    (hids : NeverEnables ids ops) (h0 : UsableExcept ids aeadTypes GoodAead h.keyset) :
    UsableExcept ids aeadTypes GoodAead h'.keyset ∧ ∃ p, h'.primitive isInst r (L.cls .aead) = .ok p := by
  have h1 := rotated_usable_except H hops hids h0 (aead_new_key hl hcc hr)
  exact ⟨h1, (C94_aead_primitive hi hl hcc hr (except_keysOf h1)).2
    ⟨(rotated_iff_run H).2, fun _ hk he => (usable_enabled h1 hk he).2.2⟩⟩

/-! ## deterministic AEAD -/

theorem daead_new_key {lib : Ssl} (hl : LawfulSsl lib) (hcc : ∀ u cc, ccDaead lib u = some cc → L.ccDaead u = some cc)
    (hr : PackageRegistered L r .daead) (seed : Seed) (t tv : KeyTemplate) (kd : KeyData)
    (ht : .ok t ∈ templates .daead) (hv : VariantOf t tv) (hn : r.newKeyData seed tv = .ok kd) :
    kd.typeUrl ∈ daeadTypes ∧ Fits kd ∧ GoodDaead kd := by
  obtain ⟨htt, key, h1, h2⟩ := daead_template (hl.random_length seed) ht
  obtain ⟨cc, hc⟩ := (C89_daead_types (lib := lib)).2 (by simpa [daeadTypes] using htt)
  have hgood : ∀ kd, cc.newKeyData seed t.value = .ok kd →
      kd.typeUrl ∈ daeadTypes ∧ Fits kd ∧ GoodDaead kd := by
    intro kd hkd
    obtain ⟨k', g1, g0, g2, -, g4, g5, -⟩ := C89_daead_new hl hc hkd
    exact ⟨by rw [g2]; exact htt, g4, k', by rw [g2]; exact g5, g0⟩
  obtain ⟨t', e, hft, hk, k1, k2, -⟩ := C64_templates _ _ ht
  cases e
  obtain ⟨m, hm, -, hkt, htm⟩ := hr.managers _ _ hk
  cases htm with
  | daead found serves =>
    rw [hcc _ _ hc] at found
    cases found
    exact hgood _ (registry_variant hm hkt serves hv (variant_fits ht hft hv) (fun kd hkd => (hgood kd hkd).2.1) hn)

/-- C109, deterministic AEAD.  A rotated keyset works. -/
theorem C109_daead_works {lib : Ssl} (hi : LawfulConfig L isInst) (hl : LawfulSsl lib)
    (hcc : ∀ u cc, ccDaead lib u = some cc → L.ccDaead u = some cc) (hr : PackageRegistered L r .daead)
    (H : Rotated r h ops h') (hops : FromPredefined .daead ops) {ids : List UInt32}
    (hids : NeverEnables ids ops) (h0 : UsableExcept ids daeadTypes GoodDaead h.keyset) :
    UsableExcept ids daeadTypes GoodDaead h'.keyset ∧ ∃ p, h'.primitive isInst r (L.cls .daead) = .ok p := by
  have h1 := rotated_usable_except H hops hids h0 (daead_new_key hl hcc hr)
  exact ⟨h1, (C94_daead_primitive hi hl hcc hr (except_keysOf h1)).2
    ⟨(rotated_iff_run H).2, fun _ hk he => (usable_enabled h1 hk he).2.2⟩⟩

/-! ## MAC -/

theorem mac_new_key {lib : Ssl} (hl : LawfulSsl lib) (hcc : ∀ u cc, ccMac lib u = some cc → L.ccMac u = some cc)
    (hr : PackageRegistered L r .mac) (seed : Seed) (t tv : KeyTemplate) (kd : KeyData)
    (ht : .ok t ∈ templates .mac) (hv : VariantOf t tv) (hn : r.newKeyData seed tv = .ok kd) :
    kd.typeUrl ∈ macTypes ∧ Fits kd ∧ GoodMac kd := by
  obtain ⟨htt, key, h1, h2, h3⟩ := mac_template (hl.random_length seed) ht
  obtain ⟨cc, hc⟩ := (C89_mac_types (lib := lib)).2 htt
  have hgood : ∀ kd, cc.newKeyData seed t.value = .ok kd →
      kd.typeUrl ∈ macTypes ∧ Fits kd ∧ GoodMac kd := by
    intro kd hkd
    obtain ⟨k', g1, g0, g2, -, g3⟩ := C89_mac_new hl hc hkd
    obtain ⟨g4, g5, -⟩ := g3 (by cases mac_asked_unique h1 g1; omega)
    exact ⟨by rw [g2]; exact htt, g4, k', by rw [g2]; exact g5, g0⟩
  obtain ⟨t', e, hft, hk, k1, k2, -⟩ := C64_templates _ _ ht
  cases e
  obtain ⟨m, hm, -, hkt, htm⟩ := hr.managers _ _ hk
  cases htm with
  | mac found serves =>
    rw [hcc _ _ hc] at found
    cases found
    exact hgood _ (registry_variant hm hkt serves hv (variant_fits ht hft hv) (fun kd hkd => (hgood kd hkd).2.1) hn)

/-- C109, MAC.  A rotated keyset works. -/
theorem C109_mac_works {lib : Ssl} (hi : LawfulConfig L isInst) (hl : LawfulSsl lib)
    (hcc : ∀ u cc, ccMac lib u = some cc → L.ccMac u = some cc) (hr : PackageRegistered L r .mac)
    (H : Rotated r h ops h') (hops : FromPredefined .mac ops) {ids : List UInt32}
    (hids : NeverEnables ids ops) (h0 : UsableExcept ids macTypes GoodMac h.keyset) :
    UsableExcept ids macTypes GoodMac h'.keyset ∧ ∃ p, h'.primitive isInst r (L.cls .mac) = .ok p := by
  have h1 := rotated_usable_except H hops hids h0 (mac_new_key hl hcc hr)
  exact ⟨h1, (C94_mac_primitive hi hl hcc hr (except_keysOf h1)).2
    ⟨(rotated_iff_run H).2, fun _ hk he => (usable_enabled h1 hk he).2.2⟩⟩

/-! ## PRF -/

theorem prf_new_key {lib : Ssl} (hl : LawfulSsl lib) (hcc : ∀ u cc, ccPrf lib u = some cc → L.ccPrf u = some cc)
    (hr : PackageRegistered L r .prf) (seed : Seed) (t tv : KeyTemplate) (kd : KeyData)
    (ht : .ok t ∈ templates .prf) (hv : VariantOf t tv) (hn : r.newKeyData seed tv = .ok kd) :
    kd.typeUrl ∈ prfTypes ∧ Fits kd ∧ GoodPrf kd := by
  obtain ⟨htt, key, h1, h2, h3⟩ := prf_template (hl.random_length seed) ht
  obtain ⟨cc, hc⟩ := (C89_prf_types (lib := lib)).2 htt
  have hgood : ∀ kd, cc.newKeyData seed t.value = .ok kd →
      kd.typeUrl ∈ prfTypes ∧ Fits kd ∧ GoodPrf kd := by
    intro kd hkd
    obtain ⟨k', g1, g0, g2, -, g3⟩ := C89_prf_new hl hc hkd
    obtain ⟨g4, g5, -⟩ := g3 (by cases prf_asked_unique h1 g1; omega)
    exact ⟨by rw [g2]; exact htt, g4, k', by rw [g2]; exact g5, g0⟩
  obtain ⟨t', e, hft, hk, k1, k2, -⟩ := C64_templates _ _ ht
  cases e
  obtain ⟨m, hm, -, hkt, htm⟩ := hr.managers _ _ hk
  cases htm with
  | prf found serves =>
    rw [hcc _ _ hc] at found
    cases found
    exact hgood _ (registry_variant hm hkt serves hv (variant_fits ht hft hv) (fun kd hkd => (hgood kd hkd).2.1) hn)

/-- C109, PRF.  A rotated keyset works. -/
theorem C109_prf_works {lib : Ssl} (hi : LawfulConfig L isInst) (hl : LawfulSsl lib)
    (hcc : ∀ u cc, ccPrf lib u = some cc → L.ccPrf u = some cc) (hr : PackageRegistered L r .prf)
    (H : Rotated r h ops h') (hops : PredefinedOnly .prf ops) {ids : List UInt32}
    (hids : NeverEnables ids ops) (h0 : UsableExcept ids prfTypes GoodPrf h.keyset)
    (hraw : ∀ k ∈ h.keyset.key, k.outputPrefixType = OutputPrefixType.RAW ∨ (k.keyId ∈ ids ∧ ¬ Enabled k)) :
    UsableExcept ids prfTypes GoodPrf h'.keyset ∧
      (∀ k ∈ h'.keyset.key, k.outputPrefixType = OutputPrefixType.RAW ∨ (k.keyId ∈ ids ∧ ¬ Enabled k)) ∧
      ∃ p, h'.primitive isInst r (L.cls .prfSet) = .ok p := by
  have h1 := rotated_usable_except H hops.variants hids h0 (prf_new_key hl hcc hr)
  have h2 : ∀ k ∈ h'.keyset.key, k.outputPrefixType = OutputPrefixType.RAW ∨ (k.keyId ∈ ids ∧ ¬ Enabled k) := by
    refine rotated_except H (fun k k' hs e => hs.2.2.trans e) hids hraw ?_
    rintro k ⟨seed, draws, t, kd, g1, -, -, -, g5⟩
    obtain ⟨t', e, -, -, -, -, hpt⟩ := C64_templates _ _ (hops _ _ _ g1)
    cases e
    rcases hpt with ⟨-, e⟩ | e
    · exact absurd rfl e
    · exact g5.trans e
  exact ⟨h1, h2, (C94_prf_primitive hi hl hcc hr (except_keysOf h1)).2
    ⟨(rotated_iff_run H).2, fun k hk he => ⟨(h2 k hk).resolve_right fun g => g.2 he, (usable_enabled h1 hk he).2.2.2⟩⟩⟩

/-! ## Signatures -/

theorem sign_new_key {lib : SigSsl} (hl : LawfulSigSsl lib)
    (hcc : ∀ u cc, ccSign lib u = some cc → L.ccSign u = some cc) (hr : PackageRegistered L r .signature)
    (seed : Seed) (t tv : KeyTemplate) (kd : KeyData) (ht : .ok t ∈ templates .signature)
    (hv : VariantOf t tv) (hn : r.newKeyData seed tv = .ok kd) : kd.typeUrl ∈ signTypes ∧ Fits kd ∧ GoodSign lib kd := by
  obtain ⟨t', e, hft, hk, -, -, -⟩ := C64_templates _ _ ht
  cases e
  have htt : t.typeUrl ∈ signTypes := by
    have : ∀ x ∈ templates .signature, parsed x (fun t => decide (t.typeUrl ∈ signTypes)) = true := by decide +kernel
    obtain ⟨t', e, h⟩ := parsed_iff.1 (this _ ht)
    cases e
    simpa using h
  obtain ⟨cc, hc⟩ := (C96_sign_types (lib := lib)).2 (sign_types_iff.2 htt)
  have hgood : ∀ kd, cc.newKeyData seed t.value = .ok kd → kd.typeUrl ∈ signTypes ∧ Fits kd ∧ GoodSign lib kd := by
    intro kd hkd
    obtain ⟨s, h1, h2, h3, h4, h5, h6, h7, h8⟩ := C96_new hl hc hkd
    exact ⟨by rw [h4]; exact htt, h6, h5, s, by rw [h4]; exact h7,
      (asked_ok_iff hl h1 h2).2 (((signature_template hl ht seed).2 s h1).2), h3, asked_size hl h1 h2⟩
  obtain ⟨m, hm, -, hkt, htm⟩ := hr.managers _ _ hk
  cases htm with
  | sign found serves =>
    rw [hcc _ _ hc] at found
    cases found
    exact hgood _ (registry_variant hm hkt serves hv (variant_fits ht hft hv) (fun kd hkd => (hgood kd hkd).2.1) hn)

theorem usable_private {lib : SigSsl} (hl : LawfulSigSsl lib) {ks : Keyset}
    (h : AllUsable signTypes (GoodSign lib) ks) : PrivateKeyset ks := by
  intro k hk
  obtain ⟨h1, h2, -, h4, s, h5, -, -, h8⟩ := h k hk
  refine ⟨h1, h2, h4, fun s' hs => ?_⟩
  cases (C97_unique hl).1 _ _ h5 hs
  exact h8

/-- C109, signatures.  A rotated keyset works, and so does its public keyset. -/
theorem C109_signature_works {lib : SigSsl} (hi : LawfulConfig L isInst) (hl : LawfulSigSsl lib)
    (hccs : ∀ u cc, ccSign lib u = some cc → L.ccSign u = some cc)
    (hccv : ∀ u cc, ccVerify lib u = some cc → L.ccVerify u = some cc) (hr : PackageRegistered L r .signature)
    (H : Rotated r h ops h') (hops : FromPredefined .signature ops)
    (h0 : AllUsable signTypes (GoodSign lib) h.keyset) :
    AllUsable signTypes (GoodSign lib) h'.keyset ∧ (∃ p, h'.primitive isInst r (L.cls .sign) = .ok p) ∧
      ∃ pub p, h'.publicKeysetHandle r = .ok pub ∧ pub.primitive isInst r (L.cls .verify) = .ok p := by
  have h1 := rotated_usable H hops h0 (sign_new_key hl hccs hr)
  have hv := (rotated_iff_run H).2
  have hpriv := usable_private hl h1
  obtain ⟨pub, hpub⟩ := (C98_public hl hccs hr hv hpriv).2 fun k hk => by
    obtain ⟨-, -, g3, -, s, g5, g6, -⟩ := h1 k hk
    refine ⟨?_, ?_, s, g5, checked_of_ok g6⟩
    · intro e
      unfold PrefixKnown at g3
      rw [e] at g3
      revert g3
      decide
    · by_cases hd : k.status = KeyStatusType.DESTROYED
      · rw [hd]; decide
      · exact (hv.complete k hk hd).2.2
  obtain ⟨c1, c2, c3, c4, c5⟩ := C98_public_keys hl hccs hr hpriv hpub
  obtain ⟨pv, hpv⟩ := (C98_verify_primitive hi hl hccv hr (counterpart_keys c2 c3)).2 ⟨c4, fun k' hk' _ => by
    obtain ⟨k, hk, hmem⟩ := zip_mem' c2 hk'
    obtain ⟨-, -, g3, -, -, -, s, g7, g8⟩ := c3 _ hmem
    dsimp only at g3 g7 g8
    obtain ⟨-, -, e3, -, s', e5, e6, -⟩ := h1 k hk
    cases (C97_unique hl).1 _ _ g7 e5
    refine ⟨?_, _, g8, e6.1⟩
    unfold PrefixKnown at e3 ⊢
    rw [g3]
    exact e3⟩
  refine ⟨h1, (C98_sign_primitive hi hl hccs hr (usable_keysOf h1)).2 ⟨hv, fun k hk _ => ?_⟩, pub, pv, hpub, hpv⟩
  obtain ⟨-, -, g3, -, s, g5, g6, -⟩ := h1 k hk
  exact ⟨g3, s, g5, g6⟩

/-! ## Hybrid encryption -/

theorem hybrid_new_key {lib : HybSsl} (hl : LawfulHyb lib)
    (hcc : ∀ u cc, ccHybridDecrypt lib u = some cc → L.ccHybridDecrypt u = some cc)
    (hr : PackageRegistered L r .hybrid) (seed : Seed) (t tv : KeyTemplate) (kd : KeyData)
    (ht : .ok t ∈ templates .hybrid) (hv : VariantOf t tv) (hn : r.newKeyData seed tv = .ok kd) :
    kd.typeUrl ∈ hybridPrivateTypes ∧ Fits kd ∧ GoodHybrid lib kd := by
  obtain ⟨t', e, hft, hk, -, -, -⟩ := C64_templates _ _ ht
  cases e
  obtain ⟨s, hs, hcheck, hus, hno, hsize⟩ := hybrid_template hl ht seed
  have hut : ∃ pu, HybridType t.typeUrl pu := by
    generalize t.typeUrl = u at hs
    cases hs with
    | ecies => exact ⟨_, .ecies⟩
    | hpke => exact ⟨_, .hpke⟩
  obtain ⟨cc, hc⟩ := (C100_decrypt_types (lib := lib)).2 hut
  have hgood : ∀ kd, cc.newKeyData seed t.value = .ok kd →
      kd.typeUrl ∈ hybridPrivateTypes ∧ Fits kd ∧ GoodHybrid lib kd := by
    intro kd hkd
    obtain ⟨s', h1, h2, h3, h4, h5, h6, h7⟩ := C100_new hl hc hkd
    cases hyb_asked_unique hs h1
    obtain ⟨g1, g2, -⟩ := h7 hsize
    have hok := h5 hus
    exact ⟨by rw [h3]; exact hybrid_private_iff.1 hut, g1, h4, s, by rw [h3]; exact g2, hok, (h6 hok).1, (h6 hok).2,
      h2, hno, hsize⟩
  obtain ⟨m, hm, -, hkt, htm⟩ := hr.managers _ _ hk
  cases htm with
  | hybridDecrypt found serves =>
    rw [hcc _ _ hc] at found
    cases found
    exact hgood _ (registry_variant hm hkt serves hv (variant_fits ht hft hv) (fun kd hkd => (hgood kd hkd).2.1) hn)

theorem usable_hybrid {lib : HybSsl} (hl : LawfulHyb lib) {ks : Keyset}
    (h : AllUsable hybridPrivateTypes (GoodHybrid lib) ks) : PrivateHybridKeyset ks ∧ NoOverflowIn ks := by
  constructor
  · intro k hk
    obtain ⟨h1, h2, -, h4, s, h5, -, -, -, -, -, h8⟩ := h k hk
    refine ⟨h1, h2, h4, fun s' hs => ?_⟩
    cases (C101_unique hl).1 _ _ h5 hs
    exact h8
  · intro k hk _ s' hs
    obtain ⟨h1, h2, -, h4, s, h5, -, -, -, -, h8, -⟩ := h k hk
    cases (C101_unique hl).1 _ _ h5 hs
    exact h8

/-- C109, hybrid encryption.  A rotated keyset works, and so does its public keyset. -/
theorem C109_hybrid_works {lib : HybSsl} (hi : LawfulConfig L isInst) (hl : LawfulHyb lib)
    (hccd : ∀ u cc, ccHybridDecrypt lib u = some cc → L.ccHybridDecrypt u = some cc)
    (hcce : ∀ u cc, ccHybridEncrypt lib u = some cc → L.ccHybridEncrypt u = some cc)
    (hr : PackageRegistered L r .hybrid) (H : Rotated r h ops h') (hops : FromPredefined .hybrid ops)
    (h0 : AllUsable hybridPrivateTypes (GoodHybrid lib) h.keyset) :
    AllUsable hybridPrivateTypes (GoodHybrid lib) h'.keyset ∧
      (∃ p, h'.primitive isInst r (L.cls .hybridDecrypt) = .ok p) ∧
      ∃ pub p, h'.publicKeysetHandle r = .ok pub ∧ pub.primitive isInst r (L.cls .hybridEncrypt) = .ok p := by
  have h1 := rotated_usable H hops h0 (hybrid_new_key hl hccd hr)
  have hv := (rotated_iff_run H).2
  have hpriv := (usable_hybrid hl h1).1
  obtain ⟨pub, hpub⟩ := (C102_public hl hccd hr hv hpriv).2 fun k hk => by
    obtain ⟨-, -, g3, -, s, g5, -, -, -, g6, -⟩ := h1 k hk
    refine ⟨?_, ?_, s, g5, g6⟩
    · intro e
      unfold PrefixKnown at g3
      rw [e] at g3
      revert g3
      decide
    · by_cases hd : k.status = KeyStatusType.DESTROYED
      · rw [hd]; decide
      · exact (hv.complete k hk hd).2.2
  obtain ⟨c1, c2, c3, c4, c5⟩ := C102_public_keys hl hccd hr hpriv hpub
  have hkeys : KeysOf hybridPublicTypes pub.keyset := by
    intro k' hk' _
    obtain ⟨k1, -, hmem⟩ := zip_mem' c2 hk'
    obtain ⟨-, -, -, g1, -, g2, -⟩ := c3 _ hmem
    exact ⟨hybrid_public_iff.1 ⟨_, g1⟩, g2⟩
  obtain ⟨pv, hpv⟩ := (C102_encrypt_primitive hi hl hcce hr hkeys).2 ⟨c4, fun k' hk' _ => by
    obtain ⟨k, hk, hmem⟩ := zip_mem' c2 hk'
    obtain ⟨-, -, g3, -, -, -, s, g7, g8⟩ := c3 _ hmem
    dsimp only at g3 g7 g8
    obtain ⟨-, -, e3, -, s', e5, -, -, e6, -⟩ := h1 k hk
    cases (C101_unique hl).1 _ _ g7 e5
    refine ⟨?_, _, g8, e6⟩
    unfold PrefixKnown at e3 ⊢
    rw [g3]
    exact e3⟩
  refine ⟨h1, (C102_decrypt_primitive hi hl hccd hr (usable_keysOf h1)).2 ⟨hv, fun k hk _ => ?_⟩, pub, pv, hpub, hpv⟩
  obtain ⟨-, -, g3, -, s, g5, g6, -⟩ := h1 k hk
  exact ⟨g3, s, g5, g6⟩

end

end Tink.Props
