import Verif.Cc.TemplateLemmas
import Verif.Examples.ToySymmetricConfig
import Verif.Props.SymmetricKeysets

/-!
# C94: new keysets of symmetric keys

For each predefined template: a new keyset can be made, holds the random key that the template asks for, and
its primitive does exactly what it should.
-/

namespace Tink.Props
open Spec Config Cc

section
variable {σ δ ε τ S P C : Type} [DecidableEq C] {L : Library σ δ ε τ S P C} {isInst : P → C → Bool}
  {r : Registry P C} {lib : Ssl} {t : KeyTemplate}

theorem payload_iff {k : Key} {pre x b : Bytes} (hpre : outputPrefix k = .ok pre) (hb : b ≠ []) :
    payload k x = some b ↔ x = pre ++ b := by
  constructor
  · intro h
    rcases payload_cases h with ⟨h1, h2⟩ | ⟨_, pre', h1, _, h2, _⟩
    · rw [(raw_iff_prefix_nil hpre).1 h1, h2]; rfl
    · rw [hpre] at h1; cases h1; exact h2
  · rintro rfl
    exact payload_append hpre _ (.inr hb)

/-- C94, AEAD.  The primitive of a new keyset decrypts exactly what it may produce, and encrypts everything
below 2 GiB. -/
theorem C94_aead_template (hi : LawfulConfig L isInst) (hl : LawfulSsl lib)
    (hcc : ∀ u cc, ccAead lib u = some cc → L.ccAead u = some cc) (hr : PackageRegistered L r .aead)
    (ht : .ok t ∈ templates .aead) (seed : Seed) (d : UInt32) (draws : List UInt32) :
    ∃ h p k key, KeysetHandle.generateNew r seed (d :: draws) t = some (.ok h) ∧ h.keyset = ⟨d, [k]⟩ ∧
      AeadKey.AskedFor (lib.random seed) t.typeUrl t.value key ∧
      AeadKey.StoredIn k.data.typeUrl k.data.value key ∧
      h.primitive isInst r (L.cls .aead) = .ok p ∧
      (∀ ct ad pt, (L.aead.view p).decrypt ct ad = .ok pt ↔ ∃ s, (L.aead.view p).encrypt s pt ad = .ok ct) ∧
      ∀ s pt ad, pt.length < 2 ^ 31 → ad.length < 2 ^ 31 → ∃ ct, (L.aead.view p).encrypt s pt ad = .ok ct := by
  obtain ⟨htt, key, h1, h2, h3⟩ := aead_template (hl.random_length seed) ht
  obtain ⟨cc, hc⟩ := (C89_aead_types (lib := lib)).2 htt
  obtain ⟨kd, hkd⟩ := (C89_aead_formats (seed := seed) hl hc t.value).2 ⟨key, h1, h2⟩
  obtain ⟨a, hfk, hu, h4, hst⟩ : ∃ a, Fits kd ∧ kd.typeUrl = t.typeUrl ∧ cc.getPrimitive kd = .ok a ∧
      ∃ key', AeadKey.AskedFor (lib.random seed) t.typeUrl t.value key' ∧
        AeadKey.StoredIn kd.typeUrl kd.value key' := by
    obtain ⟨k', g1, -, g2, -, g3⟩ := C89_aead_new hl hc hkd
    have : k'.size < 2 ^ 31 - 1000 := by
      cases aead_asked_unique h1 g1
      omega
    obtain ⟨g4, g5, a, g6⟩ := g3 this
    exact ⟨a, g4, g2, g6, k', g1, by rw [g2]; exact g5⟩
  obtain ⟨key', hask, hst⟩ := hst
  obtain ⟨h, w, p, g1, g2, hw, H⟩ := C64_new_keyset hi hr ht (.aead (hcc _ _ hc) hkd h4) hfk hu d draws
  cases hw
  have hprim := single_primary (P := P) (o := L.aead.inj (aeadCcToPy a)) g2 rfl
  obtain ⟨pre, hpre⟩ := H.prop.2 _ hprim.mem
  rw [← hu] at hc
  obtain ⟨k', -, hok', hex⟩ := C90_aead hl hc h4 (fits_length hfk)
  have henc : ∀ s pt ad ct, (L.aead.view p).encrypt s pt ad = .ok ct ↔
      ∃ body, a.encrypt s pt ad = .ok body ∧ ct = pre ++ body := by
    intro s pt ad ct
    rw [C01_aead_encrypt_eq H hprim hpre, L.aead.view_inj, C65_primitives.1, bind_ok_iff]
    simp only [reported_ok, Except.ok.injEq]
    exact ⟨fun ⟨b, h1, h2⟩ => ⟨b, h1, h2.symm⟩, fun ⟨b, h1, h2⟩ => ⟨b, h1, h2.symm⟩⟩
  refine ⟨h, p, _, key', g1, g2, hask, hst, H.primitive, fun ct ad pt => ?_, fun s pt ad hp ha => ?_⟩
  · rw [C03_aead_decrypt_eq H]
    have := search_iff (l := tryOrder [((⟨some kd, KeyStatusType.ENABLED, d, t.outputPrefixType⟩ : Key),
        L.aead.inj (aeadCcToPy a))]) (x := ct) (f := fun _ o body => (L.aead.view o).decrypt body ad)
      (does := fun k pt => ∃ b, payload k ct = some b ∧ a.decrypt b ad = .ok pt)
      (fun q hq pt => by
        rw [single_tryOrder, List.nil_append, List.mem_singleton] at hq
        subst hq
        simp only [L.aead.view_inj, C65_primitives.2.1, reported_ok])
      (fun q hq b e he => by
        rw [single_tryOrder, List.nil_append, List.mem_singleton] at hq
        subst hq
        rw [L.aead.view_inj, C65_primitives.2.1] at he
        cases hx : a.decrypt b ad with
        | ok x => rw [hx] at he; cases he
        | error s => rw [hx] at he; cases he; rfl) pt
    refine this.trans ?_
    rw [single_tryOrder]
    simp only [henc]
    constructor
    · rintro ⟨before, k, after, e, ⟨b, e1, e2⟩, -⟩
      obtain ⟨s, hs⟩ := (hex.exact b ad pt).1 e2
      cases before with
      | cons x xs => simp at e
      | nil =>
        cases e
        have hb : b ≠ [] := by
          intro hb
          have := hex.length s pt ad b hs
          rw [hb] at this
          have hpos := overhead_pos k' hok'
          simp at this
          omega
        exact ⟨s, b, hs, (payload_iff hpre hb).1 e1⟩
    · rintro ⟨s, b, hs, hct⟩
      have hb : b ≠ [] := by
        intro hb
        have := hex.length s pt ad b hs
        rw [hb] at this
        have hpos := overhead_pos k' hok'
        simp at this
        omega
      exact ⟨[], _, [], rfl, ⟨b, (payload_iff hpre hb).2 hct, (hex.exact b ad pt).2 ⟨s, hs⟩⟩, by simp⟩
  · obtain ⟨body, hb⟩ := hex.total s pt ad hp ha
    exact ⟨_, (henc ..).2 ⟨body, hb, rfl⟩⟩

/-- C94, deterministic AEAD. -/
theorem C94_daead_template (hi : LawfulConfig L isInst) (hl : LawfulSsl lib)
    (hcc : ∀ u cc, ccDaead lib u = some cc → L.ccDaead u = some cc) (hr : PackageRegistered L r .daead)
    (ht : .ok t ∈ templates .daead) (seed : Seed) (d : UInt32) (draws : List UInt32) :
    ∃ h p k key, KeysetHandle.generateNew r seed (d :: draws) t = some (.ok h) ∧ h.keyset = ⟨d, [k]⟩ ∧
      SivKey.AskedFor (lib.random seed) t.typeUrl t.value key ∧
      SivKey.StoredIn k.data.typeUrl k.data.value key ∧
      h.primitive isInst r (L.cls .daead) = .ok p ∧
      (∀ ct ad pt, (L.daead.view p).decryptDeterministically ct ad = .ok pt ↔
        (L.daead.view p).encryptDeterministically pt ad = .ok ct) ∧
      ∀ pt ad, ∃ ct, (L.daead.view p).encryptDeterministically pt ad = .ok ct := by
  obtain ⟨htt, key, h1, h2⟩ := daead_template (hl.random_length seed) ht
  obtain ⟨cc, hc⟩ := (C89_daead_types (lib := lib)).2 (by simpa [daeadTypes] using htt)
  obtain ⟨kd, hkd⟩ := (C89_daead_formats (seed := seed) hl hc t.value).2 ⟨key, h1, h2⟩
  obtain ⟨key', hask, -, hu, -, hfk, hst, a, h4⟩ := C89_daead_new hl hc hkd
  obtain ⟨h, w, p, g1, g2, hw, H⟩ := C64_new_keyset hi hr ht (.daead (hcc _ _ hc) hkd h4) hfk hu d draws
  cases hw
  have hprim := single_primary (P := P) (o := L.daead.inj (daeadCcToPy a)) g2 rfl
  obtain ⟨pre, hpre⟩ := H.prop.2 _ hprim.mem
  rw [← hu] at hc hst
  obtain ⟨k', -, -, hex⟩ := C90_daead hl hc h4 (fits_length hfk)
  have henc : ∀ pt ad ct, (L.daead.view p).encryptDeterministically pt ad = .ok ct ↔
      ∃ body, a.encryptDeterministically pt ad = .ok body ∧ ct = pre ++ body := by
    intro pt ad ct
    rw [C05_daead_encrypt_eq H hprim hpre, L.daead.view_inj, C65_primitives.2.2.1, bind_ok_iff]
    simp only [reported_ok, Except.ok.injEq]
    exact ⟨fun ⟨b, h1, h2⟩ => ⟨b, h1, h2.symm⟩, fun ⟨b, h1, h2⟩ => ⟨b, h1, h2.symm⟩⟩
  have hne : ∀ pt ad b, a.encryptDeterministically pt ad = .ok b → b ≠ [] := by
    intro pt ad b hs hb
    have := hex.length pt ad b hs
    rw [hb] at this
    simp at this
  refine ⟨h, p, _, key', g1, g2, hask, hst, H.primitive, fun ct ad pt => ?_, fun pt ad => ?_⟩
  · rw [C05_daead_decrypt_eq H]
    have := search_iff (l := tryOrder [((⟨some kd, KeyStatusType.ENABLED, d, t.outputPrefixType⟩ : Key),
        L.daead.inj (daeadCcToPy a))]) (x := ct)
      (f := fun _ o body => (L.daead.view o).decryptDeterministically body ad)
      (does := fun k pt => ∃ b, payload k ct = some b ∧ a.decryptDeterministically b ad = .ok pt)
      (fun q hq pt => by
        rw [single_tryOrder, List.nil_append, List.mem_singleton] at hq
        subst hq
        simp only [L.daead.view_inj, C65_primitives.2.2.2.1, reported_ok])
      (fun q hq b e he => by
        rw [single_tryOrder, List.nil_append, List.mem_singleton] at hq
        subst hq
        rw [L.daead.view_inj, C65_primitives.2.2.2.1] at he
        cases hx : a.decryptDeterministically b ad with
        | ok x => rw [hx] at he; cases he
        | error s => rw [hx] at he; cases he; rfl) pt
    refine this.trans ?_
    rw [single_tryOrder]
    simp only [henc]
    constructor
    · rintro ⟨before, k, after, e, ⟨b, e1, e2⟩, -⟩
      have hs := (hex.exact b ad pt).1 e2
      cases before with
      | cons x xs => simp at e
      | nil =>
        cases e
        exact ⟨b, hs, (payload_iff hpre (hne _ _ _ hs)).1 e1⟩
    · rintro ⟨b, hs, hct⟩
      exact ⟨[], _, [], rfl, ⟨b, (payload_iff hpre (hne _ _ _ hs)).2 hct, (hex.exact b ad pt).2 hs⟩, by simp⟩
  · obtain ⟨body, hb⟩ := hex.total pt ad
    exact ⟨_, (henc ..).2 ⟨body, hb, rfl⟩⟩

/-- C94, MAC.  The primitive of a new keyset computes a tag for every text, and accepts no other. -/
theorem C94_mac_template (hi : LawfulConfig L isInst) (hl : LawfulSsl lib)
    (hcc : ∀ u cc, ccMac lib u = some cc → L.ccMac u = some cc) (hr : PackageRegistered L r .mac)
    (ht : .ok t ∈ templates .mac) (seed : Seed) (d : UInt32) (draws : List UInt32) :
    ∃ h p k key, KeysetHandle.generateNew r seed (d :: draws) t = some (.ok h) ∧ h.keyset = ⟨d, [k]⟩ ∧
      MacKey.AskedFor (lib.random seed) t.typeUrl t.value key ∧
      MacKey.StoredIn k.data.typeUrl k.data.value key ∧
      h.primitive isInst r (L.cls .mac) = .ok p ∧
      (∀ tag data, (L.mac.view p).verifyMac tag data = .ok () ↔ (L.mac.view p).computeMac data = .ok tag) ∧
      ∀ data, ∃ tag, (L.mac.view p).computeMac data = .ok tag := by
  obtain ⟨htt, key, h1, h2, h3⟩ := mac_template (hl.random_length seed) ht
  obtain ⟨cc, hc⟩ := (C89_mac_types (lib := lib)).2 htt
  obtain ⟨kd, hkd⟩ := (C89_mac_formats (seed := seed) hl hc t.value).2 ⟨key, h1, h2⟩
  obtain ⟨key', hask, hok, hu, -, g3⟩ := C89_mac_new hl hc hkd
  have : key'.size < 2 ^ 31 - 1000 := by
    cases mac_asked_unique h1 hask
    omega
  obtain ⟨hfk, hst, a, h4⟩ := g3 this
  obtain ⟨h, w, p, g1, g2, hw, H⟩ := C64_new_keyset hi hr ht (.mac (hcc _ _ hc) hkd h4) hfk hu d draws
  cases hw
  have hprim := single_primary (P := P) (o := L.mac.inj (macCcToPy a)) g2 rfl
  obtain ⟨pre, hpre⟩ := H.prop.2 _ hprim.mem
  rw [← hu] at hc hst
  obtain ⟨k', hst', hok', hex, hlen⟩ := C90_mac hl hc h4 (fits_length hfk)
  have henc : ∀ data, (L.mac.view p).computeMac data = .ok (pre ++ k'.tag lib
      (authenticated ⟨some kd, KeyStatusType.ENABLED, d, t.outputPrefixType⟩ data)) := by
    intro data
    rw [C07_mac_compute_eq H hprim hpre, L.mac.view_inj, C65_primitives.2.2.2.2.2.2.1, hex.compute]
    rfl
  have hts : 10 ≤ k'.tagSize := by
    cases k' with
    | hmac => exact hok'.2.1
    | aesCmac => exact hok'.2.1
  refine ⟨h, p, _, key', g1, g2, hask, hst, H.primitive, fun tag data => ?_, fun data => ⟨_, henc data⟩⟩
  have hk : KeysOf macTypes h.keyset := by
    intro k hk he
    rw [g2, List.mem_singleton] at hk
    subst hk
    exact ⟨by rw [show Key.data _ = kd from rfl, hu]; exact htt, hfk⟩
  rw [(C94_mac_verify hl hcc hr hk H.primitive tag data).1, henc, g2]
  have hne : ∀ data, k'.tag lib data ≠ [] := by
    intro data hn
    have := hlen data
    rw [hn] at this
    simp at this
    omega
  constructor
  · rintro ⟨-, k, hk, -, body, key2, e1, e2, rfl⟩
    rw [List.mem_singleton] at hk
    subst hk
    cases mac_unique hst' e2
    rw [(payload_iff hpre (hne _)).1 e1]
  · intro e
    cases e
    have := hlen (authenticated ⟨some kd, KeyStatusType.ENABLED, d, t.outputPrefixType⟩ data)
    refine ⟨by simp; omega, _, List.mem_singleton.2 rfl, rfl, _, k', (payload_iff hpre (hne _)).2 rfl, hst', rfl⟩

/-- C94, PRF. -/
theorem C94_prf_template (hi : LawfulConfig L isInst) (hl : LawfulSsl lib)
    (hcc : ∀ u cc, ccPrf lib u = some cc → L.ccPrf u = some cc) (hr : PackageRegistered L r .prf)
    (ht : .ok t ∈ templates .prf) (seed : Seed) (d : UInt32) (draws : List UInt32) :
    ∃ h p key f, KeysetHandle.generateNew r seed (d :: draws) t = some (.ok h) ∧
      PrfKey.AskedFor (lib.random seed) t.typeUrl t.value key ∧
      h.primitive isInst r (L.cls .prfSet) = .ok p ∧
      (L.prfSet.view p).primaryId = .ok d ∧ (L.prfSet.view p).primary = .ok f ∧
      (∃ all, (L.prfSet.view p).all = .ok all ∧ ∀ id, PyDict.get? all id = if id = d then some f else none) ∧
      ∀ input n, n < 2 ^ 31 → f.compute input n =
        if n ≤ (key.output lib input).length then .ok ((key.output lib input).take n) else .error .tinkError := by
  obtain ⟨htt, key, h1, h2, h3⟩ := prf_template (hl.random_length seed) ht
  obtain ⟨cc, hc⟩ := (C89_prf_types (lib := lib)).2 htt
  obtain ⟨kd, hkd⟩ := (C89_prf_formats (seed := seed) hl hc t.value).2 ⟨key, h1, h2⟩
  obtain ⟨key', hask, hok, hu, -, g3⟩ := C89_prf_new hl hc hkd
  have : key'.size < 2 ^ 31 - 1000 := by
    cases prf_asked_unique h1 hask
    omega
  obtain ⟨hfk, hst, a, h4⟩ := g3 this
  obtain ⟨h, p, f, g1, g2, g3, g4, g5, g6⟩ := C66_prf hi hr ht (hcc _ _ hc) hkd h4 hfk hu d draws
  rw [← hu] at hc hst
  obtain ⟨k', hst', -, hex, -⟩ := C90_prf hl hc h4 (fits_length hfk)
  replace hex := hex (2 ^ 31) (.inl (Nat.le_refl _))
  cases prf_unique hst hst'
  refine ⟨h, p, key', f, g1, hask, g2, g3, g4, g5, fun input n hn => ?_⟩
  rw [g6]
  by_cases hle : n ≤ (key'.output lib input).length
  · rw [if_pos hle, (hex input n hn).1 hle]; rfl
  · rw [if_neg hle]
    obtain ⟨e, he⟩ := (hex input n hn).2 (by omega)
    rw [he]; rfl

end

/-! ## Examples -/

section
open ToyConfig

/-- The registry after `tink_config.register()`, with the toy cryptography. -/
def symmetricRegistry : Registry ToyConfig.Prim PrimClass :=
  runConfig ToyConfig.isInst ToySymmetricConfig.library ([] ++ .registerTinkConfig :: []) {}

theorem symmetric_registered (pkg : Package) :
    PackageRegistered ToySymmetricConfig.library symmetricRegistry pkg :=
  C64_registered ToySymmetricConfig.lawful (.inr rfl) (by simp [Foreign]) (by simp)

example {t : KeyTemplate} (ht : .ok t ∈ templates .aead) :=
  C94_aead_template ToySymmetricConfig.lawful ToySsl.lawful (fun _ _ h => h) (symmetric_registered .aead) ht 7 42 []

example {t : KeyTemplate} (ht : .ok t ∈ templates .daead) :=
  C94_daead_template ToySymmetricConfig.lawful ToySsl.lawful (fun _ _ h => h) (symmetric_registered .daead) ht 7 42 []

example {t : KeyTemplate} (ht : .ok t ∈ templates .mac) :=
  C94_mac_template ToySymmetricConfig.lawful ToySsl.lawful (fun _ _ h => h) (symmetric_registered .mac) ht 7 42 []

example {t : KeyTemplate} (ht : .ok t ∈ templates .prf) :=
  C94_prf_template ToySymmetricConfig.lawful ToySsl.lawful (fun _ _ h => h) (symmetric_registered .prf) ht 7 42 []

/-- Two AEAD keys with different algorithms and prefixes, and a disabled key. -/
def aeadKeys : KeysetHandle where
  keyset := ⟨7, [⟨some gcmKey, KeyStatusType.ENABLED, 5, OutputPrefixType.RAW⟩,
    ⟨some eaxKey, KeyStatusType.ENABLED, 7, OutputPrefixType.TINK⟩,
    ⟨some sivKey, KeyStatusType.DISABLED, 9, OutputPrefixType.TINK⟩]⟩

theorem gcmKey_stored : AeadKey.StoredIn gcmKey.typeUrl gcmKey.value (.aesGcm (bytes 16)) :=
  .aesGcm (k := { keyValue := bytes 16 }) (by decide +kernel) rfl

theorem eaxKey_stored : AeadKey.StoredIn eaxKey.typeUrl eaxKey.value (.aesEax (bytes 32) 16) :=
  .aesEax (k := { params := some { ivSize := 16 }, keyValue := bytes 32 }) (by decide +kernel) rfl

theorem fits_key {kd : KeyData} (h : Except.isOk kd.serializeToString = true) : Fits kd := by
  cases hx : kd.serializeToString with
  | ok b => exact ⟨b, hx⟩
  | error e => rw [hx] at h; cases h

theorem aeadKeys_of : KeysOf aeadTypes aeadKeys.keyset := by
  intro k hk he
  simp only [aeadKeys, List.mem_cons, List.not_mem_nil, or_false] at hk
  rcases hk with rfl | rfl | rfl
  · exact ⟨by decide +kernel, fits_key (by decide +kernel)⟩
  · exact ⟨by decide +kernel, fits_key (by decide +kernel)⟩
  · exact absurd he (by decide)

theorem aeadKeys_valid : Valid aeadKeys.keyset :=
  (C20_validate_iff _).1 (by decide +kernel)

/-- The hypotheses of C94 for this keyset.  What its primitive encrypts begins with the prefix of key 7, and
a ciphertext of key 5 is decrypted as well. -/
example : ∃ p, aeadKeys.primitive ToyConfig.isInst symmetricRegistry PrimClass.aead = .ok p ∧
    (∀ pt, ∃ body, (ToySymmetricConfig.library.aead.view p).encrypt 3 pt (by! "ad") = .ok ([1, 0, 0, 0, 7] ++ body)) ∧
    ∀ ct, (AeadKey.aesGcm (bytes 16)).ciphertext ToySsl.lib (bytes 12) (by! "ad") (by! "text") = some ct →
      ct.take 5 ≠ [1, 0, 0, 0, 7] →
      (ToySymmetricConfig.library.aead.view p).decrypt ct (by! "ad") = .ok (by! "text") := by
  obtain ⟨p, hp⟩ := (C94_aead_primitive ToySymmetricConfig.lawful ToySsl.lawful (fun _ _ h => h)
    (symmetric_registered .aead) aeadKeys_of).2 ⟨aeadKeys_valid, fun k hk he => by
      simp only [aeadKeys, List.mem_cons, List.not_mem_nil, or_false] at hk
      rcases hk with rfl | rfl | rfl
      · exact ⟨by unfold PrefixKnown; decide, _, gcmKey_stored, .inl (by decide)⟩
      · exact ⟨by unfold PrefixKnown; decide, _, eaxKey_stored, .inr (by decide), .inr rfl⟩
      · exact absurd he (by decide)⟩
  refine ⟨p, hp, fun pt => ?_, fun ct hct hpre => ?_⟩
  · obtain ⟨pre, key, h1, h2, h3⟩ := C94_aead_encrypt ToySsl.lawful (fun _ _ h => h) (symmetric_registered .aead)
      aeadKeys_of hp (k := ⟨some eaxKey, KeyStatusType.ENABLED, 7, OutputPrefixType.TINK⟩)
      (by simp [aeadKeys]) (by decide +kernel)
    cases aead_unique eaxKey_stored h2
    have hpre : outputPrefix (⟨some eaxKey, KeyStatusType.ENABLED, 7, OutputPrefixType.TINK⟩ : Key) =
        .ok [1, 0, 0, 0, 7] := by decide
    rw [hpre] at h1
    cases h1
    exact ⟨_, h3 3 pt (by! "ad") (by decide)⟩
  · refine ((C94_aead_decrypt ToySsl.lawful (fun _ _ h => h) (symmetric_registered .aead) aeadKeys_of hp
      (ad := by! "ad") (by decide) ct).1 _).2 ?_
    refine ⟨[⟨some eaxKey, KeyStatusType.ENABLED, 7, OutputPrefixType.TINK⟩],
      ⟨some gcmKey, KeyStatusType.ENABLED, 5, OutputPrefixType.RAW⟩, [], by rfl,
      ⟨ct, _, bytes 12, by rfl, gcmKey_stored, by decide, hct⟩, ?_⟩
    rintro k hk pt ⟨body, key, nonce, h1, -⟩
    rw [List.mem_singleton] at hk
    subst hk
    rcases payload_cases h1 with ⟨h, -⟩ | ⟨-, pre, h2, h3, rfl, -⟩
    · exact absurd h (by decide)
    · have h4 : outputPrefix (⟨some eaxKey, KeyStatusType.ENABLED, 7, OutputPrefixType.TINK⟩ : Key) =
          .ok [1, 0, 0, 0, 7] := by decide
      rw [h4] at h2
      cases h2
      exact hpre rfl

/-- Two MAC keys. -/
def macKeys : KeysetHandle where
  keyset := ⟨7, [⟨some hmacKey, KeyStatusType.ENABLED, 5, OutputPrefixType.LEGACY⟩,
    ⟨some cmacKey, KeyStatusType.ENABLED, 7, OutputPrefixType.RAW⟩]⟩

theorem hmacKey_stored : MacKey.StoredIn hmacKey.typeUrl hmacKey.value (.hmac (bytes 16) HashType.SHA1 20) :=
  .hmac (k := { params := some { hash := HashType.SHA1, tagSize := 20 }, keyValue := bytes 16 })
    (by decide +kernel) rfl

theorem cmacKey_stored : MacKey.StoredIn cmacKey.typeUrl cmacKey.value (.aesCmac (bytes 32) 16) :=
  .aesCmac (k := { params := some { tagSize := 16 }, keyValue := bytes 32 }) (by decide +kernel) rfl

theorem macKeys_of : KeysOf macTypes macKeys.keyset := by
  intro k hk he
  simp only [macKeys, List.mem_cons, List.not_mem_nil, or_false] at hk
  rcases hk with rfl | rfl
  · exact ⟨by decide +kernel, fits_key (by decide +kernel)⟩
  · exact ⟨by decide +kernel, fits_key (by decide +kernel)⟩

/-- A tag of the key that is not primary is accepted; it is for the data with a zero byte after them. -/
example : ∃ p, macKeys.primitive ToyConfig.isInst symmetricRegistry PrimClass.mac = .ok p ∧
    (ToySymmetricConfig.library.mac.view p).verifyMac
      ([0, 0, 0, 0, 5] ++ MacKey.tag ToySsl.lib (.hmac (bytes 16) HashType.SHA1 20) (by! "data" ++ [0]))
      (by! "data") = .ok () := by
  obtain ⟨p, hp⟩ := (C94_mac_primitive ToySymmetricConfig.lawful ToySsl.lawful (fun _ _ h => h)
    (symmetric_registered .mac) macKeys_of).2 ⟨(C20_validate_iff _).1 (by decide +kernel), fun k hk he => by
      simp only [macKeys, List.mem_cons, List.not_mem_nil, or_false] at hk
      rcases hk with rfl | rfl
      · exact ⟨by unfold PrefixKnown; decide, _, hmacKey_stored, by decide, by decide, 20, .sha1, by decide⟩
      · exact ⟨by unfold PrefixKnown; decide, _, cmacKey_stored, by decide, by decide, by decide⟩⟩
  refine ⟨p, hp, (C94_mac_verify ToySsl.lawful (fun _ _ h => h) (symmetric_registered .mac) macKeys_of hp _ _).1.2
    ⟨by decide +kernel, ⟨some hmacKey, KeyStatusType.ENABLED, 5, OutputPrefixType.LEGACY⟩, by simp [macKeys], rfl,
      _, _, payload_append (by rfl) _ (.inr (by decide +kernel)), hmacKey_stored, rfl⟩⟩

/-- A keyset with an HKDF key. -/
def prfKeys : KeysetHandle where
  keyset := ⟨7, [⟨some hkdfKey, KeyStatusType.ENABLED, 7, OutputPrefixType.RAW⟩]⟩

theorem prfKeys_of : KeysOf prfTypes prfKeys.keyset := by
  intro k hk he
  simp only [prfKeys, List.mem_cons, List.not_mem_nil, or_false] at hk
  subst hk
  exact ⟨by decide +kernel, fits_key (by decide +kernel)⟩

example : ∃ p f, prfKeys.primitive ToyConfig.isInst symmetricRegistry PrimClass.prfSet = .ok p ∧
    (ToySymmetricConfig.library.prfSet.view p).primary = .ok f ∧
    Computes ToySsl.lib f ⟨some hkdfKey, KeyStatusType.ENABLED, 7, OutputPrefixType.RAW⟩ := by
  obtain ⟨p, hp⟩ := (C94_prf_primitive ToySymmetricConfig.lawful ToySsl.lawful (fun _ _ h => h)
    (symmetric_registered .prf) prfKeys_of).2 ⟨(C20_validate_iff _).1 (by decide +kernel), fun k hk he => by
      simp only [prfKeys, List.mem_cons, List.not_mem_nil, or_false] at hk
      subst hk
      exact ⟨rfl, _, hkdfKey_stored, by decide, by decide, .inl rfl⟩⟩
  obtain ⟨-, f, h1, h2⟩ := (C94_prf_set ToySsl.lawful (fun _ _ h => h) (symmetric_registered .prf) prfKeys_of hp).1
    ⟨some hkdfKey, KeyStatusType.ENABLED, 7, OutputPrefixType.RAW⟩
    (by simp [prfKeys]) (by decide +kernel)
  exact ⟨p, f, hp, h1, h2⟩

/-- A keyset with an AES-SIV key. -/
def daeadKeys : KeysetHandle where
  keyset := ⟨7, [⟨some sivKey, KeyStatusType.ENABLED, 7, OutputPrefixType.CRUNCHY⟩]⟩

theorem sivKey_stored : SivKey.StoredIn sivKey.typeUrl sivKey.value ⟨bytes 64⟩ :=
  .aesSiv (k := { keyValue := bytes 64 }) (by decide +kernel) rfl

theorem daeadKeys_of : KeysOf daeadTypes daeadKeys.keyset := by
  intro k hk he
  simp only [daeadKeys, List.mem_cons, List.not_mem_nil, or_false] at hk
  subst hk
  exact ⟨by decide +kernel, fits_key (by decide +kernel)⟩

example : ∃ p, daeadKeys.primitive ToyConfig.isInst symmetricRegistry PrimClass.daead = .ok p ∧
    ∀ pt ad, (ToySymmetricConfig.library.daead.view p).encryptDeterministically pt ad =
      .ok ([0, 0, 0, 0, 7] ++ SivKey.ciphertext ToySsl.lib ⟨bytes 64⟩ ad pt) := by
  obtain ⟨p, hp⟩ := (C94_daead_primitive ToySymmetricConfig.lawful ToySsl.lawful (fun _ _ h => h)
    (symmetric_registered .daead) daeadKeys_of).2 ⟨(C20_validate_iff _).1 (by decide +kernel), fun k hk he => by
      simp only [daeadKeys, List.mem_cons, List.not_mem_nil, or_false] at hk
      subst hk
      exact ⟨by unfold PrefixKnown; decide, _, sivKey_stored, by show (bytes 64).length = 64; decide⟩⟩
  obtain ⟨pre, key, h1, h2, h3⟩ := C94_daead_encrypt ToySsl.lawful (fun _ _ h => h) (symmetric_registered .daead)
    daeadKeys_of hp (k := ⟨some sivKey, KeyStatusType.ENABLED, 7, OutputPrefixType.CRUNCHY⟩)
    (by simp [daeadKeys]) (by decide +kernel)
  cases siv_unique sivKey_stored h2
  have hpre : outputPrefix (⟨some sivKey, KeyStatusType.ENABLED, 7, OutputPrefixType.CRUNCHY⟩ : Key) =
      .ok [0, 0, 0, 0, 7] := by decide
  rw [hpre] at h1
  cases h1
  exact ⟨p, hp, h3⟩

end

end Tink.Props
