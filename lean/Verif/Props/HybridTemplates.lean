import Verif.Cc.TemplateLemmas
import Verif.Examples.ToyHybridConfig
import Verif.Props.HybridKeysets
import Verif.Props.SymmetricTemplates

/-!
# C102: new keysets of hybrid encryption keys

For each predefined template: a new keyset can be made, holds the key that the template asks for, and decrypts
everything that its public keyset encrypts.
-/

namespace Tink.Cc
open Spec Config

/-- What the templates ask for. -/
theorem hybrid_template {lib : HybSsl} (hl : LawfulHyb lib) {t : KeyTemplate}
    (ht : .ok t ∈ templates .hybrid) (seed : Seed) :
    ∃ s, HybPriv.AskedFor lib seed t.typeUrl t.value s ∧ s.publicPart.Checked ∧ s.publicPart.Usable ∧
      s.publicPart.NoOverflow ∧ s.size < 2 ^ 31 - 1000 := by
  have hcheck : ∀ x ∈ templates .hybrid, parsed x (fun t =>
      (decide (t.typeUrl = ps! "type.googleapis.com/google.crypto.tink.EciesAeadHkdfPrivateKey") &&
        parsed (EciesAeadHkdfKeyFormat.fromString t.value) fun f =>
          decide (f.params.isSome ∧ f.getParams.kemParams.isSome ∧ f.getParams.demParams.isSome ∧
            f.getParams.getDemParams.aeadDem.isSome) &&
          (decide (f.getParams.getKemParams.curveType = EllipticCurveType.NIST_P256 ∧
            f.getParams.getKemParams.hkdfHashType = HashType.SHA256 ∧
            f.getParams.getKemParams.hkdfSalt = [] ∧
            (f.getParams.ecPointFormat = EcPointFormat.UNCOMPRESSED ∨
              f.getParams.ecPointFormat = EcPointFormat.COMPRESSED) ∧
            f.getParams.getDemParams.getAeadDem.typeUrl.length ≤ 100 ∧
            f.getParams.getDemParams.getAeadDem.value.length ≤ 100) &&
          ((decide (f.getParams.getDemParams.getAeadDem.typeUrl =
              ps! "type.googleapis.com/google.crypto.tink.AesGcmKey") &&
            parsed (AesGcmKeyFormat.fromString f.getParams.getDemParams.getAeadDem.value) fun g =>
              decide (g.keySize = 16)) ||
          (decide (f.getParams.getDemParams.getAeadDem.typeUrl =
              ps! "type.googleapis.com/google.crypto.tink.AesCtrHmacAeadKey") &&
            parsed (AesCtrHmacAeadKeyFormat.fromString f.getParams.getDemParams.getAeadDem.value) fun g =>
              decide (g.getAesCtrKeyFormat.keySize = 16 ∧ g.getAesCtrKeyFormat.getParams.ivSize = 16 ∧
                g.getHmacKeyFormat.keySize = 32 ∧ g.getHmacKeyFormat.getParams.hash = HashType.SHA256 ∧
                g.getHmacKeyFormat.getParams.tagSize = 16))))) ||
      (decide (t.typeUrl = ps! "type.googleapis.com/google.crypto.tink.HpkePrivateKey") &&
        parsed (HpkeKeyFormat.fromString t.value) fun f =>
          decide (f.params.isSome ∧ f.getParams.kem = HpkeKem.DHKEM_X25519_HKDF_SHA256 ∧
            f.getParams.kdf = HpkeKdf.HKDF_SHA256 ∧
            (f.getParams.aead = HpkeAead.AES_128_GCM ∨ f.getParams.aead = HpkeAead.AES_256_GCM ∨
              f.getParams.aead = HpkeAead.CHACHA20_POLY1305))))
      = true := by decide +kernel
  obtain ⟨t', h0, h⟩ := parsed_iff.1 (hcheck _ ht)
  cases h0
  simp only [Bool.or_eq_true, Bool.and_eq_true, decide_eq_true_eq, parsed_iff] at h
  rcases h with ⟨hu, f, hf, ⟨hp1, hp2, hp3, hp4⟩, ⟨hc, hh, hsalt, hfmt, hl1, hl2⟩, hd⟩ | ⟨hu, f, hf, hp1, hk, hd, ha⟩
  · obtain ⟨q, hq⟩ := Option.isSome_iff_exists.1 hp1
    have e : f.getParams = q := by unfold EciesAeadHkdfKeyFormat.getParams; rw [hq]; rfl
    rw [e] at hp2 hp3 hp4 hc hh hsalt hfmt hl1 hl2 hd
    obtain ⟨kem, hkem⟩ := Option.isSome_iff_exists.1 hp2
    have e : q.getKemParams = kem := by unfold EciesAeadHkdfParams.getKemParams; rw [hkem]; rfl
    rw [e] at hc hh hsalt
    obtain ⟨dem, hdem⟩ := Option.isSome_iff_exists.1 hp3
    have e : q.getDemParams = dem := by unfold EciesAeadHkdfParams.getDemParams; rw [hdem]; rfl
    rw [e] at hp4 hl1 hl2 hd
    obtain ⟨t', ht'⟩ := Option.isSome_iff_exists.1 hp4
    have e : dem.getAeadDem = t' := by unfold EciesAeadDemParams.getAeadDem; rw [ht']; rfl
    rw [e] at hl1 hl2 hd
    have hm : EciesParams.InMessage q _ := .mk hkem hdem ht'
    have hcurve : Curve kem.curveType .p256 := by rw [hc]; exact .p256
    have hnew : HybPriv.NewKey lib seed kem.curveType _ _ _ := .nist hcurve rfl
    obtain ⟨dem', hask, hok, hsize, hks⟩ : ∃ dem', Dem.AskedFor t'.typeUrl t'.value dem' ∧ dem'.Ok ∧
        dem'.keySize ≤ 48 ∧ 0 < dem'.keySize := by
      rcases hd with ⟨h1, g, h2, h3⟩ | ⟨h1, g, h2, h3, h4, h5, h6, h7⟩
      · rw [h1]
        refine ⟨_, .aesGcm h2, ?_, ?_⟩
        · rw [h3]; exact .inl rfl
        · rw [h3]; exact ⟨by decide, by decide⟩
      · rw [h1]
        refine ⟨_, .aesCtrHmac h2, ?_, ?_⟩
        · rw [h3, h4, h5, h6, h7]
          exact ⟨.inl rfl, by decide, by decide, by decide, by decide, 32, .sha256, by decide⟩
        · rw [h3, h4, h5, h6, h7]; exact ⟨by decide, by decide⟩
    have hA := HybPriv.AskedFor.ecies hf hq hm hnew
    rw [← hu] at hA
    refine ⟨_, hA, ⟨?_, ?_, ?_⟩, ?_, ?_, ?_⟩
    · show kem.curveType ≠ _
      rw [hc]; decide
    · show kem.hkdfHashType ≠ _
      rw [hh]; decide
    · show q.ecPointFormat ≠ _
      rcases hfmt with h | h <;> rw [h] <;> decide
    · refine ⟨dem', 32, hask, hok, by dsimp only; rw [hh]; exact .sha256, by omega, .inl ⟨_, hcurve, ?_⟩⟩
      rcases hfmt with h | h
      · exact .inl h
      · exact .inr (.inl h)
    · intro d hd
      rw [dem_unique hd hask]
      omega
    · refine Props.newKey_size hl hnew ?_
      show kem.hkdfSalt.length + 4 * t'.typeUrl.length + t'.value.length < _
      rw [hsalt, List.length_nil]
      omega
  · obtain ⟨q, hq⟩ := Option.isSome_iff_exists.1 hp1
    have e : f.getParams = q := by unfold HpkeKeyFormat.getParams; rw [hq]; rfl
    rw [e] at hk hd ha
    have hnew : HybPriv.NewHpkeKey lib seed q.kem (lib.x25519Public (lib.x25519Generate seed))
        (lib.x25519Generate seed) := by rw [hk]; exact .x25519
    have hA := HybPriv.AskedFor.hpke hf hq hnew
    rw [← hu] at hA
    refine ⟨_, hA, ⟨?_, ?_, ?_⟩, ⟨hk, hd, ha⟩, trivial,
      Props.newHpkeKey_size hl hnew⟩
    · rw [hk]; decide
    · rw [hd]; decide
    · rcases ha with h | h | h <;> rw [h] <;> decide

end Tink.Cc

namespace Tink.Props
open Spec Config Cc

section
variable {σ δ ε τ S P C : Type} [DecidableEq C] {L : Library σ δ ε τ S P C} {isInst : P → C → Bool}
  {r : Registry P C} {lib : HybSsl} {t : KeyTemplate}

/-- C102.  For every predefined template: a new keyset can be made and holds the key asked for; its public
keyset encrypts everything below 2 GiB, and it decrypts that. -/
theorem C102_template (hi : LawfulConfig L isInst) (hl : LawfulHyb lib)
    (hccd : ∀ u cc, ccHybridDecrypt lib u = some cc → L.ccHybridDecrypt u = some cc)
    (hcce : ∀ u cc, ccHybridEncrypt lib u = some cc → L.ccHybridEncrypt u = some cc)
    (hr : PackageRegistered L r .hybrid) (ht : .ok t ∈ templates .hybrid) (seed : Seed)
    (d : UInt32) (draws : List UInt32) :
    ∃ h p pub p' k s, KeysetHandle.generateNew r seed (d :: draws) t = some (.ok h) ∧ h.keyset = ⟨d, [k]⟩ ∧
      HybPriv.AskedFor lib seed t.typeUrl t.value s ∧ HybPriv.StoredIn k.data.typeUrl k.data.value s ∧
      h.primitive isInst r (L.cls .hybridDecrypt) = .ok p ∧ h.publicKeysetHandle r = .ok pub ∧
      pub.primitive isInst r (L.cls .hybridEncrypt) = .ok p' ∧
      ∀ seed pt info, pt.length < 2 ^ 31 → ∃ ct, (L.hybridEncrypt.view p').encrypt seed pt info = .ok ct ∧
        (L.hybridDecrypt.view p).decrypt ct info = .ok pt := by
  obtain ⟨s, hs, hcheck, hus, hno, hsize⟩ := hybrid_template hl ht seed
  have hut : ∃ pu, HybridType t.typeUrl pu := by
    generalize t.typeUrl = u at hs
    cases hs with
    | ecies => exact ⟨_, .ecies⟩
    | hpke => exact ⟨_, .hpke⟩
  obtain ⟨cc, hc⟩ := (C100_decrypt_types (lib := lib)).2 hut
  obtain ⟨kd, hkd⟩ := (C100_formats (seed := seed) hl hc t.value).2 ⟨s, hs, hcheck⟩
  obtain ⟨s', h1, -, h3, h4, -, h6, h7⟩ := C100_new hl hc hkd
  cases hyb_asked_unique hs h1
  obtain ⟨hfits, hst, -⟩ := h7 hsize
  obtain ⟨a, f, pub, cce, e, g1, g2, g3, g4, g5, g6⟩ := C101_new hl hc hkd hs hsize hus
  obtain ⟨p1, p2, p3, p4⟩ := C100_public_part hl hc g2 g3 hst hsize
  have hvt : ∀ u ∈ hybridPublicTypes, (u, PrimClass.hybridEncrypt) ∈ keyTypes .hybrid := by decide
  have hc' : ccHybridDecrypt lib kd.typeUrl = some cc := by rw [h3]; exact hc
  have hok := hyb_asked_usable hl hs hus hcheck
  obtain ⟨h, p, hp, p', e1, e2, e3, e4, e5⟩ := C66_hybrid hi hr ht (hccd _ _ hc) hkd g1 hfits h3 h4 g2 g3 p3
    (hvt _ (hybrid_public_iff.1 ⟨_, p1⟩)) (hcce _ _ g4) g5 (fun seed' pt info ct hct => by
      refine ⟨fun hnil => ?_, C101_round_trip hl hc' g1 g2 g3 g4 g5 (by rw [h3]; exact hst) hsize
        (h6 hok).1 hct⟩
      obtain ⟨⟨n, hn⟩, hlen⟩ := C101_lengths hl g4 g5 p4 hct
      have := hlen n hn
      have := overhead_pos hn
      rw [hnil] at *
      simp at *
      omega) d draws
  obtain ⟨h', w, p'', f1, f2, -⟩ := C64_new_keyset hi hr ht (.hybridDecrypt (hccd _ _ hc) hkd g1) hfits h3 d draws
  rw [e1] at f1
  cases f1
  refine ⟨h, p, hp, p', _, s, e1, f2, h1, ?_, e2, e3, e4, fun seed' pt info hpt => ?_⟩
  · show HybPriv.StoredIn kd.typeUrl kd.value s
    rw [h3]; exact hst
  · obtain ⟨ct, hs1, -⟩ := g6 seed' pt info hpt
    obtain ⟨ct', hs2⟩ := (e5 seed' pt info).1 ct hs1
    exact ⟨ct', hs2, (e5 seed' pt info).2 ct' hs2⟩

end

/-! ## Examples -/

namespace HybridExamples

/-- The registry after `tink_config.register()`, with the toy cryptography. -/
def hybridRegistry : Registry ToyConfig.Prim PrimClass :=
  runConfig ToyConfig.isInst ToyHybridConfig.library ([] ++ .registerTinkConfig :: []) {}

theorem hybrid_registered (pkg : Package) : PackageRegistered ToyHybridConfig.library hybridRegistry pkg :=
  C64_registered ToyHybridConfig.lawful (.inr rfl) (by simp [Foreign]) (by simp)

example {t : KeyTemplate} (ht : .ok t ∈ templates .hybrid) :=
  C102_template ToyHybridConfig.lawful ToyHyb.lawful (fun _ _ h => h) (fun _ _ h => h)
    (hybrid_registered .hybrid) ht 7 42 []

/-- A private key for P-256, with its public part. -/
def eciesKey : EciesAeadHkdfPrivateKey where
  publicKey := some (eciesPublic EllipticCurveType.NIST_P256 EcPointFormat.COMPRESSED
    (ps! "XChaCha20Poly1305Key") [] [5] [1])
  keyValue := [5]

def eciesData : KeyData :=
  exampleKey (ps! "EciesAeadHkdfPrivateKey") eciesKey.serializeToString KeyMaterialType.ASYMMETRIC_PRIVATE

def eciesParams : EciesParams where
  curve := EllipticCurveType.NIST_P256
  hash := HashType.SHA256
  salt := []
  demType := ps! "type.googleapis.com/google.crypto.tink.XChaCha20Poly1305Key"
  demFormat := []
  format := EcPointFormat.COMPRESSED

theorem ecies_public : HybPub.OfEcies (eciesPublic EllipticCurveType.NIST_P256 EcPointFormat.COMPRESSED
    (ps! "XChaCha20Poly1305Key") [] [5] [1]) (.ecies eciesParams [5] [1]) := by
  have h : HybPub.OfEcies (eciesPublic EllipticCurveType.NIST_P256 EcPointFormat.COMPRESSED
    (ps! "XChaCha20Poly1305Key") [] [5] [1]) _ := .mk rfl rfl (.mk rfl rfl rfl)
  exact h

theorem ecies_stored : HybPriv.StoredIn eciesData.typeUrl eciesData.value (.ecies eciesParams [5] [1] [5]) :=
  .ecies (k := eciesKey) (by decide +kernel) (.mk (p := eciesParams) (x := [5]) (y := [1]) rfl rfl ecies_public)

theorem ecies_dem : Dem.AskedFor eciesParams.demType eciesParams.demFormat .xChaCha20Poly1305 :=
  .xChaCha20Poly1305 (f := {}) (by decide +kernel)

theorem ecies_ok : (HybPriv.ecies eciesParams [5] [1] [5]).Ok :=
  ⟨by decide, by decide, by decide, .inl ⟨⟨_, .p256⟩, by decide, by decide⟩, _, ecies_dem⟩

theorem ecies_matches : (HybPriv.ecies eciesParams [5] [1] [5]).Matches ToyHyb.lib :=
  .inl ⟨_, .p256, by unfold IsScalar; decide +kernel, by decide +kernel⟩

def hpkePublic : HpkePublicKey where
  params := some
    { kem := HpkeKem.DHKEM_X25519_HKDF_SHA256, kdf := HpkeKdf.HKDF_SHA256, aead := HpkeAead.AES_128_GCM }
  publicKey := List.replicate 32 9

theorem hpke_public : HybPub.OfHpke hpkePublic (.hpke HpkeKem.DHKEM_X25519_HKDF_SHA256 HpkeKdf.HKDF_SHA256
    HpkeAead.AES_128_GCM (List.replicate 32 9)) := by
  have h : HybPub.OfHpke hpkePublic _ := .mk rfl rfl
  exact h

theorem hpke_stored : HybPriv.StoredIn mixedHpke.typeUrl mixedHpke.value
    (.hpke HpkeKem.DHKEM_X25519_HKDF_SHA256 HpkeKdf.HKDF_SHA256 HpkeAead.AES_128_GCM
      (List.replicate 32 9) (List.replicate 32 5)) :=
  .hpke (k := { publicKey := some hpkePublic, privateKey := List.replicate 32 5 })
    (by decide +kernel) (.mk rfl rfl hpke_public)

/-- An ECIES key that is primary, an HPKE key whose parts do not belong together, and the same key disabled. -/
def hybridKeys : KeysetHandle where
  keyset := ⟨7, [⟨some mixedHpke, KeyStatusType.ENABLED, 5, OutputPrefixType.TINK⟩,
    ⟨some eciesData, KeyStatusType.ENABLED, 7, OutputPrefixType.CRUNCHY⟩,
    ⟨some mixedHpke, KeyStatusType.DISABLED, 9, OutputPrefixType.RAW⟩]⟩

theorem hybridKeys_private : PrivateHybridKeyset hybridKeys.keyset := by
  intro k hk
  simp only [hybridKeys, List.mem_cons, List.not_mem_nil, or_false] at hk
  rcases hk with rfl | rfl | rfl
  · refine ⟨by decide +kernel, fits_key (by decide +kernel), rfl, fun s hs => ?_⟩
    cases (C101_unique ToyHyb.lawful).1 _ _ hpke_stored hs
    decide
  · refine ⟨by decide +kernel, fits_key (by decide +kernel), rfl, fun s hs => ?_⟩
    cases (C101_unique ToyHyb.lawful).1 _ _ ecies_stored hs
    decide
  · refine ⟨by decide +kernel, fits_key (by decide +kernel), rfl, fun s hs => ?_⟩
    cases (C101_unique ToyHyb.lawful).1 _ _ hpke_stored hs
    decide

theorem hybridKeys_noOverflow : NoOverflowIn hybridKeys.keyset := by
  intro k hk _ s hs
  simp only [hybridKeys, List.mem_cons, List.not_mem_nil, or_false] at hk
  rcases hk with rfl | rfl | rfl
  · cases (C101_unique ToyHyb.lawful).1 _ _ hpke_stored hs
    trivial
  · cases (C101_unique ToyHyb.lawful).1 _ _ ecies_stored hs
    intro dem hd
    rw [dem_unique hd ecies_dem]
    decide
  · cases (C101_unique ToyHyb.lawful).1 _ _ hpke_stored hs
    trivial

/-- The hypotheses of C102 for this keyset: its public keyset is handed out and encrypts everything below 2 GiB,
and the private keyset decrypts that. -/
example : ∃ p pub p', hybridKeys.primitive ToyConfig.isInst hybridRegistry PrimClass.hybridDecrypt = .ok p ∧
    hybridKeys.publicKeysetHandle hybridRegistry = .ok pub ∧
    pub.primitive ToyConfig.isInst hybridRegistry PrimClass.hybridEncrypt = .ok p' ∧
    ∀ seed pt info, pt.length < 2 ^ 31 → ∃ body,
      (ToyHybridConfig.library.hybridEncrypt.view p').encrypt seed pt info = .ok ([0, 0, 0, 0, 7] ++ body) ∧
      (ToyHybridConfig.library.hybridDecrypt.view p).decrypt ([0, 0, 0, 0, 7] ++ body) info = .ok pt := by
  have hv : Valid hybridKeys.keyset := (C20_validate_iff _).1 (by decide +kernel)
  have hr := hybrid_registered .hybrid
  have hof : KeysOf hybridPrivateTypes hybridKeys.keyset :=
    fun k hk _ => ⟨(hybridKeys_private k hk).1, (hybridKeys_private k hk).2.1⟩
  obtain ⟨p, hp⟩ := (C102_decrypt_primitive ToyHybridConfig.lawful ToyHyb.lawful (fun _ _ h => h) hr hof).2
    ⟨hv, fun k hk he => by
      simp only [hybridKeys, List.mem_cons, List.not_mem_nil, or_false] at hk
      rcases hk with rfl | rfl | rfl
      · exact ⟨by unfold PrefixKnown; decide, _, hpke_stored, rfl, rfl, by decide, by decide⟩
      · exact ⟨by unfold PrefixKnown; decide, _, ecies_stored, ecies_ok⟩
      · exact absurd he (by decide)⟩
  obtain ⟨pub, hpub⟩ := (C102_public ToyHyb.lawful (fun _ _ h => h) hr hv hybridKeys_private).2 fun k hk => by
    simp only [hybridKeys, List.mem_cons, List.not_mem_nil, or_false] at hk
    rcases hk with rfl | rfl | rfl
    · exact ⟨by decide, by decide, _, hpke_stored, by decide, by decide, by decide⟩
    · exact ⟨by decide, by decide, _, ecies_stored, by decide, by decide, by decide⟩
    · exact ⟨by decide, by decide, _, hpke_stored, by decide, by decide, by decide⟩
  obtain ⟨c1, c2, c3, c4, -⟩ := C102_public_keys ToyHyb.lawful (fun _ _ h => h) hr hybridKeys_private hpub
  have hpubkeys : ∀ k' ∈ pub.keyset.key, ∃ k ∈ hybridKeys.keyset.key, HybridCounterpart k k' := by
    intro k' hk'
    obtain ⟨i, hi, rfl⟩ := List.getElem_of_mem hk'
    have hmem : (hybridKeys.keyset.key[i]'(by omega), pub.keyset.key[i]) ∈
        hybridKeys.keyset.key.zip pub.keyset.key := by
      rw [List.mem_iff_getElem]
      exact ⟨i, by simp; omega, by simp⟩
    exact ⟨_, List.getElem_mem _, c3 _ hmem⟩
  have hknown : ∀ k ∈ hybridKeys.keyset.key, k.outputPrefixType ∈
      [OutputPrefixType.TINK, OutputPrefixType.LEGACY, OutputPrefixType.RAW, OutputPrefixType.CRUNCHY] := by
    decide +kernel
  have hkeys : KeysOf hybridPublicTypes pub.keyset := by
    intro k hk _
    obtain ⟨k0, -, -, -, -, g1, -, g2, -⟩ := hpubkeys k hk
    exact ⟨hybrid_public_iff.1 ⟨_, g1⟩, g2⟩
  obtain ⟨p', hp'⟩ := (C102_encrypt_primitive ToyHybridConfig.lawful ToyHyb.lawful (fun _ _ h => h) hr
    (h := pub) hkeys).2 ⟨c4, fun k hk he => by
      obtain ⟨k0, hk0, g1, -, g3, -, -, -, s, g4, g5⟩ := hpubkeys k hk
      refine ⟨by unfold PrefixKnown; rw [g3]; exact hknown k0 hk0, _, g5, ?_⟩
      simp only [hybridKeys, List.mem_cons, List.not_mem_nil, or_false] at hk0
      rcases hk0 with rfl | rfl | rfl
      · cases (C101_unique ToyHyb.lawful).1 _ _ hpke_stored g4
        exact ⟨rfl, rfl, by decide, by decide⟩
      · cases (C101_unique ToyHyb.lawful).1 _ _ ecies_stored g4
        exact ⟨by decide, by decide, .nist .p256 (by decide) (by decide) (by decide +kernel), _, ecies_dem⟩
      · cases (C101_unique ToyHyb.lawful).1 _ _ hpke_stored g4
        exact ⟨rfl, rfl, by decide, by decide⟩⟩
  refine ⟨p, pub, p', hp, hpub, hp', fun seed pt info hpt => ?_⟩
  have hprim : IsPrimaryKey hybridKeys.keyset
      ⟨some eciesData, KeyStatusType.ENABLED, 7, OutputPrefixType.CRUNCHY⟩ := by decide +kernel
  have h1 : 1 < pub.keyset.key.length := by rw [c2]; decide
  have hmem : (⟨some eciesData, KeyStatusType.ENABLED, 7, OutputPrefixType.CRUNCHY⟩, pub.keyset.key[1]) ∈
      hybridKeys.keyset.key.zip pub.keyset.key := by
    rw [List.mem_iff_getElem]
    refine ⟨1, by rw [List.length_zip, ← c2, Nat.min_self]; exact h1, by simp [hybridKeys]⟩
  obtain ⟨g1, g2, g3, g4, -, g6, s, g7, g8⟩ := c3 _ hmem
  dsimp only at g1 g2 g3 g8
  cases (C101_unique ToyHyb.lawful).1 _ _ ecies_stored g7
  have hprim' : IsPrimaryKey pub.keyset pub.keyset.key[1] := by
    refine ⟨?_, by rw [g2, c1]; rfl⟩
    unfold Enabled
    rw [g1]
  obtain ⟨pre, v, q1, q2, -, q4⟩ := C102_encrypt ToyHyb.lawful (fun _ _ h => h) hr hkeys hp'
    (List.getElem_mem h1) hprim'
  cases (C101_unique ToyHyb.lawful).2 _ _ g8 q2
  have hpre : outputPrefix pub.keyset.key[1] = .ok [0, 0, 0, 0, 7] := by
    have : outputPrefix (⟨some eciesData, KeyStatusType.ENABLED, 7, OutputPrefixType.CRUNCHY⟩ : Key) =
      .ok [0, 0, 0, 0, 7] := by decide
    rw [← this]
    unfold outputPrefix
    rw [g2, g3]
  rw [hpre] at q1
  cases q1
  obtain ⟨body, hb⟩ := encrypts_total ToyHyb.lawful ecies_matches
    ⟨_, 32, ecies_dem, trivial, .sha256, by decide, .inl ⟨_, .p256, .inr (.inl rfl)⟩⟩ seed info pt hpt
  have hct := ((q4 seed pt info).1 _).2 ⟨body, hb, rfl⟩
  refine ⟨body, hct, C102_round_trip ToyHyb.lawful (fun _ _ h => h) (fun _ _ h => h) hr hybridKeys_private
    hybridKeys_noOverflow hp (k := ⟨some eciesData, KeyStatusType.ENABLED, 7, OutputPrefixType.CRUNCHY⟩)
    (by simp [hybridKeys]) hprim (fun s hs => ?_) hpub hp' hct ?_⟩
  · cases (C101_unique ToyHyb.lawful).1 _ _ ecies_stored hs
    exact ecies_matches
  · rintro k' hk' he hne pt' ⟨b, s, r1, r2, r3⟩
    simp only [hybridKeys, List.mem_cons, List.not_mem_nil, or_false] at hk'
    rcases hk' with rfl | rfl | rfl
    · exact absurd r1 (by
        have : outputPrefix (⟨some mixedHpke, KeyStatusType.ENABLED, 5, OutputPrefixType.TINK⟩ : Key) =
          .ok [1, 0, 0, 0, 5] := by decide
        unfold payload
        rw [this]
        simp)
    · exact absurd rfl hne
    · exact absurd he (by decide)

end HybridExamples

end Tink.Props
