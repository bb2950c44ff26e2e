import Verif.Cc.TemplateLemmas
import Verif.Examples.ToySignatureConfig
import Verif.Props.SignatureKeysets
import Verif.Props.SymmetricTemplates

/-!
# C98: new keysets of signature keys

For each predefined template: a new keyset can be made, holds the key that the template asks for, signs
everything, and its public keyset accepts the signatures.
-/

namespace Tink.Cc
open Spec Config

/-- What the templates ask for. -/
theorem signature_template {lib : SigSsl} (hl : LawfulSigSsl lib) {t : KeyTemplate}
    (ht : .ok t ∈ templates .signature) (seed : Seed) :
    (t.typeUrl = ps! "type.googleapis.com/google.crypto.tink.EcdsaPrivateKey" ∨
      t.typeUrl = ps! "type.googleapis.com/google.crypto.tink.Ed25519PrivateKey" ∨
      (∀ bits ∈ [3072, 4096], ∃ k, lib.rsaGenerate seed bits 65537 = some k) →
      ∃ s, SigKey.AskedFor lib seed t.typeUrl t.value s) ∧
    ∀ s, SigKey.AskedFor lib seed t.typeUrl t.value s → s.publicPart.Ok lib ∧ s.Roomy := by
  have hcheck : ∀ x ∈ templates .signature, parsed x (fun t =>
      (decide (t.typeUrl = ps! "type.googleapis.com/google.crypto.tink.EcdsaPrivateKey") &&
        parsed (EcdsaKeyFormat.fromString t.value) fun f =>
          decide ((f.getParams.curve = EllipticCurveType.NIST_P256 ∧ f.getParams.hashType = HashType.SHA256 ∨
            f.getParams.curve = EllipticCurveType.NIST_P384 ∧
              (f.getParams.hashType = HashType.SHA384 ∨ f.getParams.hashType = HashType.SHA512) ∨
            f.getParams.curve = EllipticCurveType.NIST_P521 ∧ f.getParams.hashType = HashType.SHA512) ∧
            (f.getParams.encoding = EcdsaSignatureEncoding.DER ∨
              f.getParams.encoding = EcdsaSignatureEncoding.IEEE_P1363))) ||
      ((decide (t.typeUrl = ps! "type.googleapis.com/google.crypto.tink.Ed25519PrivateKey") &&
        parsed (Ed25519KeyFormat.fromString t.value) fun _ => true) ||
      ((decide (t.typeUrl = ps! "type.googleapis.com/google.crypto.tink.RsaSsaPkcs1PrivateKey") &&
        parsed (RsaSsaPkcs1KeyFormat.fromString t.value) fun f =>
          decide ((f.modulusSizeInBits = 3072 ∨ f.modulusSizeInBits = 4096) ∧ f.publicExponent = [1, 0, 1] ∧
            (f.getParams.hashType = HashType.SHA256 ∨ f.getParams.hashType = HashType.SHA512))) ||
      (decide (t.typeUrl = ps! "type.googleapis.com/google.crypto.tink.RsaSsaPssPrivateKey") &&
        parsed (RsaSsaPssKeyFormat.fromString t.value) fun f =>
          decide ((f.modulusSizeInBits = 3072 ∨ f.modulusSizeInBits = 4096) ∧ f.publicExponent = [1, 0, 1] ∧
            (f.getParams.sigHash = HashType.SHA256 ∨ f.getParams.sigHash = HashType.SHA512) ∧
            f.getParams.mgf1Hash = f.getParams.sigHash ∧
            (f.getParams.saltLength = 32 ∨ f.getParams.saltLength = 64))))))
      = true := by decide +kernel
  have hexp : fromBytesBE [1, 0, 1] = 65537 := by decide
  have hbits : ∀ x : UInt32, x = 3072 ∨ x = 4096 → Cpp.toInt x ∈ [(3072 : Int), 4096] ∧ 2048 ≤ x.toNat := by
    rintro x (rfl | rfl) <;> exact ⟨by decide, by decide⟩
  obtain ⟨t', h0, h⟩ := parsed_iff.1 (hcheck _ ht)
  cases h0
  simp only [Bool.or_eq_true, Bool.and_eq_true, decide_eq_true_eq, parsed_iff] at h
  rcases h with ⟨hu, f, hf, hc, henc⟩ | ⟨hu, f, hf, -⟩ | ⟨hu, f, hf, hm, he, hh⟩ |
    ⟨hu, f, hf, hm, he, hh, hg, hs⟩
  · have hgrp : ∃ g, Curve f.getParams.curve g ∧ HashFor g f.getParams.hashType := by
      rcases hc with ⟨h1, h2⟩ | ⟨h1, h2 | h2⟩ | ⟨h1, h2⟩ <;> rw [h1, h2]
      · exact ⟨_, .p256, .p256⟩
      · exact ⟨_, .p384, .p384⟩
      · exact ⟨_, .p384, .p384'⟩
      · exact ⟨_, .p521, .p521⟩
    obtain ⟨g, hg1, hg2⟩ := hgrp
    rw [hu]
    refine ⟨fun _ => ⟨_, .ecdsa hf hg1 rfl⟩, fun s hs => ?_⟩
    generalize hw : ps! "type.googleapis.com/google.crypto.tink.EcdsaPrivateKey" = w at hs
    cases hs with
    | @ecdsa b f' g' x y h1 h2 h3 =>
      cases h1.symm.trans hf
      have hgg : g' = g := by
        generalize f.getParams.curve = c at hg1 h2
        cases hg1 <;> cases h2 <;> rfl
      subst hgg
      obtain ⟨q1, q2⟩ := hl.generate seed g'
      have q3 := hl.onCurve g' _ q1
      rw [h3] at q3
      obtain ⟨q4, q5⟩ := hl.point _ _ _ q3
      refine ⟨⟨hg2, henc, ?_⟩, trivial⟩
      rw [fromBytesBE_digits _ _ q4, fromBytesBE_digits _ _ q5]
      exact q3
    | _ => other_type hw
  · rw [hu]
    refine ⟨fun _ => ⟨_, .ed25519 hf⟩, fun s hs => ?_⟩
    generalize hw : ps! "type.googleapis.com/google.crypto.tink.Ed25519PrivateKey" = w at hs
    cases hs with
    | ed25519 h1 => exact ⟨hl.ed25519Public _ (hl.random _ _ _), trivial⟩
    | _ => other_type hw
  · rw [hu]
    constructor
    · rintro (h | h | h)
      · exact absurd h (by decide)
      · exact absurd h (by decide)
      obtain ⟨k, hk⟩ := h _ (hbits _ hm).1
      exact ⟨_, .rsaPkcs1 hf (by rw [he, hexp]; exact hk)⟩
    · intro s hs
      generalize hw : ps! "type.googleapis.com/google.crypto.tink.RsaSsaPkcs1PrivateKey" = w at hs
      cases hs with
      | rsaPkcs1 h1 h2 =>
        cases h1.symm.trans hf
        refine ⟨⟨(rsaOk_generate hl h2).2 ?_, ?_⟩, trivial⟩
        · rw [he, hexp]
          exact ⟨(hbits _ hm).2, by decide⟩
        · rcases hh with h | h
          · exact .inl h
          · exact .inr (.inr h)
      | _ => other_type hw
  · rw [hu]
    constructor
    · rintro (h | h | h)
      · exact absurd h (by decide)
      · exact absurd h (by decide)
      obtain ⟨k, hk⟩ := h _ (hbits _ hm).1
      exact ⟨_, .rsaPss hf (by rw [he, hexp]; exact hk)⟩
    · intro s hs'
      generalize hw : ps! "type.googleapis.com/google.crypto.tink.RsaSsaPssPrivateKey" = w at hs'
      cases hs' with
      | @rsaPss b f' k h1 h2 =>
        cases h1.symm.trans hf
        have hok := (rsaOk_generate hl h2).2 (by rw [he, hexp]; exact ⟨(hbits _ hm).2, by decide⟩)
        have hsalt : 0 ≤ Cpp.toInt f.getParams.saltLength ∧ Cpp.toInt f.getParams.saltLength ≤ 64 := by
          rcases hs with h | h <;> rw [h] <;> decide
        refine ⟨⟨hok, ?_, hg, hsalt.1⟩, ?_⟩
        · rcases hh with h | h
          · exact .inl h
          · exact .inr (.inr h)
        · intro n hn
          have hn' : n ≤ 64 := by
            generalize f.getParams.sigHash = e at hn
            cases hn <;> decide
          have hb := (rsaOk_bits hok).1
          unfold SaltFits
          rw [numbers_rsaKey]
          omega
      | _ => other_type hw

end Tink.Cc

namespace Tink.Props
open Spec Config Cc

section
variable {σ δ ε τ S P C : Type} [DecidableEq C] {L : Library σ δ ε τ S P C} {isInst : P → C → Bool}
  {r : Registry P C} {lib : SigSsl} {t : KeyTemplate}

/-- C98.  For every predefined template, if BoringSSL makes RSA keys (which only matters for the RSA
templates): a new keyset can be made and holds the key asked for; it signs everything, and the public
keyset accepts the signatures. -/
theorem C98_template (hi : LawfulConfig L isInst) (hl : LawfulSigSsl lib)
    (hccs : ∀ u cc, ccSign lib u = some cc → L.ccSign u = some cc)
    (hccv : ∀ u cc, ccVerify lib u = some cc → L.ccVerify u = some cc)
    (hr : PackageRegistered L r .signature) (ht : .ok t ∈ templates .signature) (seed : Seed)
    (hrsa : t.typeUrl = ps! "type.googleapis.com/google.crypto.tink.EcdsaPrivateKey" ∨
      t.typeUrl = ps! "type.googleapis.com/google.crypto.tink.Ed25519PrivateKey" ∨
      (∀ bits ∈ [3072, 4096], ∃ k, lib.rsaGenerate seed bits 65537 = some k))
    (d : UInt32) (draws : List UInt32) :
    ∃ h p pub p' k s, KeysetHandle.generateNew r seed (d :: draws) t = some (.ok h) ∧ h.keyset = ⟨d, [k]⟩ ∧
      SigKey.AskedFor lib seed t.typeUrl t.value s ∧ SigKey.StoredIn k.data.typeUrl k.data.value s ∧
      h.primitive isInst r (L.cls .sign) = .ok p ∧ h.publicKeysetHandle r = .ok pub ∧
      pub.primitive isInst r (L.cls .verify) = .ok p' ∧
      ∀ seed data, ∃ sig, (L.sign.view p).sign seed data = .ok sig ∧
        (L.verify.view p').verify sig data = .ok () := by
  obtain ⟨hask, hgood⟩ := signature_template hl ht seed
  obtain ⟨s0, hs0⟩ := hask hrsa
  have hut : ∃ pu, PublicType t.typeUrl pu := by
    generalize t.typeUrl = u at hs0
    cases hs0 with
    | ecdsa => exact ⟨_, .ecdsa⟩
    | ed25519 => exact ⟨_, .ed25519⟩
    | rsaPkcs1 => exact ⟨_, .rsaPkcs1⟩
    | rsaPss => exact ⟨_, .rsaPss⟩
  obtain ⟨cc, hc⟩ := (C96_sign_types (lib := lib)).2 hut
  obtain ⟨kd, hkd⟩ := (C96_formats (seed := seed) hl hc t.value).2 ⟨s0, hs0, (hgood s0 hs0).1⟩
  obtain ⟨s, h1, h2, h3, h4, h5, h6, h7, h8⟩ := C96_new hl hc hkd
  obtain ⟨a, ha⟩ := h8.2 (hgood s h1).2
  have hsize := asked_size hl h1 h2
  obtain ⟨f, pub, ccv, v, g1, g2, g3, g4, g5⟩ := C97_new hl hc hkd ha
  obtain ⟨p1, p2, p3, p4⟩ := C96_public_part hl hc g1 g2 h7 hsize
  have hvt : ∀ u ∈ verifyTypes, (u, PrimClass.verify) ∈ keyTypes .signature := by decide
  have hc' : ccSign lib kd.typeUrl = some cc := by rw [h4]; exact hc
  obtain ⟨h, p, hp, p', e1, e2, e3, e4, e5⟩ := C66_signature hi hr ht (hccs _ _ hc) hkd ha h6 h4 h5 g1 g2 p3
    (hvt _ (verify_types_iff.1 ⟨_, p1⟩)) (hccv _ _ g3) g4 (fun seed' data sig hsig => by
      have hver := C97_round_trip hl hc' ha g1 g2 g3 g4 (by rw [h4]; exact h7) hsize h3 hsig
      obtain ⟨v', q1, q2, q3⟩ := C97_verify hl g3 g4
      exact ⟨valid_length hl q2 ((q3 _ _).1 hver), hver⟩) d draws
  obtain ⟨h', w, p'', f1, f2, -⟩ := C64_new_keyset hi hr ht (.sign (hccs _ _ hc) hkd ha) h6 h4 d draws
  rw [e1] at f1
  cases f1
  refine ⟨h, p, hp, p', _, s, e1, f2, h1, ?_, e2, e3, e4, fun seed' data => ?_⟩
  · show SigKey.StoredIn kd.typeUrl kd.value s
    rw [h4]; exact h7
  · obtain ⟨sig, hs1, -⟩ := g5 seed' data
    obtain ⟨sig', hs2⟩ := (e5 seed' data).1 sig hs1
    exact ⟨sig', hs2, (e5 seed' data).2 sig' hs2⟩

end

/-! ## Examples -/

namespace SignatureExamples

/-- The registry after `tink_config.register()`, with the toy cryptography. -/
def signatureRegistry : Registry ToyConfig.Prim PrimClass :=
  runConfig ToyConfig.isInst ToySignatureConfig.library ([] ++ .registerTinkConfig :: []) {}

theorem signature_registered (pkg : Package) :
    PackageRegistered ToySignatureConfig.library signatureRegistry pkg :=
  C64_registered ToySignatureConfig.lawful (.inr rfl) (by simp [Foreign]) (by simp)

example {t : KeyTemplate} (ht : .ok t ∈ templates .signature) :=
  C98_template ToySignatureConfig.lawful ToySig.lawful (fun _ _ h => h) (fun _ _ h => h)
    (signature_registered .signature) ht 7
    (.inr (.inr (by
      intro bits hb
      simp only [List.mem_cons, List.not_mem_nil, or_false] at hb
      rcases hb with rfl | rfl <;> exact ⟨_, rfl⟩))) 42 []

def ecdsaKey : EcdsaPrivateKey where
  publicKey := some
    { params := some { hashType := HashType.SHA256, curve := EllipticCurveType.NIST_P256
                       encoding := EcdsaSignatureEncoding.DER }
      x := [5], y := [6] }
  keyValue := [5]

def ecdsaData : KeyData :=
  exampleKey (ps! "EcdsaPrivateKey") ecdsaKey.serializeToString KeyMaterialType.ASYMMETRIC_PRIVATE

theorem ecdsa_stored : SigKey.StoredIn ecdsaData.typeUrl ecdsaData.value
    (.ecdsa .p256 [5] [6] [5] HashType.SHA256 EcdsaSignatureEncoding.DER) :=
  .ecdsa (k := ecdsaKey) (by decide +kernel) (.mk rfl (.mk rfl .p256))

theorem ed25519_stored : SigKey.StoredIn mixedEd25519.typeUrl mixedEd25519.value
    (.ed25519 (List.replicate 32 9) (List.replicate 32 5)) :=
  .ed25519 (k := { keyValue := List.replicate 32 5, publicKey := some { keyValue := List.replicate 32 9 } })
    (by decide +kernel) (.mk rfl (.mk rfl))

/-- An ECDSA key that is primary and marks its signatures as LEGACY, an Ed25519 key whose parts do not belong
together, and the same key disabled. -/
def signKeys : KeysetHandle where
  keyset := ⟨7, [⟨some mixedEd25519, KeyStatusType.ENABLED, 5, OutputPrefixType.RAW⟩,
    ⟨some ecdsaData, KeyStatusType.ENABLED, 7, OutputPrefixType.LEGACY⟩,
    ⟨some mixedEd25519, KeyStatusType.DISABLED, 9, OutputPrefixType.TINK⟩]⟩

theorem signKeys_private : PrivateKeyset signKeys.keyset := by
  intro k hk
  simp only [signKeys, List.mem_cons, List.not_mem_nil, or_false] at hk
  rcases hk with rfl | rfl | rfl
  · refine ⟨by decide +kernel, fits_key (by decide +kernel), rfl, fun s hs => ?_⟩
    cases (C97_unique ToySig.lawful).1 _ _ ed25519_stored hs
    decide
  · refine ⟨by decide +kernel, fits_key (by decide +kernel), rfl, fun s hs => ?_⟩
    cases (C97_unique ToySig.lawful).1 _ _ ecdsa_stored hs
    decide
  · refine ⟨by decide +kernel, fits_key (by decide +kernel), rfl, fun s hs => ?_⟩
    cases (C97_unique ToySig.lawful).1 _ _ ed25519_stored hs
    decide

/-- The hypotheses of C98 for this keyset: it signs everything, its public keyset is handed out, and accepts
the signatures. -/
example : ∃ p pub p', signKeys.primitive ToyConfig.isInst signatureRegistry PrimClass.sign = .ok p ∧
    signKeys.publicKeysetHandle signatureRegistry = .ok pub ∧
    pub.primitive ToyConfig.isInst signatureRegistry PrimClass.verify = .ok p' ∧
    ∀ seed data, ∃ body, (ToySignatureConfig.library.sign.view p).sign seed data = .ok ([0, 0, 0, 0, 7] ++ body) ∧
      (ToySignatureConfig.library.verify.view p').verify ([0, 0, 0, 0, 7] ++ body) data = .ok () := by
  have hv : Valid signKeys.keyset := (C20_validate_iff _).1 (by decide +kernel)
  have hr := signature_registered .signature
  have hof : KeysOf signTypes signKeys.keyset :=
    fun k hk _ => ⟨(signKeys_private k hk).1, (signKeys_private k hk).2.1⟩
  obtain ⟨p, hp⟩ := (C98_sign_primitive ToySignatureConfig.lawful ToySig.lawful (fun _ _ h => h) hr hof).2
    ⟨hv, fun k hk he => by
      simp only [signKeys, List.mem_cons, List.not_mem_nil, or_false] at hk
      rcases hk with rfl | rfl | rfl
      · exact ⟨by unfold PrefixKnown; decide, _, ed25519_stored, by
          unfold SigKey.Ok SigKey.publicPart PubKey.Ok; decide⟩
      · exact ⟨by unfold PrefixKnown; decide, _, ecdsa_stored, ⟨.p256, .inl rfl, by decide +kernel⟩, by decide +kernel⟩
      · exact absurd he (by decide)⟩
  obtain ⟨pub, hpub⟩ := (C98_public ToySig.lawful (fun _ _ h => h) hr hv signKeys_private).2 fun k hk => by
    simp only [signKeys, List.mem_cons, List.not_mem_nil, or_false] at hk
    rcases hk with rfl | rfl | rfl
    · exact ⟨by decide, by decide, _, ed25519_stored, by unfold SigKey.Checked; decide⟩
    · exact ⟨by decide, by decide, _, ecdsa_stored, .p256, .inl rfl⟩
    · exact ⟨by decide, by decide, _, ed25519_stored, by unfold SigKey.Checked; decide⟩
  obtain ⟨c1, c2, c3, c4, -⟩ := C98_public_keys ToySig.lawful (fun _ _ h => h) hr signKeys_private hpub
  have hpubkeys : ∀ k' ∈ pub.keyset.key, ∃ k ∈ signKeys.keyset.key, Counterpart k k' := by
    intro k' hk'
    obtain ⟨i, hi, rfl⟩ := List.getElem_of_mem hk'
    have hmem : (signKeys.keyset.key[i]'(by omega), pub.keyset.key[i]) ∈
        signKeys.keyset.key.zip pub.keyset.key := by
      rw [List.mem_iff_getElem]
      exact ⟨i, by simp; omega, by simp⟩
    exact ⟨_, List.getElem_mem _, c3 _ hmem⟩
  have hknown : ∀ k ∈ signKeys.keyset.key, k.outputPrefixType ∈
      [OutputPrefixType.TINK, OutputPrefixType.LEGACY, OutputPrefixType.RAW, OutputPrefixType.CRUNCHY] := by
    decide +kernel
  obtain ⟨p', hp'⟩ := (C98_verify_primitive ToySignatureConfig.lawful ToySig.lawful (fun _ _ h => h) hr
    (h := pub) (fun k hk _ => by
      obtain ⟨k0, -, -, -, -, g1, -, g2, -⟩ := hpubkeys k hk
      exact ⟨verify_types_iff.1 ⟨_, g1⟩, g2⟩)).2 ⟨c4, fun k hk he => by
      obtain ⟨k0, hk0, g1, -, g3, -, -, -, s, g4, g5⟩ := hpubkeys k hk
      refine ⟨by unfold PrefixKnown; rw [g3]; exact hknown k0 hk0, _, g5, ?_⟩
      simp only [signKeys, List.mem_cons, List.not_mem_nil, or_false] at hk0
      rcases hk0 with rfl | rfl | rfl
      · cases (C97_unique ToySig.lawful).1 _ _ ed25519_stored g4
        unfold SigKey.publicPart PubKey.Ok; decide
      · cases (C97_unique ToySig.lawful).1 _ _ ecdsa_stored g4
        exact ⟨.p256, .inl rfl, by decide +kernel⟩
      · cases (C97_unique ToySig.lawful).1 _ _ ed25519_stored g4
        unfold SigKey.publicPart PubKey.Ok; decide⟩
  refine ⟨p, pub, p', hp, hpub, hp', fun seed data => ?_⟩
  have hprim : IsPrimaryKey signKeys.keyset ⟨some ecdsaData, KeyStatusType.ENABLED, 7, OutputPrefixType.LEGACY⟩ := by
    decide +kernel
  obtain ⟨pre, s, q1, q2, q3, q4⟩ := C98_sign ToySig.lawful (fun _ _ h => h) hr hof hp
    (k := ⟨some ecdsaData, KeyStatusType.ENABLED, 7, OutputPrefixType.LEGACY⟩) (by simp [signKeys]) hprim
  cases (C97_unique ToySig.lawful).1 _ _ ecdsa_stored q2
  have hpre : outputPrefix (⟨some ecdsaData, KeyStatusType.ENABLED, 7, OutputPrefixType.LEGACY⟩ : Key) =
      .ok [0, 0, 0, 0, 7] := by decide
  rw [hpre] at q1
  cases q1
  obtain ⟨body, hb⟩ := ecdsa_total ToySig.lawful q3 seed
    (authenticated ⟨some ecdsaData, KeyStatusType.ENABLED, 7, OutputPrefixType.LEGACY⟩ data)
  have hsig := q4 seed data
  rw [hb] at hsig
  refine ⟨body, hsig, C98_round_trip ToySig.lawful (fun _ _ h => h) (fun _ _ h => h) hr signKeys_private hp
    (k := ⟨some ecdsaData, KeyStatusType.ENABLED, 7, OutputPrefixType.LEGACY⟩) (by simp [signKeys]) hprim
    (fun s hs => ?_) hpub hp' hsig⟩
  cases (C97_unique ToySig.lawful).1 _ _ ecdsa_stored hs
  unfold SigKey.Matches
  decide +kernel

end SignatureExamples

end Tink.Props
