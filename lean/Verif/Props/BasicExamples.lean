import Verif.Cli.BasicLemmas
import Verif.Examples.ToyCurves
import Verif.Examples.ToyJson

/-!
# C103: the introductory example programs run to their end

With the keysets that are written out in them, for any library with the C++ key managers as modelled, and any
randomness.  The programs raise no exception, and their assertions hold.
-/

namespace Tink.Props
open Spec Config Cc Cli

section
variable {σ δ ε τ S P C F : Type} [DecidableEq C] {L : Library σ δ ε τ S P C} {isInst : P → C → Bool}
  {E : JsonFormatEnv F}

/-! ## AEAD, deterministic AEAD and MAC -/

section
variable {lib : Ssl}

/-- C103.  `aead_basic.py` raises no exception. -/
theorem C103_aead (hi : LawfulConfig L isInst) (hl : LawfulSsl lib)
    (hcc : ∀ u cc, ccAead lib u = some cc → L.ccAead u = some cc) (hE : RoomForKeysets E) (seed : Seed) :
    Basic.aead L isInst E seed = .ok () := by
  have hr := registryOf_registered hi .aead
  have hk : KeysOf aeadTypes (KeysetHandle.mk (soleKeyset 294406504 basicAead)).keyset :=
    sole_keysOf (by decide +kernel) (fits_of_ok (by decide +kernel))
  have hok : (AeadKey.aesGcm (basicAead.value.drop 2)).Ok := .inr rfl
  obtain ⟨p, hp⟩ := (C94_aead_primitive hi hl hcc hr hk).2
    ⟨sole_valid _ _, fun k hk _ => by rw [mem_sole.1 hk]; exact ⟨sole_prefixKnown _ _, _, basicAead_stored, hok⟩⟩
  obtain ⟨pre, key, h1, h2, h3⟩ := C94_aead_encrypt hl hcc hr hk hp (mem_sole.2 rfl) (sole_primary _ _)
  obtain rfl := aead_unique basicAead_stored h2
  obtain ⟨c, hc⟩ := hl.seals .aesGcm (basicAead.value.drop 2) (lib.random seed 0 12) (by! "associated_data")
    (by! "msg") ⟨hok, hl.random_length _ _ _⟩ (by decide) (by decide)
  have hct : (AeadKey.aesGcm (basicAead.value.drop 2)).ciphertext lib
      (lib.random seed 0 12) (by! "associated_data") (by! "msg") = some (lib.random seed 0 12 ++ c) := by
    show (lib.evpSeal _ _ _ _ _).map _ = _
    rw [hc]
    rfl
  have henc : (L.aead.view p).encrypt seed (by! "msg") (by! "associated_data") =
      .ok (pre ++ (lib.random seed 0 12 ++ c)) := by
    rw [h3 _ _ _ (by decide), show (AeadKey.aesGcm (basicAead.value.drop 2)).nonceSize = 12 from rfl, hct]
  have hdec := ((C94_aead_decrypt hl hcc hr hk hp (ad := by! "associated_data") (by decide)
    (pre ++ (lib.random seed 0 12 ++ c))).1 (by! "msg")).2
    (sole_firstDoes ⟨_, _, _, payload_append h1 _ (.inr (by
      intro h
      have := congrArg List.length h
      rw [List.length_append, hl.random_length] at this
      simp at this)), basicAead_stored, hl.random_length _ _ _, hct⟩)
  refine bind_ok_iff.2 ⟨_, registering_ok hi .aead, bind_ok_iff.2 ⟨_, basicAead_read hE,
    bind_ok_iff.2 ⟨p, hp, bind_ok_iff.2 ⟨_, henc, bind_ok_iff.2 ⟨_, hdec, rfl⟩⟩⟩⟩⟩

/-- C103.  `deterministic_aead_basic.py` raises no exception. -/
theorem C103_daead (hi : LawfulConfig L isInst) (hl : LawfulSsl lib)
    (hcc : ∀ u cc, ccDaead lib u = some cc → L.ccDaead u = some cc) (hE : RoomForKeysets E) :
    Basic.daead L isInst E = .ok () := by
  have hr := registryOf_registered hi .daead
  have hk : KeysOf daeadTypes (KeysetHandle.mk (soleKeyset 1919301694 basicDaead)).keyset :=
    sole_keysOf (by decide +kernel) (fits_of_ok (by decide +kernel))
  have hok : (SivKey.mk (basicDaead.value.drop 2)).Ok := rfl
  obtain ⟨p, hp⟩ := (C94_daead_primitive hi hl hcc hr hk).2
    ⟨sole_valid _ _, fun k hk _ => by rw [mem_sole.1 hk]; exact ⟨sole_prefixKnown _ _, _, basicDaead_stored, hok⟩⟩
  obtain ⟨pre, key, h1, h2, h3⟩ := C94_daead_encrypt hl hcc hr hk hp (mem_sole.2 rfl) (sole_primary _ _)
  obtain rfl := siv_unique basicDaead_stored h2
  have hdec := ((C94_daead_decrypt hl hcc hr hk hp (ad := by! "associated_data")
    (pre ++ SivKey.ciphertext lib ⟨basicDaead.value.drop 2⟩ (by! "associated_data") (by! "msg"))).1
    (by! "msg")).2 (sole_firstDoes ⟨_, _, payload_append h1 _ (.inr (by
      intro h
      have := congrArg List.length h
      unfold SivKey.ciphertext Modes.siv at this
      dsimp only at this
      rw [List.length_append, length_s2v (hl.aes _ (.inr rfl))] at this
      simp at this)), basicDaead_stored, rfl⟩)
  refine bind_ok_iff.2 ⟨_, registering_ok hi .daead, bind_ok_iff.2 ⟨_, basicDaead_read hE,
    bind_ok_iff.2 ⟨p, hp, bind_ok_iff.2 ⟨_, h3 _ _, bind_ok_iff.2 ⟨_, hdec, rfl⟩⟩⟩⟩⟩

/-- C103.  `mac_basic.py` raises no exception. -/
theorem C103_mac (hi : LawfulConfig L isInst) (hl : LawfulSsl lib)
    (hcc : ∀ u cc, ccMac lib u = some cc → L.ccMac u = some cc) (hE : RoomForKeysets E) :
    Basic.mac L isInst E = .ok () := by
  have hr := registryOf_registered hi .mac
  have hk : KeysOf macTypes (KeysetHandle.mk (soleKeyset 1892702217 basicMac)).keyset :=
    sole_keysOf (by decide +kernel) (fits_of_ok (by decide +kernel))
  have hok : (MacKey.hmac (basicMac.value.drop 8) HashType.SHA256 16).Ok :=
    ⟨by decide +kernel, by decide, _, .sha256, by decide⟩
  obtain ⟨p, hp⟩ := (C94_mac_primitive hi hl hcc hr hk).2
    ⟨sole_valid _ _, fun k hk _ => by rw [mem_sole.1 hk]; exact ⟨sole_prefixKnown _ _, _, basicMac_stored, hok⟩⟩
  obtain ⟨pre, key, h1, h2, h3⟩ := C94_mac_compute hl hcc hr hk hp (mem_sole.2 rfl) (sole_primary _ _)
  obtain rfl := mac_unique basicMac_stored h2
  refine bind_ok_iff.2 ⟨_, registering_ok hi .mac, bind_ok_iff.2 ⟨_, basicMac_read hE,
    bind_ok_iff.2 ⟨p, hp, bind_ok_iff.2 ⟨_, h3 _, ?_⟩⟩⟩⟩
  refine (C94_mac_verify hl hcc hr hk hp _ _).1.2 ?_
  obtain ⟨t, ht, hlen⟩ := hl.hmac HashType.SHA256 32 .sha256 (basicMac.value.drop 8)
    (authenticated (soleKey 1892702217 basicMac) (by! "data"))
  have htag : ((MacKey.hmac (basicMac.value.drop 8) HashType.SHA256 16).tag lib
      (authenticated (soleKey 1892702217 basicMac) (by! "data"))).length = 16 := by
    show (((lib.hmac _ _ _).getD []).take 16).length = 16
    rw [ht, List.length_take]
    show min 16 t.length = 16
    omega
  have hpre : pre.length = 5 := by cases h1; rfl
  refine ⟨by rw [List.length_append, htag]; omega, _, mem_sole.2 rfl, rfl, _, _, payload_append h1 _ (.inr ?_),
    basicMac_stored, rfl⟩
  intro h
  rw [h] at htag
  cases htag

end

/-! ## Signatures -/

/-- C103.  `signature_basic.py` raises no exception: the signature is accepted with the public keyset that is
written out, and with the one that is computed from the private keyset. -/
theorem C103_signature {lib : SigSsl} (hi : LawfulConfig L isInst) (hl : LawfulSigSsl lib)
    (hccs : ∀ u cc, ccSign lib u = some cc → L.ccSign u = some cc)
    (hccv : ∀ u cc, ccVerify lib u = some cc → L.ccVerify u = some cc) (hc : KnowsP256 lib)
    (hE : RoomForKeysets E) (seed : Seed) : Basic.signature L isInst E seed = .ok () := by
  have hr := registryOf_registered hi .signature
  have hscalar := hc.scalar _ basicSign_scalar
  have hpoint := hc.point _ _ basicSign_scalar basicSign_point
  have hvok : (PubKey.ecdsa .p256 basicVerifyKey.x basicVerifyKey.y HashType.SHA256
      EcdsaSignatureEncoding.DER).Ok lib := by
    refine ⟨.p256, .inl rfl, ?_⟩
    have := hl.onCurve _ _ hscalar
    rw [hpoint] at this
    exact this
  have hpk : PrivateKeyset (KeysetHandle.mk (soleKeyset 611814836 basicSign)).keyset := by
    intro k hk
    rw [mem_sole.1 hk]
    refine ⟨show basicSign.typeUrl ∈ signTypes by decide +kernel, fits_of_ok (kd := basicSign) (by decide +kernel),
      rfl, fun s hs => ?_⟩
    cases (C97_unique hl).1 _ _ basicSign_stored hs
    unfold SigKey.size
    decide +kernel
  have hk : KeysOf signTypes (KeysetHandle.mk (soleKeyset 611814836 basicSign)).keyset :=
    fun k hk _ => ⟨(hpk k hk).1, (hpk k hk).2.1⟩
  have hkv : KeysOf verifyTypes (KeysetHandle.mk (soleKeyset 611814836 basicVerify)).keyset :=
    sole_keysOf (by decide +kernel) (fits_of_ok (by decide +kernel))
  obtain ⟨p, hp⟩ := (C98_sign_primitive hi hl hccs hr hk).2
    ⟨sole_valid _ _, fun k hk _ => by
      rw [mem_sole.1 hk]; exact ⟨sole_prefixKnown _ _, _, basicSign_stored, hvok, hscalar⟩⟩
  obtain ⟨pre, s, h1, h2, h2', h3⟩ := C98_sign hl hccs hr hk hp (mem_sole.2 rfl) (sole_primary _ _)
  cases (C97_unique hl).1 _ _ basicSign_stored h2
  obtain ⟨rs, hrs⟩ := hl.ecdsaTotal seed .p256 _ (lib.digest HashType.SHA256
    (authenticated (soleKey 611814836 basicSign) (by! "msg"))) hscalar
  have hsig : (SigKey.ecdsa .p256 basicVerifyKey.x basicVerifyKey.y (basicSign.value.drop 80) HashType.SHA256
      EcdsaSignatureEncoding.DER).signature lib seed (authenticated (soleKey 611814836 basicSign) (by! "msg")) =
      some (ecdsaEncode .p256 EcdsaSignatureEncoding.DER rs) := by
    show (lib.ecdsaSign _ _ _ _).map _ = _
    rw [hrs]
    rfl
  have hsign := h3 seed (by! "msg")
  rw [hsig] at hsign
  have hm : (SigKey.ecdsa .p256 basicVerifyKey.x basicVerifyKey.y (basicSign.value.drop 80) HashType.SHA256
      EcdsaSignatureEncoding.DER).Matches lib := hpoint.symm
  have hvalid := signature_valid hl h2' hm hsig
  have hlong := valid_length hl h2'.1 hvalid
  obtain ⟨v, hv⟩ := (C98_verify_primitive hi hl hccv hr hkv).2
    ⟨sole_valid _ _, fun k hk _ => by
      rw [mem_sole.1 hk]; exact ⟨sole_prefixKnown _ _, _, basicVerify_stored, hvok⟩⟩
  have hver := (C98_verify hl hccv hr hkv hv (pre ++ ecdsaEncode .p256 EcdsaSignatureEncoding.DER rs)
    (by! "msg")).1.2 ⟨by rw [List.length_append]; omega, soleKey 611814836 basicVerify, mem_sole.2 rfl, rfl, _, _,
      payload_append h1 _ (.inr (by intro e; rw [e] at hlong; simp at hlong)), basicVerify_stored, hvalid⟩
  obtain ⟨pub, hpub⟩ := (C98_public hl hccs hr (sole_valid _ _) hpk).2 fun k hk => by
    rw [mem_sole.1 hk]
    exact ⟨show OutputPrefixType.TINK ≠ _ by decide, show KeyStatusType.ENABLED ≠ _ by decide, _, basicSign_stored,
      .p256, .inl rfl⟩
  obtain ⟨c1, c2, c3, c4, c5⟩ := C98_public_keys hl hccs hr hpk hpub
  have hpubkeys : ∀ k' ∈ pub.keyset.key, Counterpart (soleKey 611814836 basicSign) k' := by
    intro k' hk'
    obtain ⟨i, hi, rfl⟩ := List.getElem_of_mem hk'
    have hmem : ((KeysetHandle.mk (soleKeyset 611814836 basicSign)).keyset.key[i]'(by omega), pub.keyset.key[i]) ∈
        (KeysetHandle.mk (soleKeyset 611814836 basicSign)).keyset.key.zip pub.keyset.key := by
      rw [List.mem_iff_getElem]
      exact ⟨i, by rw [List.length_zip]; omega, by simp⟩
    have := c3 _ hmem
    dsimp only at this
    rw [mem_sole.1 (List.getElem_mem _)] at this
    exact this
  obtain ⟨v2, hv2⟩ := (C98_verify_primitive hi hl hccv hr (h := pub) (fun k hk _ => by
      obtain ⟨-, -, -, g1, -, g2, -⟩ := hpubkeys k hk
      exact ⟨verify_types_iff.1 ⟨_, g1⟩, g2⟩)).2 ⟨c4, fun k hk he => by
      obtain ⟨g1, -, g3, -, -, -, s, g4, g5⟩ := hpubkeys k hk
      cases (C97_unique hl).1 _ _ basicSign_stored g4
      refine ⟨by unfold PrefixKnown; rw [g3]; exact sole_prefixKnown _ _, _, g5, hvok⟩⟩
  have hver2 := C98_round_trip hl hccs hccv hr hpk hp (mem_sole.2 rfl) (sole_primary _ _) (fun s hs => by
    cases (C97_unique hl).1 _ _ basicSign_stored hs
    exact hm) hpub hv2 hsign
  exact bind_ok_iff.2 ⟨_, registering_ok hi .signature, bind_ok_iff.2 ⟨_, basicSign_read hE,
    bind_ok_iff.2 ⟨p, hp, bind_ok_iff.2 ⟨_, hsign, bind_ok_iff.2 ⟨_, basicVerify_read hE,
    bind_ok_iff.2 ⟨v, hv, bind_ok_iff.2 ⟨_, hver, bind_ok_iff.2 ⟨pub, hpub, bind_ok_iff.2 ⟨v2, hv2, hver2⟩⟩⟩⟩⟩⟩⟩⟩⟩

/-! ## Hybrid encryption -/

/-- C103.  `hybrid_basic.py` raises no exception. -/
theorem C103_hybrid {lib : HybSsl} (hi : LawfulConfig L isInst) (hl : LawfulHyb lib)
    (hccd : ∀ u cc, ccHybridDecrypt lib u = some cc → L.ccHybridDecrypt u = some cc)
    (hcce : ∀ u cc, ccHybridEncrypt lib u = some cc → L.ccHybridEncrypt u = some cc) (hc : KnowsX25519 lib)
    (hE : RoomForKeysets E) (seed : Seed) : Basic.hybrid L isInst E seed = .ok () := by
  have hr := registryOf_registered hi .hybrid
  have hm : (HybPriv.hpke HpkeKem.DHKEM_X25519_HKDF_SHA256 HpkeKdf.HKDF_SHA256 HpkeAead.AES_256_GCM
      basicHpkeKey.publicKey (basicHybridPrivate.value.drop 46)).Matches lib :=
    ⟨rfl, by rw [hc _ rfl, basicHybrid_public]⟩
  have hke : KeysOf hybridPublicTypes (KeysetHandle.mk (soleKeyset 958452012 basicHybridPublic)).keyset :=
    sole_keysOf (by decide +kernel) (fits_of_ok (by decide +kernel))
  have hkd : KeysOf hybridPrivateTypes (KeysetHandle.mk (soleKeyset 958452012 basicHybridPrivate)).keyset :=
    sole_keysOf (by decide +kernel) (fits_of_ok (by decide +kernel))
  obtain ⟨e, he⟩ := (C102_encrypt_primitive hi hl hcce hr hke).2
    ⟨sole_valid _ _, fun k hk _ => by
      rw [mem_sole.1 hk]
      exact ⟨sole_prefixKnown _ _, _, basicHybridPublic_stored, rfl, rfl, by decide, by decide +kernel⟩⟩
  obtain ⟨d, hd⟩ := (C102_decrypt_primitive hi hl hccd hr hkd).2
    ⟨sole_valid _ _, fun k hk _ => by
      rw [mem_sole.1 hk]
      exact ⟨sole_prefixKnown _ _, _, basicHybridPrivate_stored, rfl, rfl, by decide, by decide +kernel⟩⟩
  obtain ⟨pre, v, h1, h2, -, h3⟩ := C102_encrypt hl hcce hr hke he (mem_sole.2 rfl) (sole_primary _ _)
  cases (C101_unique hl).2 _ _ basicHybridPublic_stored h2
  obtain ⟨body, hbody⟩ := encrypts_total hl hm ⟨rfl, rfl, by unfold HpkeAeadKnown; decide⟩ seed
    (by! "context_info") (by! "message") (by decide)
  have henc := ((h3 seed (by! "message") (by! "context_info")).1 _).2 ⟨body, hbody, rfl⟩
  have hne : body ≠ [] := by
    obtain ⟨n, hn, hlen⟩ := encrypts_length hl hbody
    intro e
    rw [e] at hlen
    have := overhead_pos hn
    simp only [List.length_nil] at hlen
    omega
  have hno : NoOverflowIn (KeysetHandle.mk (soleKeyset 958452012 basicHybridPrivate)).keyset := by
    intro k hk he s hs
    rw [mem_sole.1 hk] at hs
    cases (C101_unique hl).1 _ _ basicHybridPrivate_stored hs
    trivial
  have hdec := ((C102_decrypt hl hccd hr hkd hno hd (pre ++ body) (by! "context_info")).1 (by! "message")).2
    (sole_firstDoes ⟨_, _, payload_append h1 _ (.inr hne), basicHybridPrivate_stored, hyb_round_trip hl hm hbody⟩)
  exact bind_ok_iff.2 ⟨_, registering_ok hi .hybrid, bind_ok_iff.2 ⟨_, basicHybridPublic_read hE,
    bind_ok_iff.2 ⟨e, he, bind_ok_iff.2 ⟨_, henc, bind_ok_iff.2 ⟨_, basicHybridPrivate_read hE,
    bind_ok_iff.2 ⟨d, hd, bind_ok_iff.2 ⟨_, hdec, rfl⟩⟩⟩⟩⟩⟩⟩

end

/-! ## Example -/

namespace BasicExamples

def env : JsonFormatEnv Int where
  json := ToyJson.env
  intOfStr _ := none
  isInteger _ := true
  trunc x := x
  wraps := false

theorem room : RoomForKeysets env := ⟨by decide, fun m h => by cases h; decide⟩

/-- With the toy libraries that know the curves, all programs run to their end. -/
example (seed : Seed) :
    Basic.aead ToyCurves.library ToyConfig.isInst env seed = .ok () ∧
    Basic.daead ToyCurves.library ToyConfig.isInst env = .ok () ∧
    Basic.mac ToyCurves.library ToyConfig.isInst env = .ok () ∧
    Basic.signature ToyCurves.library ToyConfig.isInst env seed = .ok () ∧
    Basic.hybrid ToyCurves.library ToyConfig.isInst env seed = .ok () :=
  ⟨C103_aead ToyCurves.lawful ToySsl.lawful (fun _ _ h => h) room seed,
   C103_daead ToyCurves.lawful ToySsl.lawful (fun _ _ h => h) room,
   C103_mac ToyCurves.lawful ToySsl.lawful (fun _ _ h => h) room,
   C103_signature ToyCurves.lawful ToyCurves.sigLawful (fun _ _ h => h) (fun _ _ h => h) ToyCurves.knowsP256 room seed,
   C103_hybrid ToyCurves.lawful ToyCurves.hybLawful (fun _ _ h => h) (fun _ _ h => h) ToyCurves.knowsX25519 room seed⟩

end BasicExamples

end Tink.Props
