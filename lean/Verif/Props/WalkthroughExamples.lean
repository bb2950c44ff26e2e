import Verif.Props.Walkthrough
import Verif.Props.CliRoundTrip
import Verif.Examples.ToyConfig

/-!
# C88 with the KMS for tests
-/

namespace Tink.Props
open Spec Config Cli Walkthrough ToyConfig KeysetJsonExample

namespace WalkthroughExample

/-- The toy library in a process with the given KMS clients; data keys are made with `reg`. -/
def kmsLibrary (clients : KmsClients Aead) (reg : Registry Prim PrimClass) (seed : Seed) :
    Library Bytes Bytes Bytes ToyStream.St UInt8 Prim PrimClass :=
  { library with kmsClients := clients, kmsRegistry := reg, kmsSeed := seed, kmsSplit := fun s => (s, s + 1, s + 2) }

theorem kms_lawful (clients reg seed) : LawfulConfig (kmsLibrary clients reg seed) isInst where
  bindingsRegister := rfl
  bindingsRegisterHpke := rfl
  ccAead := lawful.ccAead
  ccDaead := lawful.ccDaead
  ccHybridDecrypt := lawful.ccHybridDecrypt
  ccHybridEncrypt := lawful.ccHybridEncrypt
  ccMac := lawful.ccMac
  ccPrf := lawful.ccPrf
  ccSign := lawful.ccSign
  ccVerify := lawful.ccVerify
  ccStreamingAead := lawful.ccStreamingAead
  classes := lawful.classes
  aead _ := rfl
  daead _ := rfl
  hybridDecrypt _ := rfl
  hybridEncrypt _ := rfl
  mac _ := rfl
  prf _ := rfl
  prfSet _ := rfl
  sign _ := rfl
  verify _ := rfl
  rawStreamingAead _ := rfl
  streamingAead _ := rfl

def aesGcm : PStr := ps! "type.googleapis.com/google.crypto.tink.AesGcmKey"

/-- The registry of the fake KMS, and for data keys. -/
abbrev reg0 := registryOf isInst (registerAead library)

theorem registered0 : PackageRegistered library reg0 .aead := registryOf_registered lawful .aead

/-- The key of the KMS. -/
def kek : KeysetHandle :=
  ⟨⟨5, [⟨some ⟨aesGcm, [9], KeyMaterialType.SYMMETRIC⟩, KeyStatusType.ENABLED, 5, OutputPrefixType.RAW⟩]⟩⟩

theorem kek_valid : Valid kek.keyset := single_valid (by decide)

def kekBytes : Bytes := encodeFields kek.keyset.fields

theorem kek_bytes : kek.keyset.serializeToString = .ok kekBytes := by decide +kernel

/-- Its URI, without padding. -/
def uri : PyStr := py! "fake-kms://" ++ fakeKeyId false kekBytes

theorem uri_usable : UsableUri uri := ⟨by decide +kernel, by decide +kernel⟩

def client (bound : Option PyStr) : KmsClient Aead :=
  ⟨fun u => .ok (FakeKms.doesSupport bound u), FakeKms.getAead library.aead isInst .aead reg0⟩

/-- One process has a client for another key, and one for this key. -/
def L1 := kmsLibrary [client (some (py! "fake-kms://AAAA")), client (some uri)] reg0 3
/-- The other process has a client for all keys. -/
def L2 := kmsLibrary [client none] reg0 4

abbrev r1 := registryOf isInst (registerAead L1)
abbrev r2 := registryOf isInst (registerAead L2)

theorem registered1 : PackageRegistered L1 r1 .aead := registryOf_registered (kms_lawful ..) .aead
theorem registered2 : PackageRegistered L2 r2 .aead := registryOf_registered (kms_lawful ..) .aead

theorem fits (v : UInt8) : Fits ⟨aesGcm, [v], KeyMaterialType.SYMMETRIC⟩ := by
  have h : ∀ n < 256, Except.isOk (KeyData.serializeToString
      ⟨aesGcm, [UInt8.ofNat n], KeyMaterialType.SYMMETRIC⟩) = true := by decide +kernel
  have := h v.toNat v.toNat_lt
  rw [UInt8.ofNat_toNat] at this
  exact fits_of this

def cc : Cpp.KeyManager Cpp.Aead := manager aesGcm KeyMaterialType.SYMMETRIC ToyConfig.aead

theorem found : library.ccAead aesGcm = some cc :=
  if_pos (c := (aesGcm, PrimClass.aead) ∈ keyTypes .aead) (e := none) (by decide)

theorem makes {t : KeyTemplate} (ht : t.typeUrl = aesGcm) : MakesKeys cc t := by
  intro seed kd h
  cases h
  exact ⟨ht.symm, rfl, fits _⟩

theorem same (t : KeyTemplate) : SameKeys cc cc t := by
  intro seed kd a h1 h2
  refine ⟨a, h2, ?_⟩
  cases h1
  cases h2
  intro s pt ad ct h
  cases h
  exact ⟨pack_ne_nil _ _ _, unpack_pack ..⟩

def gcm : KeyTemplate := match Templates.AES128_GCM with | .ok t => t | .error _ => {}

theorem gcm_ok : Templates.AES128_GCM = .ok gcm := by decide +kernel
theorem gcm_type : gcm.typeUrl = aesGcm := by decide +kernel
theorem gcm_fits : FitsTemplate gcm := by
  obtain ⟨_, h0, h, _⟩ := C64_templates .aead (.ok gcm) (by rw [← gcm_ok]; simp [templates])
  cases h0
  exact h

theorem kms : ∃ a, KmsGives L1.kmsClients uri a ∧ KmsGives L2.kmsClients uri a ∧
    (∀ ad, OpensFor a a ad) ∧ (∀ s pt ad, a.encrypt s pt ad = .ok (pack [9] ad pt)) ∧
    ∀ ct ad, a.decrypt ct ad = reported id (unpack [9] ct ad) := by
  have hp : reg0.primitive ⟨aesGcm, [9], KeyMaterialType.SYMMETRIC⟩ .aead =
      .ok (library.aead.inj (aeadCcToPy (ToyConfig.aead [9]))) :=
    ((dek_made (registered_dek registered0) (by rw [gcm_type]; exact .aesGcm) gcm_fits
      (by rw [gcm_type]; exact found) (makes gcm_type)).2 _ (fits 9) gcm_type.symm).trans rfl
  obtain ⟨p, h1, h2, h3⟩ := raw_aead (d := 5) lawful registered0 hp
  have he : ∀ s pt ad, (library.aead.view p).encrypt s pt ad = .ok (pack [9] ad pt) := fun s pt ad => by
    rw [h2]; exact (C65_primitives.1 ..).trans rfl
  have hd : ∀ ct ad, (library.aead.view p).decrypt ct ad = reported id (unpack [9] ct ad) := fun ct ad => by
    rw [h3, show (aeadCcToPy (ToyConfig.aead [9])).decrypt ct ad = reported id (unpack [9] ct ad) from
      C65_primitives.2.1 ..]
    cases unpack [9] ct ad <;> rfl
  have hget : FakeKms.getAead library.aead isInst .aead reg0 uri = .ok (library.aead.view p) := by
    obtain ⟨c, hc, _, hg⟩ := C88_fake_kms (V := library.aead) (isInst := isInst) (c := PrimClass.aead)
      (r := reg0) kek_valid kek_bytes false (.inl rfl)
    cases hc
    refine hg.trans ?_
    rw [show kek.primitive isInst reg0 .aead = .ok p from h1]
    rfl
  refine ⟨library.aead.view p,
    ⟨[client (some (py! "fake-kms://AAAA"))], client (some uri), [], rfl, ?_, ?_, hget⟩,
    ⟨[], client none, [], rfl, by simp, ?_, hget⟩, ?_, he, hd⟩
  · intro d hd
    rw [List.mem_singleton.1 hd]
    decide +kernel
  · decide +kernel
  · decide +kernel
  · intro ad s pt ct hct
    rw [he] at hct
    cases hct
    refine ⟨pack_ne_nil _ _ _, ?_⟩
    rw [hd]
    exact reported_ok.2 (unpack_pack ..)

theorem found1 : L1.ccAead gcm.typeUrl = some cc := by rw [gcm_type]; exact found
theorem found2 : L2.ccAead gcm.typeUrl = some cc := by rw [gcm_type]; exact found

/-- `C88_get_kms_aead`: an AEAD whose ciphertexts are those of the KMS. -/
example : ∃ a, getKmsAead L1 isInst r1 0 [77] uri = some (.ok a) ∧
    a.encrypt 0 [1, 2] [3] = .ok [1, 2, 3, 4, 5, 6, 7, 8, 9, 3, 1, 2] := by
  obtain ⟨a, ha, _, _, he, _⟩ := kms
  obtain ⟨a', h1, h2, _⟩ := (C88_get_kms_aead (kms_lawful ..) registered1 uri_usable 0 77 []).1 a ha
  exact ⟨a', h1, by rw [h2, he]; rfl⟩

/-- A URI that no client supports. -/
def strange : PyStr := py! "gcp-kms://projects/p"

theorem strange_raises : KmsRaises L2.kmsClients strange .tinkError :=
  .inl ⟨rfl, by intro d hd; rw [List.mem_singleton.1 hd]; decide +kernel⟩

/-- A URI that the client takes for its own, but that is not base64 of a keyset. -/
def broken : PyStr := py! "fake-kms://A"

theorem broken_raises : KmsRaises L2.kmsClients broken .valueError :=
  .inr ⟨[], client none, [], rfl, by simp, .inr ⟨by decide +kernel, by rfl⟩⟩

/-- C88.  The functions of the walkthrough may raise other exceptions than `TinkError`, although their comments
name only this one: here `binascii.Error`, a `ValueError`, from the client. -/
theorem C88_not_only_tink_errors : ∃ e, e.isTink = false ∧
    loadEncryptedKeyset L2 isInst (jsonEnv true) r2 0 [77] (py! "{}") (py! "fake-kms://A") [] =
      some (.error e) :=
  ⟨.valueError, rfl, (C88_kms_unavailable (kms_lawful ..) registered2 ⟨by decide +kernel, by decide +kernel⟩
    broken_raises _ 0 77 []).2 (py! "{}") []⟩

/-- `C88_kms_unavailable`. -/
example (h : KeysetHandle) : writeEncryptedKeyset L2 isInst (jsonEnv true) r2 0 [77] 1 h [120] strange [3] =
      some ([120], .error .tinkError) ∧
    loadEncryptedKeyset L2 isInst (jsonEnv true) r2 0 [77] [123, 125] broken [3] = some (.error .valueError) :=
  ⟨(C88_kms_unavailable (kms_lawful ..) registered2 ⟨by decide +kernel, by decide +kernel⟩ strange_raises _ 0 77
      []).1 1 h [120] [3],
   (C88_kms_unavailable (kms_lawful ..) registered2 ⟨by decide +kernel, by decide +kernel⟩ broken_raises _ 0 77
      []).2 [123, 125] [3]⟩

/-- `C88_write_succeeds`, `C88_write_encrypted`, `C88_round_trip`: a keyset is written by one process and loaded
by the other one; with other associated data it is not. -/
example : ∃ text, writeEncryptedKeyset L1 isInst (jsonEnv true) r1 0 [77] 1 kek [] uri [3] =
      some (text, .ok ()) ∧
    loadEncryptedKeyset L2 isInst (jsonEnv true) r2 8 [78] text uri [3] = some (.ok kek) ∧
    loadEncryptedKeyset L2 isInst (jsonEnv true) r2 8 [78] text uri [4] = some (.error .tinkError) := by
  obtain ⟨a, h1, h2, ho, he, hdec⟩ := kms
  have hd := (ho [3] 1 _ _ (he 1 kekBytes [3])).2
  obtain ⟨text, hw⟩ := C88_write_succeeds (E := jsonEnv true) (kms_lawful ..) registered1 uri_usable (roomy true)
    h1 kek_bytes (he 1 kekBytes [3]) hd 0 77 [] []
  refine ⟨_, hw, C88_round_trip (kms_lawful ..) registered1 (kms_lawful ..) registered2 uri_usable uri_usable
    ToyJson.lawful h1 h2 (ho [3]) kek_valid hw 8 78 [], ?_⟩
  rcases C88_write_encrypted (E := jsonEnv true) (kms_lawful ..) registered1 uri_usable ToyJson.lawful h1 0 77 [] 1
    kek [] [3] with ⟨e, h0⟩ | ⟨u, b, ct, pt, h0, hb, hc, _, _, hr⟩
  · exact absurd (hw.symm.trans h0) (by intro h; cases h)
  · rw [kek_bytes] at hb
    cases hb
    rw [he] at hc
    cases hc
    have hu : text = u := by
      have := hw.symm.trans h0
      simpa using this
    subst hu
    exact C88_load_refused (kms_lawful ..) registered2 uri_usable h2 hr (pack_ne_nil _ _ _) (x := .tinkError)
      (by rw [hdec]; decide +kernel) rfl 8 78 []

/-- `C88_cleartext_round_trip`. -/
example := C88_cleartext_round_trip (E := jsonEnv true) ToyJson.lawful (roomy true) kek_valid [120]

/-- The keyset of the walkthrough. -/
def new : KeysetHandle :=
  ⟨⟨42, [⟨some ⟨aesGcm, [7], KeyMaterialType.SYMMETRIC⟩, KeyStatusType.ENABLED, 42, OutputPrefixType.TINK⟩]⟩⟩

theorem new_ok : createAead128GcmKeyset r1 7 [42] = some (.ok new) := by decide +kernel

/-- `C88_walkthrough`: the whole of it. -/
example : ∃ h ct text h', createAead128GcmKeyset r1 7 [42] = some (.ok h) ∧
    aeadEncrypt L1 isInst r1 h 0 [1, 2] [3] = .ok ct ∧
    writeEncryptedKeyset L1 isInst (jsonEnv true) r1 0 [77] 1 h [] uri [] = some (text, .ok ()) ∧
    loadEncryptedKeyset L2 isInst (jsonEnv true) r2 8 [78] text uri [] = some (.ok h') ∧
    aeadDecrypt L2 isInst r2 h' ct [3] = .ok [1, 2] := by
  obtain ⟨a, h1, h2, ho, he, _⟩ := kms
  obtain ⟨h, g1, g2⟩ := C88_walkthrough (E := jsonEnv true) (kms_lawful ..) registered1 (kms_lawful ..) registered2
    gcm_ok found1 found2 (makes gcm_type) (makes gcm_type) (same _) (seed := 7) rfl rfl uri_usable h1 h2 ho
    ToyJson.lawful 42 []
  obtain rfl : h = new := by simpa using g1.symm.trans new_ok
  have hct : aeadEncrypt L1 isInst r1 new 0 [1, 2] [3] =
      .ok [1, 0, 0, 0, 42, 1, 2, 3, 4, 5, 6, 7, 8, 7, 3, 1, 2] := by decide +kernel
  have hb : new.keyset.serializeToString = .ok (encodeFields new.keyset.fields) := by decide +kernel
  obtain ⟨text, hw⟩ := C88_write_succeeds (E := jsonEnv true) (kms_lawful ..) registered1 uri_usable (roomy true)
    h1 hb (he 1 _ []) (ho [] 1 _ _ (he 1 _ [])).2 0 77 [] []
  obtain ⟨h', k1, k2⟩ := g2 _ _ _ _ hct _ _ _ _ _ _ hw 8 78 []
  exact ⟨_, _, _, h', new_ok, hct, hw, k1, k2⟩

/-- The template, and keysets made from it by the two processes. -/
def envelope : KeyTemplate :=
  match createKmsEnvelopeAeadKeyTemplate uri gcm with | .ok t => t | .error _ => {}

theorem envelope_ok : createKmsEnvelopeAeadKeyTemplate uri gcm = .ok envelope := by decide +kernel

def envelopeKey : KeyData :=
  match KmsEnvelopeAeadKeyManager.newKeyData envelope with | .ok kd => kd | .error _ => {}

def envelopeKeyset (d : UInt32) : KeysetHandle :=
  ⟨⟨d, [⟨some envelopeKey, KeyStatusType.ENABLED, d, OutputPrefixType.RAW⟩]⟩⟩

theorem envelope1 : KeysetHandle.generateNew r1 0 [1] envelope = some (.ok (envelopeKeyset 1)) := by decide +kernel
theorem envelope2 : KeysetHandle.generateNew r2 0 [2] envelope = some (.ok (envelopeKeyset 2)) := by decide +kernel

theorem dek_registered (clients seed) : DekRegistered (kmsLibrary clients reg0 seed) reg0 :=
  fun url h => registered_dek registered0 url h

/-- `C88_envelope_ciphertext` and `C88_envelope_round_trip`. -/
example : ∃ ct, aeadEncrypt L1 isInst r1 (envelopeKeyset 1) 20 [1, 2] [3] = .ok ct ∧
    ct = [0, 0, 0, 10, 1, 2, 3, 4, 5, 6, 7, 8, 9, 21, 1, 2, 3, 4, 5, 6, 7, 8, 21, 3, 1, 2] ∧
    aeadDecrypt L2 isInst r2 (envelopeKeyset 2) ct [3] = .ok [1, 2] := by
  obtain ⟨a, h1, h2, ho, he, _⟩ := kms
  have hct := (C88_envelope_ciphertext (kms_lawful ..) registered1 (dek_registered _ _) envelope_ok envelope1 gcm_fits
    found1 (makes gcm_type) rfl h1 20 [1, 2] [3]
    [0, 0, 0, 10, 1, 2, 3, 4, 5, 6, 7, 8, 9, 21, 1, 2, 3, 4, 5, 6, 7, 8, 21, 3, 1, 2]).2
    ⟨⟨aesGcm, [21], KeyMaterialType.SYMMETRIC⟩, ToyConfig.aead [21], pack [21] [3] [1, 2], pack [9] [] [21], rfl,
      rfl, rfl, he .., by decide, by decide +kernel⟩
  exact ⟨_, hct, rfl, C88_envelope_round_trip (kms_lawful ..) registered1 (dek_registered _ _) (kms_lawful ..)
    registered2 (dek_registered _ _) envelope_ok envelope1 envelope2 gcm_fits found1 found2 (makes gcm_type)
    (makes gcm_type) (same _) rfl rfl h1 h2 (ho []) hct⟩

/-- `C88_fake_kms` and the rest. -/
example := C88_fake_kms (V := library.aead) (isInst := isInst) (c := PrimClass.aead) (r := reg0) kek_valid kek_bytes
  true (.inr rfl)
example := C88_fake_kms_refuses (V := library.aead) (isInst := isInst) (c := PrimClass.aead) (r := reg0)
  (uri := strange) (by rintro ⟨x, hx⟩; cases hx)
example := C88_fake_kms_bound (V := library.aead) (isInst := isInst) (c := PrimClass.aead) (r := reg0)
  (uri := uri) (uri' := broken) (client := client (some uri)) (by intro h; cases h) rfl

end WalkthroughExample
end Tink.Props
