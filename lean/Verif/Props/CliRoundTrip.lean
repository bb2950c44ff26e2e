import Verif.Props.Cli
import Verif.Props.Envelope

/-!
# C84: running one program after the other

Permissions may change between two runs, but paths lead to the same files.
-/

namespace Tink.Props
open Spec Cli Config

section
variable {σ δ ε τ S P C F κ : Type} [DecidableEq C]
variable {L : Library σ δ ε τ S P C} {isInst : P → C → Bool} {E : JsonFormatEnv F}

/-- C84.  What `aead_cli.py` has encrypted with status 0 is decrypted by it: with the same keyset file
and the same associated data the second run ends with status 0, and leaves the first input in its
output file; no other file changes.  The keyset file must not be the output file of the first run. -/
theorem C84_aead_round_trip (hl : LawfulConfig L isInst) {os os' : Os} (hf : SameFiles os os')
    {seed seed' : Seed} {keysetPath inputPath cipherPath plainPath : Path} {text : Option PyStr}
    {w : World κ} {pt : Bytes} (hin : FileHolds os w.files inputPath pt)
    (h0 : exitStatus (aeadCli L isInst E os seed ⟨.encrypt, keysetPath, inputPath, cipherPath, text⟩ w) = 0)
    (hk : os.file keysetPath ≠ os.file cipherPath)
    (correct : ∀ p ad ct, PrimitiveOf L isInst E os w.files (registerAead L) keysetPath .aead p →
      (L.aead.view p).encrypt seed pt ad = .ok ct → (L.aead.view p).decrypt ct ad = .ok pt)
    (hr : os'.readable keysetPath = true) (hr' : os'.readable cipherPath = true)
    (hw : os'.writable plainPath = true) (hs : os'.stored plainPath pt = none) :
    let w' := (aeadCli L isInst E os seed ⟨.encrypt, keysetPath, inputPath, cipherPath, text⟩ w).2
    let x := aeadCli L isInst E os' seed' ⟨.decrypt, keysetPath, cipherPath, plainPath, text⟩ w'
    exitStatus x = 0 ∧ Updated (os'.file plainPath) pt w'.files x.2.files := by
  obtain ⟨ct, ⟨p, ad, i, h1, h2, h3, h4⟩, hu⟩ := ends_zero (C84_aead hl os seed _ w) h0
  cases fileHolds_unique hin h3
  have hp := primitiveOf_carry hf h1 hr (hu.2 _ hk)
  have hc : FileHolds os' (aeadCli L isInst E os seed
      ⟨.encrypt, keysetPath, inputPath, cipherPath, text⟩ w).2.files cipherPath ct :=
    ⟨hr', by rw [hf]; exact hu.1⟩
  have hd := correct p ad ct h1 h4
  refine ends_ok (C84_aead hl os' seed' _ _) ⟨p, ad, ct, hp, h2, hc, hd⟩ ?_ hw hs
  rintro b ⟨p', ad', ct', g1, g2, g3, g4⟩
  cases primitiveOf_unique hp g1
  cases flagBytes_unique h2 g2
  cases fileHolds_unique hc g3
  have g4 : (L.aead.view p).decrypt ct ad = .ok b := g4
  rw [hd] at g4; cases g4; rfl

/-- C84.  The same of `deterministic_aead_cli.py`. -/
theorem C84_daead_round_trip (hl : LawfulConfig L isInst) {os os' : Os} (hf : SameFiles os os')
    {keysetPath inputPath cipherPath plainPath : Path} {text : Option PyStr}
    {w : World κ} {pt : Bytes} (hin : FileHolds os w.files inputPath pt)
    (h0 : exitStatus (daeadCli L isInst E os ⟨.encrypt, keysetPath, inputPath, cipherPath, text⟩ w) = 0)
    (hk : os.file keysetPath ≠ os.file cipherPath)
    (correct : ∀ p ad ct, PrimitiveOf L isInst E os w.files (registerDaead L) keysetPath .daead p →
      (L.daead.view p).encryptDeterministically pt ad = .ok ct →
      (L.daead.view p).decryptDeterministically ct ad = .ok pt)
    (hr : os'.readable keysetPath = true) (hr' : os'.readable cipherPath = true)
    (hw : os'.writable plainPath = true) (hs : os'.stored plainPath pt = none) :
    let w' := (daeadCli L isInst E os ⟨.encrypt, keysetPath, inputPath, cipherPath, text⟩ w).2
    let x := daeadCli L isInst E os' ⟨.decrypt, keysetPath, cipherPath, plainPath, text⟩ w'
    exitStatus x = 0 ∧ Updated (os'.file plainPath) pt w'.files x.2.files := by
  obtain ⟨ct, ⟨p, ad, i, h1, h2, h3, h4⟩, hu⟩ := ends_zero (C84_daead hl os _ w) h0
  cases fileHolds_unique hin h3
  have hp := primitiveOf_carry hf h1 hr (hu.2 _ hk)
  have hc : FileHolds os' (daeadCli L isInst E os
      ⟨.encrypt, keysetPath, inputPath, cipherPath, text⟩ w).2.files cipherPath ct :=
    ⟨hr', by rw [hf]; exact hu.1⟩
  have hd := correct p ad ct h1 h4
  refine ends_ok (C84_daead hl os' _ _) ⟨p, ad, ct, hp, h2, hc, hd⟩ ?_ hw hs
  rintro b ⟨p', ad', ct', g1, g2, g3, g4⟩
  cases primitiveOf_unique hp g1
  cases flagBytes_unique h2 g2
  cases fileHolds_unique hc g3
  have g4 : (L.daead.view p).decryptDeterministically ct ad = .ok b := g4
  rw [hd] at g4; cases g4; rfl

/-- C84.  The same of `hybrid_cli.py`: what has been encrypted with the public keyset is decrypted with
the private one. -/
theorem C84_hybrid_round_trip (hl : LawfulConfig L isInst) {os os' : Os} (hf : SameFiles os os')
    {seed seed' : Seed} {publicPath privatePath inputPath cipherPath plainPath : Path}
    {text : Option PyStr} {w : World κ} {pt : Bytes} (hin : FileHolds os w.files inputPath pt)
    (h0 : exitStatus (hybridCli L isInst E os seed ⟨.encrypt, publicPath, inputPath, cipherPath, text⟩ w) = 0)
    (hk : os.file privatePath ≠ os.file cipherPath) {p' : P}
    (hp' : PrimitiveOf L isInst E os w.files (registerHybrid L) privatePath .hybridDecrypt p')
    (correct : ∀ p info ct, PrimitiveOf L isInst E os w.files (registerHybrid L) publicPath .hybridEncrypt p →
      (L.hybridEncrypt.view p).encrypt seed pt info = .ok ct →
      (L.hybridDecrypt.view p').decrypt ct info = .ok pt)
    (hr : os'.readable privatePath = true) (hr' : os'.readable cipherPath = true)
    (hw : os'.writable plainPath = true) (hs : os'.stored plainPath pt = none) :
    let w' := (hybridCli L isInst E os seed ⟨.encrypt, publicPath, inputPath, cipherPath, text⟩ w).2
    let x := hybridCli L isInst E os' seed' ⟨.decrypt, privatePath, cipherPath, plainPath, text⟩ w'
    exitStatus x = 0 ∧ Updated (os'.file plainPath) pt w'.files x.2.files := by
  obtain ⟨ct, ⟨p, ad, i, h1, h2, h3, h4⟩, hu⟩ :=
    opens_zero (C84_hybrid_encrypt hl os seed publicPath inputPath cipherPath text w) h0
  cases fileHolds_unique hin h3
  have hp := primitiveOf_carry hf hp' hr (hu.2 _ hk)
  have hc : FileHolds os' (hybridCli L isInst E os seed
      ⟨.encrypt, publicPath, inputPath, cipherPath, text⟩ w).2.files cipherPath ct :=
    ⟨hr', by rw [hf]; exact hu.1⟩
  have hd := correct p ad ct h1 h4
  refine opens_ok (C84_hybrid_decrypt hl os' seed' privatePath cipherPath plainPath text _)
    ⟨p', ad, ct, hp, h2, hc⟩ ⟨p', ad, ct, hp, h2, hc, hd⟩ ?_ hw hs
  rintro b ⟨p', ad', ct', g1, g2, g3, g4⟩
  cases primitiveOf_unique hp g1
  cases flagBytes_unique h2 g2
  cases fileHolds_unique hc g3
  rw [hd] at g4; cases g4; rfl

/-- C84.  What `mac_cli.py` has computed with status 0 is verified by it with status 0. -/
theorem C84_mac_round_trip (hl : LawfulConfig L isInst) {os os' : Os} (hf : SameFiles os os')
    {keysetPath dataPath codePath : Path} {w : World κ}
    (h0 : exitStatus (macCli L isInst E os ⟨.make, keysetPath, dataPath, codePath⟩ w) = 0)
    (hk : os.file keysetPath ≠ os.file codePath) (hd : os.file dataPath ≠ os.file codePath)
    (correct : ∀ p data tag, PrimitiveOf L isInst E os w.files (registerMac L) keysetPath .mac p →
      (L.mac.view p).computeMac data = .ok tag → (L.mac.view p).verifyMac tag data = .ok ())
    (hr : os'.readable keysetPath = true) (hr1 : os'.readable dataPath = true)
    (hr2 : os'.readable codePath = true) :
    let w' := (macCli L isInst E os ⟨.make, keysetPath, dataPath, codePath⟩ w).2
    exitStatus (macCli L isInst E os' ⟨.verify, keysetPath, dataPath, codePath⟩ w') = 0 := by
  obtain ⟨o, ⟨p, data, tag, h1, h2, h3, h4⟩, hu⟩ :=
    ends_zero (C84_mac_compute hl os keysetPath dataPath codePath w) h0
  rcases (C84_mac_verify (E := E) hl os' keysetPath dataPath codePath
    (macCli L isInst E os ⟨.make, keysetPath, dataPath, codePath⟩ w).2).status with ⟨g, _⟩ | ⟨_, g⟩
  · exact g
  · refine absurd ⟨p, data, o, tag, primitiveOf_carry hf h1 hr (hu.2 _ hk),
      fileHolds_carry hf h2 hr1 (hu.2 _ hd), ⟨hr2, by rw [hf]; exact hu.1⟩,
      ⟨[], o, [], by simp, by simp, by simp, h4.1⟩, correct p data tag h1 h3⟩ g

/-- C84.  What `signature_cli.py` has signed with status 0 with the private keyset is verified by it
with status 0 with the public one. -/
theorem C84_signature_round_trip (hl : LawfulConfig L isInst) {os os' : Os} (hf : SameFiles os os')
    {seed seed' : Seed} {privatePath publicPath dataPath codePath : Path} {w : World κ}
    (h0 : exitStatus (signatureCli L isInst E os seed ⟨.make, privatePath, dataPath, codePath⟩ w) = 0)
    (hk : os.file publicPath ≠ os.file codePath) (hd : os.file dataPath ≠ os.file codePath) {p' : P}
    (hp' : PrimitiveOf L isInst E os w.files (registerSignature L) publicPath .verify p')
    (correct : ∀ p data sig, PrimitiveOf L isInst E os w.files (registerSignature L) privatePath .sign p →
      (L.sign.view p).sign seed data = .ok sig → (L.verify.view p').verify sig data = .ok ())
    (hr : os'.readable publicPath = true) (hr1 : os'.readable dataPath = true)
    (hr2 : os'.readable codePath = true) :
    let w' := (signatureCli L isInst E os seed ⟨.make, privatePath, dataPath, codePath⟩ w).2
    exitStatus (signatureCli L isInst E os' seed' ⟨.verify, publicPath, dataPath, codePath⟩ w') = 0 := by
  obtain ⟨o, ⟨p, data, sig, h1, h2, h3, h4⟩, hu⟩ :=
    ends_zero (C84_signature_sign hl os seed privatePath dataPath codePath w) h0
  rcases (C84_signature_verify (E := E) hl os' seed' publicPath dataPath codePath
    (signatureCli L isInst E os seed ⟨.make, privatePath, dataPath, codePath⟩ w).2).status with
    ⟨g, _⟩ | ⟨_, g⟩
  · exact g
  · refine absurd ⟨p', data, o, sig, primitiveOf_carry hf hp' hr (hu.2 _ hk),
      fileHolds_carry hf h2 hr1 (hu.2 _ hd), ⟨hr2, by rw [hf]; exact hu.1⟩,
      ⟨[], o, [], by simp, by simp, by simp, h4.1⟩, correct p data sig h1 h3⟩ g

/-- AES128_GCM is one of the AEAD templates. -/
theorem aes128Gcm_mem {t : KeyTemplate} (ht : Templates.AES128_GCM = .ok t) : .ok t ∈ templates .aead := by
  rw [← ht]; simp [templates]

/-- C84.  `cleartext_keyset_cli.py` from the beginning to the end: generating a keyset, encrypting a
file and decrypting the result all end with status 0 and restore the file, for a correct C++
implementation of AES-GCM, if files can be read and written, and the keyset file is neither the input
nor the output file of the encryption. -/
theorem C84_generate_encrypt_decrypt (hl : LawfulConfig L isInst) (hE : Roomy E)
    (hf : LawfulFloats E.json.floats) {os : Os} (hos : Working os)
    {seed seed1 seed2 : Seed} {d : UInt32} {draws : List UInt32} (hd : ∀ x ∈ d :: draws, 1 ≤ x.toNat ∧ x.toNat ≤ 2 ^ 31 - 1)
    {t : KeyTemplate} (ht : Templates.AES128_GCM = .ok t) {cc : Cpp.KeyManager Cpp.Aead} {a : Cpp.Aead}
    {kd : KeyData} (found : L.ccAead t.typeUrl = some cc)
    (new : cc.newKeyData seed t.value = .ok kd) (made : cc.getPrimitive kd = .ok a)
    (hfk : Fits kd) (hu : kd.typeUrl = t.typeUrl)
    (correct : ∀ s pt ad ct, a.encrypt s pt ad = .ok ct → ct ≠ [] ∧ a.decrypt ct ad = .ok pt)
    {keysetPath inputPath cipherPath plainPath : Path} {w : World κ} {pt : Bytes}
    (hin : w.files (os.file inputPath) = some pt)
    (hk : os.file keysetPath ≠ os.file inputPath) (hk' : os.file keysetPath ≠ os.file cipherPath)
    {body : Bytes} (henc : a.encrypt seed1 pt (by! "envelope_example") = .ok body) :
    let x1 := cleartextCli L isInst E os seed (d :: draws) ⟨.generate, keysetPath, none, none⟩ w
    let x2 := cleartextCli L isInst E os seed1 [] ⟨.use .encrypt, keysetPath, some inputPath, some cipherPath⟩ x1.2
    let x3 := cleartextCli L isInst E os seed2 [] ⟨.use .decrypt, keysetPath, some cipherPath, some plainPath⟩ x2.2
    exitStatus x1 = 0 ∧ exitStatus x2 = 0 ∧ exitStatus x3 = 0 ∧
      x3.2.files (os.file plainPath) = some pt ∧
      ∀ f, f ≠ os.file keysetPath → f ≠ os.file cipherPath → f ≠ os.file plainPath →
        x3.2.files f = w.files f := by
  intro x1 x2 x3
  obtain ⟨h, p, g1, g2, g3⟩ := C66_aead hl (registryOf_registered hl .aead) (aes128Gcm_mem ht) found new made
    hfk hu correct d draws
  obtain ⟨_, _, _, _, _, _, hv⟩ := C19_generate_new hd g1
  obtain ⟨text, hs⟩ := C62_serialize_succeeds E hE h
  obtain ⟨b, hb, _⟩ := textChar_text (serialize_textChar hf hs)
  have hnew : NewAeadKeyset L isInst seed (d :: draws) h := ⟨t, ht, g1⟩
  obtain ⟨z1, u1⟩ : exitStatus x1 = 0 ∧ Updated (os.file keysetPath) b w.files x1.2.files := by
    refine ends_ok (C84_generate hl hE hf os seed d draws keysetPath none none w) ⟨h, text, hnew, hs, hb⟩ ?_
      (hos.writable _) (hos.stored _ _)
    rintro b' ⟨h', text', ⟨t', ht', n1⟩, n2, n3⟩
    rw [ht] at ht'; cases ht'
    have n1 : KeysetHandle.generateNew (registryOf isInst (registerPackage L .aead)) seed (d :: draws) t =
      some (.ok h') := n1
    rw [g1] at n1; cases n1
    rw [hs] at n2; cases n2
    rw [hb] at n3; cases n3
    rfl
  have hkf : ∀ files : Nat → Option Bytes, files (os.file keysetPath) = some b →
      PrimitiveOf L isInst E os files (registerAead L) keysetPath .aead p := fun files hfile =>
    ⟨h, C84_keyset_file hf hv hs hb ⟨hos.readable _, hfile⟩, g2⟩
  have hp1 := hkf _ u1.1
  have hi : FileHolds os x1.2.files inputPath pt := ⟨hos.readable _, by rw [u1.2 _ (Ne.symm hk)]; exact hin⟩
  obtain ⟨ct, hct⟩ := (g3 seed1 pt (by! "envelope_example")).1 body henc
  obtain ⟨z2, u2⟩ : exitStatus x2 = 0 ∧ Updated (os.file cipherPath) ct x1.2.files x2.2.files := by
    refine ends_ok (C84_cleartext hl os seed1 [] .encrypt keysetPath inputPath cipherPath x1.2)
      ⟨p, pt, hp1, hi, hct⟩ ?_ (hos.writable _) (hos.stored _ _)
    rintro b' ⟨p', i', n1, n2, n3⟩
    cases primitiveOf_unique hp1 n1
    cases fileHolds_unique hi n2
    have n3 : (L.aead.view p).encrypt seed1 pt (by! "envelope_example") = .ok b' := n3
    rw [hct] at n3; cases n3; rfl
  have hp2 := hkf x2.2.files (by rw [u2.2 _ hk']; exact u1.1)
  have hc : FileHolds os x2.2.files cipherPath ct := ⟨hos.readable _, u2.1⟩
  have hdec := (g3 seed1 pt (by! "envelope_example")).2 ct hct
  obtain ⟨z3, u3⟩ : exitStatus x3 = 0 ∧ Updated (os.file plainPath) pt x2.2.files x3.2.files := by
    refine ends_ok (C84_cleartext hl os seed2 [] .decrypt keysetPath cipherPath plainPath x2.2)
      ⟨p, ct, hp2, hc, hdec⟩ ?_ (hos.writable _) (hos.stored _ _)
    rintro b' ⟨p', i', n1, n2, n3⟩
    cases primitiveOf_unique hp2 n1
    cases fileHolds_unique hc n2
    have n3 : (L.aead.view p).decrypt ct (by! "envelope_example") = .ok b' := n3
    rw [hdec] at n3; cases n3; rfl
  exact ⟨z1, z2, z3, u3.1, fun f f1 f2 f3 => by rw [u3.2 f f3, u2.2 f f2, u1.2 f f1]⟩

/-! ## Envelope encryption -/

/-- The keys of a new process. -/
theorem sound_keys (hl : LawfulConfig L isInst) {t : KeyTemplate} (ht : Templates.AES256_GCM = .ok t)
    (hc : SoundAead L t) (seed : Seed) :
    ∃ kd p, (registryOf isInst (registerAead L)).newKeyData seed t = .ok kd ∧
      (registryOf isInst (registerAead L)).primitive kd (L.cls .aead) = .ok p ∧
      kd.typeUrl = t.typeUrl ∧ kd.keyMaterialType = KeyMaterialType.SYMMETRIC ∧
      ∀ s pt ad ct, (L.aead.view p).encrypt s pt ad = .ok ct → (L.aead.view p).decrypt ct ad = .ok pt := by
  obtain ⟨cc, found, hc⟩ := hc
  obtain ⟨kd, a, new, made, hfk, hu, hm, correct⟩ := hc seed
  have hmem : .ok t ∈ templates .aead := by rw [← ht]; simp [templates]
  obtain ⟨t', h0, hft, hk, h1, h2, _⟩ := C64_templates .aead _ hmem
  cases h0
  obtain ⟨g1, g2⟩ := registry_makes (registryOf_registered hl .aead) hk h1 h2 hft (.aead found new made) hfk hu
  refine ⟨kd, _, g1, g2, hu, hm, fun s pt ad ct h => ?_⟩
  rw [L.aead.view_inj] at h ⊢
  have := reported_ok.1 ((C65_primitives.1 a s pt ad).symm.trans h)
  exact (C65_primitives.2.1 ..).trans (reported_ok.2 (correct _ _ _ _ this))

omit [DecidableEq C] in
theorem gcpEncrypt_ok {c : Gcp.ApiClient κ} {name : PyStr} {s s' : κ} {k ed : Bytes}
    (h : (Gcp.gcpKmsAead c name).encrypt s k [] = (s', .ok ed)) : c.encrypt s name k [] = (s', .ok ed) := by
  unfold Gcp.gcpKmsAead at h
  cases hc : c.encrypt s name k [] with
  | mk s1 x =>
    simp only [hc] at h
    cases x with
    | ok b => exact h
    | error e =>
      have := congrArg Prod.snd h
      simp only [Gcp.convertApiError] at this
      split at this <;> cases this

omit [DecidableEq C] in
theorem gcpDecrypt_ok {c : Gcp.ApiClient κ} {name : PyStr} {s : κ} {k ed : Bytes}
    (h : (c.decrypt s name ed []).2 = .ok k) : ((Gcp.gcpKmsAead c name).decrypt s ed []).2 = .ok k := by
  unfold Gcp.gcpKmsAead
  cases hc : c.decrypt s name ed [] with
  | mk s1 x =>
    rw [hc] at h
    cases h
    simp only [hc]
    rfl

/-- An envelope made in another process opens what this one has closed. -/
theorem envelope_opens (hl : LawfulConfig L isInst) {t : KeyTemplate} (ht : Templates.AES256_GCM = .ok t)
    (hc : SoundAead L t) {api : PyStr → Py (Gcp.ApiClient κ)} {seed seed' sd se : Seed}
    {uri credentials : PyStr} {env : KmsEnvelopeAead κ}
    (he : EnvelopeFor L isInst api seed uri credentials env) {s s' : κ}
    (server : ∀ c, api credentials = .ok c → Serving c s s') {pt ad ct : Bytes}
    (h : (env.encrypt L.aead (L.cls .aead) (registryOf isInst (registerAead L)) s sd se pt ad).2 = .ok ct) :
    EnvelopeFor L isInst api seed' uri credentials env ∧
    (∀ env', EnvelopeFor L isInst api seed' uri credentials env' → env' = env) ∧
    (env.decrypt L.aead (L.cls .aead) (registryOf isInst (registerAead L)) s' ct ad).2 = .ok pt := by
  obtain ⟨c, name, kd, h1, h2, h3, h4, h5, h6⟩ := he
  rw [ht] at h5
  have h5' : t = env.keyTemplate := by cases h5; rfl
  refine ⟨?_, ?_, ?_⟩
  · obtain ⟨kd', _, g1, _⟩ := sound_keys (isInst := isInst) hl ht hc seed'
    exact ⟨c, name, kd', h1, h2, h3, h4, by rw [ht, h5'], by rw [← h5']; exact g1⟩
  · rintro env' ⟨c', name', kd', g1, _, g3, g4, g5, _⟩
    rw [h3] at g3; cases g3
    rw [h1] at g1
    cases List.append_cancel_left g1
    rw [ht] at g5; cases g5
    obtain ⟨t', r'⟩ := env'
    obtain ⟨t'', r''⟩ := env
    cases h4; cases g4; cases h5'
    rfl
  · have hx : env.encrypt L.aead (L.cls .aead) (registryOf isInst (registerAead L)) s sd se pt ad =
        (_, .ok ct) := Prod.ext rfl h
    obtain ⟨kd', p, g1, g2, g3, g4, g5⟩ := sound_keys (isInst := isInst) hl ht hc sd
    subst h5'
    refine C31_round_trip hx (s2 := s') ?_ ?_ ?_
    · intro k ed hk
      rw [h4] at hk ⊢
      exact gcpDecrypt_ok (server c h3 _ _ _ _ (gcpEncrypt_ok hk))
    · intro dek hdek
      rw [g1] at hdek; cases hdek
      exact ⟨g3, g4⟩
    · intro dek p' x hdek hp hx
      rw [g1] at hdek; cases hdek
      rw [g2] at hp; cases hp
      exact ⟨p, g2, g5 _ _ _ _ hx⟩

/-- C84.  What `envelope_cli.py` has encrypted with status 0 is decrypted by a later run: with the same
key, credentials and associated data, and a server that then decrypts what it has encrypted, it ends
with status 0 and leaves the first input in its output file. -/
theorem C84_envelope_round_trip (hl : LawfulConfig L isInst) {t : KeyTemplate}
    (ht : Templates.AES256_GCM = .ok t) (hc : SoundAead L t) {api : PyStr → Py (Gcp.ApiClient κ)}
    {os os' : Os} (hf : SameFiles os os') {seed sd se seed' sd' se' : Seed} {uri credentials : PyStr}
    {inputPath cipherPath plainPath : Path} {text : Option PyStr} {w w2 : World κ} {pt : Bytes}
    (hin : FileHolds os w.files inputPath pt)
    (h0 : exitStatus (envelopeCli L isInst api os seed sd se ⟨.encrypt, uri, credentials⟩ inputPath cipherPath
      text w) = 0)
    (later : w2.files (os.file cipherPath) = (envelopeCli L isInst api os seed sd se
      ⟨.encrypt, uri, credentials⟩ inputPath cipherPath text w).2.files (os.file cipherPath))
    (server : ∀ c, api credentials = .ok c → Serving c w.kms w2.kms)
    (hr' : os'.readable cipherPath = true)
    (hw : os'.writable plainPath = true) (hs : os'.stored plainPath pt = none) :
    let x := envelopeCli L isInst api os' seed' sd' se' ⟨.decrypt, uri, credentials⟩ cipherPath plainPath text w2
    exitStatus x = 0 ∧ Updated (os'.file plainPath) pt w2.files x.2.files := by
  obtain ⟨ct, ⟨ad, env, i, h1, h2, h3, h4⟩, hu⟩ := ends_zero
    (C84_envelope hl api os seed sd se .encrypt uri credentials inputPath cipherPath text w) h0
  cases fileHolds_unique hin h3
  obtain ⟨g1, g2, g3⟩ := envelope_opens hl ht hc (seed' := seed') h2 server h4
  have hct : FileHolds os' w2.files cipherPath ct := ⟨hr', by rw [hf, later]; exact hu.1⟩
  refine ends_ok (C84_envelope hl api os' seed' sd' se' .decrypt uri credentials cipherPath plainPath text w2)
    ⟨ad, env, ct, h1, g1, hct, g3⟩ ?_ hw hs
  rintro b ⟨ad', env', ct', k1, k2, k3, k4⟩
  cases flagBytes_unique h1 k1
  cases g2 _ k2
  cases fileHolds_unique hct k3
  have k4 : (env.decrypt L.aead (L.cls .aead) (registryOf isInst (registerAead L)) w2.kms ct ad).2 = .ok b := k4
  rw [g3] at k4; cases k4; rfl

/-- C84.  What `gcs_envelope_aead_cli.py` has uploaded with status 0 is downloaded and decrypted by a
later run of it, perhaps on another machine. -/
theorem C84_gcs_round_trip (hl : LawfulConfig L isInst) {t : KeyTemplate}
    (ht : Templates.AES256_GCM = .ok t) (hc : SoundAead L t) {api : PyStr → Py (Gcp.ApiClient κ)}
    {st st' : Storage} {os os' : Os} {seed sd se seed' sd' se' : Seed} {uri credentials : PyStr}
    {inputPath plainPath : Path} {name : PyStr} {w w2 : World κ} {pt : Bytes}
    (hin : FileHolds os w.files inputPath pt)
    (h0 : exitStatus (gcsCli L isInst api st os seed sd se ⟨.encrypt, uri, credentials⟩ inputPath name w) = 0)
    (later : w2.blobs = (gcsCli L isInst api st os seed sd se ⟨.encrypt, uri, credentials⟩ inputPath name w).2.blobs)
    (server : ∀ c, api credentials = .ok c → Serving c w.kms w2.kms)
    (login : st'.login credentials = .ok ()) (download : ∀ bucket object, st'.download bucket object = .ok ())
    (hw : os'.writable plainPath = true) (hs : os'.stored plainPath pt = none) :
    let x := gcsCli L isInst api st' os' seed' sd' se' ⟨.decrypt, uri, credentials⟩ plainPath name w2
    exitStatus x = 0 ∧ Updated (os'.file plainPath) pt w2.files x.2.files := by
  obtain ⟨_, hup⟩ := C84_gcs_encrypt hl api st os seed sd se uri credentials inputPath name w
  rw [h0, ← later] at hup
  cases hup with
  | uploaded h1 h2 h3 =>
    rename_i bucket object ct
    obtain ⟨env, ad, i, k1, k2, k3, k4, k5, k6⟩ := h1
    cases fileHolds_unique hin k5
    obtain ⟨g1, g2, g3⟩ := envelope_opens hl ht hc (seed' := seed') k1 server k6
    refine opens_ok (C84_gcs_decrypt hl api st' os' seed' sd' se' uri credentials plainPath name w2)
      ⟨env, bucket, object, ad, ct, g1, login, k3, k4, download _ _, h3.1⟩
      ⟨env, bucket, object, ad, ct, g1, login, k3, k4, download _ _, h3.1, g3⟩ ?_ hw hs
    rintro b ⟨env', bucket', object', ad', ct', m1, _, m3, m4, _, m6, m7⟩
    cases g2 _ m1
    obtain ⟨rfl, rfl⟩ := gcsName_unique k3 m3
    rw [k4] at m4; cases m4
    rw [h3.1] at m6; cases m6
    rw [g3] at m7; cases m7; rfl

end
end Tink.Props
