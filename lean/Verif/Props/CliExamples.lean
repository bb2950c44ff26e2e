import Verif.Props.CliRoundTrip
import Verif.Examples.ToyConfig

/-!
# C84: the programs on concrete files
-/

namespace Tink.Props
open Spec Cli Config ToyConfig KeysetJsonExample

namespace CliExample

/-- The first character of a path is the file; everything can be read and written. -/
def os : Os where
  file path := path.headD 0
  readable _ := true
  writable _ := true
  stored _ _ := none

theorem working : Working os := ⟨fun _ => rfl, fun _ => rfl, fun _ _ => rfl⟩

/-- The text of a keyset with one key of the toy library. -/
def keysetText (type material : PyStr) : PyStr :=
  py! "{\"primaryKeyId\": 42,\r\n \"key\": [{\"keyData\": {\"typeUrl\": \"type.googleapis.com/google.crypto.tink." ++ type ++
  py! "\", \"value\": \"Bw==\", \"keyMaterialType\": \"" ++ material ++
  py! "\"}, \"status\": \"ENABLED\", \"keyId\": 42, \"outputPrefixType\": \"TINK\"}]}\n"

def bytes (s : PyStr) : Bytes := s.map fun c => UInt8.ofNat c

/-- A keyset at `k`, a public one at `p`, an input at `i`, and something at `o`. -/
def world (priv pub : PyStr) (input : Bytes) : World Nat where
  files f :=
    if f = 107 then some (bytes priv)
    else if f = 112 then some (bytes pub)
    else if f = 105 then some input
    else if f = 111 then some [9, 9]
    else none
  kms := 0
  blobs _ _ := none

abbrev E := jsonEnv true

def aeadWorld : World Nat := world (keysetText (py! "AesGcmKey") (py! "SYMMETRIC")) [] [1, 2, 3]
def sivWorld : World Nat := world (keysetText (py! "AesSivKey") (py! "SYMMETRIC")) [] [1, 2, 3]
def macWorld : World Nat := world (keysetText (py! "HmacKey") (py! "SYMMETRIC")) [] [1, 2, 3]
def hybridWorld : World Nat :=
  world (keysetText (py! "HpkePrivateKey") (py! "ASYMMETRIC_PRIVATE"))
    (keysetText (py! "HpkePublicKey") (py! "ASYMMETRIC_PUBLIC")) [1, 2, 3]
def signatureWorld : World Nat :=
  world (keysetText (py! "Ed25519PrivateKey") (py! "ASYMMETRIC_PRIVATE"))
    (keysetText (py! "Ed25519PublicKey") (py! "ASYMMETRIC_PUBLIC")) [1, 2, 3]

/-- The AEAD program encrypts, and decrypts what it has encrypted. -/
def aeadRun (mode : Mode) (input output : Path) (text : Option PyStr) :=
  aeadCli (κ := Nat) library isInst E os 5 ⟨mode, py! "k", input, output, text⟩

example : exitStatus (aeadRun .encrypt (py! "i") (py! "o") (some (py! "é")) aeadWorld) = 0 ∧
    (aeadRun .encrypt (py! "i") (py! "o") (some (py! "é")) aeadWorld).2.files 111 =
      some [1, 0, 0, 0, 42, 1, 2, 3, 4, 5, 6, 7, 8, 7, 0xC3, 0xA9, 1, 2, 3] := by decide +kernel

/-- So the hypotheses of `C84_aead_round_trip` are met, and the run is what it says. -/
example : exitStatus (aeadRun .decrypt (py! "o") (py! "q") (some (py! "é"))
      (aeadRun .encrypt (py! "i") (py! "o") (some (py! "é")) aeadWorld).2) = 0 ∧
    (aeadRun .decrypt (py! "o") (py! "q") (some (py! "é"))
      (aeadRun .encrypt (py! "i") (py! "o") (some (py! "é")) aeadWorld).2).2.files 113 = some [1, 2, 3] := by
  decide +kernel

/-- With other associated data it fails, and leaves its output file alone. -/
example : exitStatus (aeadRun .decrypt (py! "o") (py! "p") (some (py! "x"))
      (aeadRun .encrypt (py! "i") (py! "o") (some (py! "é")) aeadWorld).2) = 1 ∧
    (aeadRun .decrypt (py! "o") (py! "p") (some (py! "x"))
      (aeadRun .encrypt (py! "i") (py! "o") (some (py! "é")) aeadWorld).2).2.files 112 = some [] := by
  decide +kernel

def daeadRun (mode : Mode) (input output : Path) :=
  daeadCli (κ := Nat) library isInst E os ⟨mode, py! "k", input, output, none⟩

example : exitStatus (daeadRun .encrypt (py! "i") (py! "o") sivWorld) = 0 ∧
    exitStatus (daeadRun .decrypt (py! "o") (py! "q") (daeadRun .encrypt (py! "i") (py! "o") sivWorld).2) = 0 ∧
    (daeadRun .decrypt (py! "o") (py! "q") (daeadRun .encrypt (py! "i") (py! "o") sivWorld).2).2.files 113 =
      some [1, 2, 3] := by
  decide +kernel

def macRun (mode : CheckMode) (code : Path) :=
  macCli (κ := Nat) library isInst E os ⟨mode, py! "k", py! "i", code⟩

example : exitStatus (macRun .make (py! "o") macWorld) = 0 ∧
    (macRun .make (py! "o") macWorld).2.files 111 = some (bytes (py! "010000002a010203040506070807010203")) ∧
    exitStatus (macRun .verify (py! "o") (macRun .make (py! "o") macWorld).2) = 0 ∧
    exitStatus (macRun .verify (py! "k") macWorld) = 1 := by
  decide +kernel

/-- Digits of the other case, and white space. -/
example : exitStatus (macRun .verify (py! "o") (macWorld.put 111
    (bytes (py! " \n010000002A010203040506070807010203\r\n")))) = 0 := by decide +kernel

def signatureRun (mode : CheckMode) (keyset code : Path) :=
  signatureCli (κ := Nat) library isInst E os 5 ⟨mode, keyset, py! "i", code⟩

example : exitStatus (signatureRun .make (py! "k") (py! "o") signatureWorld) = 0 ∧
    exitStatus (signatureRun .verify (py! "p") (py! "o")
      (signatureRun .make (py! "k") (py! "o") signatureWorld).2) = 0 ∧
    exitStatus (signatureRun .verify (py! "p") (py! "o") signatureWorld) = 1 := by
  decide +kernel

def hybridRun (mode : Mode) (keyset input output : Path) :=
  hybridCli (κ := Nat) library isInst E os 5 ⟨mode, keyset, input, output, none⟩

example : exitStatus (hybridRun .encrypt (py! "p") (py! "i") (py! "o") hybridWorld) = 0 ∧
    exitStatus (hybridRun .decrypt (py! "k") (py! "o") (py! "q")
      (hybridRun .encrypt (py! "p") (py! "i") (py! "o") hybridWorld).2) = 0 ∧
    (hybridRun .decrypt (py! "k") (py! "o") (py! "q")
      (hybridRun .encrypt (py! "p") (py! "i") (py! "o") hybridWorld).2).2.files 113 = some [1, 2, 3] := by
  decide +kernel

/-- Generating a keyset, encrypting and decrypting. -/
example {t : KeyTemplate} (ht : Templates.AES128_GCM = .ok t) :=
  C84_generate_encrypt_decrypt (κ := Nat) (E := E) (seed := 7) (seed1 := 5) (seed2 := 6) (d := 42)
    (draws := []) lawful (roomy true) ToyJson.lawful working (by decide) ht (a := ToyConfig.aead [7])
    (if_pos (template_type (aes128Gcm_mem ht))) rfl rfl
    (toy_fits (template_type (aes128Gcm_mem ht)) (by decide)) rfl
    (fun _ pt ad ct h => by cases h; exact ⟨pack_ne_nil _ _ _, unpack_pack ..⟩)
    (keysetPath := py! "n") (inputPath := py! "i") (cipherPath := py! "o") (plainPath := py! "o")
    (w := aeadWorld) (pt := [1, 2, 3]) rfl (by decide) (by decide) rfl

/-- `C84_cleartext_no_path`: there is a keyset and an input file, but the output path was forgotten.  With it
the program succeeds. -/
example : exitStatus (cleartextCli library isInst E os 5 [] ⟨.use .encrypt, py! "k", some (py! "i"), none⟩ aeadWorld) = 1 ∧
    exitStatus (cleartextCli library isInst E os 5 [] ⟨.use .encrypt, py! "k", some (py! "i"), some (py! "o")⟩
      aeadWorld) = 0 :=
  ⟨(C84_cleartext_no_path lawful os 5 [] .encrypt (py! "k") (.inr rfl) aeadWorld).1, by decide +kernel⟩

/-! The hypotheses of the round trips, with every predefined template -/

theorem toy_file {h : KeysetHandle} (hv : Valid h.keyset) : ∃ b, ∀ files path,
    files (os.file path) = some b → KeysetFile E os files path h := by
  obtain ⟨text, hs⟩ := C62_serialize_succeeds E (roomy true) h
  obtain ⟨b, hb, _⟩ := textChar_text (serialize_textChar ToyJson.lawful hs)
  exact ⟨b, fun files path hf => C84_keyset_file ToyJson.lawful hv hs hb ⟨rfl, hf⟩⟩

theorem toy_new {r : Registry ToyConfig.Prim PrimClass} {t : KeyTemplate} {h : KeysetHandle}
    (hg : KeysetHandle.generateNew r 7 [42] t = some (.ok h)) : Valid h.keyset := by
  obtain ⟨_, _, _, _, _, _, hv⟩ := C19_generate_new (by decide) hg
  exact hv

/-- The files at `k`, `p` and `i`. -/
def filesAt (k p i : Bytes) : World Nat where
  files f := if f = 107 then some k else if f = 112 then some p else if f = 105 then some i else none
  kms := 0
  blobs _ _ := none

theorem same : SameFiles os os := fun _ => rfl

example {t : KeyTemplate} (ht : .ok t ∈ templates .aead) (pt : Bytes) : ∃ w,
    w.files 105 = some pt ∧ exitStatus (aeadRun .encrypt (py! "i") (py! "o") none w) = 0 ∧
    (aeadRun .decrypt (py! "o") (py! "q") none (aeadRun .encrypt (py! "i") (py! "o") none w).2).2.files 113 =
      some pt := by
  obtain ⟨h, p, g1, g2, g3⟩ := C66_aead (seed := 7) lawful (registryOf_registered lawful .aead) ht
    (a := ToyConfig.aead [7])
    (if_pos (template_type ht)) rfl rfl (toy_fits (template_type ht) (by decide)) rfl
    (fun _ pt ad ct h => by cases h; exact ⟨pack_ne_nil _ _ _, unpack_pack ..⟩) 42 []
  obtain ⟨b, hb⟩ := toy_file (toy_new g1)
  have hp : PrimitiveOf library isInst E os (filesAt b [] pt).files (registerAead library) (py! "k") .aead p :=
    ⟨h, hb _ _ rfl, g2⟩
  have hi : FileHolds os (filesAt b [] pt).files (py! "i") pt := ⟨rfl, rfl⟩
  obtain ⟨ct, hct⟩ := (g3 5 pt []).1 _ rfl
  have h0 : exitStatus (aeadRun .encrypt (py! "i") (py! "o") none (filesAt b [] pt)) = 0 :=
    (ends_ok (C84_aead lawful os 5 ⟨.encrypt, py! "k", py! "i", py! "o", none⟩ _) ⟨p, [], pt, hp, rfl, hi, hct⟩ (by
      rintro o ⟨p', ad', i', k1, k2, k3, k4⟩
      cases primitiveOf_unique hp k1
      cases flagBytes_unique (text := none) (b := []) rfl k2
      cases fileHolds_unique hi k3
      have k4 : (library.aead.view p).encrypt 5 pt [] = .ok o := k4
      rw [hct] at k4; cases k4; rfl) rfl rfl).1
  exact ⟨_, rfl, h0, (C84_aead_round_trip lawful same hi h0 (by decide) (fun p' ad ct k1 k2 => by
    cases primitiveOf_unique hp k1
    exact (g3 5 pt ad).2 ct k2) rfl rfl rfl rfl).2.1⟩

example {t : KeyTemplate} (ht : .ok t ∈ templates .daead) (pt : Bytes) : ∃ w,
    w.files 105 = some pt ∧ exitStatus (daeadRun .encrypt (py! "i") (py! "o") w) = 0 ∧
    (daeadRun .decrypt (py! "o") (py! "q") (daeadRun .encrypt (py! "i") (py! "o") w).2).2.files 113 =
      some pt := by
  obtain ⟨h, p, g1, g2, g3⟩ := C66_daead (seed := 7) lawful (registryOf_registered lawful .daead) ht
    (a := ToyConfig.daead [7])
    (if_pos (template_type ht)) rfl rfl (toy_fits (template_type ht) (by decide)) rfl
    (fun pt ad ct h => by cases h; exact ⟨pack_ne_nil _ _ _, unpack_pack ..⟩) 42 []
  obtain ⟨b, hb⟩ := toy_file (toy_new g1)
  have hp : PrimitiveOf library isInst E os (filesAt b [] pt).files (registerDaead library) (py! "k") .daead p :=
    ⟨h, hb _ _ rfl, g2⟩
  have hi : FileHolds os (filesAt b [] pt).files (py! "i") pt := ⟨rfl, rfl⟩
  obtain ⟨ct, hct⟩ := (g3 pt []).1 _ rfl
  have h0 : exitStatus (daeadRun .encrypt (py! "i") (py! "o") (filesAt b [] pt)) = 0 :=
    (ends_ok (C84_daead lawful os ⟨.encrypt, py! "k", py! "i", py! "o", none⟩ _) ⟨p, [], pt, hp, rfl, hi, hct⟩ (by
      rintro o ⟨p', ad', i', k1, k2, k3, k4⟩
      cases primitiveOf_unique hp k1
      cases flagBytes_unique (text := none) (b := []) rfl k2
      cases fileHolds_unique hi k3
      have k4 : (library.daead.view p).encryptDeterministically pt [] = .ok o := k4
      rw [hct] at k4; cases k4; rfl) rfl rfl).1
  exact ⟨_, rfl, h0, (C84_daead_round_trip lawful same hi h0 (by decide) (fun p' ad ct k1 k2 => by
    cases primitiveOf_unique hp k1
    exact (g3 pt ad).2 ct k2) rfl rfl rfl rfl).2.1⟩

example {t : KeyTemplate} (ht : .ok t ∈ templates .mac) (data : Bytes) : ∃ w,
    w.files 105 = some data ∧ exitStatus (macRun .make (py! "o") w) = 0 ∧
    exitStatus (macRun .verify (py! "o") (macRun .make (py! "o") w).2) = 0 := by
  obtain ⟨h, p, g1, g2, g3⟩ := C66_mac (seed := 7) lawful (registryOf_registered lawful .mac) ht
    (a := ToyConfig.mac [7])
    (if_pos (template_type ht)) rfl rfl (toy_fits (template_type ht) (by decide)) rfl
    (fun data tag h => by cases h; exact ⟨pack_length .., check_pack ..⟩) 42 []
  obtain ⟨b, hb⟩ := toy_file (toy_new g1)
  have hp : PrimitiveOf library isInst E os (filesAt b [] data).files (registerMac library) (py! "k") .mac p :=
    ⟨h, hb _ _ rfl, g2⟩
  have hi : FileHolds os (filesAt b [] data).files (py! "i") data := ⟨rfl, rfl⟩
  obtain ⟨tag, htag⟩ := (g3 data).1 _ rfl
  have h0 : exitStatus (macRun .make (py! "o") (filesAt b [] data)) = 0 :=
    (ends_ok (C84_mac_compute lawful os _ _ _ _) ⟨p, data, tag, hp, hi, htag, hexlify_lower tag⟩ (by
      rintro o ⟨p', i', tag', k1, k3, k4, k5⟩
      cases primitiveOf_unique hp k1
      cases fileHolds_unique hi k3
      rw [htag] at k4; cases k4
      exact lowerHex_eq k5) rfl rfl).1
  exact ⟨_, rfl, h0, C84_mac_round_trip lawful same h0 (by decide) (by decide) (fun p' data tag k1 k2 => by
    cases primitiveOf_unique hp k1
    exact (g3 data).2 tag k2) rfl rfl rfl⟩

example {t : KeyTemplate} (ht : .ok t ∈ templates .signature) (data : Bytes) : ∃ w,
    w.files 105 = some data ∧ exitStatus (signatureRun .make (py! "k") (py! "o") w) = 0 ∧
    exitStatus (signatureRun .verify (py! "p") (py! "o") (signatureRun .make (py! "k") (py! "o") w).2) = 0 := by
  obtain ⟨h, p, h', p', g1, g2, g3, g4, g5⟩ := C66_signature (seed := 7) lawful
    (registryOf_registered lawful .signature) ht (a := ToyConfig.sign [7])
    (if_pos (template_type ht)) rfl rfl (toy_fits (template_type ht) (by decide)) rfl rfl rfl rfl
    (toy_fits ((public_type _ (mem_packages _) _ (template_type ht)).1 rfl) (by decide))
    ((public_type _ (mem_packages _) _ (template_type ht)).1 rfl)
    (v := ToyConfig.verify [7])
    (if_pos ((public_type _ (mem_packages _) _ (template_type ht)).1 rfl)) rfl
    (fun s data sig h => by cases h; exact ⟨pack_length .., check_pack ..⟩) 42 []
  obtain ⟨b, hb⟩ := toy_file (toy_new g1)
  obtain ⟨_, _, _, _, hv⟩ := C27_public_keyset g3
  obtain ⟨b', hb'⟩ := toy_file hv
  have hp : PrimitiveOf library isInst E os (filesAt b b' data).files (registerSignature library)
    (py! "k") .sign p := ⟨h, hb _ _ rfl, g2⟩
  have hp' : PrimitiveOf library isInst E os (filesAt b b' data).files (registerSignature library)
    (py! "p") .verify p' := ⟨h', hb' _ _ rfl, g4⟩
  have hi : FileHolds os (filesAt b b' data).files (py! "i") data := ⟨rfl, rfl⟩
  obtain ⟨sig, hsig⟩ := (g5 5 data).1 _ rfl
  have h0 : exitStatus (signatureRun .make (py! "k") (py! "o") (filesAt b b' data)) = 0 :=
    (ends_ok (C84_signature_sign lawful os 5 _ _ _ _) ⟨p, data, sig, hp, hi, hsig, hexlify_lower sig⟩ (by
      rintro o ⟨p', i', tag', k1, k3, k4, k5⟩
      cases primitiveOf_unique hp k1
      cases fileHolds_unique hi k3
      rw [hsig] at k4; cases k4
      exact lowerHex_eq k5) rfl rfl).1
  exact ⟨_, rfl, h0, C84_signature_round_trip lawful same h0 (by decide) (by decide) hp'
    (fun p' data sig k1 k2 => by
      cases primitiveOf_unique hp k1
      exact (g5 5 data).2 sig k2) rfl rfl rfl⟩

example {t : KeyTemplate} (ht : .ok t ∈ templates .hybrid) (pt : Bytes) : ∃ w,
    w.files 105 = some pt ∧ exitStatus (hybridRun .encrypt (py! "p") (py! "i") (py! "o") w) = 0 ∧
    (hybridRun .decrypt (py! "k") (py! "o") (py! "q")
      (hybridRun .encrypt (py! "p") (py! "i") (py! "o") w).2).2.files 113 = some pt := by
  obtain ⟨h, p, h', p', g1, g2, g3, g4, g5⟩ := C66_hybrid (seed := 7) lawful
    (registryOf_registered lawful .hybrid) ht (a := ToyConfig.hybridDecrypt [7])
    (if_pos (template_type ht)) rfl rfl (toy_fits (template_type ht) (by decide)) rfl rfl rfl rfl
    (toy_fits ((public_type _ (mem_packages _) _ (template_type ht)).2 rfl) (by decide))
    ((public_type _ (mem_packages _) _ (template_type ht)).2 rfl)
    (v := ToyConfig.hybridEncrypt [7])
    (if_pos ((public_type _ (mem_packages _) _ (template_type ht)).2 rfl)) rfl
    (fun s pt info ct h => by cases h; exact ⟨pack_ne_nil _ _ _, unpack_pack ..⟩) 42 []
  obtain ⟨b, hb⟩ := toy_file (toy_new g1)
  obtain ⟨_, _, _, _, hv⟩ := C27_public_keyset g3
  obtain ⟨b', hb'⟩ := toy_file hv
  have hp : PrimitiveOf library isInst E os (filesAt b b' pt).files (registerHybrid library)
    (py! "k") .hybridDecrypt p := ⟨h, hb _ _ rfl, g2⟩
  have hp' : PrimitiveOf library isInst E os (filesAt b b' pt).files (registerHybrid library)
    (py! "p") .hybridEncrypt p' := ⟨h', hb' _ _ rfl, g4⟩
  have hi : FileHolds os (filesAt b b' pt).files (py! "i") pt := ⟨rfl, rfl⟩
  obtain ⟨ct, hct⟩ := (g5 5 pt []).1 _ rfl
  have h0 : exitStatus (hybridRun .encrypt (py! "p") (py! "i") (py! "o") (filesAt b b' pt)) = 0 :=
    (opens_ok (C84_hybrid_encrypt lawful os 5 (py! "p") (py! "i") (py! "o") none _) ⟨p', [], pt, hp', rfl, hi⟩
      ⟨p', [], pt, hp', rfl, hi, hct⟩ (by
      rintro o ⟨p', ad', i', k1, k2, k3, k4⟩
      cases primitiveOf_unique hp' k1
      cases flagBytes_unique (text := none) (b := []) rfl k2
      cases fileHolds_unique hi k3
      rw [hct] at k4; cases k4; rfl) rfl rfl).1
  exact ⟨_, rfl, h0, (C84_hybrid_round_trip lawful same hi h0 (by decide) hp (fun p' ad ct k1 k2 => by
    cases primitiveOf_unique hp' k1
    exact (g5 5 pt ad).2 ct k2) rfl rfl rfl rfl).2.1⟩

/-! Envelope encryption -/

/-- A server that reverses the bytes, and writes the name of the key before them; it counts. -/
def api : PyStr → Py (Gcp.ApiClient Nat) := fun path =>
  if path = py! "credentials.json" then .ok
    { encrypt := fun n name pt _ => (n + 1, .ok (bytes name ++ pt.reverse))
      decrypt := fun n name ct _ => (n + 1, .ok (ct.drop (bytes name).length).reverse)
      isApiError := fun _ => true }
  else .error .osError

def storage : Storage := ⟨fun _ => .ok (), fun _ _ => .ok (), fun _ _ => .ok ()⟩

def kek : PyStr := py! "gcp-kms://projects/a/locations/l/keyRings/r/cryptoKeys/k"

def envelopeRun (mode : Mode) (input output : Path) :=
  envelopeCli library isInst api os 1 2 3 ⟨mode, kek, py! "credentials.json"⟩ input output (some (py! "ad"))

def gcsRun (mode : Mode) (path : Path) (name : PyStr) :=
  gcsCli library isInst api storage os 1 2 3 ⟨mode, kek, py! "credentials.json"⟩ path name

theorem serving (c : Gcp.ApiClient Nat) (h : api (py! "credentials.json") = .ok c) (s s' : Nat) :
    Serving c s s' := by
  cases h
  intro name key s1 ct hc
  cases hc
  simp

theorem toy_sound {t : KeyTemplate} (ht : Templates.AES256_GCM = .ok t) : SoundAead library t := by
  have hm : .ok t ∈ templates .aead := by rw [← ht]; simp [templates]
  refine ⟨_, if_pos (template_type hm), fun seed => ⟨_, _, rfl, rfl, ?_, rfl, rfl, ?_⟩⟩
  · have hu : Templates.AES256_GCM.map (·.typeUrl) =
        .ok (ps! "type.googleapis.com/google.crypto.tink.AesGcmKey") := by decide +kernel
    rw [ht] at hu
    have hu : t.typeUrl = _ := Except.ok.inj hu
    have hall : ∀ b : Fin 256, Except.isOk (KeyData.serializeToString
        ⟨ps! "type.googleapis.com/google.crypto.tink.AesGcmKey", [UInt8.ofNat b.val],
          KeyMaterialType.SYMMETRIC⟩) = true := by decide +kernel
    have h := hall ⟨seed % 256, Nat.mod_lt _ (by decide)⟩
    have hs : UInt8.ofNat (seed % 256) = UInt8.ofNat seed := by
      apply UInt8.toNat_inj.mp; simp
    simp only [hs] at h
    rw [hu]
    unfold Fits
    cases hk : KeyData.serializeToString
      ⟨ps! "type.googleapis.com/google.crypto.tink.AesGcmKey", [UInt8.ofNat seed], KeyMaterialType.SYMMETRIC⟩ with
    | ok b => exact ⟨b, rfl⟩
    | error e => rw [hk] at h; cases h
  · intro s pt ad ct h
    cases h; exact unpack_pack ..

theorem envelope_zero : exitStatus (envelopeRun .encrypt (py! "i") (py! "o") aeadWorld) = 0 ∧
    exitStatus (gcsRun .encrypt (py! "i") (py! "gs://bucket/some/object") aeadWorld) = 0 := by decide +kernel

example {t : KeyTemplate} (ht : Templates.AES256_GCM = .ok t) :=
  C84_envelope_round_trip (seed' := 4) (sd' := 5) (se' := 6) (plainPath := py! "q") lawful ht (toy_sound ht)
    same (pt := [1, 2, 3]) ⟨rfl, rfl⟩ envelope_zero.1 rfl (fun c hc => serving c hc _ _) rfl rfl rfl

example {t : KeyTemplate} (ht : Templates.AES256_GCM = .ok t) :=
  C84_gcs_round_trip (seed' := 4) (sd' := 5) (se' := 6) (plainPath := py! "q") (st' := storage) (os' := os)
    (w2 := (gcsRun .encrypt (py! "i") (py! "gs://bucket/some/object") aeadWorld).2) lawful ht (toy_sound ht)
    (pt := [1, 2, 3]) ⟨rfl, rfl⟩ envelope_zero.2 rfl (fun c hc => serving c hc _ _) rfl (fun _ _ => rfl) rfl rfl

end CliExample

open CliExample

/-- C84.  A program that fails need not leave its output file as it was: `hybrid_cli.py`, asked to
decrypt something that is no ciphertext, ends with status 1 and has emptied it. -/
theorem C84_hybrid_empties :
    ∃ (w : World Nat) (fl : Flags), fl.mode = .decrypt ∧ Working os ∧ w.files (os.file fl.outputPath) = some [9, 9] ∧
      exitStatus (hybridCli library isInst E os 5 fl w) = 1 ∧
      (hybridCli library isInst E os 5 fl w).2.files (os.file fl.outputPath) = some [] :=
  ⟨hybridWorld, ⟨.decrypt, py! "k", py! "i", py! "o", none⟩, rfl, working, by decide +kernel⟩

/-- C84.  So does `gcs_envelope_aead_cli.py`, if the object is no ciphertext. -/
theorem C84_gcs_empties :
    ∃ w : World Nat, Working os ∧ w.files (os.file (py! "o")) = some [9, 9] ∧
      exitStatus (gcsRun .decrypt (py! "o") (py! "gs://bucket/object") w) = 1 ∧
      (gcsRun .decrypt (py! "o") (py! "gs://bucket/object") w).2.files (os.file (py! "o")) = some [] :=
  ⟨{ aeadWorld with blobs := fun _ _ => some [1, 2, 3] }, working, by decide +kernel⟩

end Tink.Props
