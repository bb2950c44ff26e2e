import Verif.Props.CliStreaming
import Verif.Props.CliExamples
import Verif.Props.StreamingKeysExamples
import Verif.Props.WritingExamples
import Verif.Examples.ToyFileConfig

/-!
# C87: the program that encrypts large files, on concrete files
-/

namespace Tink.Props
open Spec Cli Config Io KeysetJsonExample

namespace CliStreamingExample
open CliExample (os E toy_file)

abbrev lib := ToySegments.lib
abbrev isInst := ToyFileConfig.isInst
abbrev L := ToyFileConfig.library lib

/-- Nothing fails. -/
def good : Disk := ⟨fun _ => false, fun _ => false⟩
/-- The second read of the input file fails. -/
def badInput : Disk := ⟨fun n => n == 1, fun _ => false⟩

theorem good_reads : Disk.Reads good := fun _ => rfl
theorem good_writes : Disk.Writes good := fun _ => rfl

/-- A keyset at `k`, an input at `i`. -/
def world (keyset input : Bytes) : World Nat where
  files f := if f = 107 then some keyset else if f = 105 then some input else none
  kms := 0
  blobs _ _ := none

/-- A new keyset and its file, for each template. -/
theorem new_file {t : KeyTemplate} (ht : .ok t ∈ templates .streamingAead) : ∃ h b,
    KeysetHandle.generateNew (registryOf isInst (registerStreamingAead L)) 3 [77] t = some (.ok h) ∧
    ∀ input, KeysetFile E os (world b input).files (py! "k") h := by
  obtain ⟨h, p, h1, -⟩ := C66_streaming_aead (text := fun _ => false) (inBuffer := [0, 0, 0, 0, 0])
    (ToyFileConfig.lawful lib) (registryOf_registered (ToyFileConfig.lawful lib) .streamingAead) ht ToySegments.lawful
    rfl (by simp) (fun _ => rfl) 3 77 []
  obtain ⟨_, _, _, _, _, _, hv⟩ := C19_generate_new (by decide) h1
  obtain ⟨b, hb⟩ := toy_file hv
  exact ⟨h, b, h1, fun input => hb _ _ rfl⟩

def encrypt (disk : Disk) (input output : Path) (w : World Nat) (x : Py Exit × World Nat) : Prop :=
  streamingCli L isInst E os disk 5 [0, 0, 0] ⟨.encrypt, py! "k", input, output, some (py! "é")⟩ w x

def decrypt (disk : Disk) (input output : Path) (w : World Nat) (x : Py Exit × World Nat) : Prop :=
  streamingCli L isInst E os disk 6 [0, 0, 0] ⟨.decrypt, py! "k", input, output, some (py! "é")⟩ w x

/-- `C87_new_keyset`: for each template, the hypotheses hold. -/
example {t : KeyTemplate} (ht : .ok t ∈ templates .streamingAead) (pt : Bytes) (hlen : pt.length ≤ 2 ^ 43) :
    ∃ w x1 x2, w.files 105 = some pt ∧ encrypt good (py! "i") (py! "o") w x1 ∧
      decrypt good (py! "o") (py! "q") x1.2 x2 ∧ exitStatus x2 = 0 ∧ x2.2.files 113 = some pt := by
  obtain ⟨h, b, h1, h2⟩ := new_file ht
  obtain ⟨⟨x1, hx1⟩, hall⟩ := C87_new_keyset (disk1 := good) (disk2 := good) (seed1 := 5) (seed2 := 6)
    (buffer1 := [0, 0, 0]) (buffer2 := [0, 0, 0]) (cipherPath := py! "o") (plainPath := py! "q")
    (flag := some (py! "é")) (ad := [0xC3, 0xA9]) (inputPath := py! "i") (pt := pt)
    (ToyFileConfig.setup lib) ToySegments.lawful WritingExamples.working CliExample.working ht h1 (h2 pt) rfl rfl hlen
    (by decide) (by decide) (by decide) (by simp) good_reads good_writes good_reads good_writes
  obtain ⟨-, ⟨x2, hx2⟩, hall2⟩ := hall x1 hx1
  exact ⟨_, x1, x2, rfl, hx1, hx2, (hall2 x2 hx2).1, (hall2 x2 hx2).2.1⟩

/-- What the program needs is there. -/
theorem ready {t : KeyTemplate} (ht : .ok t ∈ templates .streamingAead) (output : Path) (input : Bytes) :
    ∃ (h : KeysetHandle) (w : World Nat), w.files 105 = some input ∧ FitsKeys h ∧
    Ready L isInst E os w.files ⟨.encrypt, py! "k", py! "i", output, some (py! "é")⟩ h [0xC3, 0xA9]
      (if os.file (py! "i") = os.file output then [] else input) ∧
    PrimaryEncrypts L isInst (fun _ => false) [0, 0, 0, 0, 0] h (2 ^ 43) := by
  obtain ⟨h, b, h1, h2⟩ := new_file ht
  obtain ⟨hfit, hprim, henc, -⟩ := new_keyset_key (ToyFileConfig.setup lib) ToySegments.lawful WritingExamples.working
    ht h1
  exact ⟨h, world b input, rfl, hfit, ⟨rfl, h2 input, hprim, rfl, input, ⟨rfl, rfl⟩, rfl⟩, henc⟩

/-- `C87_encrypts`, `C87_encrypt` and `C87_round_trip`. -/
example {t : KeyTemplate} (ht : .ok t ∈ templates .streamingAead) : ∃ w x c h,
    w.files 105 = some [1, 2, 3] ∧ encrypt good (py! "i") (py! "o") w x ∧ exitStatus x = 0 ∧
    x.2.files 111 = some c ∧ PrimaryDecrypts L isInst h [0xC3, 0xA9] c [1, 2, 3] := by
  obtain ⟨h, w, h1, hfit, H, henc⟩ := ready ht (py! "o") [1, 2, 3]
  obtain ⟨⟨x, hx⟩, hall⟩ := C87_encrypts (disk := good) (seed := 5) (outBuffer := [0, 0, 0]) (ToyFileConfig.setup lib)
    ToySegments.lawful H hfit rfl henc (by decide) good_reads good_writes (by simp)
  obtain ⟨c, hc, hd⟩ := hall x hx
  exact ⟨w, x, c, h, h1, hx, hc.status, hc.files.1, hd⟩

/-- `C87_input_fails`: the input has one block and one more byte, and the second read fails.  What is left
decrypts to the first block. -/
example {t : KeyTemplate} (ht : .ok t ∈ templates .streamingAead) : ∃ w x c h,
    w.files 105 = some (List.replicate (blockSize + 1) 7) ∧ encrypt badInput (py! "i") (py! "o") w x ∧
    exitStatus x = 1 ∧ x.2.files 111 = some c ∧
    PrimaryDecrypts L isInst h [0xC3, 0xA9] c (List.replicate blockSize 7) := by
  obtain ⟨h, w, h1, hfit, H, henc⟩ := ready ht (py! "o") (List.replicate (blockSize + 1) 7)
  rw [if_neg (by decide)] at H
  obtain ⟨⟨x, hx⟩, hall⟩ := C87_input_fails (disk := badInput) (seed := 5) (outBuffer := [0, 0, 0]) (i := 1)
    (ToyFileConfig.setup lib) ToySegments.lawful H hfit rfl henc (by rw [List.length_replicate]; decide)
    (fun _ => rfl) (by simp) rfl (fun j hj => by rw [Nat.lt_one_iff.1 hj]; rfl)
    (by rw [List.length_replicate]; have := blockSize_pos; omega)
  obtain ⟨c, hc, hd⟩ := hall x hx
  refine ⟨w, x, c, h, h1, hx, hc.status, hc.files.1, ?_⟩
  rw [List.take_replicate, Nat.one_mul, Nat.min_eq_left (Nat.le_succ _)] at hd
  exact hd

/-- `C87_same_file`. -/
example {t : KeyTemplate} (ht : .ok t ∈ templates .streamingAead) : ∃ w x c h,
    w.files 105 = some [1, 2, 3] ∧ encrypt good (py! "i") (py! "i") w x ∧ exitStatus x = 0 ∧
    x.2.files 105 = some c ∧ PrimaryDecrypts L isInst h [0xC3, 0xA9] c [] := by
  obtain ⟨h, w, h1, hfit, H, henc⟩ := ready ht (py! "i") [1, 2, 3]
  rw [if_pos rfl] at H
  obtain ⟨⟨x, hx⟩, hall⟩ := C87_encrypts (disk := good) (seed := 5) (outBuffer := [0, 0, 0]) (ToyFileConfig.setup lib)
    ToySegments.lawful H hfit rfl henc (by decide) good_reads good_writes (by simp)
  obtain ⟨c, hc, -⟩ := hall x hx
  obtain ⟨h', ad, c', g1, g2, g3, g4⟩ := C87_same_file (ToyFileConfig.setup lib) ToySegments.lawful
    (fun h' hk => by cases keysetFile_unique H.keyset hk; exact hfit) rfl rfl hx hc.status
  cases flagBytes_unique H.flag g2
  exact ⟨w, x, c', h', h1, hx, hc.status, g3, g4⟩

/-- `C87_ends`: for each template, whatever the input file holds, whether or not it is a ciphertext, and
whatever the disk does, there are results of both commands. -/
example {t : KeyTemplate} (ht : .ok t ∈ templates .streamingAead) (input : Bytes) (disk : Disk) : ∃ w x1 x2,
    w.files 105 = some input ∧ decrypt disk (py! "i") (py! "o") w x1 ∧ encrypt disk (py! "i") (py! "o") w x2 := by
  obtain ⟨h, b, h1, h2⟩ := new_file ht
  obtain ⟨hfit, -⟩ := new_keyset_key (ToyFileConfig.setup lib) ToySegments.lawful WritingExamples.working ht h1
  have hf : ∀ h', KeysetFile E os (world b input).files (py! "k") h' → FitsKeys h' := by
    intro h' hk
    cases keysetFile_unique (h2 input) hk
    exact hfit
  obtain ⟨x1, hx1⟩ := (C87_ends (disk := disk) (seed := 6) (outBuffer := [0, 0, 0]) (w := world b input)
    (fl := ⟨.decrypt, py! "k", py! "i", py! "o", some (py! "é")⟩) (ToyFileConfig.setup lib) ToySegments.lawful hf
    (by simp)).1
  obtain ⟨x2, hx2⟩ := (C87_ends (disk := disk) (seed := 5) (outBuffer := [0, 0, 0]) (w := world b input)
    (fl := ⟨.encrypt, py! "k", py! "i", py! "o", some (py! "é")⟩) (ToyFileConfig.setup lib) ToySegments.lawful hf
    (by simp)).1
  exact ⟨_, x1, x2, rfl, hx1, hx2⟩

/-! ## A keyset for which decryption is ideal -/

open StreamingKeysExamples

/-- The key of `gcmParams`. -/
def gcmKey : AesGcmHkdfStreamingKey :=
  { version := 0
    params := some { ciphertextSegmentSize := 48, derivedKeySize := 16, hkdfHashType := HashType.SHA256 }
    keyValue := List.replicate 16 7 }

def gcmKeyData : KeyData :=
  { typeUrl := ps! "type.googleapis.com/google.crypto.tink.AesGcmHkdfStreamingKey"
    value := encodeFields gcmKey.fields
    keyMaterialType := KeyMaterialType.SYMMETRIC }

def idealHandle : KeysetHandle :=
  ⟨⟨42, [⟨some gcmKeyData, KeyStatusType.ENABLED, 42, OutputPrefixType.RAW⟩]⟩⟩

theorem gcmKey_ok : gcmKey.serializeToString = .ok (encodeFields gcmKey.fields) :=
  serializeFields_of_length (by decide +kernel)

theorem gcmKeyData_primitive : (AesGcmHkdfStreamingKeyManager.keyTypeManager ideal).getPrimitive gcmKeyData =
    .ok (ToySegments.gcm ideal) :=
  getPrimitive_iff.2 ⟨rfl, gcmKey, AesGcmHkdfStreamingKey.fromString_serializeToString gcmKey_ok,
    gcm_key_iff.2 ⟨rfl, by decide, ⟨.inr (.inl rfl), .inl rfl, by decide⟩⟩, rfl⟩

abbrev I := ToyFileConfig.library ideal

theorem ideal_gives {k : Key} (hk : k.data = gcmKeyData) {q} (hq : KeyGives I isInst k q) :
    q = (ToySegments.gcm ideal).toRaw (fun _ => false) [0, 0, 0, 0, 0] := by
  obtain ⟨m, hg, hcls, -, htm⟩ := (registryOf_registered (ToyFileConfig.lawful ideal) .streamingAead).managers
    (ps! "type.googleapis.com/google.crypto.tink.AesGcmHkdfStreamingKey") .rawStreamingAead (by decide)
  obtain ⟨o, ho, rfl⟩ := hq
  rw [hk] at ho
  unfold Registry.primitive at ho
  obtain ⟨m', hm, ho⟩ := bind_ok_iff.1 ho
  unfold Registry.keyManager Registry.keyManagerInternal at hm
  rw [show gcmKeyData.typeUrl = ps! "type.googleapis.com/google.crypto.tink.AesGcmHkdfStreamingKey" from rfl,
    show registerStreamingAead I = registerPackage I .streamingAead from rfl, hg] at hm
  cases hm
  split at ho
  · cases ho
  · cases htm with
    | rawStreamingAead found serves =>
      rename_i cc
      rw [serves.primitive _ ⟨_, serializeFields_of_length (by decide +kernel)⟩] at ho
      have : cc = (AesGcmHkdfStreamingKeyManager.keyTypeManager ideal).toKeyManager := by
        rw [show I.ccStreamingAead _ = ccStreamingAead ideal _ from rfl, ccStreamingAead_gcm] at found
        cases found; rfl
      subst this
      rw [show (AesGcmHkdfStreamingKeyManager.keyTypeManager ideal).toKeyManager.getPrimitive gcmKeyData =
        .ok (ToySegments.gcm ideal) from gcmKeyData_primitive] at ho
      cases ho
      rfl

/-- The keyset can be used. -/
example : (idealHandle.primitive isInst (registryOf isInst (registerStreamingAead I)) .streamingAead).toOption.isSome =
    true := by decide +kernel

/-- `C87_decrypt`: the hypotheses hold with this keyset and the associated data `01`, whatever the input file
holds and whatever the disk does.  If the status is 0, the output file holds the message. -/
example : ∃ b : Bytes, ∀ input disk x,
    streamingCli I isInst E os disk 6 [0, 0, 0] ⟨.decrypt, py! "k", py! "i", py! "o", some [1]⟩ (world b input) x →
      (exitStatus x = 1 ∧ x.2 = world b input) ∨
      (exitStatus x = 0 ∧ x.2.files 111 = some [1, 2, 3, 4, 5, 6, 7, 8, 9, 10, 11]) ∨
      exitStatus x = 1 ∧ ∃ c, x.2.files 111 = some c ∧ c <+: [1, 2, 3, 4, 5, 6, 7, 8, 9, 10, 11] := by
  obtain ⟨b, hb⟩ := toy_file (h := idealHandle) ((C20_validate_iff _).1 rfl)
  refine ⟨b, fun input disk x hx => ?_⟩
  have hk : KeysetFile E os (world b input).files (py! "k") idealHandle := hb _ _ rfl
  have hkey : ∀ k ∈ idealHandle.keyset.key, k.data = gcmKeyData := by
    intro k hk
    rw [List.mem_singleton.1 hk]
    rfl
  rcases C87_decrypt (ToyFileConfig.setup ideal)
    (msgs := fun P => ∃ m, msgs m ∧ m.ad = [1] ∧ P = m.segments.flatten) (by
      intro h hh
      cases keysetFile_unique hk hh
      intro k hm
      rw [hkey k hm]
      exact ⟨_, serializeFields_of_length (by decide +kernel)⟩) rfl (by
      intro h ad hh had
      cases keysetFile_unique hk hh
      cases flagBytes_unique (text := some [1]) (b := [1]) rfl had
      rintro k hm - q hq
      rw [ideal_gives (hkey k hm) hq]
      exact ⟨⟨_, rfl⟩, C68_aes_gcm_hkdf ideal_sound (ToySegments.new_gcm ideal)
        (by rintro m (rfl | rfl) <;> simp [m1, m2]) (gcm_ideal 1)⟩) hx with ⟨-, h1, h2⟩ | ⟨c, ⟨h1, h2⟩ | ⟨h1, h2, -⟩⟩
  · exact .inl ⟨h1, h2⟩
  · obtain ⟨m, rfl | rfl, hm, rfl⟩ := h2
    · exact .inr (.inl ⟨h1.status, h1.files.1⟩)
    · exact absurd hm (by decide)
  · refine .inr (.inr ⟨h1.status, c, h1.files.1, ?_⟩)
    rcases h2 with rfl | ⟨p, ⟨m, rfl | rfl, hm, rfl⟩, hp⟩
    · exact List.nil_prefix
    · exact hp
    · exact absurd hm (by decide)

end CliStreamingExample
end Tink.Props
