import Verif.Cli.Steps
import Verif.Props.EndToEnd
import Verif.Props.KeysetJson

/-!
# C84: the example programs

What the programs in `/repo/python/examples` do to the files: which exit status means what, what is in
the output file, and which files stay as they were.
-/

namespace Tink.Props
open Spec Cli Config

/-- What `json_proto_keyset_format.serialize` returns are ASCII characters without carriage returns. -/
theorem serialize_textChar {F : Type} {E : JsonFormatEnv F} (hl : LawfulFloats E.json.floats)
    {h : KeysetHandle} {t : PyStr} (hs : JsonProtoKeysetFormat.serialize E h .secretKeyAccess = .ok t) :
    ∀ x ∈ t, TextChar x := by
  have hs' : getvalue ((jsonKeysetWriter E).write [] h.keyset) = .ok t := hs
  obtain ⟨u, hu, hd⟩ := json_write_ok (getvalue_ok hs')
  cases hu
  exact Json.dumpsIndentDepth_textChar _ hl _ _ _ _ hd

section
variable {σ δ ε τ S P C F κ : Type} [DecidableEq C]
variable {L : Library σ δ ε τ S P C} {isInst : P → C → Bool} {E : JsonFormatEnv F}

/-! ## The programs that write their output last -/

/-- C84.  `aead_cli.py`: if the keyset file gives an AEAD primitive, the flag for the associated data
can be encoded, the input file can be read, and the primitive encrypts or decrypts its contents, then
the result is written to the output file and the status is 0.  Otherwise the status is 1 and no file
changes.  Only if the output file cannot be written completely it is left with a part of the result. -/
theorem C84_aead (hl : LawfulConfig L isInst) (os : Os) (seed : Seed) (fl : Flags) (w : World κ) :
    EndsByWriting os fl.outputPath
      (fun output => ∃ p ad input,
        PrimitiveOf L isInst E os w.files (registerAead L) fl.keysetPath .aead p ∧
        FlagBytes fl.text ad ∧ FileHolds os w.files fl.inputPath input ∧
        crypt fl.mode ((L.aead.view p).encrypt seed) (L.aead.view p).decrypt input ad = .ok output)
      w (aeadCli L isInst E os seed fl w) := by
  refine ends_congr (ends_step (step_flag fl.text _ w) fun ad _ =>
    (congrArg (EndsByWriting _ _ _ w) (registered_ok hl .aead _ w)).mpr
      (ends_step (step_keyset E os fl.keysetPath _ w) fun h _ => ends_step (step_try _ _ w) fun p _ =>
        ends_step (step_read os fl.inputPath _ w) fun i _ => ends_step (step_lift _ _ w) fun o _ =>
          ends_write rfl)) fun o => ?_
  constructor
  · rintro ⟨ad, h1, h, h2, p, h3, i, h4, o', h5, rfl⟩
    refine ⟨p, ad, i, ⟨h, h2, h3⟩, h1, h4, ?_⟩
    rw [← h5]; unfold crypt; cases fl.mode <;> rfl
  · rintro ⟨p, ad, i, ⟨h, h2, h3⟩, h1, h4, h5⟩
    refine ⟨ad, h1, h, h2, p, h3, i, h4, o, ?_, rfl⟩
    rw [← h5]; unfold crypt; cases fl.mode <;> rfl

/-- C84.  The same of `deterministic_aead_cli.py`. -/
theorem C84_daead (hl : LawfulConfig L isInst) (os : Os) (fl : Flags) (w : World κ) :
    EndsByWriting os fl.outputPath
      (fun output => ∃ p ad input,
        PrimitiveOf L isInst E os w.files (registerDaead L) fl.keysetPath .daead p ∧
        FlagBytes fl.text ad ∧ FileHolds os w.files fl.inputPath input ∧
        crypt fl.mode (L.daead.view p).encryptDeterministically
          (L.daead.view p).decryptDeterministically input ad = .ok output)
      w (daeadCli L isInst E os fl w) := by
  refine ends_congr (ends_step (step_flag fl.text _ w) fun ad _ =>
    (congrArg (EndsByWriting _ _ _ w) (registered_ok hl .daead _ w)).mpr
      (ends_step (step_keyset E os fl.keysetPath _ w) fun h _ => ends_step (step_try _ _ w) fun p _ =>
        ends_step (step_read os fl.inputPath _ w) fun i _ => ends_step (step_lift _ _ w) fun o _ =>
          ends_write rfl)) fun o => ?_
  constructor
  · rintro ⟨ad, h1, h, h2, p, h3, i, h4, o', h5, rfl⟩
    refine ⟨p, ad, i, ⟨h, h2, h3⟩, h1, h4, ?_⟩
    rw [← h5]; unfold crypt; cases fl.mode <;> rfl
  · rintro ⟨p, ad, i, ⟨h, h2, h3⟩, h1, h4, h5⟩
    refine ⟨ad, h1, h, h2, p, h3, i, h4, o, ?_, rfl⟩
    rw [← h5]; unfold crypt; cases fl.mode <;> rfl

/-- C84.  The same of `cleartext_keyset_cli.py` in the modes `encrypt` and `decrypt`; the associated
data is fixed. -/
theorem C84_cleartext (hl : LawfulConfig L isInst) (os : Os) (seed : Seed) (draws : List UInt32)
    (mode : Mode) (keysetPath inputPath outputPath : Path) (w : World κ) :
    EndsByWriting os outputPath
      (fun output => ∃ p input,
        PrimitiveOf L isInst E os w.files (registerAead L) keysetPath .aead p ∧
        FileHolds os w.files inputPath input ∧
        crypt mode ((L.aead.view p).encrypt seed) (L.aead.view p).decrypt input
          (by! "envelope_example") = .ok output)
      w (cleartextCli L isInst E os seed draws
        ⟨.use mode, keysetPath, some inputPath, some outputPath⟩ w) := by
  refine ends_congr ((congrArg (EndsByWriting _ _ _ w) (registered_ok hl .aead _ w)).mpr
      (ends_step (step_keyset E os keysetPath _ w) fun h _ => ends_step (step_try _ _ w) fun p _ =>
        ends_step (step_path (some inputPath) _ w) fun ip _ =>
        ends_step (step_read os ip _ w) fun i _ => ends_step (step_lift _ _ w) fun o _ =>
          ends_write rfl)) fun o => ?_
  constructor
  · rintro ⟨h, h2, p, h3, _, hp, i, h4, o', h5, rfl⟩
    cases hp
    refine ⟨p, i, ⟨h, h2, h3⟩, h4, ?_⟩
    rw [← h5]; unfold crypt; cases mode <;> rfl
  · rintro ⟨p, i, ⟨h, h2, h3⟩, h4, h5⟩
    refine ⟨h, h2, p, h3, _, rfl, i, h4, o, ?_, rfl⟩
    rw [← h5]; unfold crypt; cases mode <;> rfl

/-- C84.  Without an input path or without an output path, these modes change no file, and the status is 1. -/
theorem C84_cleartext_no_path (hl : LawfulConfig L isInst) (os : Os) (seed : Seed) (draws : List UInt32)
    (mode : Mode) (keysetPath : Path) {inputPath outputPath : Option Path}
    (hp : inputPath = none ∨ outputPath = none) (w : World κ) :
    let x := cleartextCli L isInst E os seed draws ⟨.use mode, keysetPath, inputPath, outputPath⟩ w
    exitStatus x = 1 ∧ x.2.files = w.files ∧ x.2.blobs = w.blobs := by
  intro x
  have H : ∀ path, EndsByWriting os path (fun _ => False) w x := by
    intro path
    refine ends_congr ((congrArg (EndsByWriting _ _ _ w) (registered_ok hl .aead _ w)).mpr
      (ends_step (step_keyset E os keysetPath _ w) fun h _ => ends_step (step_try _ _ w) fun p _ =>
        ends_step (step_path inputPath _ w) fun ip hi =>
        ends_step (step_read os ip _ w) fun i _ => ends_step (step_lift _ _ w) fun o _ =>
          ends_step (step_path outputPath _ _) (Q := fun _ _ => False) fun op ho => ?_)) fun o => ?_
    · rcases hp with h | h
      · rw [h] at hi; cases hi
      · rw [h] at ho; cases ho
    · constructor
      · rintro ⟨_, _, _, _, _, _, _, _, _, _, _, _, h⟩; exact h
      · exact False.elim
  have h := (H []).files
  have hb := (H []).blobs
  generalize exitStatus x = k, x.2.files = files at h
  cases h with
  | written h1 => exact h1.elim
  | nothing => exact ⟨rfl, rfl, hb⟩
  | notOpened => exact ⟨rfl, rfl, hb⟩
  | cutOff h1 => exact h1.elim

/-- C84.  `mac_cli.py` in the mode `compute` writes the tag of the data in lower case hexadecimal
digits. -/
theorem C84_mac_compute (hl : LawfulConfig L isInst) (os : Os) (keysetPath dataPath codePath : Path)
    (w : World κ) :
    EndsByWriting os codePath
      (fun output => ∃ p data tag,
        PrimitiveOf L isInst E os w.files (registerMac L) keysetPath .mac p ∧
        FileHolds os w.files dataPath data ∧ (L.mac.view p).computeMac data = .ok tag ∧
        LowerHex output tag)
      w (macCli L isInst E os ⟨.make, keysetPath, dataPath, codePath⟩ w) := by
  refine ends_congr ((congrArg (EndsByWriting _ _ _ w) (registered_ok hl .mac _ w)).mpr
      (ends_step (step_keyset E os keysetPath _ w) fun h _ => ends_step (step_try _ _ w) fun p _ =>
        ends_step (step_read os dataPath _ w) fun i _ => ends_step (step_lift _ _ w) fun o _ =>
          ends_write rfl)) fun o => ?_
  constructor
  · rintro ⟨h, h2, p, h3, i, h4, o', h5, rfl⟩
    exact ⟨p, i, o', ⟨h, h2, h3⟩, h4, h5, hexlify_lower o'⟩
  · rintro ⟨p, i, o', ⟨h, h2, h3⟩, h4, h5, h6⟩
    exact ⟨h, h2, p, h3, i, h4, o', h5, (lowerHex_eq h6).symm⟩

/-- C84.  `signature_cli.py` in the mode `sign` writes the signature of the data in lower case
hexadecimal digits. -/
theorem C84_signature_sign (hl : LawfulConfig L isInst) (os : Os) (seed : Seed)
    (keysetPath dataPath codePath : Path) (w : World κ) :
    EndsByWriting os codePath
      (fun output => ∃ p data sig,
        PrimitiveOf L isInst E os w.files (registerSignature L) keysetPath .sign p ∧
        FileHolds os w.files dataPath data ∧ (L.sign.view p).sign seed data = .ok sig ∧
        LowerHex output sig)
      w (signatureCli L isInst E os seed ⟨.make, keysetPath, dataPath, codePath⟩ w) := by
  refine ends_congr ((congrArg (EndsByWriting _ _ _ w) (registered_ok hl .signature _ w)).mpr
      (ends_step (step_keyset E os keysetPath _ w) fun h _ =>
        ends_step (step_read os dataPath _ w) fun i _ => ends_step (step_try _ _ w) fun p _ =>
        ends_step (step_lift _ _ w) fun o _ =>
          ends_write rfl)) fun o => ?_
  constructor
  · rintro ⟨h, h2, i, h4, p, h3, o', h5, rfl⟩
    exact ⟨p, i, o', ⟨h, h2, h3⟩, h4, h5, hexlify_lower o'⟩
  · rintro ⟨p, i, o', ⟨h, h2, h3⟩, h4, h5, h6⟩
    exact ⟨h, h2, i, h4, p, h3, o', h5, (lowerHex_eq h6).symm⟩

/-! ## The programs that only check -/

/-- C84.  `mac_cli.py` in the mode `verify` changes nothing.  Its status is 0 if the keyset file gives
a MAC primitive, both files can be read, the file with the code holds hexadecimal digits of either
case, with white space around them, and they stand for a tag that the primitive accepts for the data.
Otherwise its status is 1. -/
theorem C84_mac_verify (hl : LawfulConfig L isInst) (os : Os) (keysetPath dataPath codePath : Path)
    (w : World κ) :
    OnlyChecks (∃ p data text tag,
        PrimitiveOf L isInst E os w.files (registerMac L) keysetPath .mac p ∧
        FileHolds os w.files dataPath data ∧ FileHolds os w.files codePath text ∧ HexText text tag ∧
        (L.mac.view p).verifyMac tag data = .ok ())
      w (macCli L isInst E os ⟨.verify, keysetPath, dataPath, codePath⟩ w) := by
  refine checks_congr ((congrArg (OnlyChecks _ w) (registered_ok hl .mac _ w)).mpr
      (checks_step (step_keyset E os keysetPath _ w) fun h _ => checks_step (step_try _ _ w) fun p _ =>
        checks_step (step_read os dataPath _ w) fun i _ => checks_step (step_code os codePath _ w)
          fun t _ => checks_step (step_try _ _ w) fun _ _ => checks_done rfl)) ?_
  constructor
  · rintro ⟨h, h2, p, h3, i, h4, t, ⟨x, h5, h6⟩, _, h7, _⟩
    exact ⟨p, i, x, t, ⟨h, h2, h3⟩, h4, h5, h6, h7⟩
  · rintro ⟨p, i, x, t, ⟨h, h2, h3⟩, h4, h5, h6, h7⟩
    exact ⟨h, h2, p, h3, i, h4, t, ⟨x, h5, h6⟩, _, h7, trivial⟩

/-- C84.  The same of `signature_cli.py` in the mode `verify`. -/
theorem C84_signature_verify (hl : LawfulConfig L isInst) (os : Os) (seed : Seed)
    (keysetPath dataPath codePath : Path) (w : World κ) :
    OnlyChecks (∃ p data text sig,
        PrimitiveOf L isInst E os w.files (registerSignature L) keysetPath .verify p ∧
        FileHolds os w.files dataPath data ∧ FileHolds os w.files codePath text ∧ HexText text sig ∧
        (L.verify.view p).verify sig data = .ok ())
      w (signatureCli L isInst E os seed ⟨.verify, keysetPath, dataPath, codePath⟩ w) := by
  refine checks_congr ((congrArg (OnlyChecks _ w) (registered_ok hl .signature _ w)).mpr
      (checks_step (step_keyset E os keysetPath _ w) fun h _ =>
        checks_step (step_read os dataPath _ w) fun i _ => checks_step (step_try _ _ w) fun p _ =>
        checks_step (step_code os codePath _ w)
          fun t _ => checks_step (step_try _ _ w) fun _ _ => checks_done rfl)) ?_
  constructor
  · rintro ⟨h, h2, i, h4, p, h3, t, ⟨x, h5, h6⟩, _, h7, _⟩
    exact ⟨p, i, x, t, ⟨h, h2, h3⟩, h4, h5, h6, h7⟩
  · rintro ⟨p, i, x, t, ⟨h, h2, h3⟩, h4, h5, h6, h7⟩
    exact ⟨h, h2, i, h4, p, h3, t, ⟨x, h5, h6⟩, _, h7, trivial⟩

/-! ## The program that opens its output first -/

/-- C84.  `hybrid_cli.py` in the mode `encrypt`: the output file is opened as soon as the keyset has
given a primitive and the input has been read.  If then the encryption fails, the output file is left
empty. -/
theorem C84_hybrid_encrypt (hl : LawfulConfig L isInst) (os : Os) (seed : Seed)
    (keysetPath inputPath outputPath : Path) (text : Option PyStr) (w : World κ) :
    EndsAfterOpening os outputPath
      (∃ p info input, PrimitiveOf L isInst E os w.files (registerHybrid L) keysetPath .hybridEncrypt p ∧
        FlagBytes text info ∧ FileHolds os w.files inputPath input)
      (fun output => ∃ p info input,
        PrimitiveOf L isInst E os w.files (registerHybrid L) keysetPath .hybridEncrypt p ∧
        FlagBytes text info ∧ FileHolds os w.files inputPath input ∧
        (L.hybridEncrypt.view p).encrypt seed input info = .ok output)
      w (hybridCli L isInst E os seed ⟨.encrypt, keysetPath, inputPath, outputPath, text⟩ w) := by
  refine opens_congr (opens_step (step_flag text _ w) fun ad _ =>
    (congrArg (EndsAfterOpening _ _ _ _ w) (registered_ok hl .hybrid _ w)).mpr
      (opens_step (step_keyset E os keysetPath _ w) fun h _ =>
        opens_step (step_read os inputPath _ w) fun i _ => opens_step (step_try _ _ w) fun p _ =>
          opens_write _ rfl)) ?_ fun o => ?_
  · constructor
    · rintro ⟨ad, h1, h, h2, i, h4, p, h3, _⟩
      exact ⟨p, ad, i, ⟨h, h2, h3⟩, h1, h4⟩
    · rintro ⟨p, ad, i, ⟨h, h2, h3⟩, h1, h4⟩
      exact ⟨ad, h1, h, h2, i, h4, p, h3, trivial⟩
  · constructor
    · rintro ⟨ad, h1, h, h2, i, h4, p, h3, h5⟩
      exact ⟨p, ad, i, ⟨h, h2, h3⟩, h1, h4, h5⟩
    · rintro ⟨p, ad, i, ⟨h, h2, h3⟩, h1, h4, h5⟩
      exact ⟨ad, h1, h, h2, i, h4, p, h3, h5⟩

/-- C84.  The same in the mode `decrypt`: if the decryption fails, the output file is left empty, with
status 1. -/
theorem C84_hybrid_decrypt (hl : LawfulConfig L isInst) (os : Os) (seed : Seed)
    (keysetPath inputPath outputPath : Path) (text : Option PyStr) (w : World κ) :
    EndsAfterOpening os outputPath
      (∃ p info input, PrimitiveOf L isInst E os w.files (registerHybrid L) keysetPath .hybridDecrypt p ∧
        FlagBytes text info ∧ FileHolds os w.files inputPath input)
      (fun output => ∃ p info input,
        PrimitiveOf L isInst E os w.files (registerHybrid L) keysetPath .hybridDecrypt p ∧
        FlagBytes text info ∧ FileHolds os w.files inputPath input ∧
        (L.hybridDecrypt.view p).decrypt input info = .ok output)
      w (hybridCli L isInst E os seed ⟨.decrypt, keysetPath, inputPath, outputPath, text⟩ w) := by
  refine opens_congr (opens_step (step_flag text _ w) fun ad _ =>
    (congrArg (EndsAfterOpening _ _ _ _ w) (registered_ok hl .hybrid _ w)).mpr
      (opens_step (step_keyset E os keysetPath _ w) fun h _ =>
        opens_step (step_read os inputPath _ w) fun i _ => opens_step (step_try _ _ w) fun p _ =>
          opens_write _ rfl)) ?_ fun o => ?_
  · constructor
    · rintro ⟨ad, h1, h, h2, i, h4, p, h3, _⟩
      exact ⟨p, ad, i, ⟨h, h2, h3⟩, h1, h4⟩
    · rintro ⟨p, ad, i, ⟨h, h2, h3⟩, h1, h4⟩
      exact ⟨ad, h1, h, h2, i, h4, p, h3, trivial⟩
  · constructor
    · rintro ⟨ad, h1, h, h2, i, h4, p, h3, h5⟩
      exact ⟨p, ad, i, ⟨h, h2, h3⟩, h1, h4, h5⟩
    · rintro ⟨p, ad, i, ⟨h, h2, h3⟩, h1, h4, h5⟩
      exact ⟨ad, h1, h, h2, i, h4, p, h3, h5⟩

/-! ## Generating a keyset -/

/-- C84.  `cleartext_keyset_cli.py` in the mode `generate`: the keyset file is written with the JSON
text of the new keyset, and the status is 0; if no key can be made, the status is 1 and no file
changes. -/
theorem C84_generate (hl : LawfulConfig L isInst) (hE : Roomy E) (hf : LawfulFloats E.json.floats)
    (os : Os) (seed : Seed) (d : UInt32) (draws : List UInt32) (keysetPath : Path)
    (inputPath outputPath : Option Path) (w : World κ) :
    EndsByWriting os keysetPath
      (fun output => ∃ h text, NewAeadKeyset L isInst seed (d :: draws) h ∧
        JsonProtoKeysetFormat.serialize E h .secretKeyAccess = .ok text ∧ utf8Encode text = .ok output)
      w (cleartextCli L isInst E os seed (d :: draws) ⟨.generate, keysetPath, inputPath, outputPath⟩ w) := by
  refine ends_congr ((congrArg (EndsByWriting _ _ _ w) (registered_ok hl .aead _ w)).mpr
      (ends_step (step_try _ _ w) (Q := fun h o => ∃ text,
        JsonProtoKeysetFormat.serialize E h .secretKeyAccess = .ok text ∧ utf8Encode text = .ok o)
        fun h _ => ?_)) fun o => ?_
  · obtain ⟨text, ht⟩ := C62_serialize_succeeds E hE h
    obtain ⟨b, hb, _⟩ := textChar_text (serialize_textChar hf ht)
    have : (do openWrite os keysetPath
               tryTink (JsonProtoKeysetFormat.serialize E h .secretKeyAccess) fun text => do
                 writeText os keysetPath text
                 return some 0 : Run κ Exit) w =
        (do openWrite os keysetPath; writeBytes os keysetPath b; return some 0 : Run κ Exit) w := by
      rw [ht]
      simp only [run_bind]
      cases openWrite os keysetPath w with
      | mk o w' =>
        cases o with
        | error e => rfl
        | ok u =>
          show (writeText os keysetPath text >>= fun _ => pure (some 0)) w' = _
          simp only [run_bind, writeText, run_lift, hb]
    rw [this]
    refine ends_congr (ends_write rfl) fun o => ?_
    constructor
    · rintro rfl; exact ⟨text, ht, hb⟩
    · rintro ⟨t', h1, h2⟩
      rw [ht] at h1; cases h1
      rw [hb] at h2; cases h2
      rfl
  · constructor
    · rintro ⟨h, h1, text, h2, h3⟩
      obtain ⟨t, ht, h1⟩ := bind_ok_iff.1 h1
      refine ⟨h, text, ⟨t, ht, ?_⟩, h2, h3⟩
      show KeysetHandle.generateNew (registryOf isInst (registerPackage L .aead)) _ _ _ = _
      cases hg : KeysetHandle.generateNew (registryOf isInst (registerPackage L .aead)) seed (d :: draws) t with
      | none => rw [hg] at h1; cases h1
      | some x => rw [hg] at h1; exact congrArg some h1
    · rintro ⟨h, text, ⟨t, ht, h1⟩, h2, h3⟩
      refine ⟨h, bind_ok_iff.2 ⟨t, ht, ?_⟩, text, h2, h3⟩
      change KeysetHandle.generateNew (registryOf isInst (registerPackage L .aead)) _ _ _ = _ at h1
      rw [h1]

/-- C84.  A file with the JSON text of a valid keyset, written by any of the means of Tink, is a
keyset file with this keyset. -/
theorem C84_keyset_file (hf : LawfulFloats E.json.floats) {h : KeysetHandle} (hv : Valid h.keyset)
    {text : PyStr} (hs : JsonProtoKeysetFormat.serialize E h .secretKeyAccess = .ok text) {b : Bytes}
    (hb : utf8Encode text = .ok b) {os : Os} {files : Nat → Option Bytes} {path : Path}
    (hfile : FileHolds os files path b) : KeysetFile E os files path h := by
  obtain ⟨b', hb', ht⟩ := textChar_text (serialize_textChar hf hs)
  rw [hb] at hb'; cases hb'
  exact ⟨b, text, hfile, ht, C62_handle_round_trip E hf hv hs⟩

/-! ## Envelope encryption -/

/-- C84.  `envelope_cli.py`: if the key URI names a key of the KMS, the credentials give a client, the
input file can be read and the envelope AEAD encrypts or decrypts its contents, then the result is
written to the output file and the status is 0; otherwise the status is 1 and no file changes, unless
writing breaks off. -/
theorem C84_envelope (hl : LawfulConfig L isInst) (api : PyStr → Py (Gcp.ApiClient κ)) (os : Os)
    (seed seedDek seedEnc : Seed) (mode : Mode) (uri credentials : PyStr) (inputPath outputPath : Path)
    (text : Option PyStr) (w : World κ) :
    EndsByWriting os outputPath
      (fun output => ∃ ad env input, FlagBytes text ad ∧
        EnvelopeFor L isInst api seed uri credentials env ∧ FileHolds os w.files inputPath input ∧
        crypt mode
          (fun i a => (env.encrypt L.aead (L.cls .aead) (registryOf isInst (registerAead L)) w.kms
            seedDek seedEnc i a).2)
          (fun i a => (env.decrypt L.aead (L.cls .aead) (registryOf isInst (registerAead L)) w.kms i a).2)
          input ad = .ok output)
      w (envelopeCli L isInst api os seed seedDek seedEnc ⟨mode, uri, credentials⟩ inputPath outputPath
        text w) := by
  refine ends_congr (ends_step (step_flag text _ w) fun ad _ =>
    ends_step (step_envelope hl api seed ⟨mode, uri, credentials⟩ _ w) fun env _ =>
      ends_step (step_read os inputPath _ w) fun i _ => ends_kms _ _ fun o _ _ => ends_write rfl)
    fun o => ?_
  constructor
  · rintro ⟨ad, h1, env, h2, i, h3, o', h4, rfl⟩
    refine ⟨ad, env, i, h1, h2, h3, ?_⟩
    rw [← h4]; unfold crypt; cases mode <;> rfl
  · rintro ⟨ad, env, i, h1, h2, h3, h4⟩
    refine ⟨ad, h1, env, h2, i, h3, o, ?_, rfl⟩
    rw [← h4]; unfold crypt; cases mode <;> rfl

/-- C84.  `gcs_envelope_aead_cli.py` in the mode `encrypt` changes no file; it uploads the envelope
encryption of the local file, with the name of the object as associated data, and its status is 0, or
it uploads nothing and its status is 1. -/
theorem C84_gcs_encrypt (hl : LawfulConfig L isInst) (api : PyStr → Py (Gcp.ApiClient κ)) (st : Storage)
    (os : Os) (seed seedDek seedEnc : Seed) (uri credentials : PyStr) (localPath : Path) (name : PyStr)
    (w : World κ) :
    let x := gcsCli L isInst api st os seed seedDek seedEnc ⟨.encrypt, uri, credentials⟩ localPath name w
    x.2.files = w.files ∧
    Uploads st
      (fun bucket object output => ∃ env ad input, EnvelopeFor L isInst api seed uri credentials env ∧
        st.login credentials = .ok () ∧ GcsName name bucket object ∧ utf8Encode name = .ok ad ∧
        FileHolds os w.files localPath input ∧
        (env.encrypt L.aead (L.cls .aead) (registryOf isInst (registerAead L)) w.kms
            seedDek seedEnc input ad).2 = .ok output)
      w.blobs (exitStatus x) x.2.blobs := by
  have e : gcsCli L isInst api st os seed seedDek seedEnc ⟨.encrypt, uri, credentials⟩ localPath name =
      withEnvelope isInst L api seed ⟨.encrypt, uri, credentials⟩ fun r env =>
        (Run.lift (st.login credentials) >>= fun _ => match getBucketAndObject name with
        | .error e => if e.isValueError then pure (some 1) else Run.lift (.error e)
        | .ok n => do
          let ad ← Run.lift (utf8Encode name)
          let input ← readBytes os localPath
          let output ← onKms fun s => env.encrypt L.aead (L.cls .aead) r s seedDek seedEnc input ad
          uploadBlob st n.1 n.2 output
          return none) := by
    unfold gcsCli
    cases getBucketAndObject name <;> rfl
  suffices this : EndsByUpload st
      (fun bucket object output => ∃ env ad input, EnvelopeFor L isInst api seed uri credentials env ∧
        st.login credentials = .ok () ∧ GcsName name bucket object ∧ utf8Encode name = .ok ad ∧
        FileHolds os w.files localPath input ∧
        (env.encrypt L.aead (L.cls .aead) (registryOf isInst (registerAead L)) w.kms
            seedDek seedEnc input ad).2 = .ok output) w
      (gcsCli L isInst api st os seed seedDek seedEnc ⟨.encrypt, uri, credentials⟩ localPath name w) from
    ⟨this.files, this.blobs⟩
  rw [e]
  refine upload_congr (upload_step (step_envelope hl api seed ⟨.encrypt, uri, credentials⟩ _ w) fun env _ =>
    upload_step (step_login (st.login credentials) _ w) fun _ _ =>
      upload_step (step_name name _ w) fun n _ => upload_step (step_lift _ _ w) fun ad _ =>
        upload_step (step_read os localPath _ w) fun i _ => upload_kms _ n.1 n.2 rfl)
      fun bucket object output => ?_
  constructor
  · rintro ⟨env, h1, _, h2, n, h3, ad, h4, i, h5, rfl, rfl, h6⟩
    exact ⟨env, ad, i, h1, h2, h3, h4, h5, h6⟩
  · rintro ⟨env, ad, i, h1, h2, h3, h4, h5, h6⟩
    exact ⟨env, h1, (), h2, (bucket, object), h3, ad, h4, i, h5, rfl, rfl, h6⟩

/-- C84.  In the mode `decrypt` it opens the local file as soon as it has downloaded the object.  If
then the decryption fails, the local file is left empty. -/
theorem C84_gcs_decrypt (hl : LawfulConfig L isInst) (api : PyStr → Py (Gcp.ApiClient κ)) (st : Storage)
    (os : Os) (seed seedDek seedEnc : Seed) (uri credentials : PyStr) (localPath : Path) (name : PyStr)
    (w : World κ) :
    EndsAfterOpening os localPath
      (∃ env bucket object ad ct, EnvelopeFor L isInst api seed uri credentials env ∧
        st.login credentials = .ok () ∧ GcsName name bucket object ∧ utf8Encode name = .ok ad ∧
        st.download bucket object = .ok () ∧ w.blobs bucket object = some ct)
      (fun output => ∃ env bucket object ad ct, EnvelopeFor L isInst api seed uri credentials env ∧
        st.login credentials = .ok () ∧ GcsName name bucket object ∧ utf8Encode name = .ok ad ∧
        st.download bucket object = .ok () ∧ w.blobs bucket object = some ct ∧
        (env.decrypt L.aead (L.cls .aead) (registryOf isInst (registerAead L)) w.kms ct ad).2 = .ok output)
      w (gcsCli L isInst api st os seed seedDek seedEnc ⟨.decrypt, uri, credentials⟩ localPath name w) := by
  have e : gcsCli L isInst api st os seed seedDek seedEnc ⟨.decrypt, uri, credentials⟩ localPath name =
      withEnvelope isInst L api seed ⟨.decrypt, uri, credentials⟩ fun r env =>
        (Run.lift (st.login credentials) >>= fun _ => match getBucketAndObject name with
        | .error e => if e.isValueError then pure (some 1) else Run.lift (.error e)
        | .ok n => do
          let ad ← Run.lift (utf8Encode name)
          let ct ← downloadBlob st n.1 n.2
          openWrite os localPath
          let output ← onKms fun s => env.decrypt L.aead (L.cls .aead) r s ct ad
          writeBytes os localPath output
          return none) := by
    unfold gcsCli
    cases getBucketAndObject name <;> rfl
  rw [e]
  refine opens_congr (opens_step (step_envelope hl api seed ⟨.decrypt, uri, credentials⟩ _ w) fun env _ =>
    opens_step (step_login (st.login credentials) _ w) fun _ _ =>
      opens_step (step_name name _ w) fun n _ => opens_step (step_lift _ _ w) fun ad _ =>
        opens_step (step_download st n.1 n.2 _ w) fun i _ => opens_kms _ rfl) ?_ fun o => ?_
  · constructor
    · rintro ⟨env, h1, _, h2, n, h3, ad, h4, ct, ⟨h5, h6⟩, _⟩
      exact ⟨env, n.1, n.2, ad, ct, h1, h2, h3, h4, h5, h6⟩
    · rintro ⟨env, k, o, ad, ct, h1, h2, h3, h4, h5, h6⟩
      exact ⟨env, h1, (), h2, (k, o), h3, ad, h4, ct, ⟨h5, h6⟩, trivial⟩
  · constructor
    · rintro ⟨env, h1, _, h2, n, h3, ad, h4, ct, ⟨h5, h6⟩, h7⟩
      exact ⟨env, n.1, n.2, ad, ct, h1, h2, h3, h4, h5, h6, h7⟩
    · rintro ⟨env, k, o, ad, ct, h1, h2, h3, h4, h5, h6, h7⟩
      exact ⟨env, h1, (), h2, (k, o), h3, ad, h4, ct, ⟨h5, h6⟩, h7⟩

end
end Tink.Props
