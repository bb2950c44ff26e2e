import Verif.Cli.EncryptedKeysetSteps

/-!
# C108: the example program for encrypted keysets
-/

namespace Tink.Props
open Spec Cli Config

section
variable {σ δ ε τ S P C F κ : Type} [DecidableEq C]
variable {L : Library σ δ ε τ S P C} {isInst : P → C → Bool} {E : JsonFormatEnv F}

/-- For an AEAD without a state, the functions for one with a state are those used everywhere else. -/
theorem C108_same_serialize (E : JsonFormatEnv F) (h : KeysetHandle) (aead : Aead) (seed : Seed) (ad : Bytes)
    (s : κ) :
    serializeEncryptedRemotely E h (fun s b => (s, aead.encrypt seed b ad)) (fun s b => (s, aead.decrypt b ad)) s =
      (s, JsonProtoKeysetFormat.serializeEncrypted E h aead seed ad) := by
  unfold serializeEncryptedRemotely JsonProtoKeysetFormat.serializeEncrypted
    KeysetHandle.writeWithAssociatedData encryptKeysetRemotely encryptKeyset
  cases h.keyset.serializeToString with
  | error e => rfl
  | ok ser =>
    dsimp only [bind, Except.bind]
    cases aead.encrypt seed ser ad with
    | error e => rfl
    | ok ct =>
      dsimp only
      generalize convertDecodeError _ = x
      cases x <;> rfl

theorem C108_same_parse (E : JsonFormatEnv F) (text : PyStr) (aead : Aead) (ad : Bytes) (s : κ) :
    parseEncryptedRemotely E text (fun s b => (s, aead.decrypt b ad)) s =
      (s, JsonProtoKeysetFormat.parseEncrypted E text aead ad) := by
  unfold parseEncryptedRemotely JsonProtoKeysetFormat.parseEncrypted KeysetHandle.readWithAssociatedData
    decryptKeysetRemotely decryptKeyset
  cases (jsonKeysetReader E text).readEncrypted with
  | error e => rfl
  | ok e =>
    dsimp only [bind, Except.bind]
    cases assertEnoughEncryptedKeyMaterial e <;> rfl

/-! ## Generating -/

/-- C108.  Mode `generate`.  The program opens the keyset file when the URI names a key of the KMS, the
credentials give a client and a key can be made.  It then writes the JSON text of the new keyset
encrypted by the server, and its status is 0.  If the server does not encrypt it, or does not decrypt
it to the same keyset at once, the status is 1, and the file is empty. -/
theorem C108_generate (hl : LawfulConfig L isInst) (api : PyStr → Py (Gcp.ApiClient κ))
    (convert : PyStr → Py Bytes) (os : Os) (seed : Seed) (draws : List UInt32) (keysetPath : Path)
    (inputPath outputPath : Option Path) (uri credentials : PyStr) (text : Option PyStr) (w : World κ) :
    EndsAfterOpening os keysetPath
      (∃ ad c name h, FlagBytes text ad ∧ KekFor api uri credentials c name ∧
        NewAeadKeyset L isInst seed draws h)
      (fun output => ∃ ad c name h kad e t, FlagBytes text ad ∧ KekFor api uri credentials c name ∧
        NewAeadKeyset L isInst seed draws h ∧ KeysetData convert kad ∧ EncryptedBy c name kad w.kms h e ∧
        EncryptedText E e t ∧ utf8Encode t = .ok output)
      w (encryptedKeysetCli L isInst E api convert os seed draws ⟨.generate, keysetPath, inputPath, outputPath⟩
        uri credentials text w) := by
  have new_iff : ∀ h : KeysetHandle, (do
        let t ← Templates.AES128_GCM
        match KeysetHandle.generateNew (registryOf isInst (registerPackage L .aead)) seed draws t with
        | none => .error (.other 0)
        | some x => x : Py KeysetHandle) = .ok h ↔ NewAeadKeyset L isInst seed draws h := by
    intro h
    constructor
    · intro h1
      obtain ⟨t, ht, h1⟩ := bind_ok_iff.1 h1
      refine ⟨t, ht, ?_⟩
      show KeysetHandle.generateNew (registryOf isInst (registerPackage L .aead)) _ _ _ = _
      cases hg : KeysetHandle.generateNew (registryOf isInst (registerPackage L .aead)) seed draws t with
      | none => rw [hg] at h1; cases h1
      | some x => rw [hg] at h1; exact congrArg some h1
    · rintro ⟨t, ht, h1⟩
      refine bind_ok_iff.2 ⟨t, ht, ?_⟩
      change KeysetHandle.generateNew (registryOf isInst (registerPackage L .aead)) _ _ _ = _ at h1
      rw [h1]
  refine opens_congr (opens_step (step_flag text _ w) fun ad _ =>
    (congrArg (EndsAfterOpening _ _ _ _ w) (registered_ok hl .aead _ w)).mpr
      (opens_step (step_kek api uri credentials _ w) fun remote _ =>
        opens_step (step_try _ _ w) fun h _ => opens_attempt _)) ?_ fun o => ?_
  · constructor
    · rintro ⟨ad, h1, remote, ⟨c, name, h2, rfl⟩, h, h3, _⟩
      exact ⟨ad, c, name, h, h1, h2, (new_iff h).1 h3⟩
    · rintro ⟨ad, c, name, h, h1, h2, h3⟩
      exact ⟨ad, h1, _, ⟨c, name, h2, rfl⟩, h, (new_iff h).2 h3, trivial⟩
  · constructor
    · rintro ⟨ad, h1, remote, ⟨c, name, h2, rfl⟩, h, h3, t, h4, h5⟩
      obtain ⟨kad, e, h6, h7, h8⟩ := serializeRemotely_iff.1 h4
      exact ⟨ad, c, name, h, kad, e, t, h1, h2, (new_iff h).1 h3, h6, h7, h8, h5⟩
    · rintro ⟨ad, c, name, h, kad, e, t, h1, h2, h3, h4, h5, h6, h7⟩
      exact ⟨ad, h1, _, ⟨c, name, h2, rfl⟩, h, (new_iff h).2 h3, t,
        serializeRemotely_iff.2 ⟨kad, e, h4, h5, h6⟩, h7⟩

/-- C108.  So a keyset file that is there already is lost when the server does not do its part: the
status is 1, and the file is empty. -/
theorem C108_generate_loses (hl : LawfulConfig L isInst) (api : PyStr → Py (Gcp.ApiClient κ))
    (convert : PyStr → Py Bytes) (os : Os) (seed : Seed) (draws : List UInt32) (keysetPath : Path)
    (inputPath outputPath : Option Path) {uri credentials : PyStr} {text : Option PyStr} {w : World κ}
    {ad : Bytes} (htext : FlagBytes text ad) {c : Gcp.ApiClient κ} {name : PyStr}
    (hkek : KekFor api uri credentials c name) {h : KeysetHandle} (hnew : NewAeadKeyset L isInst seed draws h)
    (hfails : ∀ kad e, KeysetData convert kad → ¬ EncryptedBy c name kad w.kms h e)
    (hw : os.writable keysetPath = true) :
    let x := encryptedKeysetCli L isInst E api convert os seed draws
      ⟨.generate, keysetPath, inputPath, outputPath⟩ uri credentials text w
    exitStatus x = 1 ∧ Updated (os.file keysetPath) [] w.files x.2.files := by
  intro x
  have hno : ∀ o, ¬ ∃ ad c name h kad e t, FlagBytes text ad ∧ KekFor api uri credentials c name ∧
        NewAeadKeyset L isInst seed draws h ∧ KeysetData convert kad ∧ EncryptedBy c name kad w.kms h e ∧
        EncryptedText E e t ∧ utf8Encode t = .ok o := by
    rintro o ⟨ad', c', name', h', kad, e, t, _, h2, ⟨t', ht', h3⟩, h4, h5, _⟩
    obtain ⟨rfl, rfl⟩ := kek_unique hkek h2
    obtain ⟨t'', ht'', h3'⟩ := hnew
    rw [ht''] at ht'; cases ht'
    rw [h3'] at h3; cases h3
    exact hfails kad e h4 h5
  have hf := (C108_generate (E := E) hl api convert os seed draws keysetPath inputPath outputPath uri credentials
    text w).files
  change OpensFirst os keysetPath _ _ w.files (exitStatus x) x.2.files at hf
  generalize exitStatus x = k, x.2.files = files at hf
  cases hf with
  | written _ h1 => exact absurd h1 (hno _)
  | notReady h1 => exact absurd ⟨ad, c, name, h, htext, hkek, hnew⟩ h1
  | notOpened h1 => rw [hw] at h1; cases h1
  | emptied _ _ _ h1 => exact ⟨rfl, h1⟩
  | cutOff _ h1 => exact absurd h1 (hno _)

/-- C108.  In particular, with a version of the Google library that takes no `str` for bytes, the
program never generates a keyset, and every attempt empties the file. -/
theorem C108_str_refused (hl : LawfulConfig L isInst) (api : PyStr → Py (Gcp.ApiClient κ))
    {convert : PyStr → Py Bytes} (hc : ∀ ad, ¬ KeysetData convert ad) (os : Os) (seed : Seed)
    (draws : List UInt32) (keysetPath : Path) (inputPath outputPath : Option Path) (uri credentials : PyStr)
    (text : Option PyStr) (w : World κ) :
    let x := encryptedKeysetCli L isInst E api convert os seed draws
      ⟨.generate, keysetPath, inputPath, outputPath⟩ uri credentials text w
    exitStatus x = 1 ∧ (x.2.files = w.files ∨ Updated (os.file keysetPath) [] w.files x.2.files) := by
  intro x
  have hf := (C108_generate (E := E) hl api convert os seed draws keysetPath inputPath outputPath uri credentials
    text w).files
  change OpensFirst os keysetPath _ _ w.files (exitStatus x) x.2.files at hf
  generalize exitStatus x = k, x.2.files = files at hf
  cases hf with
  | written _ h1 => obtain ⟨_, _, _, _, kad, _, _, _, _, _, h1, _⟩ := h1; exact absurd h1 (hc kad)
  | notReady h1 => exact ⟨rfl, .inl rfl⟩
  | notOpened h1 => exact ⟨rfl, .inl rfl⟩
  | emptied _ _ _ h1 => exact ⟨rfl, .inr h1⟩
  | cutOff _ h1 => obtain ⟨_, _, _, _, kad, _, _, _, _, _, h1, _⟩ := h1; exact absurd h1 (hc kad)

/-- C108.  The key gets into the file only as the server has encrypted it: two runs that make keysets
with the same public information (key ID, type, status, prefix), and get the same ciphertext from the
server, leave the same file, whatever the keys are. -/
theorem C108_only_encrypted (hl : LawfulConfig L isInst) (api : PyStr → Py (Gcp.ApiClient κ))
    (convert : PyStr → Py Bytes) (os : Os) {seed seed' : Seed} {draws draws' : List UInt32} {keysetPath : Path}
    {inputPath outputPath : Option Path} {uri credentials : PyStr} {text : Option PyStr} {w w' : World κ}
    (h0 : exitStatus (encryptedKeysetCli L isInst E api convert os seed draws
      ⟨.generate, keysetPath, inputPath, outputPath⟩ uri credentials text w) = 0)
    (h0' : exitStatus (encryptedKeysetCli L isInst E api convert os seed' draws'
      ⟨.generate, keysetPath, inputPath, outputPath⟩ uri credentials text w') = 0)
    (same : ∀ c name kad h h' e e', KekFor api uri credentials c name → KeysetData convert kad →
      NewAeadKeyset L isInst seed draws h → NewAeadKeyset L isInst seed' draws' h' →
      EncryptedBy c name kad w.kms h e → EncryptedBy c name kad w'.kms h' e' →
      keysetInfo h.keyset = keysetInfo h'.keyset ∧ e.encryptedKeyset = e'.encryptedKeyset) :
    (encryptedKeysetCli L isInst E api convert os seed draws
      ⟨.generate, keysetPath, inputPath, outputPath⟩ uri credentials text w).2.files (os.file keysetPath) =
    (encryptedKeysetCli L isInst E api convert os seed' draws'
      ⟨.generate, keysetPath, inputPath, outputPath⟩ uri credentials text w').2.files (os.file keysetPath) := by
  obtain ⟨b, ⟨ad, c, name, h, kad, e, t, k1, k2, k3, k4, k5, k6, k7⟩, hu⟩ := opens_zero
    (C108_generate hl api convert os seed draws keysetPath inputPath outputPath uri credentials text w) h0
  obtain ⟨b', ⟨ad', c', name', h', kad', e', t', k1', k2', k3', k4', k5', k6', k7'⟩, hu'⟩ := opens_zero
    (C108_generate hl api convert os seed' draws' keysetPath inputPath outputPath uri credentials text w') h0'
  obtain ⟨rfl, rfl⟩ := kek_unique k2 k2'
  unfold KeysetData at k4'
  rw [k4] at k4'; cases k4'
  obtain ⟨i1, i2⟩ := same c name kad h h' e e' k2 k4 k3 k3' k5 k5'
  have he : e = e' := by
    obtain ⟨_, _, _, _, _, _, _, j⟩ := k5
    obtain ⟨_, _, _, _, _, _, _, j'⟩ := k5'
    obtain ⟨x, y⟩ := e
    obtain ⟨x', y'⟩ := e'
    cases i2
    cases j; cases j'
    rw [i1]
  subst he
  unfold EncryptedText at k6 k6'
  rw [k6] at k6'; cases k6'
  rw [k7] at k7'; cases k7'
  rw [hu.1, hu'.1]

/-! ## Using -/

/-- C108.  Modes `encrypt` and `decrypt`.  If the URI names a key of the KMS, the credentials give a
client, the keyset file is an encrypted keyset that the server decrypts, the keyset gives an AEAD, the
input file can be read and the AEAD encrypts or decrypts its contents, then the result is written to the
output file and the status is 0.  Otherwise the status is 1 and no file changes, unless writing breaks
off. -/
theorem C108_use (hl : LawfulConfig L isInst) (api : PyStr → Py (Gcp.ApiClient κ))
    (convert : PyStr → Py Bytes) (os : Os) (seed : Seed) (draws : List UInt32) (mode : Mode)
    (keysetPath inputPath outputPath : Path) (uri credentials : PyStr) (text : Option PyStr) (w : World κ) :
    EndsByWriting os outputPath
      (fun output => ∃ ad c name kad h p input, FlagBytes text ad ∧ KekFor api uri credentials c name ∧
        KeysetData convert kad ∧ EncryptedKeysetFile E c name kad w.kms os w.files keysetPath h ∧
        h.primitive isInst (registryOf isInst (registerAead L)) (L.cls .aead) = .ok p ∧
        FileHolds os w.files inputPath input ∧
        crypt mode ((L.aead.view p).encrypt seed) (L.aead.view p).decrypt input ad = .ok output)
      w (encryptedKeysetCli L isInst E api convert os seed draws
        ⟨.use mode, keysetPath, some inputPath, some outputPath⟩ uri credentials text w) := by
  have hread : ∀ (f : PyStr → Run κ Exit), (readText os keysetPath >>= f) w =
      (readBytes os keysetPath >>= fun b => Run.lift (decodeText b) >>= f) w := by
    intro f
    unfold readText
    simp only [run_bind]
    cases readBytes os keysetPath w with
    | mk o w' => cases o <;> rfl
  refine ends_congr (ends_step (step_flag text _ w) fun ad _ =>
    (congrArg (EndsByWriting _ _ _ w) (registered_ok hl .aead _ w)).mpr
      (ends_step (step_kek api uri credentials _ w) fun remote _ =>
        (congrArg (EndsByWriting _ _ _ w) (hread _)).mpr
          (ends_step (step_read os keysetPath _ w) fun b _ => ends_step (step_lift _ _ w) fun t _ =>
            ends_attempt _ _ fun h _ =>
              ends_step (step_try _ _ _) fun p _ => ends_step (step_path (some inputPath) _ _) fun ip _ =>
                ends_step (step_read os ip _ _) fun i _ => ends_step (step_lift _ _ _) fun o _ =>
                  ends_write rfl))) fun o => ?_
  constructor
  · rintro ⟨ad, h1, remote, ⟨c, name, h2, rfl⟩, b, h3, t, h4, h, h5, p, h6, _, hp, i, h7, o', h8, rfl⟩
    cases hp
    obtain ⟨kad, e, pt, g1, g2, g3, g4, g5, g6⟩ := parseRemotely_iff.1 h5
    refine ⟨ad, c, name, kad, h, p, i, h1, h2, g1,
      ⟨b, t, e, pt, h3, (textOf_iff b t).2 h4, g2, g3, g4, g5, g6⟩, h6, h7, ?_⟩
    rw [← h8]; unfold crypt; cases mode <;> rfl
  · rintro ⟨ad, c, name, kad, h, p, i, h1, h2, g1, ⟨b, t, e, pt, h3, h4, g2, g3, g4, g5, g6⟩, h6, h7, h8⟩
    refine ⟨ad, h1, _, ⟨c, name, h2, rfl⟩, b, h3, t, (textOf_iff b t).1 h4, h,
      parseRemotely_iff.2 ⟨kad, e, pt, g1, g2, g3, g4, g5, g6⟩, p, h6, _, rfl, i, h7, o, ?_, rfl⟩
    rw [← h8]; unfold crypt; cases mode <;> rfl

/-- C108.  Without an input path or without an output path, these modes change no file, and the status
is 1. -/
theorem C108_no_path (hl : LawfulConfig L isInst) (api : PyStr → Py (Gcp.ApiClient κ))
    (convert : PyStr → Py Bytes) (os : Os) (seed : Seed) (draws : List UInt32) (mode : Mode)
    (keysetPath : Path) {inputPath outputPath : Option Path} (hp : inputPath = none ∨ outputPath = none)
    (uri credentials : PyStr) (text : Option PyStr) (w : World κ) :
    let x := encryptedKeysetCli L isInst E api convert os seed draws
      ⟨.use mode, keysetPath, inputPath, outputPath⟩ uri credentials text w
    exitStatus x = 1 ∧ x.2.files = w.files ∧ x.2.blobs = w.blobs := by
  intro x
  have hread : ∀ (f : PyStr → Run κ Exit), (readText os keysetPath >>= f) w =
      (readBytes os keysetPath >>= fun b => Run.lift (decodeText b) >>= f) w := by
    intro f
    unfold readText
    simp only [run_bind]
    cases readBytes os keysetPath w with
    | mk o w' => cases o <;> rfl
  have H : ∀ path, EndsByWriting os path (fun _ => False) w x := by
    intro path
    refine ends_congr (ends_step (step_flag text _ w) fun ad _ =>
      (congrArg (EndsByWriting _ _ _ w) (registered_ok hl .aead _ w)).mpr
        (ends_step (step_kek api uri credentials _ w) fun remote _ =>
          (congrArg (EndsByWriting _ _ _ w) (hread _)).mpr
            (ends_step (step_read os keysetPath _ w) fun b _ => ends_step (step_lift _ _ w) fun t _ =>
              ends_attempt _ _ fun h _ =>
                ends_step (step_try _ _ _) fun p _ => ends_step (step_path inputPath _ _) fun ip hi =>
                  ends_step (step_read os ip _ _) fun i _ => ends_step (step_lift _ _ _) fun o _ =>
                    ends_step (step_path outputPath _ _) (Q := fun _ _ => False) fun op ho => ?_))) fun o => ?_
    · rcases hp with h | h
      · rw [h] at hi; cases hi
      · rw [h] at ho; cases ho
    · constructor
      · rintro ⟨_, _, _, _, _, _, _, _, _, _, _, _, _, _, _, _, _, _, _, _, h⟩; exact h
      · exact False.elim
  have h := (H []).files
  have hb := (H []).blobs
  generalize exitStatus x = k, x.2.files = files at h
  cases h with
  | written h1 => exact h1.elim
  | nothing => exact ⟨rfl, rfl, hb⟩
  | notOpened => exact ⟨rfl, rfl, hb⟩
  | cutOff h1 => exact h1.elim

/-! ## Round trip -/

omit [DecidableEq C] in
theorem encryptedText_textChar (hf : LawfulFloats E.json.floats) {e : EncryptedKeyset} {t : PyStr}
    (h : EncryptedText E e t) : ∀ x ∈ t, TextChar x := by
  obtain ⟨u, hu, hd⟩ := json_write_encrypted_ok h
  cases hu
  exact Json.dumpsIndentDepth_textChar _ hf _ _ _ _ hd

theorem encryptedFile_unique {c : Gcp.ApiClient κ} {name : PyStr} {ad : Bytes} {s : κ} {os : Os}
    {files : Nat → Option Bytes} {path : Path} {h h' : KeysetHandle}
    (H : EncryptedKeysetFile E c name ad s os files path h)
    (H' : EncryptedKeysetFile E c name ad s os files path h') : h = h' := by
  obtain ⟨b, t, e, pt, h1, h2, h3, _, h4, h5, _⟩ := H
  obtain ⟨b', t', e', pt', h1', h2', h3', _, h4', h5', _⟩ := H'
  cases fileHolds_unique h1 h1'
  rw [textOf_iff] at h2 h2'
  rw [h2] at h2'; cases h2'
  rw [h3] at h3'; cases h3'
  rw [h4] at h4'; cases h4'
  rw [h5] at h5'
  obtain ⟨k⟩ := h
  obtain ⟨k'⟩ := h'
  cases h5'
  rfl

/-- C108.  What `generate` has left with status 0 is, as long as the server decrypts it, an encrypted
keyset file with the keyset that was made. -/
theorem C108_generated (hl : LawfulConfig L isInst) (hf : LawfulFloats E.json.floats)
    (api : PyStr → Py (Gcp.ApiClient κ)) (convert : PyStr → Py Bytes) {os os' : Os} (hos : SameFiles os os')
    {seed : Seed} {draws : List UInt32} (hd : ∀ x ∈ draws, 1 ≤ x.toNat ∧ x.toNat ≤ 2 ^ 31 - 1)
    {keysetPath : Path} {inputPath outputPath : Option Path} {uri credentials : PyStr} {text : Option PyStr}
    {w w2 : World κ}
    (h0 : exitStatus (encryptedKeysetCli L isInst E api convert os seed draws
      ⟨.generate, keysetPath, inputPath, outputPath⟩ uri credentials text w) = 0)
    (later : w2.files (os.file keysetPath) = (encryptedKeysetCli L isInst E api convert os seed draws
      ⟨.generate, keysetPath, inputPath, outputPath⟩ uri credentials text w).2.files (os.file keysetPath))
    (server : ∀ c name kad, KekFor api uri credentials c name → KeysetData convert kad →
      ServingWith c name kad w.kms w2.kms)
    (hr : os'.readable keysetPath = true) :
    ∃ c name kad h, KekFor api uri credentials c name ∧ KeysetData convert kad ∧
      NewAeadKeyset L isInst seed draws h ∧
      EncryptedKeysetFile E c name kad w2.kms os' w2.files keysetPath h := by
  obtain ⟨b, ⟨ad, c, name, h, kad, e, t, k1, k2, k3, k4, k5, k6, k7⟩, hu⟩ := opens_zero
    (C108_generate hl api convert os seed draws keysetPath inputPath outputPath uri credentials text w) h0
  refine ⟨c, name, kad, h, k2, k4, k3, ?_⟩
  obtain ⟨b', hb', ht⟩ := textChar_text (encryptedText_textChar hf k6)
  rw [k7] at hb'; cases hb'
  obtain ⟨ser, s1, pt, j1, j2, j3, j4, j5⟩ := k5
  obtain ⟨i1, i2⟩ := server c name kad k2 k4 ser s1 _ j2
  obtain ⟨t', _, k3⟩ := k3
  obtain ⟨_, _, _, _, _, _, hv⟩ := C19_generate_new hd k3
  exact ⟨b, t, e, ser, ⟨hr, by rw [hos, later]; exact hu.1⟩, ht, C62_reader_writer_encrypted E hf k6, i1, i2,
    C29_keyset_round_trip j1, hv⟩

/-- C108.  Generating a keyset, encrypting a file with it and decrypting the result, in three processes:
if the C++ library makes a correct AEAD, and the server encrypts the keyset to something it always
decrypts, then all three end with status 0, and the last leaves the contents of the first input; files
not named on the command lines are as before. -/
theorem C108_generate_encrypt_decrypt (hl : LawfulConfig L isInst) (hE : Roomy E)
    (hf : LawfulFloats E.json.floats) {os : Os} (hos : Working os)
    {seed seed1 seed2 : Seed} {d : UInt32} {draws : List UInt32}
    (hd : ∀ x ∈ d :: draws, 1 ≤ x.toNat ∧ x.toNat ≤ 2 ^ 31 - 1)
    {t : KeyTemplate} (ht : Templates.AES128_GCM = .ok t) {cc : Cpp.KeyManager Cpp.Aead} {a : Cpp.Aead}
    {kd : KeyData} (found : L.ccAead t.typeUrl = some cc)
    (new : cc.newKeyData seed t.value = .ok kd) (made : cc.getPrimitive kd = .ok a)
    (hfk : Fits kd) (hu : kd.typeUrl = t.typeUrl)
    (correct : ∀ s pt ad ct, a.encrypt s pt ad = .ok ct → ct ≠ [] ∧ a.decrypt ct ad = .ok pt)
    {api : PyStr → Py (Gcp.ApiClient κ)} {convert : PyStr → Py Bytes} {uri credentials : PyStr}
    {c : Gcp.ApiClient κ} {name : PyStr} (hkek : KekFor api uri credentials c name) {kad : Bytes}
    (hkad : KeysetData convert kad) {w : World κ}
    (server : ∀ h, NewAeadKeyset L isInst seed (d :: draws) h → ∃ serialized s1 wrapped,
      h.keyset.serializeToString = .ok serialized ∧ c.encrypt w.kms name serialized kad = (s1, .ok wrapped) ∧
      wrapped ≠ [] ∧ ∀ s, (c.decrypt s name wrapped kad).2 = .ok serialized)
    {text : Option PyStr} {ad : Bytes} (htext : FlagBytes text ad)
    {keysetPath inputPath cipherPath plainPath : Path} {pt : Bytes}
    (hin : w.files (os.file inputPath) = some pt)
    (hk : os.file keysetPath ≠ os.file inputPath) (hk' : os.file keysetPath ≠ os.file cipherPath)
    {body : Bytes} (henc : a.encrypt seed1 pt ad = .ok body) :
    let x1 := encryptedKeysetCli L isInst E api convert os seed (d :: draws) ⟨.generate, keysetPath, none, none⟩
      uri credentials text w
    let x2 := encryptedKeysetCli L isInst E api convert os seed1 []
      ⟨.use .encrypt, keysetPath, some inputPath, some cipherPath⟩ uri credentials text x1.2
    let x3 := encryptedKeysetCli L isInst E api convert os seed2 []
      ⟨.use .decrypt, keysetPath, some cipherPath, some plainPath⟩ uri credentials text x2.2
    exitStatus x1 = 0 ∧ exitStatus x2 = 0 ∧ exitStatus x3 = 0 ∧
      x3.2.files (os.file plainPath) = some pt ∧
      ∀ f, f ≠ os.file keysetPath → f ≠ os.file cipherPath → f ≠ os.file plainPath →
        x3.2.files f = w.files f := by
  intro x1 x2 x3
  obtain ⟨h, p, g1, g2, g3⟩ := C66_aead hl (registryOf_registered hl .aead) (aes128Gcm_mem ht) found new made
    hfk hu correct d draws
  obtain ⟨_, _, _, _, _, _, hv⟩ := C19_generate_new hd g1
  have hnew : NewAeadKeyset L isInst seed (d :: draws) h := ⟨t, ht, g1⟩
  have newUnique : ∀ h', NewAeadKeyset L isInst seed (d :: draws) h' → h' = h := by
    rintro h' ⟨t', ht', n1⟩
    rw [ht] at ht'; cases ht'
    have n1 : KeysetHandle.generateNew (registryOf isInst (registerPackage L .aead)) seed (d :: draws) t =
      some (.ok h') := n1
    rw [g1] at n1; cases n1; rfl
  obtain ⟨ser, s1, wrapped, v1, v2, v3, v4⟩ := server h hnew
  have hby : EncryptedBy c name kad w.kms h ⟨wrapped, some (keysetInfo h.keyset)⟩ :=
    ⟨ser, s1, ser, v1, v2, v4 s1, C29_keyset_round_trip v1, rfl⟩
  obtain ⟨json, _, hjson⟩ := C62_write_encrypted_succeeds E hE ⟨wrapped, some (keysetInfo h.keyset)⟩ []
  have hjson : EncryptedText E ⟨wrapped, some (keysetInfo h.keyset)⟩ json := hjson
  obtain ⟨b, hb, hbt⟩ := textChar_text (encryptedText_textChar hf hjson)
  obtain ⟨z1, u1⟩ : exitStatus x1 = 0 ∧ Updated (os.file keysetPath) b w.files x1.2.files := by
    refine opens_ok (C108_generate hl api convert os seed (d :: draws) keysetPath none none uri credentials
      text w) ⟨ad, c, name, h, htext, hkek, hnew⟩ ⟨ad, c, name, h, kad, _, json, htext, hkek, hnew, hkad, hby, hjson, hb⟩
      ?_ (hos.writable _) (hos.stored _ _)
    rintro b' ⟨ad', c', name', h', kad', e', json', _, n2, n3, n4, ⟨ser', s1', pt', m1, m2, _, _, m5⟩, n6, n7⟩
    obtain ⟨rfl, rfl⟩ := kek_unique hkek n2
    cases newUnique h' n3
    unfold KeysetData at n4 hkad
    rw [hkad] at n4; cases n4
    rw [v1] at m1; cases m1
    rw [v2] at m2
    obtain ⟨x, y⟩ := e'
    cases m2; cases m5
    unfold EncryptedText at n6 hjson
    rw [hjson] at n6; cases n6
    rw [hb] at n7; cases n7
    rfl
  have hfile : ∀ (files : Nat → Option Bytes) (s : κ), files (os.file keysetPath) = some b →
      EncryptedKeysetFile E c name kad s os files keysetPath h := fun files s hfile =>
    ⟨b, json, _, ser, ⟨hos.readable _, hfile⟩, hbt, C62_reader_writer_encrypted E hf hjson, v3, v4 s,
      C29_keyset_round_trip v1, hv⟩
  have unique : ∀ {files : Nat → Option Bytes} {s : κ} {ad' c' name' kad' h' p'},
      files (os.file keysetPath) = some b → FlagBytes text ad' → KekFor api uri credentials c' name' →
      KeysetData convert kad' → EncryptedKeysetFile E c' name' kad' s os files keysetPath h' →
      h'.primitive isInst (registryOf isInst (registerAead L)) (L.cls .aead) = .ok p' → ad' = ad ∧ p' = p := by
    intro files s ad' c' name' kad' h' p' hb' n1 n2 n3 n4 n5
    obtain ⟨rfl, rfl⟩ := kek_unique hkek n2
    unfold KeysetData at n3 hkad
    rw [hkad] at n3; cases n3
    cases encryptedFile_unique (hfile files s hb') n4
    have n5 : h.primitive isInst (registryOf isInst (registerPackage L .aead)) (L.cls .aead) = .ok p' := n5
    rw [g2] at n5; cases n5
    exact ⟨flagBytes_unique n1 htext, rfl⟩
  have hi : FileHolds os x1.2.files inputPath pt := ⟨hos.readable _, by rw [u1.2 _ (Ne.symm hk)]; exact hin⟩
  obtain ⟨ct, hct⟩ := (g3 seed1 pt ad).1 _ henc
  obtain ⟨z2, u2⟩ : exitStatus x2 = 0 ∧ Updated (os.file cipherPath) ct x1.2.files x2.2.files := by
    refine ends_ok (C108_use hl api convert os seed1 [] .encrypt keysetPath inputPath cipherPath uri credentials
      text x1.2) ⟨ad, c, name, kad, h, p, pt, htext, hkek, hkad, hfile _ _ u1.1, g2, hi, hct⟩ ?_
      (hos.writable _) (hos.stored _ _)
    rintro b' ⟨ad', c', name', kad', h', p', i', n1, n2, n3, n4, n5, n6, n7⟩
    obtain ⟨rfl, rfl⟩ := unique u1.1 n1 n2 n3 n4 n5
    cases fileHolds_unique hi n6
    have n7 : (L.aead.view p').encrypt seed1 pt ad' = .ok b' := n7
    rw [hct] at n7; cases n7; rfl
  have hb2 : x2.2.files (os.file keysetPath) = some b := by rw [u2.2 _ hk']; exact u1.1
  have hc : FileHolds os x2.2.files cipherPath ct := ⟨hos.readable _, u2.1⟩
  have hdec := (g3 seed1 pt ad).2 ct hct
  obtain ⟨z3, u3⟩ : exitStatus x3 = 0 ∧ Updated (os.file plainPath) pt x2.2.files x3.2.files := by
    refine ends_ok (C108_use hl api convert os seed2 [] .decrypt keysetPath cipherPath plainPath uri credentials
      text x2.2) ⟨ad, c, name, kad, h, p, ct, htext, hkek, hkad, hfile _ _ hb2, g2, hc, hdec⟩ ?_
      (hos.writable _) (hos.stored _ _)
    rintro b' ⟨ad', c', name', kad', h', p', i', n1, n2, n3, n4, n5, n6, n7⟩
    obtain ⟨rfl, rfl⟩ := unique hb2 n1 n2 n3 n4 n5
    cases fileHolds_unique hc n6
    have n7 : (L.aead.view p').decrypt ct ad' = .ok b' := n7
    rw [hdec] at n7; cases n7; rfl
  exact ⟨z1, z2, z3, u3.1, fun f f1 f2 f3 => by rw [u3.2 f f3, u2.2 f f2, u1.2 f f1]⟩

end
end Tink.Props
