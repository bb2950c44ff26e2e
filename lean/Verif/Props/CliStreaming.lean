import Verif.Cli.StreamingRuns
import Verif.Props.StreamingEndToEnd

/-!
# C87: the example program that encrypts large files

`/repo/python/examples/streaming_aead/streaming_aead_cli.py`.  The theorems are about all runs of the program:
however the buffered readers and writers divide what they read and write, and whatever the disk does.
-/

namespace Tink.Props
open Spec Cli Config Io

variable {P C F κ : Type} [DecidableEq C] {L : FileLibrary P C} {isInst : P → C → Bool} {lib : SegmentLibrary}
  {text : Exc → Bool} {inBuffer : Bytes} {E : JsonFormatEnv F} {os : Os} {disk : Disk} {seed : Seed}
  {outBuffer : Bytes} {fl : Flags} {w : World κ} {x : Py Exit × World κ}

omit [DecidableEq C] in
theorem leaves_of {r : Py Unit} {left : Bytes}
    (h : x = (exitOf fl.mode r, (w.put (os.file fl.outputPath) []).put (os.file fl.outputPath) left)) :
    Leaves os fl w x (if r = .ok () then 0 else 1) left := by
  subst h
  refine ⟨?_, ⟨by simp [put_files], fun g hg => by simp [put_files, hg]⟩, rfl, rfl⟩
  cases r with
  | ok u => cases fl.mode <;> rfl
  | error e =>
    rw [if_neg (by simp)]
    cases fl.mode with
    | encrypt => rfl
    | decrypt => simp only [exitOf, exitStatus]; split <;> rfl

theorem ready_unique {files : Nat → Option Bytes} {h h' : KeysetHandle} {ad ad' input input' : Bytes}
    (H : Ready L isInst E os files fl h ad input) (H' : Ready L isInst E os files fl h' ad' input') :
    h = h' ∧ ad = ad' ∧ input = input' := by
  refine ⟨keysetFile_unique H.keyset H'.keyset, flagBytes_unique H.flag H'.flag, ?_⟩
  obtain ⟨c, h1, rfl⟩ := H.input
  obtain ⟨c', h1', rfl⟩ := H'.input
  rw [fileHolds_unique h1 h1']

/-- The program when all is there that it needs. -/
theorem ready_run (hl : LawfulConfig L isInst) {h : KeysetHandle} {ad input : Bytes}
    (H : Ready L isInst E os w.files fl h ad input) :
    ∃ p kps, Has L isInst h kps p ∧ ∀ x, streamingCli L isInst E os disk seed outBuffer fl w x ↔
      ∃ r left, Crypted disk (L.streamingAead.view p) seed outBuffer ad input fl.mode r left ∧
        x = (exitOf fl.mode r, (w.put (os.file fl.outputPath) []).put (os.file fl.outputPath) left) := by
  obtain ⟨p, hp⟩ := H.primitive
  obtain ⟨kps, hk⟩ := obtained_streaming hl hp
  refine ⟨p, kps, hk, fun x => ?_⟩
  rw [run_iff hl]
  constructor
  · rintro (⟨hn, -⟩ | ⟨h', ad', input', p', r, left, H', hp', hc, hx⟩)
    · exact absurd H (hn _ _ _)
    · obtain ⟨rfl, rfl, rfl⟩ := ready_unique H H'
      rw [hp] at hp'; cases hp'
      exact ⟨r, left, hc, hx⟩
  · rintro ⟨r, left, hc, hx⟩
    exact .inr ⟨h, ad, input, p, r, left, H, hp, hc, hx⟩

/-! ## Every run ends -/

/-- A course of the program exists if there is one of what it does with the files. -/
theorem course_exists (hl : LawfulConfig L isInst)
    (hc : ∀ h ad input p, KeysetFile E os w.files fl.keysetPath h →
      h.primitive isInst (registryOf isInst (registerStreamingAead L)) (L.cls .streamingAead) = .ok p →
      ∃ r left, Crypted disk (L.streamingAead.view p) seed outBuffer ad input fl.mode r left) :
    ∃ x, streamingCli L isInst E os disk seed outBuffer fl w x := by
  unfold streamingCli
  unfold Courses.after
  simp only [Run.lift]
  cases hf : flagBytes fl.text with
  | error e => exact ⟨_, rfl⟩
  | ok ad =>
    simp only [registered_run hl]
    rcases readText_cases E os fl.keysetPath w with ⟨text, ht, hk⟩ | ⟨e, ht, hk⟩
    · simp only [ht]
      unfold Courses.tryTink
      cases hp : JsonProtoKeysetFormat.parse E text .secretKeyAccess with
      | error e => cases he : e.isTink <;> simp [he]
      | ok h =>
        cases hq : h.primitive isInst (registryOf isInst (registerStreamingAead L)) (L.cls .streamingAead) with
        | error e => cases he : e.isTink <;> simp [he, hq]
        | ok p =>
          simp only [hq, openRead]
          cases hi : w.files (os.file fl.inputPath) with
          | none => exact ⟨_, rfl⟩
          | some content =>
            cases hr : os.readable fl.inputPath with
            | false => exact ⟨_, rfl⟩
            | true =>
              simp only [openWrite]
              cases hw : os.writable fl.outputPath with
              | false => exact ⟨_, rfl⟩
              | true =>
                have hfile : ∃ input, (w.put (os.file fl.outputPath) []).files (os.file fl.inputPath) = some input := by
                  rw [put_files]
                  by_cases heq : os.file fl.inputPath = os.file fl.outputPath
                  · rw [if_pos heq]; exact ⟨_, rfl⟩
                  · rw [if_neg heq]; exact ⟨_, hi⟩
                obtain ⟨input, hin⟩ := hfile
                obtain ⟨r, left, hcr⟩ := hc h ad input p ((hk h).2 hp) hq
                refine ⟨_, input, hin, r, left, ?_, rfl⟩
                unfold Crypted at hcr
                cases hm : fl.mode <;> rw [hm] at hcr <;> exact hcr
    · simp only [ht]
      exact ⟨_, rfl⟩

/-- C87.  Whatever the files and flags, and whatever fails, the program ends.  There is a course of it, and no
other course goes on for ever: in an encryption every call on the stream returns, and the blocks are read from a
file; in a decryption blocks do not follow each other forever, whatever the input file holds. -/
theorem C87_ends (hs : StreamingSetup L isInst lib text inBuffer) (hlib : Spec.LawfulLibrary lib)
    (hfit : ∀ h, KeysetFile E os w.files fl.keysetPath h → FitsKeys h) (hb : outBuffer ≠ []) :
    (∃ x, streamingCli L isInst E os disk seed outBuffer fl w x) ∧
    ∀ h ad input p, Ready L isInst E os w.files fl h ad input →
      h.primitive isInst (registryOf isInst (registerStreamingAead L)) (L.cls .streamingAead) = .ok p →
      (∀ enc ops enc' waiting,
        (L.streamingAead.view p).newEncryptingStream seed ⟨true, (0, []), outBuffer⟩ ad = .ok enc →
        WriterHistory (CcEncrypting.RawWrite (outputFile disk)) enc ops enc' waiting →
        EveryWriteReturns (CcEncrypting.RawWrite (outputFile disk)) (CcEncrypting.RawClose (outputFile disk))
          enc' waiting) ∧
      (∀ dec ops dec' ahead, (L.streamingAead.view p).newDecryptingStream (input, 0) true ad = .ok dec →
        ReaderHistory (DecryptingStreamWrapper.RawRead (inputFile disk)) dec ops dec' ahead →
        EveryCallReturns (DecryptingStreamWrapper.RawRead (inputFile disk)) dec' ahead ∧
        ReadingEnds (DecryptingStreamWrapper.RawRead (inputFile disk)) dec' ahead) := by
  refine ⟨course_exists hs.config fun h ad input p hk hp => ?_, fun h ad input p H hp => ?_⟩
  · obtain ⟨kps, H⟩ := obtained_streaming hs.config hp
    unfold Crypted
    cases fl.mode with
    | encrypt => exact (encryptFile_exists hs hlib H (hfit h hk) hb).1
    | decrypt => exact decryptFile_exists hs H (hfit h hk)
  · obtain ⟨kps, hk⟩ := obtained_streaming hs.config hp
    refine ⟨(encryptFile_exists (input := input) hs hlib hk (hfit h H.keyset) hb).2, fun dec ops dec' ahead hn hist => ?_⟩
    have live := fun q hm => (kps_plain (ad := ad) hs hk (hfit h H.keyset) q hm).2
    exact ⟨C79_reader hk (inputFile_exhaustible disk) live hn hist,
      C79_reading_ends hk (inputFile_exhaustible disk) live hn hist⟩

/-! ## Encryption -/

/-- C87.  Whatever the files and flags, and whatever fails, a run of the program that encrypts ends in one of
three ways.  Something that it needs is missing: then its status is 1, and it has changed nothing.  Or it has
changed nothing but the output file, and its status is 0: then this holds a complete encryption of the input
file, with the primary key and the given associated data.  Or its status is 1. -/
theorem C87_encrypt (hs : StreamingSetup L isInst lib text inBuffer) (hlib : Spec.LawfulLibrary lib)
    (hfit : ∀ h, KeysetFile E os w.files fl.keysetPath h → FitsKeys h) (hmode : fl.mode = .encrypt)
    (hrun : streamingCli L isInst E os disk seed outBuffer fl w x) :
    ((∀ h ad input, ¬ Ready L isInst E os w.files fl h ad input) ∧ exitStatus x = 1 ∧ x.2 = w) ∨
    ∃ h ad input c, Ready L isInst E os w.files fl h ad input ∧
      (Leaves os fl w x 0 c ∧ PrimaryDecrypts L isInst h ad c input ∨ Leaves os fl w x 1 c) := by
  rcases (run_iff hs.config).1 hrun with ⟨h1, h2, h3, -⟩ | ⟨h, ad, input, p, r, left, H, hp, hc, hx⟩
  · exact .inl ⟨h1, h2, h3⟩
  · refine .inr ⟨h, ad, input, left, H, ?_⟩
    obtain ⟨kps, hk⟩ := obtained_streaming hs.config hp
    have hl := leaves_of hx
    rw [hmode] at hc
    rcases encryptFile_cases hs hlib hk (hfit h H.keyset) hc with ⟨rfl, hd⟩ | ⟨e, rfl⟩
    · exact .inl ⟨by simpa using hl, hd⟩
    · exact .inr (by simpa using hl)

/-- C87.  If all is there that it needs, the primary key can encrypt as much as there is, and the disk does
not fail, then the program ends, with status 0. -/
theorem C87_encrypts (hs : StreamingSetup L isInst lib text inBuffer) (hlib : Spec.LawfulLibrary lib)
    {h : KeysetHandle} {ad input : Bytes}
    (H : Ready L isInst E os w.files fl h ad input) (hfit : FitsKeys h) (hmode : fl.mode = .encrypt) {limit : Nat}
    (hp : PrimaryEncrypts L isInst text inBuffer h limit) (hlen : input.length ≤ limit)
    (hreads : Disk.Reads disk) (hwrites : Disk.Writes disk) (hb : outBuffer ≠ []) :
    (∃ x, streamingCli L isInst E os disk seed outBuffer fl w x) ∧
    ∀ x, streamingCli L isInst E os disk seed outBuffer fl w x →
      ∃ c, Leaves os fl w x 0 c ∧ PrimaryDecrypts L isInst h ad c input := by
  obtain ⟨p, kps, hk, hrun⟩ := ready_run (disk := disk) (seed := seed) (outBuffer := outBuffer) hs.config H
  rw [hmode] at hrun
  obtain ⟨⟨r, left, hex⟩, hall⟩ := encryptFile_succeeds (seed := seed) (ad := ad) hs hlib hk hfit hp hwrites hb hlen
  refine ⟨⟨_, (hrun _).2 ⟨r, left, hex, rfl⟩⟩, fun x hx => ?_⟩
  obtain ⟨r, left, hc, hx⟩ := (hrun x).1 hx
  obtain ⟨t, t1, b, ops, hloop, hok, hd⟩ := hall r left hc
  cases encryptLoop_ok hreads hloop hok
  rw [(encryptLoop_written hloop).2 rfl] at hd
  rw [← hmode] at hx
  exact ⟨left, by simpa using leaves_of hx, hd⟩

/-- C87.  If a read of the input file fails, the first blocks having been read, then the status is 1, yet what
the program leaves is a complete encryption of these blocks: by decrypting it one cannot see that something is
missing. -/
theorem C87_input_fails (hs : StreamingSetup L isInst lib text inBuffer) (hlib : Spec.LawfulLibrary lib)
    {h : KeysetHandle} {ad input : Bytes}
    (H : Ready L isInst E os w.files fl h ad input) (hfit : FitsKeys h) (hmode : fl.mode = .encrypt) {limit : Nat}
    (hp : PrimaryEncrypts L isInst text inBuffer h limit) (hlen : input.length ≤ limit)
    (hwrites : Disk.Writes disk) (hb : outBuffer ≠ []) {i : Nat} (hi : disk.inputFails i = true)
    (hbefore : ∀ j, j < i → disk.inputFails j = false) (hmade : i * blockSize < input.length + blockSize) :
    (∃ x, streamingCli L isInst E os disk seed outBuffer fl w x) ∧
    ∀ x, streamingCli L isInst E os disk seed outBuffer fl w x →
      ∃ c, Leaves os fl w x 1 c ∧ PrimaryDecrypts L isInst h ad c (input.take (i * blockSize)) := by
  obtain ⟨p, kps, hk, hrun⟩ := ready_run (disk := disk) (seed := seed) (outBuffer := outBuffer) hs.config H
  rw [hmode] at hrun
  obtain ⟨⟨r, left, hex⟩, hall⟩ := encryptFile_succeeds (seed := seed) (ad := ad) hs hlib hk hfit hp hwrites hb hlen
  refine ⟨⟨_, (hrun _).2 ⟨r, left, hex, rfl⟩⟩, fun x hx => ?_⟩
  obtain ⟨r, left, hc, hx⟩ := (hrun x).1 hx
  obtain ⟨t, t1, b, ops, hloop, hok, hd⟩ := hall r left hc
  obtain ⟨rfl, hcut⟩ := encryptLoop_cut hi hbefore hloop hok (Nat.zero_le _) (by simpa using hmade)
  rw [hcut] at hd
  rw [← hmode] at hx
  exact ⟨left, by simpa using leaves_of hx, by simpa using hd⟩

/-- C87.  If the output file is the input file, the content is lost though the status is 0: then the file holds
an encryption of nothing. -/
theorem C87_same_file (hs : StreamingSetup L isInst lib text inBuffer) (hlib : Spec.LawfulLibrary lib)
    (hfit : ∀ h, KeysetFile E os w.files fl.keysetPath h → FitsKeys h) (hmode : fl.mode = .encrypt)
    (hsame : os.file fl.inputPath = os.file fl.outputPath)
    (hrun : streamingCli L isInst E os disk seed outBuffer fl w x) (hok : exitStatus x = 0) :
    ∃ h ad c, KeysetFile E os w.files fl.keysetPath h ∧ FlagBytes fl.text ad ∧
      x.2.files (os.file fl.inputPath) = some c ∧ PrimaryDecrypts L isInst h ad c [] := by
  rcases C87_encrypt hs hlib hfit hmode hrun with ⟨-, h1, -⟩ | ⟨h, ad, input, c, H, ⟨hl, hd⟩ | hl⟩
  · rw [hok] at h1; cases h1
  · obtain ⟨_, -, hin⟩ := H.input
    rw [if_pos hsame] at hin
    subst hin
    exact ⟨h, ad, c, H.keyset, H.flag, by rw [hsame]; exact hl.files.1, hd⟩
  · have := hl.status
    rw [hok] at this; cases this

/-! ## Decryption -/

/-- C87.  If with the given associated data the enabled keys deliver nothing but these messages, then a run of
the program that decrypts, whatever the input file holds and whatever fails, ends in one of three ways.
Something that it needs is missing: then its status is 1, and it has changed nothing.  Or it has changed nothing
but the output file, and its status is 0: then this holds one of the messages.  Or its status is 1: then the
output file holds nothing, or first bytes of one of the messages, in whole blocks unless writing failed. -/
theorem C87_decrypt (hs : StreamingSetup L isInst lib text inBuffer)
    (hfit : ∀ h, KeysetFile E os w.files fl.keysetPath h → FitsKeys h) (hmode : fl.mode = .decrypt)
    {msgs : Bytes → Prop}
    (hkeys : ∀ h ad, KeysetFile E os w.files fl.keysetPath h → FlagBytes fl.text ad →
      EveryKey L isInst h fun q => (∃ t, q.newRawDecryptingStream ad = .ok t) ∧ DeliversOneOf q ad msgs)
    (hrun : streamingCli L isInst E os disk seed outBuffer fl w x) :
    ((∀ h ad input, ¬ Ready L isInst E os w.files fl h ad input) ∧ exitStatus x = 1 ∧ x.2 = w) ∨
    ∃ c, Leaves os fl w x 0 c ∧ msgs c ∨
      Leaves os fl w x 1 c ∧ (c = [] ∨ ∃ p, msgs p ∧ c <+: p) ∧
        (Disk.Writes disk → c = [] ∨ ∃ p n, msgs p ∧ c = p.take (n * blockSize)) := by
  rcases (run_iff hs.config).1 hrun with ⟨h1, h2, h3, -⟩ | ⟨h, ad, input, p, r, left, H, hp, hc, hx⟩
  · exact .inl ⟨h1, h2, h3⟩
  · refine .inr ⟨left, ?_⟩
    obtain ⟨kps, hk⟩ := obtained_streaming hs.config hp
    have hl := leaves_of hx
    rw [hmode] at hc
    rcases decryptFile_authentic hs hk (hfit h H.keyset) (hkeys h ad H.keyset H.flag) hc with
      ⟨rfl, hd⟩ | ⟨⟨e, rfl⟩, hd⟩
    · exact .inl ⟨by simpa using hl, hd⟩
    · exact .inr ⟨by simpa using hl, hd⟩

/-- C87.  If all is there that it needs, some enabled key decrypts the input file to `pt`, the other enabled
keys refuse it (or do so too), and the disk does not fail, then the program ends, with status 0, and has
written `pt`. -/
theorem C87_decrypts (hs : StreamingSetup L isInst lib text inBuffer) {h : KeysetHandle} {ad input pt : Bytes}
    (H : Ready L isInst E os w.files fl h ad input) (hfit : FitsKeys h) (hmode : fl.mode = .decrypt)
    (hone : ∃ k ∈ h.keyset.key, Enabled k ∧ ∃ q, KeyGives L isInst k q ∧ DecryptsTo q ad input pt)
    (hall : EveryKey L isInst h fun q => DecryptsTo q ad input pt ∨ RefusesContent q ad input)
    (hreads : Disk.Reads disk) (hwrites : Disk.Writes disk) :
    (∃ x, streamingCli L isInst E os disk seed outBuffer fl w x) ∧
    ∀ x, streamingCli L isInst E os disk seed outBuffer fl w x → Leaves os fl w x 0 pt := by
  obtain ⟨p, kps, hk, hrun⟩ := ready_run (disk := disk) (seed := seed) (outBuffer := outBuffer) hs.config H
  rw [hmode] at hrun
  obtain ⟨⟨r, left, hex⟩, hd⟩ := decryptFile_exact hs hk hfit hreads hwrites hone hall
  refine ⟨⟨_, (hrun _).2 ⟨r, left, hex, rfl⟩⟩, fun x hx => ?_⟩
  obtain ⟨r, left, hc, hx⟩ := (hrun x).1 hx
  obtain ⟨rfl, rfl⟩ := hd r left hc
  rw [← hmode] at hx
  simpa using leaves_of hx

/-! ## One after the other -/

/-- C87.  A run that encrypts, with status 0, is undone by a run that decrypts with the same keyset and
associated data: it ends, with status 0, and has written the input of the first.  (The other enabled keys refuse
the ciphertext, or decrypt it to the same.) -/
theorem C87_round_trip (hs : StreamingSetup L isInst lib text inBuffer) (hlib : Spec.LawfulLibrary lib)
    (hos : Spec.Working os)
    {keysetPath inputPath cipherPath plainPath : Path} {flag : Option PyStr} {disk1 disk2 : Disk} {seed1 seed2 : Seed}
    {buffer1 buffer2 : Bytes} {x1 : Py Exit × World κ} {h : KeysetHandle} {ad pt c : Bytes}
    (hks : KeysetFile E os w.files keysetPath h) (hfit : FitsKeys h) (had : FlagBytes flag ad)
    (hin : w.files (os.file inputPath) = some pt) (hkc : os.file keysetPath ≠ os.file cipherPath)
    (hic : os.file inputPath ≠ os.file cipherPath) (hcp : os.file cipherPath ≠ os.file plainPath)
    (hrun : streamingCli L isInst E os disk1 seed1 buffer1 ⟨.encrypt, keysetPath, inputPath, cipherPath, flag⟩ w x1)
    (hok : exitStatus x1 = 0) (hc : x1.2.files (os.file cipherPath) = some c)
    (hall : EveryKey L isInst h fun q => DecryptsTo q ad c pt ∨ RefusesContent q ad c)
    (hreads : Disk.Reads disk2) (hwrites : Disk.Writes disk2) :
    (∃ x2, streamingCli L isInst E os disk2 seed2 buffer2 ⟨.decrypt, keysetPath, cipherPath, plainPath, flag⟩ x1.2 x2) ∧
    ∀ x2, streamingCli L isInst E os disk2 seed2 buffer2 ⟨.decrypt, keysetPath, cipherPath, plainPath, flag⟩ x1.2 x2 →
      exitStatus x2 = 0 ∧ x2.2.files (os.file plainPath) = some pt ∧
      ∀ f, f ≠ os.file cipherPath → f ≠ os.file plainPath → x2.2.files f = w.files f := by
  rcases C87_encrypt hs hlib (fun h' hk' => by cases keysetFile_unique hks hk'; exact hfit) rfl hrun with
    ⟨-, h1, -⟩ | ⟨h', ad', input, c', H, ⟨hl, hd⟩ | hl⟩
  · rw [hok] at h1; cases h1
  · cases keysetFile_unique hks H.keyset
    cases flagBytes_unique had H.flag
    obtain ⟨content, hcontent, rfl⟩ := H.input
    have h1 := hcontent.2
    dsimp only at h1 hd
    rw [hin] at h1; cases h1
    rw [if_neg hic] at hd
    have h2 := hl.files.1
    dsimp only at h2
    rw [hc] at h2; cases h2
    obtain ⟨k, hk, hprim, q, hgives, hdec⟩ := hd
    have H2 : Ready L isInst E os x1.2.files ⟨.decrypt, keysetPath, cipherPath, plainPath, flag⟩ h ad c := by
      refine ⟨had, ?_, H.primitive, hos.writable _, c, ⟨hos.readable _, hc⟩, (if_neg hcp).symm⟩
      obtain ⟨b, t, g1, g2, g3⟩ := hks
      exact ⟨b, t, fileHolds_carry (fun _ => rfl) g1 (hos.readable _) (hl.files.2 _ hkc), g2, g3⟩
    obtain ⟨hex, hev⟩ := C87_decrypts (disk := disk2) (seed := seed2) (outBuffer := buffer2) hs H2 hfit rfl
      ⟨k, hk, hprim.1, q, hgives, hdec⟩ hall hreads hwrites
    refine ⟨hex, fun x2 hx2 => ?_⟩
    have hl2 := hev x2 hx2
    refine ⟨hl2.status, hl2.files.1, fun f hf1 hf2 => ?_⟩
    rw [hl2.files.2 f hf2, hl.files.2 f hf1]
  · have := hl.status
    rw [hok] at this; cases this

/-- The keys of a new keyset. -/
theorem new_keyset_key (hs : StreamingSetup L isInst lib text inBuffer) (hlib : Spec.LawfulLibrary lib)
    (hw : WorkingLibrary lib) {t : KeyTemplate}
    (ht : .ok t ∈ templates .streamingAead) {d : UInt32} {draws : List UInt32} {h : KeysetHandle}
    (hnew : KeysetHandle.generateNew (registryOf isInst (registerStreamingAead L)) seed (d :: draws) t = some (.ok h)) :
    FitsKeys h ∧
    (∃ p, h.primitive isInst (registryOf isInst (registerStreamingAead L)) (L.cls .streamingAead) = .ok p) ∧
    PrimaryEncrypts L isInst text inBuffer h (2 ^ 43) ∧
    ∀ k ∈ h.keyset.key, ∀ k' ∈ h.keyset.key, k = k' := by
  obtain ⟨cc, kd, a, found, new, hu, hfit, made, hsound, hopens⟩ := C70_templates hlib ht seed
  have hup := C80_templates hlib.toSoundLibrary hw ht found new made
  rw [← hs.keys] at found
  obtain ⟨h', w, p, h1, h2, hwr, H⟩ := C64_new_keyset hs.config (registryOf_registered hs.config .streamingAead) ht
    (.rawStreamingAead found new made) hfit hu d draws
  rw [show registerPackage L .streamingAead = registerStreamingAead L from rfl, hnew] at h1
  cases h1
  cases hwr
  rw [h2]
  refine ⟨?_, ⟨p, H.primitive⟩, ?_, ?_⟩
  · intro k hk
    rw [h2] at hk
    rw [List.mem_singleton.1 hk]
    exact hfit
  · have hm := kps_mem H (List.mem_singleton.2 rfl)
    refine ⟨_, hm.1, ⟨hm.2.1, by rw [h2]⟩, a, ?_, hsound, hup, fun seed object buffer ad =>
      hopens.2 hw.hkdf _ object seed buffer ad⟩
    have := hm.2.2
    rw [L.rawStreamingAead.view_inj, hs.streams] at this
    exact this
  · intro k hk k' hk'
    rw [List.mem_singleton.1 hk, List.mem_singleton.1 hk']

/-- C87.  With a keyset that was made with any of the predefined templates, and a disk that does not fail, files
of up to 8 TiB can be encrypted and decrypted: both runs end, with status 0, and the second writes the file that
the first has read. -/
theorem C87_new_keyset (hs : StreamingSetup L isInst lib text inBuffer) (hlib : Spec.LawfulLibrary lib)
    (hwork : WorkingLibrary lib) (hos : Spec.Working os)
    {t : KeyTemplate} (ht : .ok t ∈ templates .streamingAead) {d : UInt32} {draws : List UInt32} {h : KeysetHandle}
    (hnew : KeysetHandle.generateNew (registryOf isInst (registerStreamingAead L)) seed (d :: draws) t = some (.ok h))
    {keysetPath inputPath cipherPath plainPath : Path} {flag : Option PyStr} {disk1 disk2 : Disk} {seed1 seed2 : Seed}
    {buffer1 buffer2 : Bytes} {ad pt : Bytes} (hks : KeysetFile E os w.files keysetPath h) (had : FlagBytes flag ad)
    (hin : w.files (os.file inputPath) = some pt) (hlen : pt.length ≤ 2 ^ 43)
    (hkc : os.file keysetPath ≠ os.file cipherPath) (hic : os.file inputPath ≠ os.file cipherPath)
    (hcp : os.file cipherPath ≠ os.file plainPath) (hb : buffer1 ≠ [])
    (hreads1 : Disk.Reads disk1) (hwrites1 : Disk.Writes disk1) (hreads2 : Disk.Reads disk2)
    (hwrites2 : Disk.Writes disk2) :
    (∃ x1, streamingCli L isInst E os disk1 seed1 buffer1 ⟨.encrypt, keysetPath, inputPath, cipherPath, flag⟩ w x1) ∧
    ∀ x1, streamingCli L isInst E os disk1 seed1 buffer1 ⟨.encrypt, keysetPath, inputPath, cipherPath, flag⟩ w x1 →
      exitStatus x1 = 0 ∧
      (∃ x2, streamingCli L isInst E os disk2 seed2 buffer2 ⟨.decrypt, keysetPath, cipherPath, plainPath, flag⟩ x1.2 x2) ∧
      ∀ x2, streamingCli L isInst E os disk2 seed2 buffer2 ⟨.decrypt, keysetPath, cipherPath, plainPath, flag⟩ x1.2 x2 →
        exitStatus x2 = 0 ∧ x2.2.files (os.file plainPath) = some pt ∧
        ∀ f, f ≠ os.file cipherPath → f ≠ os.file plainPath → x2.2.files f = w.files f := by
  obtain ⟨hfit, hprim, henc, hone⟩ := new_keyset_key hs hlib hwork ht hnew
  have H : Ready L isInst E os w.files ⟨.encrypt, keysetPath, inputPath, cipherPath, flag⟩ h ad pt :=
    ⟨had, hks, hprim, hos.writable _, pt, ⟨hos.readable _, hin⟩, (if_neg hic).symm⟩
  obtain ⟨hex, hev⟩ := C87_encrypts (disk := disk1) (seed := seed1) (outBuffer := buffer1) hs hlib H hfit rfl henc hlen
    hreads1 hwrites1 hb
  refine ⟨hex, fun x1 hx1 => ?_⟩
  obtain ⟨c, hl, hd⟩ := hev x1 hx1
  refine ⟨hl.status, C87_round_trip hs hlib hos hks hfit had hin hkc hic hcp hx1 hl.status hl.files.1 ?_ hreads2 hwrites2⟩
  obtain ⟨k, hk, -, q, ⟨o, ho, hq⟩, hdec⟩ := hd
  rintro k' hk' - q' ⟨o', ho', hq'⟩
  cases hone k hk k' hk'
  rw [ho] at ho'; cases ho'
  subst hq hq'
  exact .inl hdec

end Tink.Props
