import Verif.Props.CliEncryptedKeyset
import Verif.Props.CliExamples

/-!
# C108: the program for encrypted keysets on concrete files
-/

namespace Tink.Props
open Spec Cli Config ToyConfig KeysetJsonExample

namespace EncryptedKeysetExample
open CliExample

/-- A server that reverses the bytes, and writes the name of the key and the associated data before
them. -/
def server : Gcp.ApiClient Nat where
  encrypt n name pt ad := (n + 1, .ok (bytes name ++ ad ++ pt.reverse))
  decrypt n name ct ad := (n + 1,
    if (bytes name ++ ad).isPrefixOf ct then .ok (ct.drop (bytes name ++ ad).length).reverse
    else .error (.other 400))
  isApiError _ := true

/-- One that refuses to encrypt. -/
def refusing : Gcp.ApiClient Nat := { server with encrypt := fun n _ _ _ => (n, .error (.other 403)) }

/-- One that encrypts, but loses a byte. -/
def losing : Gcp.ApiClient Nat := { server with
  encrypt := fun n name pt ad => (n, .ok (bytes name ++ ad ++ pt.reverse.drop 1)) }

/-- One that keeps what it gets, and returns a number. -/
def vault : Gcp.ApiClient (List Bytes) where
  encrypt s _ pt _ := (s ++ [pt], .ok [UInt8.ofNat s.length])
  decrypt s _ ct _ := (s, match ct with
    | [i] => match s[i.toNat]? with
      | some b => .ok b
      | none => .error (.other 400)
    | _ => .error (.other 400))
  isApiError _ := true

def apiOf {κ : Type} (c : Gcp.ApiClient κ) : PyStr → Py (Gcp.ApiClient κ) := fun path =>
  if path = py! "credentials.json" then .ok c else .error .osError

/-- Libraries that encode a `str`, and that refuse it. -/
def encoding : PyStr → Py Bytes := utf8Encode
def strict : PyStr → Py Bytes := fun _ => .error .typeError

def run {κ : Type} (c : Gcp.ApiClient κ) (convert : PyStr → Py Bytes) (seed : Seed) (mode : KeysetMode)
    (input output : Option Path) : Run κ Exit :=
  encryptedKeysetCli library isInst E (apiOf c) convert os seed [42] ⟨mode, py! "k", input, output⟩ kek
    (py! "credentials.json") (some (py! "é"))

/-- A file at `k` from before, an input at `i`. -/
def before : World Nat := filesAt (by! "an old keyset") [] [1, 2, 3]

def generated (seed : Seed) := run server encoding seed .generate none none before
def encrypted (seed : Seed) := run server encoding 5 (.use .encrypt) (some (py! "i")) (some (py! "o")) (generated seed).2
def decrypted (seed : Seed) := run server encoding 6 (.use .decrypt) (some (py! "o")) (some (py! "q")) (encrypted seed).2

theorem kekFor {κ : Type} (c : Gcp.ApiClient κ) : KekFor (apiOf c) kek (py! "credentials.json") c
    (py! "projects/a/locations/l/keyRings/r/cryptoKeys/k") := by
  refine ⟨rfl, ?_, rfl⟩
  obtain ⟨n, p, l, r, k, hn, hk⟩ :=
    (Gcp.matchKeyName_iff (py! "projects/a/locations/l/keyRings/r/cryptoKeys/k")).1 (by decide +kernel)
  exact ⟨n, p, l, r, k, hk, hn⟩

theorem keysetData : KeysetData encoding (by! "encrypted keyset example") := by
  show utf8Encode _ = _
  decide +kernel

/-- The three runs; the file that was there before is replaced. -/
example : exitStatus (generated 7) = 0 ∧ exitStatus (encrypted 7) = 0 ∧ exitStatus (decrypted 7) = 0 ∧
    (decrypted 7).2.files 113 = some [1, 2, 3] ∧
    (encrypted 7).2.files 111 = some [1, 0, 0, 0, 42, 1, 2, 3, 4, 5, 6, 7, 8, 7, 0xC3, 0xA9, 1, 2, 3] := by
  decide +kernel

/-- A server that refuses: the old keyset is gone. -/
example : exitStatus (run refusing encoding 7 .generate none none before) = 1 ∧
    before.files 107 = some (by! "an old keyset") ∧
    (run refusing encoding 7 .generate none none before).2.files 107 = some [] := by
  decide +kernel

/-- A library that refuses: the same. -/
example : exitStatus (run server strict 7 .generate none none before) = 1 ∧
    (run server strict 7 .generate none none before).2.files 107 = some [] := by
  decide +kernel

/-- A server that would not decrypt what it has encrypted is found out, but too late. -/
example : exitStatus (run losing encoding 7 .generate none none before) = 1 ∧
    (run losing encoding 7 .generate none none before).2.files 107 = some [] := by
  decide +kernel

/-- The keyset file is not an encrypted keyset: nothing changes. -/
example : exitStatus (run server encoding 7 (.use .encrypt) (some (py! "i")) (some (py! "o")) before) = 1 ∧
    (run server encoding 7 (.use .encrypt) (some (py! "i")) (some (py! "o")) before).2.files 111 = none := by
  decide +kernel

/-- The new keyset of the toy library. -/
theorem toy_keyset {t : KeyTemplate} (ht : Templates.AES128_GCM = .ok t) (seed : Seed)
    (hfits : Fits ⟨t.typeUrl, [UInt8.ofNat seed], KeyMaterialType.SYMMETRIC⟩) :
    ∃ h, NewAeadKeyset library isInst seed [42] h := by
  obtain ⟨h, _, g1, _, _⟩ := C66_aead (seed := seed) lawful (registryOf_registered lawful .aead) (aes128Gcm_mem ht)
    (a := ToyConfig.aead [UInt8.ofNat seed])
    (if_pos (template_type (aes128Gcm_mem ht))) rfl rfl hfits rfl
    (fun _ pt ad ct h => by cases h; exact ⟨pack_ne_nil _ _ _, unpack_pack ..⟩) 42 []
  exact ⟨h, t, ht, g1⟩

/-- The hypotheses of `C108_generate_loses`. -/
example {t : KeyTemplate} (ht : Templates.AES128_GCM = .ok t) : ∃ h : KeysetHandle,
    NewAeadKeyset library isInst 7 [42] h ∧
    Updated 107 [] before.files (run refusing encoding 7 .generate none none before).2.files := by
  obtain ⟨h, hn⟩ := toy_keyset ht 7 (toy_fits (template_type (aes128Gcm_mem ht)) (by decide))
  refine ⟨h, hn, (C108_generate_loses (E := E) lawful (apiOf refusing) encoding os 7 [42] (py! "k") none none
    (text := some (py! "é")) (ad := [0xC3, 0xA9]) (by unfold FlagBytes; decide +kernel) (kekFor refusing) hn ?_ rfl).2⟩
  rintro kad e _ ⟨_, _, _, _, h, _⟩
  cases h

/-- The hypothesis of `C108_str_refused`. -/
example : exitStatus (run server strict 7 .generate none none before) = 1 :=
  (C108_str_refused (E := E) lawful (apiOf server) (convert := strict) (fun _ h => nomatch h) os 7 [42] (py! "k")
    none none kek (py! "credentials.json") (some (py! "é")) before).1

/-- Two keys in the vault, and one file: the hypotheses of `C108_only_encrypted`. -/
def empty : World (List Bytes) := { files := fun _ => none, kms := [], blobs := fun _ _ => none }

example : exitStatus (run vault encoding 7 .generate none none empty) = 0 ∧
    exitStatus (run vault encoding 8 .generate none none empty) = 0 ∧
    (run vault encoding 7 .generate none none empty).2.kms ≠
      (run vault encoding 8 .generate none none empty).2.kms := by
  decide +kernel

def infoOf (seed : Seed) : Option KeysetInfo :=
  match Templates.AES128_GCM with
  | .ok t => match KeysetHandle.generateNew (registryOf isInst (registerAead library)) seed [42] t with
    | some (.ok h) => some (keysetInfo h.keyset)
    | _ => none
  | .error _ => none

theorem infoOf_new {seed : Seed} {h : KeysetHandle} (hn : NewAeadKeyset library isInst seed [42] h) :
    infoOf seed = some (keysetInfo h.keyset) := by
  obtain ⟨t, ht, hg⟩ := hn
  simp only [infoOf, ht, hg]

example : (run vault encoding 7 .generate none none empty).2.files 107 =
    (run vault encoding 8 .generate none none empty).2.files 107 := by
  refine C108_only_encrypted (E := E) lawful (apiOf vault) encoding os (seed := 7) (seed' := 8) (draws := [42])
    (draws' := [42]) (keysetPath := py! "k") (w := empty) (w' := empty) (by decide +kernel) (by decide +kernel) ?_
  rintro c name kad h h' e e' h1 _ h3 h4 ⟨_, _, _, _, h5, _⟩ ⟨_, _, _, _, h6, _⟩
  obtain ⟨rfl, rfl⟩ := kek_unique (kekFor vault) h1
  have hi : infoOf 7 = infoOf 8 := by decide +kernel
  rw [infoOf_new h3, infoOf_new h4] at hi
  refine ⟨Option.some.inj hi, ?_⟩
  have h5 := congrArg Prod.snd h5
  have h6 := congrArg Prod.snd h6
  exact (Except.ok.inj h5).symm.trans (Except.ok.inj h6)

/-- The server always decrypts what it has encrypted. -/
theorem server_decrypts (name : PyStr) (ad pt : Bytes) (s : Nat) :
    (server.decrypt s name (bytes name ++ ad ++ pt.reverse) ad).2 = .ok pt := by
  have h : (bytes name ++ ad).isPrefixOf (bytes name ++ ad ++ pt.reverse) = true := by
    rw [List.isPrefixOf_iff_prefix]; exact List.prefix_append _ _
  simp only [server, h, if_true, List.drop_left, List.reverse_reverse]

/-- The hypotheses of `C108_generated`, for a later state of the server. -/
example : ∃ c name kad h, KekFor (apiOf server) kek (py! "credentials.json") c name ∧ KeysetData encoding kad ∧
    NewAeadKeyset library isInst 7 [42] h ∧
    EncryptedKeysetFile E c name kad 99 os (generated 7).2.files (py! "k") h :=
  C108_generated (E := E) lawful ToyJson.lawful (apiOf server) encoding (os := os) (os' := os) same (seed := 7)
    (draws := [42]) (by decide) (keysetPath := py! "k") (text := some (py! "é")) (w := before)
    (w2 := { (generated 7).2 with kms := 99 }) (by decide +kernel) rfl (by
      rintro c name kad h1 h2 key s1 ct hc
      obtain ⟨rfl, rfl⟩ := kek_unique (kekFor server) h1
      cases hc
      exact ⟨by simp [bytes], server_decrypts _ _ _ _⟩) rfl

/-- The hypotheses of `C108_generate_encrypt_decrypt`. -/
example {t : KeyTemplate} (ht : Templates.AES128_GCM = .ok t) :=
  C108_generate_encrypt_decrypt (E := E) (seed := 7) (seed1 := 5) (seed2 := 6) (d := 42)
    (draws := []) lawful (roomy true) ToyJson.lawful working (by decide) ht (a := ToyConfig.aead [7])
    (if_pos (template_type (aes128Gcm_mem ht))) rfl rfl
    (toy_fits (template_type (aes128Gcm_mem ht)) (by decide)) rfl
    (fun _ pt ad ct h => by cases h; exact ⟨pack_ne_nil _ _ _, unpack_pack ..⟩)
    (kekFor server) keysetData (w := before) (fun h hn => by
      have hs : Except.isOk h.keyset.serializeToString = true := by
        have : (match Templates.AES128_GCM with
          | .ok t => match KeysetHandle.generateNew (registryOf isInst (registerAead library)) 7 [42] t with
            | some (.ok h) => Except.isOk h.keyset.serializeToString
            | _ => false
          | .error _ => false) = true := by decide +kernel
        obtain ⟨t', ht', hg⟩ := hn
        rw [ht'] at this
        dsimp only at this
        rw [hg] at this
        exact this
      cases hk : h.keyset.serializeToString with
      | error e => rw [hk] at hs; cases hs
      | ok b => exact ⟨b, _, _, rfl, rfl, by simp [bytes], fun s => server_decrypts _ _ _ s⟩)
    (text := some (py! "é")) (ad := [0xC3, 0xA9]) (by unfold FlagBytes; decide +kernel)
    (keysetPath := py! "k") (inputPath := py! "i") (cipherPath := py! "o") (plainPath := py! "o")
    (pt := [1, 2, 3]) rfl (by decide) (by decide) rfl

end EncryptedKeysetExample
end Tink.Props
