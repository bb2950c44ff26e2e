import Verif.Props.CliRoundTrip
import Verif.Spec.EncryptedKeyset

/-!
# The program for encrypted keysets, step by step
-/

namespace Tink.Cli
open Spec Config Props

section
variable {κ α : Type}

/-- Opening the file, a call of the KMS in a `try` block, and writing. -/
theorem opens_attempt {os : Os} {path : Path} {w : World κ} (g : κ → κ × Py PyStr) :
    EndsAfterOpening os path True (fun b => ∃ t, (g w.kms).2 = .ok t ∧ utf8Encode t = .ok b) w
      ((do openWrite os path
           let x ← attemptKms g
           tryTink x fun t => do
             writeText os path t
             return some 0 : Run κ Exit) w) := by
  cases hw : os.writable path with
  | false =>
    refine ⟨?_, ?_⟩ <;> simp only [run_bind, openWrite, hw]
    · rfl
    · exact .notOpened hw
  | true =>
    have e : (do openWrite os path
                 let x ← attemptKms g
                 tryTink x fun t => do
                   writeText os path t
                   return some 0 : Run κ Exit) w =
        tryTink (g w.kms).2 (fun t => do writeText os path t; return some 0)
          { w.put (os.file path) [] with kms := (g w.kms).1 } := by
      simp only [run_bind, openWrite, hw, if_true, attemptKms, World.put]
    rw [e]
    rcases try_cases (g w.kms).2 (fun t => do writeText os path t; return some 0)
        { w.put (os.file path) [] with kms := (g w.kms).1 } with ⟨t, h1, h2⟩ | ⟨h1, r, h2, h3⟩
    · rw [h2, h1]
      cases hb : utf8Encode t with
      | error x =>
        refine ⟨?_, ?_⟩ <;> simp only [run_bind, writeText, run_lift, hb]
        · rfl
        · exact .emptied trivial (by rintro b ⟨t', h, h'⟩; cases h; rw [hb] at h'; cases h') hw (put_updated _ _ _)
      | ok b =>
        have hu : ∀ c, Updated (os.file path) c w.files (fun f => if f = os.file path then some c else
            if f = os.file path then some [] else w.files f) :=
          fun c => ⟨if_pos rfl, fun g hg => by simp only [if_neg hg]⟩
        refine ⟨?_, ?_⟩ <;> simp only [run_bind, writeText, run_lift, hb, writeBytes, World.put]
        · cases os.stored path b <;> rfl
        · cases hs : os.stored path b with
          | none => exact .written trivial ⟨t, rfl, hb⟩ hw hs (hu b)
          | some k => exact .cutOff trivial ⟨t, rfl, hb⟩ hw hs (hu _)
    · rw [h3]
      refine ⟨rfl, ?_⟩
      show OpensFirst os path _ _ w.files (status r) _
      rw [h2]
      exact .emptied trivial (by rintro b ⟨t, h, _⟩; exact h1 t h) hw (put_updated _ _ _)

/-- A call of the KMS in a `try` block, before other steps. -/
theorem ends_attempt {os : Os} {path : Path} {w : World κ} (g : κ → κ × Py α) (f : α → Run κ Exit)
    {Q : α → Bytes → Prop}
    (h : ∀ a, (g w.kms).2 = .ok a →
      EndsByWriting os path (Q a) { w with kms := (g w.kms).1 } (f a { w with kms := (g w.kms).1 })) :
    EndsByWriting os path (fun o => ∃ a, (g w.kms).2 = .ok a ∧ Q a o) w
      ((attemptKms g >>= fun x => tryTink x f) w) := by
  have e : (attemptKms g >>= fun x => tryTink x f) w =
      tryTink (g w.kms).2 f { w with kms := (g w.kms).1 } := rfl
  rw [e]
  have := ends_step (step_try (g w.kms).2 f { w with kms := (g w.kms).1 }) h
  exact ⟨this.blobs, this.files⟩

/-- The key of the KMS. -/
theorem step_kek (api : PyStr → Py (Gcp.ApiClient κ)) (uri credentials : PyStr)
    (f : RemoteAead κ → Run κ Exit) (w : World κ) :
    Steps (fun remote => ∃ c name, KekFor api uri credentials c name ∧ remote = Gcp.gcpKmsAead c name) f w
      (tryTink (do
        let bound ← Gcp.initKeyUri (some uri)
        let c ← api credentials
        return (bound, c) : Py (Option PyStr × Gcp.ApiClient κ)) (fun (bound, c) =>
          tryTink (Gcp.getAead c bound uri) f) w) := by
  refine step_congr (step_bind (step_try _ _ w) fun a _ => step_try _ _ w) fun remote => ?_
  unfold KekFor
  constructor
  · rintro ⟨⟨bound, c⟩, h1, h5⟩
    obtain ⟨bound', h3, h1⟩ := bind_ok_iff.1 h1
    obtain ⟨c', h4, h1⟩ := bind_ok_iff.1 h1
    cases h1
    unfold Gcp.getAead at h5
    cases hst' : startsWith uri Gcp.GCP_KEYURI_PREFIX with
    | false =>
      simp only [hst'] at h5
      exact absurd h5 (by simp)
    | true =>
      obtain ⟨name, hn⟩ := startsWith_iff.1 hst'
      have hd : uri.drop Gcp.GCP_KEYURI_PREFIX.length = name := by rw [hn, List.drop_left]
      have hne : uri ≠ [] := by rw [hn]; simp [Gcp.GCP_KEYURI_PREFIX]
      have hb : bound = some uri := by
        unfold Gcp.initKeyUri at h3
        simp only [hne, hst', if_false, if_true] at h3
        cases h3; rfl
      subst hb
      simp only [hst', hd] at h5
      have h5 : Gcp.GcpKmsAead.create c name = .ok remote := by simpa using h5
      rcases gcpGet c name with ⟨n, p, l, r, k, g1, g2, g3⟩ | ⟨_, g3⟩
      · rw [g3] at h5; cases h5
        exact ⟨c, name, ⟨hn, ⟨n, p, l, r, k, g1, g2⟩, h4⟩, rfl⟩
      · rw [g3] at h5; cases h5
  · rintro ⟨c, name, ⟨hn, ⟨n, p, l, r, k, g1, g2⟩, h4⟩, h5⟩
    have hst' : startsWith uri Gcp.GCP_KEYURI_PREFIX = true := startsWith_iff.2 ⟨name, hn⟩
    have hd : uri.drop Gcp.GCP_KEYURI_PREFIX.length = name := by
      rw [hn]; exact List.drop_left
    refine ⟨(some uri, c), bind_ok_iff.2 ⟨some uri, ?_, bind_ok_iff.2 ⟨c, h4, rfl⟩⟩, ?_⟩
    · unfold Gcp.initKeyUri
      have hne : uri ≠ [] := by rw [hn]; simp
      simp only [hne, hst', if_false, if_true]
    · rw [h5]
      unfold Gcp.getAead
      simp only [hst', hd]
      rcases gcpGet c name with ⟨n, p, l, r, k, g1, g2, g3⟩ | ⟨g3, _⟩
      · simpa using g3
      · exact absurd ⟨n, p, l, r, k, g1, g2⟩ g3

theorem kek_unique {api : PyStr → Py (Gcp.ApiClient κ)} {uri credentials : PyStr} {c c' : Gcp.ApiClient κ}
    {name name' : PyStr} (h : KekFor api uri credentials c name) (h' : KekFor api uri credentials c' name') :
    c = c' ∧ name = name' := by
  obtain ⟨h1, _, h3⟩ := h
  obtain ⟨h1', _, h3'⟩ := h'
  rw [h3] at h3'; cases h3'
  rw [h1] at h1'
  exact ⟨rfl, List.append_cancel_left h1'⟩

theorem withText_ok {convert : PyStr → Py Bytes} {text : PyStr}
    {call : κ → Bytes → Bytes → κ × Py Bytes} {s : κ} {b r : Bytes} :
    (withText convert text call s b).2 = .ok r ↔
      ∃ ad, convert text = .ok ad ∧ (call s b ad).2 = .ok r := by
  unfold withText
  cases h : convert text with
  | error e => simp
  | ok ad => simp

end
end Tink.Cli

namespace Tink.Props
open Spec Cli Config

section
variable {κ : Type}

theorem gcp_encrypt_iff {c : Gcp.ApiClient κ} {name : PyStr} {s s' : κ} {b r ad : Bytes} :
    (Gcp.gcpKmsAead c name).encrypt s b ad = (s', .ok r) ↔ c.encrypt s name b ad = (s', .ok r) := by
  unfold Gcp.gcpKmsAead
  cases hc : c.encrypt s name b ad with
  | mk s1 x =>
    simp only [hc]
    cases x with
    | ok b => exact Iff.rfl
    | error e =>
      simp only [Gcp.convertApiError]
      split <;> simp

theorem gcp_decrypt_iff {c : Gcp.ApiClient κ} {name : PyStr} {s : κ} {b r ad : Bytes} :
    ((Gcp.gcpKmsAead c name).decrypt s b ad).2 = .ok r ↔ (c.decrypt s name b ad).2 = .ok r := by
  unfold Gcp.gcpKmsAead
  cases hc : c.decrypt s name b ad with
  | mk s1 x =>
    simp only [hc]
    cases x with
    | ok b => exact Iff.rfl
    | error e =>
      simp only [Gcp.convertApiError]
      split <;> simp

theorem convertDecode_ok {α : Type} {x : Py α} {a : α} : convertDecodeError x = .ok a ↔ x = .ok a := by
  unfold convertDecodeError
  split
  · simp
  · exact Iff.rfl

theorem encryptRemotely_iff {convert : PyStr → Py Bytes} {c : Gcp.ApiClient κ} {name : PyStr} {s : κ}
    {h : KeysetHandle} {e : EncryptedKeyset} :
    (encryptKeysetRemotely h.keyset (withText convert keysetEncryptionText (Gcp.gcpKmsAead c name).encrypt)
      (withText convert keysetEncryptionText (Gcp.gcpKmsAead c name).decrypt) s).2 = .ok e ↔
    ∃ ad, KeysetData convert ad ∧ EncryptedBy c name ad s h e := by
  unfold encryptKeysetRemotely EncryptedBy KeysetData
  change _ ↔ ∃ ad, convert keysetEncryptionText = _ ∧ _
  cases hs : h.keyset.serializeToString with
  | error x => simp
  | ok ser =>
    dsimp only
    unfold withText
    cases hc : convert keysetEncryptionText with
    | error x => simp
    | ok ad =>
      dsimp only
      cases he : (Gcp.gcpKmsAead c name).encrypt s ser ad with
      | mk s1 x =>
        cases x with
        | error x =>
          refine ⟨fun h => (by cases h), ?_⟩
          rintro ⟨ad', h1, ser', s1', pt, h2, h3, _⟩
          cases h1; cases h2
          rw [← gcp_encrypt_iff, he] at h3
          cases h3
        | ok ct =>
          dsimp only
          rw [bind_ok_iff]
          constructor
          · rintro ⟨⟨⟩, h1, h2⟩
            cases h2
            rw [convertDecode_ok] at h1
            obtain ⟨pt, h3, h1⟩ := bind_ok_iff.1 h1
            obtain ⟨ks2, h4, h1⟩ := bind_ok_iff.1 h1
            refine ⟨ad, rfl, ser, s1, pt, rfl, gcp_encrypt_iff.1 he, gcp_decrypt_iff.1 h3, ?_, rfl⟩
            split at h1
            · cases h1
            · rename_i hk
              rw [h4, Decidable.not_not.1 hk]
          · rintro ⟨ad', h1, ser', s1', pt, h2, h3, h4, h5, h6⟩
            cases h1; cases h2
            rw [← gcp_encrypt_iff, he] at h3
            cases h3
            refine ⟨(), ?_, ?_⟩
            · rw [convertDecode_ok]
              refine bind_ok_iff.2 ⟨pt, gcp_decrypt_iff.2 h4, bind_ok_iff.2 ⟨_, h5, ?_⟩⟩
              rw [if_neg (by simp)]
            · obtain ⟨x, y⟩ := e
              cases h6
              rfl

end

section
variable {σ δ ε τ S P C F κ : Type} [DecidableEq C]
variable {L : Library σ δ ε τ S P C} {isInst : P → C → Bool} {E : JsonFormatEnv F}

omit [DecidableEq C] in
theorem serializeRemotely_iff {convert : PyStr → Py Bytes} {c : Gcp.ApiClient κ} {name : PyStr} {s : κ}
    {h : KeysetHandle} {t : PyStr} :
    (serializeEncryptedRemotely E h (withText convert keysetEncryptionText (Gcp.gcpKmsAead c name).encrypt)
      (withText convert keysetEncryptionText (Gcp.gcpKmsAead c name).decrypt) s).2 = .ok t ↔
    ∃ ad e, KeysetData convert ad ∧ EncryptedBy c name ad s h e ∧ EncryptedText E e t := by
  unfold serializeEncryptedRemotely
  dsimp only
  rw [bind_ok_iff]
  constructor
  · rintro ⟨e, h1, h2⟩
    obtain ⟨ad, h3, h4⟩ := encryptRemotely_iff.1 h1
    exact ⟨ad, e, h3, h4, getvalue_ok h2⟩
  · rintro ⟨ad, e, h1, h2, h3⟩
    refine ⟨e, encryptRemotely_iff.2 ⟨ad, h1, h2⟩, ?_⟩
    rw [h3]; rfl

theorem parseRemotely_iff {convert : PyStr → Py Bytes} {c : Gcp.ApiClient κ} {name : PyStr} {s : κ}
    {h : KeysetHandle} {t : PyStr} :
    (parseEncryptedRemotely E t (withText convert keysetEncryptionText (Gcp.gcpKmsAead c name).decrypt) s).2 =
      .ok h ↔
    ∃ ad e pt, KeysetData convert ad ∧ (jsonKeysetReader E t).readEncrypted = .ok e ∧ e.encryptedKeyset ≠ [] ∧
      (c.decrypt s name e.encryptedKeyset ad).2 = .ok pt ∧ Keyset.fromString pt = .ok h.keyset ∧
      Valid h.keyset := by
  -- the same as `read_with_associated_data` with an AEAD that answers like the server does now
  have key : (parseEncryptedRemotely E t
      (withText convert keysetEncryptionText (Gcp.gcpKmsAead c name).decrypt) s).2 =
      KeysetHandle.readWithAssociatedData (jsonKeysetReader E t)
        ⟨fun _ _ _ => .error .tinkError, fun ct _ =>
          (withText convert keysetEncryptionText (Gcp.gcpKmsAead c name).decrypt s ct).2⟩ [] := by
    unfold parseEncryptedRemotely KeysetHandle.readWithAssociatedData decryptKeysetRemotely decryptKeyset
    cases hr : (jsonKeysetReader E t).readEncrypted with
    | error x => rfl
    | ok e =>
      cases ha : assertEnoughEncryptedKeyMaterial e with
      | error x => simp [bind, Except.bind, ha]
      | ok u => simp [bind, Except.bind, pure, Except.pure, ha]
  rw [key, read_ok_iff]
  constructor
  · rintro ⟨e, pt, h1, h2, h3, h4, h5⟩
    obtain ⟨ad, h6, h7⟩ := withText_ok.1 h3
    exact ⟨ad, e, pt, h6, h1, h2, gcp_decrypt_iff.1 h7, h4, h5⟩
  · rintro ⟨ad, e, pt, h6, h1, h2, h3, h4, h5⟩
    exact ⟨e, pt, h1, h2, withText_ok.2 ⟨ad, h6, gcp_decrypt_iff.2 h3⟩, h4, h5⟩

end
end Tink.Props
