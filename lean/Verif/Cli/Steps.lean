import Verif.Cli.Lemmas
import Verif.Props.Config
import Verif.Props.KmsClients

/-!
# The example programs, step by step
-/

namespace Tink.Cli
open Spec Config Props

section
variable {σ δ ε τ S P C F κ : Type} [DecidableEq C]
variable {L : Library σ δ ε τ S P C} {isInst : P → C → Bool} {E : JsonFormatEnv F}

theorem fileHolds_unique {os : Os} {files : Nat → Option Bytes} {path : Path} {b b' : Bytes}
    (h : FileHolds os files path b) (h' : FileHolds os files path b') : b = b' := by
  have := h.2; rw [h'.2] at this; cases this; rfl

theorem keysetFile_unique {os : Os} {files : Nat → Option Bytes} {path : Path} {h h' : KeysetHandle}
    (H : KeysetFile E os files path h) (H' : KeysetFile E os files path h') : h = h' := by
  obtain ⟨b, t, h1, h2, h3⟩ := H
  obtain ⟨b', t', h1', h2', h3'⟩ := H'
  cases fileHolds_unique h1 h1'
  rw [textOf_iff] at h2 h2'
  rw [h2] at h2'; cases h2'
  rw [h3] at h3'; cases h3'
  rfl

theorem primitiveOf_unique {os : Os} {files : Nat → Option Bytes} {ss : List (Stmt P C)} {path : Path}
    {k : PrimClass} {p p' : P} (H : PrimitiveOf L isInst E os files ss path k p)
    (H' : PrimitiveOf L isInst E os files ss path k p') : p = p' := by
  obtain ⟨h, h1, h2⟩ := H
  obtain ⟨h', h1', h2'⟩ := H'
  cases keysetFile_unique h1 h1'
  rw [h2] at h2'; cases h2'; rfl

theorem flagBytes_iff (text : Option PyStr) (b : Bytes) : FlagBytes text b ↔ flagBytes text = .ok b := by
  unfold FlagBytes
  cases text with
  | none => exact Iff.rfl
  | some s => cases s <;> exact Iff.rfl

theorem flagBytes_unique {text : Option PyStr} {b b' : Bytes} (h : FlagBytes text b)
    (h' : FlagBytes text b') : b = b' := by
  unfold FlagBytes at h h'
  rw [h] at h'; cases h'; rfl

theorem registered_ok (hl : LawfulConfig L isInst) (pkg : Package) {β : Type}
    (f : Registry P C → Run κ β) (w : World κ) :
    (registered isInst (registerPackage L pkg) >>= f) w =
      f (registryOf isInst (registerPackage L pkg)) w := by
  have := (C64_never_fails hl (ops := []) ⟨by simp, by simp⟩).1 pkg
  change (execAll isInst (registerPackage L pkg) {}).2 = .ok () at this
  unfold registered registryOf
  rw [run_bind]
  cases h : execAll isInst (registerPackage L pkg) {} with
  | mk r o =>
    rw [h] at this
    cases this
    rfl

theorem registryOf_registered (hl : LawfulConfig L isInst) (pkg : Package) :
    PackageRegistered L (registryOf isInst (registerPackage L pkg)) pkg :=
  C64_registered (before := []) (after := []) hl (.inl rfl) ⟨by simp, by simp⟩ (by simp)

omit [DecidableEq C] in
theorem keyset_cases (E : JsonFormatEnv F) (os : Os) (path : Path) (f : KeysetHandle → Run κ Exit)
    (w : World κ) :
    (∃ h, KeysetFile E os w.files path h ∧ withKeyset E os path f w = f h w) ∨
    ((∀ h, ¬ KeysetFile E os w.files path h) ∧ ∃ r, status r = 1 ∧ withKeyset E os path f w = (r, w)) := by
  have key : withKeyset E os path f w =
      (readBytes os path >>= fun b => Run.lift (decodeText b) >>= fun text =>
        tryTink (JsonProtoKeysetFormat.parse E text .secretKeyAccess) f) w := by
    unfold withKeyset readText
    simp only [run_bind]
    cases readBytes os path w with
    | mk o w' => cases o <;> rfl
  rw [key]
  rcases read_cases os path _ w with ⟨b, h1, _, h2⟩ | ⟨h1, h2⟩
  · rw [h2]
    rcases lift_cases (decodeText b) _ w with ⟨t, h3, h4⟩ | ⟨h3, r, h4, h5⟩
    · rw [h4]
      rcases try_cases (JsonProtoKeysetFormat.parse E t .secretKeyAccess) f w with
        ⟨h, h5, h6⟩ | ⟨h5, r, h6, h7⟩
      · exact .inl ⟨h, ⟨b, t, h1, (textOf_iff b t).2 h3, h5⟩, h6⟩
      · refine .inr ⟨?_, r, h6, h7⟩
        rintro h ⟨b', t', g1, g2, g3⟩
        cases fileHolds_unique h1 g1
        rw [textOf_iff, h3] at g2; cases g2
        exact h5 h g3
    · rw [h5]
      refine .inr ⟨?_, r, h4, rfl⟩
      rintro h ⟨b', t', g1, g2, g3⟩
      cases fileHolds_unique h1 g1
      exact h3 t' ((textOf_iff _ _).1 g2)
  · rw [h2]
    refine .inr ⟨?_, _, rfl, rfl⟩
    rintro h ⟨b', t', g1, _⟩
    exact h1 b' g1

/-- A step either goes on with a value, or ends the program with status 1. -/
def Step {α : Type} (V : α → Prop) (f : α → Run κ Exit) (w : World κ) (x : Py Exit × World κ) : Prop :=
  (∃ a, V a ∧ x = f a w) ∨ ((∀ a, ¬ V a) ∧ ∃ r, status r = 1 ∧ x = (r, w))

/-- And the value is unique. -/
structure Steps {α : Type} (V : α → Prop) (f : α → Run κ Exit) (w : World κ) (x : Py Exit × World κ) :
    Prop where
  step : Step V f w x
  unique : ∀ a b, V a → V b → a = b

theorem step_lift {α : Type} (x : Py α) (f : α → Run κ Exit) (w : World κ) :
    Steps (fun a => x = .ok a) f w ((Run.lift x >>= f) w) :=
  ⟨lift_cases x f w, fun a b h h' => by rw [h] at h'; cases h'; rfl⟩

theorem step_try {α : Type} (x : Py α) (f : α → Run κ Exit) (w : World κ) :
    Steps (fun a => x = .ok a) f w (tryTink x f w) :=
  ⟨try_cases x f w, fun a b h h' => by rw [h] at h'; cases h'; rfl⟩

theorem step_flag (text : Option PyStr) (f : Bytes → Run κ Exit) (w : World κ) :
    Steps (FlagBytes text) f w ((Run.lift (flagBytes text) >>= f) w) := by
  have : FlagBytes text = fun b => flagBytes text = .ok b := funext fun b => propext (flagBytes_iff text b)
  rw [this]
  exact step_lift _ _ _

theorem step_read (os : Os) (path : Path) (f : Bytes → Run κ Exit) (w : World κ) :
    Steps (FileHolds os w.files path) f w ((readBytes os path >>= f) w) := by
  refine ⟨?_, fun a b h h' => fileHolds_unique h h'⟩
  rcases read_cases os path f w with ⟨b, h1, _, h2⟩ | ⟨h1, h2⟩
  · exact .inl ⟨b, h1, h2⟩
  · exact .inr ⟨h1, _, rfl, h2⟩

omit [DecidableEq C] in
theorem step_keyset (E : JsonFormatEnv F) (os : Os) (path : Path) (f : KeysetHandle → Run κ Exit)
    (w : World κ) : Steps (KeysetFile E os w.files path) f w (withKeyset E os path f w) :=
  ⟨keyset_cases E os path f w, fun _ _ h h' => keysetFile_unique h h'⟩

theorem step_path (path : Option Path) (f : Path → Run κ Exit) (w : World κ) :
    Steps (fun p => path = some p) f w ((givenPath path >>= f) w) := by
  refine ⟨?_, fun a b h h' => by rw [h] at h'; cases h'; rfl⟩
  cases path with
  | none => exact .inr ⟨by simp, _, rfl, rfl⟩
  | some p => exact .inl ⟨p, rfl, rfl⟩

theorem step_code (os : Os) (path : Path) (f : Bytes → Run κ Exit) (w : World κ) :
    Steps (fun code => ∃ text, FileHolds os w.files path text ∧ HexText text code) f w
      (withCode os path f w) := by
  refine ⟨?_, ?_⟩
  · unfold withCode
    rcases read_cases os path _ w with ⟨b, h1, _, h2⟩ | ⟨h1, h2⟩
    · refine (congrArg (Step _ f w) h2).mpr ?_
      cases h : unhexlify (strip b) with
      | none =>
        refine .inr ⟨?_, .ok (some 1), rfl, rfl⟩
        rintro code ⟨t, g1, g2⟩
        cases fileHolds_unique h1 g1
        rw [hexText_iff, h] at g2
        cases g2
      | some code => exact .inl ⟨code, ⟨b, h1, (hexText_iff _ _).2 h⟩, rfl⟩
    · refine (congrArg (Step _ f w) h2).mpr (.inr ⟨?_, _, rfl, rfl⟩)
      rintro code ⟨t, g1, _⟩
      exact h1 t g1
  · rintro a b ⟨t, h1, h2⟩ ⟨t', h1', h2'⟩
    cases fileHolds_unique h1 h1'
    rw [hexText_iff] at h2 h2'
    rw [h2] at h2'; cases h2'; rfl

/-! Chains of steps -/

theorem ends_step {α : Type} {V : α → Prop} {f : α → Run κ Exit} {w : World κ} {x : Py Exit × World κ}
    {os : Os} {path : Path} {Q : α → Bytes → Prop} (hs : Steps V f w x)
    (h : ∀ a, V a → EndsByWriting os path (Q a) w (f a w)) :
    EndsByWriting os path (fun o => ∃ a, V a ∧ Q a o) w x := by
  rcases hs.step with ⟨a, h1, rfl⟩ | ⟨h1, r, h2, rfl⟩
  · have : (fun o => ∃ a, V a ∧ Q a o) = Q a := by
      funext o
      refine propext ⟨?_, fun hq => ⟨a, h1, hq⟩⟩
      rintro ⟨a', h1', hq⟩
      cases hs.unique _ _ h1 h1'
      exact hq
    rw [this]
    exact h a h1
  · refine ⟨rfl, ?_⟩
    show WritesLast os path _ w.files (status r) w.files
    rw [h2]
    exact .nothing (by rintro b ⟨a, ha, _⟩; exact h1 a ha)

/-- A run that came to writing. -/
theorem ends_write {os : Os} {path : Path} {w : World κ} {b : Bytes} {x : Exit}
    (hx : status (.ok x) = 0) :
    EndsByWriting os path (fun o => b = o) w
      ((do openWrite os path; writeBytes os path b; return x : Run κ Exit) w) := by
  obtain ⟨_, h2, h3⟩ := write_cases (κ := κ) os path b x hx w
  refine ⟨h2, ?_⟩
  rcases h3 with ⟨g1, g2, g3, g4⟩ | ⟨g1, g2, g3⟩ | ⟨k, g1, g2, g3, g4⟩
  · unfold exitStatus; rw [g1]; exact .written rfl g2 g3 g4
  · unfold exitStatus; rw [g1, g3]; exact .notOpened g2
  · unfold exitStatus; rw [g1]; exact .cutOff rfl g2 g3 g4

theorem ends_congr {os : Os} {path : Path} {Q Q' : Bytes → Prop} {w : World κ} {x : Py Exit × World κ}
    (h : EndsByWriting os path Q w x) (hq : ∀ o, Q o ↔ Q' o) : EndsByWriting os path Q' w x := by
  rwa [← funext fun o => propext (hq o)]

theorem opens_step {α : Type} {V : α → Prop} {f : α → Run κ Exit} {w : World κ} {x : Py Exit × World κ}
    {os : Os} {path : Path} {R : α → Prop} {Q : α → Bytes → Prop} (hs : Steps V f w x)
    (h : ∀ a, V a → EndsAfterOpening os path (R a) (Q a) w (f a w)) :
    EndsAfterOpening os path (∃ a, V a ∧ R a) (fun o => ∃ a, V a ∧ Q a o) w x := by
  rcases hs.step with ⟨a, h1, rfl⟩ | ⟨h1, r, h2, rfl⟩
  · have : (fun o => ∃ a, V a ∧ Q a o) = Q a := by
      funext o
      refine propext ⟨?_, fun hq => ⟨a, h1, hq⟩⟩
      rintro ⟨a', h1', hq⟩
      cases hs.unique _ _ h1 h1'
      exact hq
    rw [this]
    have : (∃ a, V a ∧ R a) = R a := by
      refine propext ⟨?_, fun hq => ⟨a, h1, hq⟩⟩
      rintro ⟨a', h1', hq⟩
      cases hs.unique _ _ h1 h1'
      exact hq
    rw [this]
    exact h a h1
  · refine ⟨rfl, ?_⟩
    show OpensFirst os path _ _ w.files (status r) w.files
    rw [h2]
    exact .notReady (by rintro ⟨a, ha, _⟩; exact h1 a ha)

/-- A run that opens the file, and then computes what to write. -/
theorem opens_write {os : Os} {path : Path} {w : World κ} (o : Py Bytes) {x : Exit}
    (hx : status (.ok x) = 0) :
    EndsAfterOpening os path True (fun b => o = .ok b) w
      ((do openWrite os path; let b ← Run.lift o; writeBytes os path b; return x : Run κ Exit) w) := by
  cases o with
  | ok b =>
    obtain ⟨_, h2, h3⟩ := write_cases (κ := κ) os path b x hx w
    have : (do openWrite os path; let b ← Run.lift (.ok b); writeBytes os path b; return x : Run κ Exit) w =
        (do openWrite os path; writeBytes os path b; return x : Run κ Exit) w := by
      simp only [run_bind]
      cases openWrite os path w with
      | mk o w' => cases o <;> rfl
    rw [this]
    refine ⟨h2, ?_⟩
    rcases h3 with ⟨g1, g2, g3, g4⟩ | ⟨g1, g2, g3⟩ | ⟨k, g1, g2, g3, g4⟩
    · unfold exitStatus; rw [g1]; exact .written trivial rfl g2 g3 g4
    · unfold exitStatus; rw [g1, g3]; exact .notOpened g2
    · unfold exitStatus; rw [g1]; exact .cutOff trivial rfl g2 g3 g4
  | error e =>
    simp only [run_bind, openWrite]
    cases hw : os.writable path with
    | false => exact ⟨rfl, .notOpened hw⟩
    | true => exact ⟨rfl, .emptied trivial (by simp) hw (put_updated _ _ _)⟩

theorem opens_congr {os : Os} {path : Path} {R R' : Prop} {Q Q' : Bytes → Prop} {w : World κ}
    {x : Py Exit × World κ} (h : EndsAfterOpening os path R Q w x) (hr : R ↔ R')
    (hq : ∀ o, Q o ↔ Q' o) : EndsAfterOpening os path R' Q' w x := by
  rwa [← funext fun o => propext (hq o), ← propext hr]

theorem checks_step {α : Type} {V : α → Prop} {f : α → Run κ Exit} {w : World κ} {x : Py Exit × World κ}
    {R : α → Prop} (hs : Steps V f w x) (h : ∀ a, V a → OnlyChecks (R a) w (f a w)) :
    OnlyChecks (∃ a, V a ∧ R a) w x := by
  rcases hs.step with ⟨a, h1, rfl⟩ | ⟨h1, r, h2, rfl⟩
  · have : (∃ a, V a ∧ R a) = R a := by
      refine propext ⟨?_, fun hq => ⟨a, h1, hq⟩⟩
      rintro ⟨a', h1', hq⟩
      cases hs.unique _ _ h1 h1'
      exact hq
    rw [this]
    exact h a h1
  · exact ⟨rfl, .inr ⟨h2, by rintro ⟨a, ha, _⟩; exact h1 a ha⟩⟩

theorem checks_done {w : World κ} {x : Exit} (hx : status (.ok x) = 0) :
    OnlyChecks True w ((pure x : Run κ Exit) w) := ⟨rfl, .inl ⟨hx, trivial⟩⟩

theorem checks_congr {R R' : Prop} {w : World κ} {x : Py Exit × World κ} (h : OnlyChecks R w x)
    (hr : R ↔ R') : OnlyChecks R' w x := by rwa [← propext hr]

/-! Envelopes -/

theorem step_bind {α β : Type} {V : α → Prop} {U : α → β → Prop} {f : α → Run κ Exit} {g : β → Run κ Exit}
    {w : World κ} {x : Py Exit × World κ} (hs : Steps V f w x)
    (h : ∀ a, V a → Steps (U a) g w (f a w)) : Steps (fun b => ∃ a, V a ∧ U a b) g w x := by
  refine ⟨?_, ?_⟩
  · rcases hs.step with ⟨a, h1, rfl⟩ | ⟨h1, r, h2, rfl⟩
    · rcases (h a h1).step with ⟨b, h3, h4⟩ | ⟨h3, r, h4, h5⟩
      · exact .inl ⟨b, ⟨a, h1, h3⟩, h4⟩
      · refine .inr ⟨?_, r, h4, h5⟩
        rintro b ⟨a', h1', h3'⟩
        cases hs.unique _ _ h1 h1'
        exact h3 b h3'
    · exact .inr ⟨by rintro b ⟨a, ha, _⟩; exact h1 a ha, r, h2, rfl⟩
  · rintro b b' ⟨a, h1, h2⟩ ⟨a', h1', h2'⟩
    cases hs.unique _ _ h1 h1'
    exact (h a h1).unique _ _ h2 h2'

theorem step_congr {α : Type} {V V' : α → Prop} {f : α → Run κ Exit} {w : World κ} {x : Py Exit × World κ}
    (hs : Steps V f w x) (h : ∀ a, V a ↔ V' a) : Steps V' f w x := by
  rwa [← funext fun a => propext (h a)]

theorem aes256Gcm_supported : ∃ t, Templates.AES256_GCM = .ok t ∧
    isSupportedDekKeyType t.typeUrl = true := by
  have : (match Templates.AES256_GCM with
    | .ok t => isSupportedDekKeyType t.typeUrl
    | .error _ => false) = true := by decide +kernel
  cases h : Templates.AES256_GCM with
  | error e => rw [h] at this; cases this
  | ok t => rw [h] at this; exact ⟨t, rfl, this⟩

theorem step_envelope (hl : LawfulConfig L isInst) (api : PyStr → Py (Gcp.ApiClient κ)) (seed : Seed)
    (fl : KmsFlags) (f : Registry P C → KmsEnvelopeAead κ → Run κ Exit) (w : World κ) :
    Steps (EnvelopeFor L isInst api seed fl.kekUri fl.credentialPath)
      (f (registryOf isInst (registerAead L))) w (withEnvelope isInst L api seed fl f w) := by
  refine (congrArg (Steps _ _ w) (registered_ok hl .aead _ w)).mpr ?_
  refine step_congr (step_bind (step_try _ _ w) fun a _ => step_try _ _ w) fun env => ?_
  unfold EnvelopeFor
  obtain ⟨t, ht, hst⟩ := aes256Gcm_supported
  constructor
  · rintro ⟨⟨bound, c⟩, h1, h2⟩
    obtain ⟨bound', h3, h1⟩ := bind_ok_iff.1 h1
    obtain ⟨c', h4, h1⟩ := bind_ok_iff.1 h1
    cases h1
    obtain ⟨remote, h5, h2⟩ := bind_ok_iff.1 h2
    obtain ⟨t', h6, h2⟩ := bind_ok_iff.1 h2
    rw [ht] at h6; cases h6
    unfold KmsEnvelopeAead.create at h2
    rw [hst] at h2
    obtain ⟨kd, h7, h2⟩ := bind_ok_iff.1 h2
    cases h2
    unfold Gcp.getAead at h5
    cases hst' : startsWith fl.kekUri Gcp.GCP_KEYURI_PREFIX with
    | false =>
      simp only [hst'] at h5
      exact absurd h5 (by simp)
    | true =>
      obtain ⟨name, hn⟩ := startsWith_iff.1 hst'
      have hd : fl.kekUri.drop Gcp.GCP_KEYURI_PREFIX.length = name := by rw [hn, List.drop_left]
      have hne : fl.kekUri ≠ [] := by rw [hn]; simp [Gcp.GCP_KEYURI_PREFIX]
      have hb : bound = some fl.kekUri := by
        unfold Gcp.initKeyUri at h3
        simp only [hne, hst', if_false, if_true] at h3
        cases h3; rfl
      subst hb
      simp only [hst', hd] at h5
      have h5 : Gcp.GcpKmsAead.create c name = .ok remote := by simpa using h5
      rcases gcpGet c name with ⟨n, p, l, r, k, g1, g2, g3⟩ | ⟨_, g3⟩
      · rw [g3] at h5; cases h5
        exact ⟨c, name, kd, hn, ⟨n, p, l, r, k, g1, g2⟩, h4, rfl, ht, h7⟩
      · rw [g3] at h5; cases h5
  · rintro ⟨c, name, kd, hn, ⟨n, p, l, r, k, g1, g2⟩, h4, h5, h6, h7⟩
    have hst' : startsWith fl.kekUri Gcp.GCP_KEYURI_PREFIX = true := startsWith_iff.2 ⟨name, hn⟩
    have hd : fl.kekUri.drop Gcp.GCP_KEYURI_PREFIX.length = name := by
      rw [hn]; exact List.drop_left
    refine ⟨(some fl.kekUri, c), bind_ok_iff.2 ⟨some fl.kekUri, ?_, bind_ok_iff.2 ⟨c, h4, rfl⟩⟩,
      bind_ok_iff.2 ⟨Gcp.gcpKmsAead c name, ?_, bind_ok_iff.2 ⟨env.keyTemplate, h6, ?_⟩⟩⟩
    · unfold Gcp.initKeyUri
      have hne : fl.kekUri ≠ [] := by rw [hn]; simp
      simp only [hne, hst', if_false, if_true]
    · unfold Gcp.getAead
      simp only [hst', hd]
      rcases gcpGet c name with ⟨n, p, l, r, k, g1, g2, g3⟩ | ⟨g3, _⟩
      · simpa using g3
      · exact absurd ⟨n, p, l, r, k, g1, g2⟩ g3
    · rw [ht] at h6
      cases h6
      unfold KmsEnvelopeAead.create
      rw [hst]
      refine bind_ok_iff.2 ⟨kd, h7, ?_⟩
      obtain ⟨t, r⟩ := env
      cases h5
      rfl

/-- A call of the KMS, before writing. -/
theorem ends_kms {α : Type} {os : Os} {path : Path} {w : World κ} (g : κ → κ × Py α) (f : α → Run κ Exit)
    {Q : α → Bytes → Prop} (h : ∀ a w', (g w.kms).2 = .ok a → EndsByWriting os path (Q a) w' (f a w')) :
    EndsByWriting os path (fun o => ∃ a, (g w.kms).2 = .ok a ∧ Q a o) w ((onKms g >>= f) w) := by
  rw [run_bind]
  cases hg : (g w.kms).2 with
  | error e =>
    have : onKms g w = (.error e, { w with kms := (g w.kms).1 }) := by unfold onKms; rw [hg]
    rw [this]
    exact ⟨rfl, .nothing (by rintro b ⟨a, ha, _⟩; cases ha)⟩
  | ok a =>
    have : onKms g w = (.ok a, { w with kms := (g w.kms).1 }) := by unfold onKms; rw [hg]
    rw [this]
    have hq : (fun o => ∃ a', (Except.ok a : Py α) = .ok a' ∧ Q a' o) = Q a := by
      funext o
      exact propext ⟨by rintro ⟨_, h, hq⟩; cases h; exact hq, fun hq => ⟨a, rfl, hq⟩⟩
    rw [hq]
    exact ⟨(h a _ hg).blobs, (h a { w with kms := (g w.kms).1 } hg).files⟩

theorem split_slash (path : PyStr) : (47 ∉ path ∧ path.drop (path.takeWhile (· ≠ 47)).length = []) ∨
    ∃ r, path.drop (path.takeWhile (· ≠ 47)).length = 47 :: r := by
  induction path with
  | nil => exact .inl ⟨by simp, rfl⟩
  | cons c s ih =>
    by_cases hc : c = 47
    · subst hc
      exact .inr ⟨s, by simp⟩
    · simp only [List.takeWhile_cons, ne_eq, hc, not_false_eq_true, decide_true, if_true, List.length_cons,
        List.drop_succ_cons, List.mem_cons, Ne.symm hc, false_or]
      simpa using ih

theorem getBucketAndObject_iff (text bucket object : PyStr) :
    getBucketAndObject text = .ok (bucket, object) ↔ GcsName text bucket object := by
  unfold getBucketAndObject GcsName
  constructor
  · intro h
    split at h
    · cases h
    · rename_i hs
      obtain ⟨path, hp⟩ := startsWith_iff.1 (by simpa using hs)
      have hd : text.drop (py! "gs://").length = path := by rw [hp, List.drop_left]
      rw [hd] at h
      dsimp only at h
      have hall := Gcp.takeWhile_all (· ≠ 47) path
      have hsplit := Gcp.takeWhile_drop (· ≠ 47) path
      rcases split_slash path with ⟨_, hr⟩ | ⟨r, hr⟩
      · rw [hr] at h; cases h
      · rw [hr] at h hsplit
        simp only [Except.ok.injEq, Prod.mk.injEq] at h
        obtain ⟨h1, rfl⟩ := h
        rw [h1] at hsplit hall
        refine ⟨?_, fun hm => by have := hall _ hm; simp at this⟩
        rw [hp, ← hsplit]
        simp
  · rintro ⟨rfl, hb⟩
    have hs : startsWith (py! "gs://" ++ bucket ++ py! "/" ++ object) (py! "gs://") = true :=
      startsWith_iff.2 ⟨bucket ++ py! "/" ++ object, by simp⟩
    have hd : (py! "gs://" ++ bucket ++ py! "/" ++ object).drop (py! "gs://").length =
        bucket ++ 47 :: object := by simp
    have ht : (bucket ++ 47 :: object).takeWhile (· ≠ 47) = bucket :=
      Gcp.takeWhile_stop (fun c hc => by simp only [decide_eq_true_eq]; rintro rfl; exact hb hc) (by simp)
    rw [hs, hd]
    dsimp only
    rw [ht, List.drop_left]
    rfl

theorem getBucketAndObject_error {text : PyStr} {e : Exc} (h : getBucketAndObject text = .error e) :
    e.isValueError = true := by
  unfold getBucketAndObject at h
  split at h
  · cases h; rfl
  · dsimp only at h
    split at h
    · cases h; rfl
    · cases h

theorem gcsName_unique {text b b' o o' : PyStr} (h : GcsName text b o) (h' : GcsName text b' o') :
    b = b' ∧ o = o' := by
  have h1 := (getBucketAndObject_iff _ _ _).2 h
  rw [(getBucketAndObject_iff _ _ _).2 h'] at h1
  cases h1
  exact ⟨rfl, rfl⟩

/-- Opening the file, calling the KMS and writing. -/
theorem opens_kms {os : Os} {path : Path} {w : World κ} (g : κ → κ × Py Bytes) {x : Exit}
    (hx : status (.ok x) = 0) :
    EndsAfterOpening os path True (fun b => (g w.kms).2 = .ok b) w
      ((do openWrite os path; let b ← onKms g; writeBytes os path b; return x : Run κ Exit) w) := by
  cases hw : os.writable path with
  | false =>
    refine ⟨?_, ?_⟩ <;> simp only [run_bind, openWrite, hw]
    · rfl
    · exact .notOpened hw
  | true =>
    cases ho : (g w.kms).2 with
    | error e =>
      refine ⟨?_, ?_⟩ <;> simp only [run_bind, openWrite, hw, if_true, onKms, World.put, ho]
      exact .emptied trivial (by simp) hw (put_updated _ _ _)
    | ok b =>
      refine ⟨?_, ?_⟩
      · simp only [run_bind, openWrite, hw, if_true, onKms, World.put, ho, writeBytes]
        cases os.stored path b <;> rfl
      · simp only [run_bind, openWrite, hw, if_true, onKms, World.put, ho, writeBytes]
        have hu : ∀ c, Updated (os.file path) c w.files (fun f => if f = os.file path then some c else
            if f = os.file path then some [] else w.files f) :=
          fun c => ⟨if_pos rfl, fun g hg => by simp only [if_neg hg]⟩
        cases hs : os.stored path b with
        | none =>
          show OpensFirst os path _ _ w.files (status (.ok x)) _
          rw [hx]
          exact .written trivial rfl hw hs (hu b)
        | some k => exact .cutOff trivial rfl hw hs (hu _)

/-- Chains of steps that end with an upload. -/
structure EndsByUpload (st : Storage) (output : PyStr → PyStr → Bytes → Prop) (w : World κ)
    (x : Py Exit × World κ) : Prop where
  files : x.2.files = w.files
  blobs : Uploads st output w.blobs (exitStatus x) x.2.blobs

theorem upload_step {α : Type} {V : α → Prop} {f : α → Run κ Exit} {w : World κ} {x : Py Exit × World κ}
    {st : Storage} {Q : α → PyStr → PyStr → Bytes → Prop} (hs : Steps V f w x)
    (h : ∀ a, V a → EndsByUpload st (Q a) w (f a w)) :
    EndsByUpload st (fun k o b => ∃ a, V a ∧ Q a k o b) w x := by
  rcases hs.step with ⟨a, h1, rfl⟩ | ⟨h1, r, h2, rfl⟩
  · have : (fun k o b => ∃ a, V a ∧ Q a k o b) = Q a := by
      funext k o b
      refine propext ⟨?_, fun hq => ⟨a, h1, hq⟩⟩
      rintro ⟨a', h1', hq⟩
      cases hs.unique _ _ h1 h1'
      exact hq
    rw [this]
    exact h a h1
  · refine ⟨rfl, ?_⟩
    show Uploads st _ w.blobs (status r) w.blobs
    rw [h2]
    exact .nothing (by rintro k o b ⟨a, ha, _⟩; exact h1 a ha)

theorem upload_kms {st : Storage} {w : World κ} (g : κ → κ × Py Bytes) (bucket object : PyStr) {x : Exit}
    (hx : status (.ok x) = 0) :
    EndsByUpload st (fun k o b => bucket = k ∧ object = o ∧ (g w.kms).2 = .ok b) w
      ((do let b ← onKms g; uploadBlob st bucket object b; return x : Run κ Exit) w) := by
  cases ho : (g w.kms).2 with
  | error e =>
    refine ⟨?_, ?_⟩ <;> simp only [run_bind, onKms, ho]
    exact .nothing (by simp)
  | ok b =>
    refine ⟨?_, ?_⟩
    · simp only [run_bind, onKms, ho, uploadBlob]
      cases st.upload bucket object <;> rfl
    · simp only [run_bind, onKms, ho, uploadBlob]
      cases hs : st.upload bucket object with
      | error e => exact .refused ⟨rfl, rfl, rfl⟩ (by rw [hs]; simp)
      | ok u =>
        show Uploads st _ w.blobs (status (.ok x)) _
        rw [hx]
        refine .uploaded (bucket := bucket) (object := object) (b := b) ⟨rfl, rfl, rfl⟩ hs ⟨?_, ?_⟩
        · exact if_pos ⟨rfl, rfl⟩
        · intro k o hne
          exact if_neg fun h => hne (by rw [h.1, h.2])

theorem upload_congr {st : Storage} {Q Q' : PyStr → PyStr → Bytes → Prop} {w : World κ}
    {x : Py Exit × World κ} (h : EndsByUpload st Q w x) (hq : ∀ k o b, Q k o b ↔ Q' k o b) :
    EndsByUpload st Q' w x := by
  rwa [← funext fun k => funext fun o => funext fun b => propext (hq k o b)]

theorem step_login (x : Py Unit) (f : Run κ Exit) (w : World κ) :
    Steps (fun _ => x = .ok ()) (fun _ : Unit => f) w ((Run.lift x >>= fun _ => f) w) := by
  refine ⟨?_, fun _ _ _ _ => rfl⟩
  rcases lift_cases x (fun _ => f) w with ⟨a, h1, h2⟩ | ⟨h1, r, h2, h3⟩
  · exact .inl ⟨(), h1, h2⟩
  · exact .inr ⟨fun _ => h1 (), r, h2, h3⟩

/-- The name of the object. -/
theorem step_name (text : PyStr) (f : PyStr × PyStr → Run κ Exit) (w : World κ) :
    Steps (fun n => GcsName text n.1 n.2) f w
      ((match getBucketAndObject text with
        | .error e => if e.isValueError then pure (some 1) else Run.lift (.error e)
        | .ok n => f n : Run κ Exit) w) := by
  refine ⟨?_, fun n n' h h' => Prod.ext (gcsName_unique h h').1 (gcsName_unique h h').2⟩
  cases h : getBucketAndObject text with
  | error e =>
    refine .inr ⟨?_, .ok (some 1), rfl, ?_⟩
    · intro n hn
      rw [(getBucketAndObject_iff _ _ _).2 hn] at h
      cases h
    · simp only [getBucketAndObject_error h, if_true]
      rfl
  | ok n => exact .inl ⟨n, (getBucketAndObject_iff _ _ _).1 h, rfl⟩

theorem step_download (st : Storage) (bucket object : PyStr) (f : Bytes → Run κ Exit) (w : World κ) :
    Steps (fun b => st.download bucket object = .ok () ∧ w.blobs bucket object = some b) f w
      ((downloadBlob st bucket object >>= f) w) := by
  refine ⟨?_, fun a b h h' => by have := h.2; rw [h'.2] at this; cases this; rfl⟩
  rw [run_bind]
  unfold downloadBlob
  cases h1 : st.download bucket object with
  | error e => exact .inr ⟨(by rintro b ⟨h, _⟩; cases h), .error e, rfl, rfl⟩
  | ok u =>
    cases h2 : w.blobs bucket object with
    | none => exact .inr ⟨(by rintro b ⟨_, h⟩; cases h), .error (.other 404), rfl, rfl⟩
    | some b => exact .inl ⟨b, ⟨rfl, rfl⟩, rfl⟩

/-! Using what is known of a run -/

theorem ends_zero {os : Os} {path : Path} {output : Bytes → Prop} {w : World κ} {x : Py Exit × World κ}
    (h : EndsByWriting os path output w x) (h0 : exitStatus x = 0) :
    ∃ b, output b ∧ Updated (os.file path) b w.files x.2.files := by
  have hf := h.files
  rw [h0] at hf
  cases hf with
  | written h1 h2 h3 h4 => exact ⟨_, h1, h4⟩

theorem ends_ok {os : Os} {path : Path} {output : Bytes → Prop} {w : World κ} {x : Py Exit × World κ}
    (h : EndsByWriting os path output w x) {b : Bytes} (hb : output b) (hu : ∀ b', output b' → b' = b)
    (hw : os.writable path = true) (hs : os.stored path b = none) :
    exitStatus x = 0 ∧ Updated (os.file path) b w.files x.2.files := by
  have hf := h.files
  generalize exitStatus x = k, x.2.files = files at hf
  cases hf with
  | written h1 h2 h3 h4 => cases hu _ h1; exact ⟨rfl, h4⟩
  | nothing h1 => exact absurd hb (h1 b)
  | notOpened h1 => rw [hw] at h1; cases h1
  | cutOff h1 h2 h3 h4 => cases hu _ h1; rw [hs] at h3; cases h3

theorem opens_zero {os : Os} {path : Path} {ready : Prop} {output : Bytes → Prop} {w : World κ}
    {x : Py Exit × World κ} (h : EndsAfterOpening os path ready output w x) (h0 : exitStatus x = 0) :
    ∃ b, output b ∧ Updated (os.file path) b w.files x.2.files := by
  have hf := h.files
  rw [h0] at hf
  cases hf with
  | written h0 h1 h2 h3 h4 => exact ⟨_, h1, h4⟩

theorem opens_ok {os : Os} {path : Path} {ready : Prop} {output : Bytes → Prop} {w : World κ}
    {x : Py Exit × World κ} (h : EndsAfterOpening os path ready output w x) (hr : ready) {b : Bytes}
    (hb : output b) (hu : ∀ b', output b' → b' = b)
    (hw : os.writable path = true) (hs : os.stored path b = none) :
    exitStatus x = 0 ∧ Updated (os.file path) b w.files x.2.files := by
  have hf := h.files
  generalize exitStatus x = k, x.2.files = files at hf
  cases hf with
  | written h0 h1 h2 h3 h4 => cases hu _ h1; exact ⟨rfl, h4⟩
  | notReady h1 => exact absurd hr h1
  | notOpened h1 => rw [hw] at h1; cases h1
  | emptied h0 h1 => exact absurd hb (h1 b)
  | cutOff h0 h1 h2 h3 h4 => cases hu _ h1; rw [hs] at h3; cases h3

theorem fileHolds_carry {os os' : Os} (hf : SameFiles os os') {files files' : Nat → Option Bytes} {path : Path}
    {b : Bytes} (h : FileHolds os files path b) (hr : os'.readable path = true)
    (he : files' (os.file path) = files (os.file path)) : FileHolds os' files' path b :=
  ⟨hr, by rw [hf, he]; exact h.2⟩

theorem primitiveOf_carry {os os' : Os} (hf : SameFiles os os') {files files' : Nat → Option Bytes}
    {ss : List (Stmt P C)} {path : Path} {k : PrimClass} {p : P}
    (h : PrimitiveOf L isInst E os files ss path k p) (hr : os'.readable path = true)
    (he : files' (os.file path) = files (os.file path)) : PrimitiveOf L isInst E os' files' ss path k p := by
  obtain ⟨h, ⟨b, t, h1, h2, h3⟩, h4⟩ := h
  exact ⟨h, ⟨b, t, fileHolds_carry hf h1 hr he, h2, h3⟩, h4⟩

end
end Tink.Cli
