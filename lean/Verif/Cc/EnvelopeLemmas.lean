import Verif.Cc.KeysetLemmas
import Verif.Cc.TemplateLemmas
import Verif.Props.Envelope
import Verif.Props.StreamingKeyManagers
import Verif.Props.SymmetricKeysets

/-!
# Helpers for C104
-/

namespace Tink.Cc
open Spec Config Props

/-- What a template asks for does not depend on the randomness, except for the bytes of the key. -/
theorem asked_other {random random' : Nat → Nat → Bytes} (h1 : ∀ i n, (random i n).length = n)
    (h2 : ∀ i n, (random' i n).length = n) {url : PStr} {v : Bytes} {k : AeadKey}
    (h : AeadKey.AskedFor random url v k) :
    ∃ k', AeadKey.AskedFor random' url v k' ∧ (k.Ok → k'.Ok) ∧ k'.size = k.size := by
  cases h with
  | aesGcm g => exact ⟨_, .aesGcm g, by simp [AeadKey.Ok, IsAesKey, h1, h2], by simp [AeadKey.size, h1, h2]⟩
  | aesGcmSiv g => exact ⟨_, .aesGcmSiv g, by simp [AeadKey.Ok, IsAesKey, h1, h2], by simp [AeadKey.size, h1, h2]⟩
  | aesEax g => exact ⟨_, .aesEax g, by simp [AeadKey.Ok, IsAesKey, h1, h2], by simp [AeadKey.size, h1, h2]⟩
  | xChaCha20Poly1305 g =>
    exact ⟨_, .xChaCha20Poly1305 g, by simp [AeadKey.Ok, h2], by simp [AeadKey.size, h1, h2]⟩
  | aesCtrHmac g =>
    exact ⟨_, .aesCtrHmac g, by simp [AeadKey.Ok, IsAesKey, HmacOk, h1, h2], by simp [AeadKey.size, h1, h2]⟩

theorem dekType_iff {u : PStr} : DekType u ↔ u ∈ aeadTypes := by
  unfold aeadTypes
  simp only [List.mem_cons, List.not_mem_nil, or_false]
  constructor
  · intro h; cases h <;> simp
  · rintro (h | h | h | h | h) <;> subst h <;> constructor

theorem asked_type {random : Nat → Nat → Bytes} {url : PStr} {v : Bytes} {k : AeadKey}
    (h : AeadKey.AskedFor random url v k) : url ∈ aeadTypes := by
  cases h <;> decide

variable {σ δ ε τ S P C : Type} [DecidableEq C] {L : Library σ δ ε τ S P C} {r : Registry P C} {lib : Ssl}

theorem aead_newKeyData (hl : LawfulSsl lib) (hcc : ∀ u cc, ccAead lib u = some cc → L.ccAead u = some cc)
    (hr : PackageRegistered L r .aead) {t : KeyTemplate} (hu : t.typeUrl ∈ aeadTypes) (hft : FitsTemplate t)
    {seed : Seed} (hsize : ∀ k, AeadKey.AskedFor (lib.random seed) t.typeUrl t.value k → k.size < 2 ^ 31 - 1000) :
    ∃ cc, ccAead lib t.typeUrl = some cc ∧
      r.newKeyData seed t = reported id (cc.newKeyData seed t.value) := by
  obtain ⟨cc, hc⟩ := (C89_aead_types (lib := lib)).2 hu
  have hmem : ∀ u ∈ aeadTypes, (u, PrimClass.aead) ∈ keyTypes .aead ∧
      u ≠ ps! "type.googleapis.com/google.crypto.tink.KmsAeadKey" ∧
      u ≠ ps! "type.googleapis.com/google.crypto.tink.KmsEnvelopeAeadKey" := by decide
  obtain ⟨h1, h2, h3⟩ := hmem _ hu
  obtain ⟨m, hm, -, hkt, htm⟩ := hr.managers _ _ h1
  cases htm with
  | aead _ _ found serves =>
    rw [hcc _ _ hc] at found
    cases found
    refine ⟨_, hc, ?_⟩
    unfold Registry.newKeyData Registry.keyManagerInternal
    rw [hm]
    show m.newKeyData seed t = _
    exact serves.newKeyData seed t hft (by rw [← hkt, serves.keyType]) fun kd hkd => by
      obtain ⟨k, g1, -, -, -, g2⟩ := C89_aead_new hl hc hkd
      exact (g2 (hsize k g1)).1
  | kmsAead e => exact absurd e h2
  | kmsEnvelopeAead e => exact absurd e h3

theorem dek_fits {u : PStr} (hu : u ∈ aeadTypes) {b : Bytes} {m : EnumVal} (hb : b.length < 2 ^ 31 - 500) :
    Fits ⟨u, b, m⟩ := by
  refine keyData_fits ?_ hb
  revert hu
  revert u
  show ∀ u ∈ aeadTypes, u.length ≤ 100
  decide

end Tink.Cc
