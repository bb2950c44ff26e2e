import Verif.Cc.Manages
import Verif.Spec.SymmetricKeysets

/-!
# What the predefined templates for symmetric keys ask for
-/

namespace Tink.Cc
open Spec Config

/-- A check of a message that may not parse. -/
def parsed {α : Type} (x : Py α) (p : α → Bool) : Bool :=
  match x with
  | .ok a => p a
  | .error _ => false

theorem parsed_iff {α : Type} {x : Py α} {p : α → Bool} : parsed x p = true ↔ ∃ a, x = .ok a ∧ p a = true := by
  cases x with
  | ok a => simp [parsed]
  | error e => simp [parsed]

variable {random : Nat → Nat → Bytes} {t : KeyTemplate}

theorem aead_template (hlen : ∀ i n, (random i n).length = n) (ht : .ok t ∈ templates .aead) :
    t.typeUrl ∈ aeadTypes ∧ ∃ k, AeadKey.AskedFor random t.typeUrl t.value k ∧ k.Ok ∧ k.size ≤ 1000 := by
  have hcheck : ∀ x ∈ templates .aead, parsed x (fun t =>
      (decide (t.typeUrl = ps! "type.googleapis.com/google.crypto.tink.AesGcmKey") &&
        parsed (AesGcmKeyFormat.fromString t.value) fun f =>
          decide (f.keySize.toNat = 16 ∨ f.keySize.toNat = 32)) ||
      ((decide (t.typeUrl = ps! "type.googleapis.com/google.crypto.tink.AesGcmSivKey") &&
        parsed (AesGcmSivKeyFormat.fromString t.value) fun f =>
          decide (f.keySize.toNat = 16 ∨ f.keySize.toNat = 32)) ||
      ((decide (t.typeUrl = ps! "type.googleapis.com/google.crypto.tink.AesEaxKey") &&
        parsed (AesEaxKeyFormat.fromString t.value) fun f =>
          decide ((f.keySize.toNat = 16 ∨ f.keySize.toNat = 32) ∧
            (f.getParams.ivSize.toNat = 12 ∨ f.getParams.ivSize.toNat = 16))) ||
      ((decide (t.typeUrl = ps! "type.googleapis.com/google.crypto.tink.XChaCha20Poly1305Key") &&
        parsed (XChaCha20Poly1305KeyFormat.fromString t.value) fun _ => true) ||
      (decide (t.typeUrl = ps! "type.googleapis.com/google.crypto.tink.AesCtrHmacAeadKey") &&
        parsed (AesCtrHmacAeadKeyFormat.fromString t.value) fun f =>
          decide ((f.getAesCtrKeyFormat.keySize.toNat = 16 ∨ f.getAesCtrKeyFormat.keySize.toNat = 32) ∧
            12 ≤ f.getAesCtrKeyFormat.getParams.ivSize.toNat ∧
            f.getAesCtrKeyFormat.getParams.ivSize.toNat ≤ 16 ∧
            16 ≤ f.getHmacKeyFormat.keySize.toNat ∧ f.getHmacKeyFormat.keySize.toNat ≤ 64 ∧
            10 ≤ f.getHmacKeyFormat.getParams.tagSize.toNat ∧ f.getHmacKeyFormat.getParams.tagSize.toNat ≤ 32 ∧
            f.getHmacKeyFormat.getParams.hash = HashType.SHA256))))))
      = true := by decide +kernel
  obtain ⟨t', h0, h⟩ := parsed_iff.1 (hcheck _ ht)
  cases h0
  simp only [Bool.or_eq_true, Bool.and_eq_true, decide_eq_true_eq, parsed_iff] at h
  rcases h with ⟨hu, f, hf, h⟩ | ⟨hu, f, hf, h⟩ | ⟨hu, f, hf, h⟩ | ⟨hu, f, hf, -⟩ | ⟨hu, f, hf, h⟩
  · rw [hu]
    refine ⟨by decide, _, .aesGcm hf, ?_, ?_⟩
    · show _ ∨ _; rw [hlen]; exact h
    · show List.length _ ≤ _; rw [hlen]; omega
  · rw [hu]
    refine ⟨by decide, _, .aesGcmSiv hf, ?_, ?_⟩
    · show _ ∨ _; rw [hlen]; exact h
    · show List.length _ ≤ _; rw [hlen]; omega
  · rw [hu]
    refine ⟨by decide, _, .aesEax hf, ⟨?_, h.2⟩, ?_⟩
    · show _ ∨ _; rw [hlen]; exact h.1
    · show List.length _ ≤ _; rw [hlen]; omega
  · rw [hu]
    refine ⟨by decide, _, .xChaCha20Poly1305 hf, hlen _ _, ?_⟩
    show List.length _ ≤ _; rw [hlen]; omega
  · rw [hu]
    obtain ⟨h1, h2, h3, h4, h5, h6, h7, h8⟩ := h
    refine ⟨by decide, _, .aesCtrHmac hf, ⟨?_, h2, h3, ?_, h6, 32, ?_, h7⟩, ?_⟩
    · show _ ∨ _; rw [hlen]; exact h1
    · rw [hlen]; exact h4
    · rw [h8]; exact .sha256
    · show List.length _ + List.length _ ≤ _; rw [hlen, hlen]; omega

theorem daead_template (hlen : ∀ i n, (random i n).length = n) (ht : .ok t ∈ templates .daead) :
    t.typeUrl ∈ daeadTypes ∧ ∃ k, SivKey.AskedFor random t.typeUrl t.value k ∧ k.Ok := by
  have hcheck : ∀ x ∈ templates .daead, parsed x (fun t =>
      decide (t.typeUrl = ps! "type.googleapis.com/google.crypto.tink.AesSivKey") &&
        parsed (AesSivKeyFormat.fromString t.value) fun f => decide (f.keySize.toNat = 64)) = true := by
    decide +kernel
  obtain ⟨t', h0, h⟩ := parsed_iff.1 (hcheck _ ht)
  cases h0
  simp only [Bool.and_eq_true, decide_eq_true_eq, parsed_iff] at h
  obtain ⟨hu, f, hf, h⟩ := h
  rw [hu]
  exact ⟨by decide, _, .aesSiv hf, (hlen _ _).trans h⟩

theorem mac_template (hlen : ∀ i n, (random i n).length = n) (ht : .ok t ∈ templates .mac) :
    t.typeUrl ∈ macTypes ∧ ∃ k, MacKey.AskedFor random t.typeUrl t.value k ∧ k.Ok ∧ k.size ≤ 1000 := by
  have hcheck : ∀ x ∈ templates .mac, parsed x (fun t =>
      (decide (t.typeUrl = ps! "type.googleapis.com/google.crypto.tink.HmacKey") &&
        parsed (HmacKeyFormat.fromString t.value) fun f =>
          decide (16 ≤ f.keySize.toNat ∧ f.keySize.toNat ≤ 64 ∧ 10 ≤ f.getParams.tagSize.toNat ∧
            (f.getParams.hash = HashType.SHA256 ∧ f.getParams.tagSize.toNat ≤ 32 ∨
              f.getParams.hash = HashType.SHA512 ∧ f.getParams.tagSize.toNat ≤ 64))) ||
      (decide (t.typeUrl = ps! "type.googleapis.com/google.crypto.tink.AesCmacKey") &&
        parsed (AesCmacKeyFormat.fromString t.value) fun f =>
          decide (f.keySize.toNat = 32 ∧ 10 ≤ f.getParams.tagSize.toNat ∧ f.getParams.tagSize.toNat ≤ 16)))
      = true := by
    decide +kernel
  obtain ⟨t', h0, h⟩ := parsed_iff.1 (hcheck _ ht)
  cases h0
  simp only [Bool.or_eq_true, Bool.and_eq_true, decide_eq_true_eq, parsed_iff] at h
  rcases h with ⟨hu, f, hf, h1, h2, h3, h4⟩ | ⟨hu, f, hf, h1, h2⟩
  · rw [hu]
    refine ⟨by decide, _, .hmac hf, ⟨by rw [hlen]; exact h1, h3, ?_⟩, ?_⟩
    · rcases h4 with ⟨h4, h5⟩ | ⟨h4, h5⟩
      · exact ⟨32, by rw [h4]; exact .sha256, h5⟩
      · exact ⟨64, by rw [h4]; exact .sha512, h5⟩
    · show List.length _ ≤ _; rw [hlen]; omega
  · rw [hu]
    refine ⟨by decide, _, .aesCmac hf, ⟨by rw [hlen]; exact h1, h2⟩, ?_⟩
    show List.length _ ≤ _; rw [hlen]; omega

theorem prf_template (hlen : ∀ i n, (random i n).length = n) (ht : .ok t ∈ templates .prf) :
    t.typeUrl ∈ prfTypes ∧ ∃ k, PrfKey.AskedFor random t.typeUrl t.value k ∧ k.Ok ∧ k.size ≤ 1000 := by
  have hcheck : ∀ x ∈ templates .prf, parsed x (fun t =>
      (decide (t.typeUrl = ps! "type.googleapis.com/google.crypto.tink.HmacPrfKey") &&
        parsed (HmacPrfKeyFormat.fromString t.value) fun f =>
          decide (f.version = 0 ∧ 16 ≤ f.keySize.toNat ∧ f.keySize.toNat ≤ 64 ∧
            (f.getParams.hash = HashType.SHA256 ∨ f.getParams.hash = HashType.SHA512))) ||
      ((decide (t.typeUrl = ps! "type.googleapis.com/google.crypto.tink.AesCmacPrfKey") &&
        parsed (AesCmacPrfKeyFormat.fromString t.value) fun f =>
          decide (f.version = 0 ∧ f.keySize.toNat = 32)) ||
      (decide (t.typeUrl = ps! "type.googleapis.com/google.crypto.tink.HkdfPrfKey") &&
        parsed (HkdfPrfKeyFormat.fromString t.value) fun f =>
          decide (f.version = 0 ∧ 32 ≤ f.keySize.toNat ∧ f.keySize.toNat ≤ 64 ∧ f.getParams.salt.length ≤ 64 ∧
            (f.getParams.hash = HashType.SHA256 ∨ f.getParams.hash = HashType.SHA512)))))
      = true := by
    decide +kernel
  obtain ⟨t', h0, h⟩ := parsed_iff.1 (hcheck _ ht)
  cases h0
  simp only [Bool.or_eq_true, Bool.and_eq_true, decide_eq_true_eq, parsed_iff] at h
  rcases h with ⟨hu, f, hf, h0, h1, h2, h3⟩ | ⟨hu, f, hf, h0, h1⟩ | ⟨hu, f, hf, h0, h1, h2, h3, h4⟩
  · rw [hu]
    refine ⟨by decide, _, .hmac hf h0, ⟨by rw [hlen]; exact h1, ?_⟩, ?_⟩
    · rcases h3 with h3 | h3
      · exact ⟨32, by rw [h3]; exact .sha256⟩
      · exact ⟨64, by rw [h3]; exact .sha512⟩
    · show List.length _ ≤ _; rw [hlen]; omega
  · rw [hu]
    refine ⟨by decide, _, .aesCmac hf h0, (hlen _ _).trans h1, ?_⟩
    show List.length _ ≤ _; rw [hlen]; omega
  · rw [hu]
    refine ⟨by decide, _, .hkdf hf h0, ⟨by rw [hlen]; exact h1, by rw [hlen]; omega, h4⟩, ?_⟩
    show List.length _ + _ ≤ _; rw [hlen]; omega

theorem aead_asked_unique {url : PStr} {v : Bytes} {k k' : AeadKey} (hk : AeadKey.AskedFor random url v k)
    (hk' : AeadKey.AskedFor random url v k') : k' = k := by
  cases hk with
  | aesGcm g1 =>
    generalize hw : ps! "type.googleapis.com/google.crypto.tink.AesGcmKey" = w at hk'
    cases hk' with
    | aesGcm g1' => rw [g1] at g1'; cases g1'; rfl
    | _ => other_type hw
  | aesGcmSiv g1 =>
    generalize hw : ps! "type.googleapis.com/google.crypto.tink.AesGcmSivKey" = w at hk'
    cases hk' with
    | aesGcmSiv g1' => rw [g1] at g1'; cases g1'; rfl
    | _ => other_type hw
  | aesEax g1 =>
    generalize hw : ps! "type.googleapis.com/google.crypto.tink.AesEaxKey" = w at hk'
    cases hk' with
    | aesEax g1' => rw [g1] at g1'; cases g1'; rfl
    | _ => other_type hw
  | xChaCha20Poly1305 g1 =>
    generalize hw : ps! "type.googleapis.com/google.crypto.tink.XChaCha20Poly1305Key" = w at hk'
    cases hk' with
    | xChaCha20Poly1305 _ => rfl
    | _ => other_type hw
  | aesCtrHmac g1 =>
    generalize hw : ps! "type.googleapis.com/google.crypto.tink.AesCtrHmacAeadKey" = w at hk'
    cases hk' with
    | aesCtrHmac g1' => rw [g1] at g1'; cases g1'; rfl
    | _ => other_type hw

theorem mac_asked_unique {url : PStr} {v : Bytes} {k k' : MacKey} (hk : MacKey.AskedFor random url v k)
    (hk' : MacKey.AskedFor random url v k') : k' = k := by
  cases hk with
  | hmac g1 =>
    generalize hw : ps! "type.googleapis.com/google.crypto.tink.HmacKey" = w at hk'
    cases hk' with
    | hmac g1' => rw [g1] at g1'; cases g1'; rfl
    | _ => other_type hw
  | aesCmac g1 =>
    generalize hw : ps! "type.googleapis.com/google.crypto.tink.AesCmacKey" = w at hk'
    cases hk' with
    | aesCmac g1' => rw [g1] at g1'; cases g1'; rfl
    | _ => other_type hw

theorem prf_asked_unique {url : PStr} {v : Bytes} {k k' : PrfKey} (hk : PrfKey.AskedFor random url v k)
    (hk' : PrfKey.AskedFor random url v k') : k' = k := by
  cases hk with
  | hmac g1 =>
    generalize hw : ps! "type.googleapis.com/google.crypto.tink.HmacPrfKey" = w at hk'
    cases hk' with
    | hmac g1' => rw [g1] at g1'; cases g1'; rfl
    | _ => other_type hw
  | aesCmac g1 =>
    generalize hw : ps! "type.googleapis.com/google.crypto.tink.AesCmacPrfKey" = w at hk'
    cases hk' with
    | aesCmac g1' => rw [g1] at g1'; cases g1'; rfl
    | _ => other_type hw
  | hkdf g1 =>
    generalize hw : ps! "type.googleapis.com/google.crypto.tink.HkdfPrfKey" = w at hk'
    cases hk' with
    | hkdf g1' => rw [g1] at g1'; cases g1'; rfl
    | _ => other_type hw

theorem overhead_pos (k : AeadKey) (h : k.Ok) : 0 < k.overhead := by
  cases k with
  | aesCtrHmac a n b c t =>
    have := h.2.1
    show 0 < n + t
    omega
  | aesEax a n => show 0 < n + 16; omega
  | _ => show 0 < _ + 16; omega

end Tink.Cc
