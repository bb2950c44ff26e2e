import Verif.Stream.StreamingKeyManagers
import Verif.Spec.StreamingKeys
import Verif.Spec.Config
import Verif.Props.SegmentCrypters
import Verif.Proto.GenLemmas
import Verif.Keyset.WireSize

/-!
# C70: streaming AEAD keys that are made can be used
-/

namespace Tink.Props
open Spec Segment Cpp

/-! ## Lemmas -/

theorem status_bind_ok {α β : Type} {x : StatusOr α} {f : α → StatusOr β} {b : β} :
    (x >>= f) = .ok b ↔ ∃ a, x = .ok a ∧ f a = .ok b := by
  cases x <;> simp [bind, Except.bind]

theorem toInt_small {x : UInt32} (h : x.toNat < 2 ^ 31) : toInt x = x.toNat := if_pos h

theorem toInt_large {x : UInt32} (h : 2 ^ 31 ≤ x.toNat) : toInt x < 0 := by
  have := x.toNat_lt
  rw [toInt, if_neg (by omega)]
  omega

theorem aesKeySize_iff {x : UInt32} :
    validateAesKeySize x = .ok () ↔ x.toNat = 16 ∨ x.toNat = 32 := by
  unfold validateAesKeySize
  have h16 : x = 16 ↔ x.toNat = 16 := by rw [← UInt32.toNat_inj]; rfl
  have h32 : x = 32 ↔ x.toNat = 32 := by rw [← UInt32.toNat_inj]; rfl
  split
  · rename_i h
    simp only [ne_eq, decide_not, Bool.and_eq_true, Bool.not_eq_true', decide_eq_false_iff_not] at h
    rw [← h16, ← h32]
    simp [h]
  · rename_i h
    simp only [ne_eq, decide_not, Bool.and_eq_true, Bool.not_eq_true', decide_eq_false_iff_not] at h
    rw [← h16, ← h32]
    simp
    exact Decidable.or_iff_not_not_and_not.2 h

theorem streamHash_iff {h : EnumVal} :
    ((decide (h = HashType.SHA1) || decide (h = HashType.SHA256)) || decide (h = HashType.SHA512)) = true ↔ StreamHash h := by
  simp [StreamHash, or_assoc]

theorem streamHash_not {h : EnumVal} :
    ¬ (!((decide (h = HashType.SHA1) || decide (h = HashType.SHA256)) || decide (h = HashType.SHA512))) = true
      ↔ StreamHash h := by
  rw [Bool.not_eq_true', Bool.not_eq_false, streamHash_iff]

theorem hashSupported_iff {h : EnumVal} : hashSupported h = true ↔ StreamHash h := streamHash_iff

theorem invalid_ne {α : Type} {a : α} : (invalidArgument : StatusOr α) ≠ .ok a := by
  simp [invalidArgument]

theorem u32_add {x y : UInt32} (h : x.toNat + y.toNat < 2 ^ 32) : (x + y).toNat = x.toNat + y.toNat := by
  rw [UInt32.toNat_add, Nat.mod_eq_of_lt h]

theorem ite_invalid {c : Prop} [Decidable c] {x : StatusOr Unit} :
    (if c then invalidArgument else x) = .ok () ↔ ¬ c ∧ x = .ok () := by
  by_cases h : c <;> simp [h, invalidArgument]

theorem gcm_params_iff {p : AesGcmHkdfStreamingParams} :
    AesGcmHkdfStreamingKeyManager.validateParams p = .ok () ↔ GcmParamsOk p := by
  unfold AesGcmHkdfStreamingKeyManager.validateParams
  rw [ite_invalid, ite_invalid, aesKeySize_iff, streamHash_not]
  have sum : (p.derivedKeySize.toNat = 16 ∨ p.derivedKeySize.toNat = 32) →
      (1 + p.derivedKeySize + 7 + 16).toNat = (1 + p.derivedKeySize.toNat + 7) + 16 := by
    intro h
    simp only [UInt32.toNat_add, UInt32.reduceToNat]
    omega
  constructor
  · rintro ⟨h1, h2, h3⟩
    refine ⟨h1, h3, ?_⟩
    rw [UInt32.le_iff_toNat_le, sum h3] at h2
    omega
  · rintro ⟨h1, h3, h2⟩
    refine ⟨h1, ?_, h3⟩
    rw [UInt32.le_iff_toNat_le, sum h3]
    omega

theorem ctr_params_iff {p : AesCtrHmacStreamingParams} :
    AesCtrHmacStreamingKeyManager.validateParams p = .ok () ↔ CtrParamsOk p := by
  unfold AesCtrHmacStreamingKeyManager.validateParams
  dsimp only
  rw [ite_invalid, ite_invalid, ite_invalid, ite_invalid, ite_invalid, ite_invalid, aesKeySize_iff,
    streamHash_not, streamHash_not]
  have sum : (p.derivedKeySize.toNat = 16 ∨ p.derivedKeySize.toNat = 32) →
      p.getHmacParams.tagSize.toNat ≤ 64 →
      (1 + p.derivedKeySize + 7 + p.getHmacParams.tagSize).toNat =
        (1 + p.derivedKeySize.toNat + 7) + p.getHmacParams.tagSize.toNat := by
    intro h h'
    simp only [UInt32.toNat_add, UInt32.reduceToNat]
    omega
  have d1 : HashType.SHA1 ≠ HashType.SHA256 := by decide
  have d2 : HashType.SHA1 ≠ HashType.SHA512 := by decide
  have d3 : HashType.SHA256 ≠ HashType.SHA512 := by decide
  constructor
  · rintro ⟨h1, h2, h3, h4, h5, h6, h7⟩
    have hh := h2
    rw [UInt32.lt_iff_toNat_lt] at h3
    rw [gt_iff_lt, UInt32.lt_iff_toNat_lt] at h6
    simp only [gt_iff_lt, UInt32.lt_iff_toNat_lt] at h4
    simp only [UInt32.reduceToNat, Bool.or_eq_true, Bool.and_eq_true, decide_eq_true_eq, not_or, not_and,
      Nat.not_lt] at h3 h4 h6
    have htag : p.getHmacParams.tagSize.toNat ≤
        if p.getHmacParams.hash = HashType.SHA1 then 20
        else if p.getHmacParams.hash = HashType.SHA256 then 32 else 64 := by
      rcases hh with g | g | g
      · rw [if_pos g]; exact h4.1.1 g
      · rw [if_neg (by rw [g]; exact d1.symm), if_pos g]; exact h4.1.2 g
      · rw [if_neg (by rw [g]; exact d2.symm), if_neg (by rw [g]; exact d3.symm)]; exact h4.2 g
    refine ⟨h1, h7, hh, h3, htag, ?_, by omega⟩
    rw [UInt32.le_iff_toNat_le, sum h7 (by split at htag; omega; split at htag <;> omega)] at h5
    omega
  · rintro ⟨h1, h7, hh, h3, htag, h5, h6⟩
    have htag' : p.getHmacParams.tagSize.toNat ≤ 64 := by
      split at htag
      · omega
      · split at htag <;> omega
    refine ⟨h1, hh, ?_, ?_, ?_, ?_, h7⟩
    · rw [UInt32.lt_iff_toNat_lt]; simpa using h3
    · simp only [gt_iff_lt, UInt32.lt_iff_toNat_lt, UInt32.reduceToNat, Bool.or_eq_true, Bool.and_eq_true,
        decide_eq_true_eq, not_or, not_and, Nat.not_lt]
      refine ⟨⟨fun g => ?_, fun g => ?_⟩, fun g => htag'⟩
      · rwa [if_pos g] at htag
      · rwa [if_neg (by rw [g]; exact d1.symm), if_pos g] at htag
    · rw [UInt32.le_iff_toNat_le, sum h7 htag']
      omega
    · rw [gt_iff_lt, UInt32.lt_iff_toNat_lt]; simp only [UInt32.reduceToNat]; omega

theorem parsed_ok {α : Type} {x : Py α} {a : α} : KeyTypeManager.parsed x = .ok a ↔ x = .ok a := by
  cases x <;> simp [KeyTypeManager.parsed]

theorem version_iff {v : UInt32} : validateVersion v 0 = .ok () ↔ v = 0 := by
  unfold validateVersion
  by_cases h : v = 0
  · subst h; simp
  · rw [if_pos]
    · simp [h]
    · rw [gt_iff_lt, UInt32.lt_iff_toNat_lt]
      have : v.toNat ≠ 0 := fun g => h (by rw [← UInt32.toNat_inj]; exact g)
      have : (0 : UInt32).toNat = 0 := rfl
      omega

/-! ### Making a key from a key format -/

theorem newKeyData_iff {K F B : Type} {m : KeyTypeManager K F B} {seed : Seed} {b : Bytes} {kd : KeyData}
    (hc : ∀ f, ∃ k, m.createKey seed f = .ok k) :
    m.newKeyData seed b = .ok kd ↔ ∃ f k, m.parseKeyFormat b = .ok f ∧ m.validateKeyFormat f = .ok () ∧
      m.createKey seed f = .ok k ∧
      kd = { typeUrl := m.keyType, value := KeyTypeManager.serialized (m.serializeKey k),
             keyMaterialType := m.keyMaterialType } := by
  unfold KeyTypeManager.newKeyData KeyTypeManager.newKeyFromString KeyTypeManager.newKey
  constructor
  · intro h
    obtain ⟨k, hk, h⟩ := status_bind_ok.mp h
    obtain ⟨f, hf, hk⟩ := status_bind_ok.mp hk
    obtain ⟨u, hu, hk⟩ := status_bind_ok.mp hk
    obtain ⟨u', hu', hk⟩ := status_bind_ok.mp hk
    cases h
    exact ⟨f, k, parsed_ok.1 hf, hu, hk, rfl⟩
  · rintro ⟨f, k, hf, hu, hk, rfl⟩
    exact status_bind_ok.mpr ⟨k, status_bind_ok.mpr ⟨f, parsed_ok.2 hf, status_bind_ok.mpr ⟨(), hu,
      status_bind_ok.mpr ⟨(), hu, hk⟩⟩⟩, rfl⟩

theorem getPrimitive_iff {K F B : Type} {m : KeyTypeManager K F B} {kd : KeyData} {p : B} :
    m.getPrimitive kd = .ok p ↔ kd.typeUrl = m.keyType ∧ ∃ k, m.parseKey kd.value = .ok k ∧
      m.validateKey k = .ok () ∧ m.create k = .ok p := by
  unfold KeyTypeManager.getPrimitive
  by_cases h : kd.typeUrl = m.keyType
  · rw [if_neg (by simp [h])]
    constructor
    · intro g
      obtain ⟨k, hk, g⟩ := status_bind_ok.mp g
      obtain ⟨u, hu, g⟩ := status_bind_ok.mp g
      exact ⟨h, k, parsed_ok.1 hk, hu, g⟩
    · rintro ⟨-, k, hk, hu, g⟩
      exact status_bind_ok.mpr ⟨k, parsed_ok.2 hk, status_bind_ok.mpr ⟨(), hu, g⟩⟩
  · rw [if_pos h]; simp [h]

theorem gcm_format_iff {f : AesGcmHkdfStreamingKeyFormat} :
    AesGcmHkdfStreamingKeyManager.validateKeyFormat f = .ok () ↔
      GcmParamsOk f.getParams ∧ f.getParams.derivedKeySize.toNat ≤ f.keySize.toNat := by
  unfold AesGcmHkdfStreamingKeyManager.validateKeyFormat
  rw [ite_invalid, gcm_params_iff, UInt32.lt_iff_toNat_lt, Nat.not_lt, and_comm]

theorem ctr_format_iff {f : AesCtrHmacStreamingKeyFormat} :
    AesCtrHmacStreamingKeyManager.validateKeyFormat f = .ok () ↔
      CtrParamsOk f.getParams ∧ f.getParams.derivedKeySize.toNat ≤ f.keySize.toNat := by
  unfold AesCtrHmacStreamingKeyManager.validateKeyFormat
  rw [ite_invalid, ctr_params_iff, UInt32.lt_iff_toNat_lt, Nat.not_lt, and_comm]

theorem gcm_key_iff {k : AesGcmHkdfStreamingKey} :
    AesGcmHkdfStreamingKeyManager.validateKey k = .ok () ↔
      k.version = 0 ∧ k.getParams.derivedKeySize.toNat ≤ k.keyValue.length ∧ GcmParamsOk k.getParams := by
  unfold AesGcmHkdfStreamingKeyManager.validateKey
  rw [← version_iff, ← gcm_params_iff]
  cases h : validateVersion k.version 0 with
  | error e => simp [bind, Except.bind]
  | ok u =>
    simp only [bind, Except.bind]
    rw [ite_invalid, Nat.not_lt]
    simp

theorem ctr_key_iff {k : AesCtrHmacStreamingKey} :
    AesCtrHmacStreamingKeyManager.validateKey k = .ok () ↔
      k.version = 0 ∧ k.getParams.derivedKeySize.toNat ≤ k.keyValue.length ∧ CtrParamsOk k.getParams := by
  unfold AesCtrHmacStreamingKeyManager.validateKey
  rw [← version_iff, ← ctr_params_iff]
  cases h : validateVersion k.version 0 with
  | error e => simp [bind, Except.bind]
  | ok u =>
    simp only [bind, Except.bind]
    rw [ite_invalid, Nat.not_lt]
    simp

/-! ### Sizes -/

theorem length_gcmParams (p : AesGcmHkdfStreamingParams) : (encodeFields p.fields).length ≤ 60 := by
  unfold AesGcmHkdfStreamingParams.fields
  rw [length_encodeFields_append, length_encodeFields_append]
  have h1 := length_uint32Field (num := 1) (n := p.ciphertextSegmentSize) (by decide)
  have h2 := length_uint32Field (num := 2) (n := p.derivedKeySize) (by decide)
  have h3 := length_enumField (num := 3) (e := p.hkdfHashType) (by decide)
  omega

theorem length_hmacParams (p : HmacParams) : (encodeFields p.fields).length ≤ 40 := by
  unfold HmacParams.fields
  rw [length_encodeFields_append]
  have h1 := length_enumField (num := 1) (e := p.hash) (by decide)
  have h2 := length_uint32Field (num := 2) (n := p.tagSize) (by decide)
  omega

theorem length_ctrParams (p : AesCtrHmacStreamingParams) : (encodeFields p.fields).length ≤ 120 := by
  unfold AesCtrHmacStreamingParams.fields
  rw [length_encodeFields_append, length_encodeFields_append, length_encodeFields_append]
  have h1 := length_uint32Field (num := 1) (n := p.ciphertextSegmentSize) (by decide)
  have h2 := length_uint32Field (num := 2) (n := p.derivedKeySize) (by decide)
  have h3 := length_enumField (num := 3) (e := p.hkdfHashType) (by decide)
  have h4 := length_msgField (num := 4) (o := p.hmacParams.map HmacParams.fields) (m := 40) (by decide)
    (by decide) (by
      intro fs hfs
      cases h : p.hmacParams with
      | none => rw [h] at hfs; cases hfs
      | some q => rw [h] at hfs; cases hfs; exact length_hmacParams q)
  omega

theorem gcmKey_serialized {k : AesGcmHkdfStreamingKey} (h : k.keyValue.length < 2 ^ 31 - 1000) :
    ∃ b, k.serializeToString = .ok b ∧ b.length ≤ k.keyValue.length + 300 := by
  have : (encodeFields k.fields).length ≤ k.keyValue.length + 300 := by
    unfold AesGcmHkdfStreamingKey.fields
    rw [length_encodeFields_append, length_encodeFields_append]
    have h1 := length_uint32Field (num := 1) (n := k.version) (by decide)
    have h2 := length_msgField (num := 2) (o := k.params.map AesGcmHkdfStreamingParams.fields) (m := 60)
      (by decide) (by decide) (by
        intro fs hfs
        cases h : k.params with
        | none => rw [h] at hfs; cases hfs
        | some q => rw [h] at hfs; cases hfs; exact length_gcmParams q)
    have h3 := length_bytesField (num := 3) (b := k.keyValue) (by decide) (by omega)
    omega
  exact ⟨_, serializeFields_of_length (by omega), this⟩

theorem ctrKey_serialized {k : AesCtrHmacStreamingKey} (h : k.keyValue.length < 2 ^ 31 - 1000) :
    ∃ b, k.serializeToString = .ok b ∧ b.length ≤ k.keyValue.length + 300 := by
  have : (encodeFields k.fields).length ≤ k.keyValue.length + 300 := by
    unfold AesCtrHmacStreamingKey.fields
    rw [length_encodeFields_append, length_encodeFields_append]
    have h1 := length_uint32Field (num := 1) (n := k.version) (by decide)
    have h2 := length_msgField (num := 2) (o := k.params.map AesCtrHmacStreamingParams.fields) (m := 120)
      (by decide) (by decide) (by
        intro fs hfs
        cases h : k.params with
        | none => rw [h] at hfs; cases hfs
        | some q => rw [h] at hfs; cases hfs; exact length_ctrParams q)
    have h3 := length_bytesField (num := 3) (b := k.keyValue) (by decide) (by omega)
    omega
  exact ⟨_, serializeFields_of_length (by omega), this⟩

theorem keyData_fits {kd : KeyData} (h1 : kd.typeUrl.length ≤ 100) (h2 : kd.value.length < 2 ^ 31 - 500) :
    Fits kd := by
  have : (encodeFields kd.fields).length ≤ kd.value.length + 460 := by
    unfold KeyData.fields
    rw [length_encodeFields_append, length_encodeFields_append]
    have h1 := length_strField (num := 1) (s := kd.typeUrl) (by decide) (by omega)
    have h2 := length_bytesField (num := 2) (b := kd.value) (by decide) (by omega)
    have h3 := length_enumField (num := 3) (e := kd.keyMaterialType) (by decide)
    omega
  exact ⟨_, serializeFields_of_length (by omega)⟩

/-! ### The primitives -/

theorem gcm_new_ok {lib : SegmentLibrary} {p : AesGcmHkdf.Params} (h1 : StreamHash p.hkdfHash)
    (h2 : p.derivedKeySize = 16 ∨ p.derivedKeySize = 32) (h3 : p.derivedKeySize ≤ p.ikm.length)
    (h4 : p.ciphertextOffset = 0) (h5 : p.derivedKeySize + 16 < p.ciphertextSegmentSize) :
    ∃ np, AesGcmHkdf.new lib p = .ok np := by
  have : AesGcmHkdf.validate p = .ok () := by
    unfold AesGcmHkdf.validate
    rw [if_neg (by simp [hashSupported_iff.2 h1]),
      if_neg (by simp only [Bool.or_eq_true, decide_eq_true_eq]; omega),
      if_neg (by rcases h2 with h | h <;> simp [h]), if_neg (by omega),
      if_neg (by simp [AesGcmHkdf.tagSize]; omega)]
  unfold AesGcmHkdf.new
  rw [this]
  exact ⟨_, rfl⟩

theorem gcm_opens {lib : SegmentLibrary} (hl : SoundLibrary lib) {p : AesGcmHkdf.Params}
    {np : NonceBased Nat State} (h : AesGcmHkdf.new lib p = .ok np) (h4 : p.ciphertextOffset = 0)
    (h5 : (1 + p.derivedKeySize + 7) + 16 < p.ciphertextSegmentSize) : Opens lib np := by
  obtain ⟨rfl, a1, a2, a3, a4, a5⟩ := Gcm.new_ok h
  constructor
  · intro buffer ad
    unfold NonceBased.newRawDecryptingStream NonceBased.newDecryptingStream
    dsimp only
    rw [Gcm.newSegmentDecrypter_some a1 a2 a3 a4 a5 (by omega)]
    simp only [bind, Except.bind, DecryptingStream.new]
    rw [if_neg]
    · exact ⟨_, rfl⟩
    · simp [DecryptingStream.firstSegmentSize, AesGcmHkdf.decrypter, h4, noncePrefixSize]
      omega
  · intro hk σ object seed buffer ad
    obtain ⟨key, hkey⟩ := Option.ne_none_iff_exists'.1 (hk p.hkdfHash p.ikm
      (lib.random seed p.derivedKeySize.toNat) ad p.derivedKeySize.toNat (hashSupported_iff.1 a1) (by omega))
    have hlen := hl.hkdf _ _ _ _ _ _ hkey
    have hs := hl.random seed p.derivedKeySize.toNat
    have hx := hl.random' seed 7
    have hv : AesGcmHkdf.validateEncrypter p key (lib.random seed p.derivedKeySize.toNat) = .ok () := by
      unfold AesGcmHkdf.validateEncrypter
      rw [if_neg (by rcases a4 with h | h <;> simp [hlen, h]), if_neg (by simp [hlen, hs]),
        if_neg (by omega), if_neg (by simp [hs, h4, noncePrefixSize, AesGcmHkdf.tagSize]; omega)]
    unfold NonceBased.newRawEncryptingStream NonceBased.newEncryptingStream
    simp only [if_true, AesGcmHkdf.newSegmentEncrypter, hkey, checked, bind, Except.bind, hv, pure,
      Except.pure, EncryptingStream.new]
    rw [if_neg]
    · exact ⟨_, rfl⟩
    · simp [EncryptingStream.firstSegmentSize, AesGcmHkdf.encrypter, makeHeader_length, hs, hx, h4,
        noncePrefixSize, AesGcmHkdf.tagSize]
      omega

theorem ctr_validate_ok {p : AesCtrHmac.Params} (h1 : StreamHash p.hkdfAlgo)
    (h2 : p.keySize = 16 ∨ p.keySize = 32) (h3 : p.keySize ≤ p.ikm.length)
    (h4 : p.ciphertextOffset = 0) (h5 : (1 + p.keySize + 7) + p.tagSize < p.ciphertextSegmentSize)
    (h6 : StreamHash p.tagAlgo) (h7 : 10 ≤ p.tagSize)
    (h8 : p.tagSize ≤ AesCtrHmac.digestSize p.tagAlgo) :
    AesCtrHmac.validate p = .ok () := by
  have d1 : HashType.SHA1 ≠ HashType.SHA256 := by decide
  have d2 : HashType.SHA1 ≠ HashType.SHA512 := by decide
  have d3 : HashType.SHA256 ≠ HashType.SHA512 := by decide
  unfold AesCtrHmac.validate
  rw [if_neg (by omega), if_neg (by simp [hashSupported_iff.2 h1]),
    if_neg (by rcases h2 with h | h <;> simp [h]),
    if_neg (by simp [AesCtrHmac.headerSize, noncePrefixSize]; omega), if_neg (by omega), if_neg (by omega),
    if_neg (by simp [hashSupported_iff.2 h6]), if_neg]
  rcases h6 with g | g | g
  · simp [g, AesCtrHmac.digestSize, d1, d2] at h8 ⊢; omega
  · simp [g, AesCtrHmac.digestSize, d1.symm, d3] at h8 ⊢; omega
  · simp [g, AesCtrHmac.digestSize, d2.symm, d3.symm] at h8 ⊢; omega

theorem ctr_opens {lib : SegmentLibrary} (hl : SoundLibrary lib) {p : AesCtrHmac.Params}
    {np : NonceBased Nat State} (h : AesCtrHmac.new lib p = .ok np) (h1 : StreamHash p.hkdfAlgo)
    (h2 : p.keySize = 16 ∨ p.keySize = 32) (h4 : p.ciphertextOffset = 0)
    (h5 : (1 + p.keySize + 7) + p.tagSize < p.ciphertextSegmentSize) (h7 : 10 ≤ p.tagSize)
    (h8 : p.tagSize ≤ AesCtrHmac.digestSize p.tagAlgo) : Opens lib np := by
  obtain ⟨rfl, hval⟩ := Ctr.new_ok h
  constructor
  · intro buffer ad
    unfold NonceBased.newRawDecryptingStream NonceBased.newDecryptingStream
    simp only [AesCtrHmac.newSegmentDecrypter, hval, bind, Except.bind, DecryptingStream.new, pure,
      Except.pure]
    rw [if_neg]
    · exact ⟨_, rfl⟩
    · simp [DecryptingStream.firstSegmentSize, AesCtrHmac.decrypter, h4, AesCtrHmac.headerSize, noncePrefixSize]
      omega
  · intro hk σ object seed buffer ad
    obtain ⟨key, hkey⟩ := Option.ne_none_iff_exists'.1 (hk p.hkdfAlgo p.ikm
      (lib.random seed p.keySize.toNat) ad (p.keySize.toNat + AesCtrHmac.hmacKeySize) h1
      (by simp [AesCtrHmac.hmacKeySize]; omega))
    have hlen := hl.hkdf _ _ _ _ _ _ hkey
    have hs := hl.random seed p.keySize.toNat
    have hx := hl.random' seed 7
    have hmac : AesCtrHmac.newHmac p (key.drop p.keySize.toNat) = .ok () := by
      unfold AesCtrHmac.newHmac
      rw [if_neg (by omega), if_neg (by simp [hlen, AesCtrHmac.hmacKeySize])]
    unfold NonceBased.newRawEncryptingStream NonceBased.newEncryptingStream
    simp only [if_true, AesCtrHmac.newSegmentEncrypter, hval, AesCtrHmac.deriveKeys, hkey, Option.map_some,
      checked, bind, Except.bind, hmac, pure, Except.pure, EncryptingStream.new]
    rw [if_neg]
    · exact ⟨_, rfl⟩
    · simp [EncryptingStream.firstSegmentSize, AesCtrHmac.encrypter, makeHeader_length, hs, hx, h4,
        noncePrefixSize]
      omega

/-! ## C70 -/

section
variable {lib : SegmentLibrary} {seed : Seed} {b : Bytes} {kd : KeyData}

/-- C70.  From which key formats an AES-GCM-HKDF key is made. -/
theorem C70_gcm_formats :
    (∃ kd, (AesGcmHkdfStreamingKeyManager.keyTypeManager lib).newKeyData seed b = .ok kd) ↔
      ∃ f, AesGcmHkdfStreamingKeyFormat.fromString b = .ok f ∧ GcmParamsOk f.getParams ∧
        f.getParams.derivedKeySize.toNat ≤ f.keySize.toNat := by
  constructor
  · rintro ⟨kd, h⟩
    obtain ⟨f, k, hf, hv, -⟩ := (newKeyData_iff fun f => ⟨_, rfl⟩).1 h
    exact ⟨f, hf, gcm_format_iff.1 hv⟩
  · rintro ⟨f, hf, hv⟩
    exact ⟨_, (newKeyData_iff fun f => ⟨_, rfl⟩).2 ⟨f, _, hf, gcm_format_iff.2 hv, rfl, rfl⟩⟩

/-- C70.  From which key formats an AES-CTR-HMAC key is made. -/
theorem C70_ctr_formats :
    (∃ kd, (AesCtrHmacStreamingKeyManager.keyTypeManager lib).newKeyData seed b = .ok kd) ↔
      ∃ f, AesCtrHmacStreamingKeyFormat.fromString b = .ok f ∧ CtrParamsOk f.getParams ∧
        f.getParams.derivedKeySize.toNat ≤ f.keySize.toNat := by
  constructor
  · rintro ⟨kd, h⟩
    obtain ⟨f, k, hf, hv, -⟩ := (newKeyData_iff fun f => ⟨_, rfl⟩).1 h
    exact ⟨f, hf, ctr_format_iff.1 hv⟩
  · rintro ⟨f, hf, hv⟩
    exact ⟨_, (newKeyData_iff fun f => ⟨_, rfl⟩).2 ⟨f, _, hf, ctr_format_iff.2 hv, rfl, rfl⟩⟩

/-- C70.  Which AES-GCM-HKDF keys, wherever they come from, give a primitive. -/
theorem C70_gcm_keys :
    (∃ p, (AesGcmHkdfStreamingKeyManager.keyTypeManager lib).getPrimitive kd = .ok p) ↔
      kd.typeUrl = ps! "type.googleapis.com/google.crypto.tink.AesGcmHkdfStreamingKey" ∧
      ∃ k, AesGcmHkdfStreamingKey.fromString kd.value = .ok k ∧ k.version = 0 ∧
        k.getParams.derivedKeySize.toNat ≤ k.keyValue.length ∧ GcmParamsOk k.getParams ∧
        k.getParams.ciphertextSegmentSize.toNat < 2 ^ 31 := by
  constructor
  · rintro ⟨p, h⟩
    obtain ⟨hu, k, hk, hv, hc⟩ := getPrimitive_iff.1 h
    obtain ⟨h1, h2, h3⟩ := gcm_key_iff.1 hv
    refine ⟨hu, k, hk, h1, h2, h3, ?_⟩
    apply Decidable.byContradiction
    intro hn
    have hneg := toInt_large (x := k.getParams.ciphertextSegmentSize) (by omega)
    replace hc : AesGcmHkdf.new lib (AesGcmHkdfStreamingKeyManager.params k) = .ok p := hc
    unfold AesGcmHkdf.new at hc
    obtain ⟨u, hu, -⟩ := status_bind_ok.1 hc
    unfold AesGcmHkdf.validate at hu
    rw [ite_invalid, ite_invalid, ite_invalid, ite_invalid, ite_invalid] at hu
    obtain ⟨-, -, hd, -, hs, -⟩ := hu
    simp only [AesGcmHkdfStreamingKeyManager.params] at hd hs
    have : toInt k.getParams.derivedKeySize = 16 ∨ toInt k.getParams.derivedKeySize = 32 := by
      rcases h3.derived with g | g <;> simp [toInt, g]
    omega
  · rintro ⟨hu, k, hk, h1, h2, h3, h4⟩
    have hd : toInt k.getParams.derivedKeySize = k.getParams.derivedKeySize.toNat :=
      toInt_small (by rcases h3.derived with g | g <;> omega)
    have hs := toInt_small h4
    obtain ⟨np, hnp⟩ := gcm_new_ok (lib := lib) (p := AesGcmHkdfStreamingKeyManager.params k) h3.hash
      (by simp only [AesGcmHkdfStreamingKeyManager.params, hd]; have := h3.derived; omega)
      (by simp only [AesGcmHkdfStreamingKeyManager.params, hd]; omega) rfl
      (by simp only [AesGcmHkdfStreamingKeyManager.params, hd, hs]; have := h3.segment; omega)
    exact ⟨np, getPrimitive_iff.2 ⟨hu, k, hk, gcm_key_iff.2 ⟨h1, h2, h3⟩, hnp⟩⟩

theorem ctr_tagMax {p : AesCtrHmacStreamingParams} (h : CtrParamsOk p) :
    p.getHmacParams.tagSize.toNat ≤ AesCtrHmac.digestSize p.getHmacParams.hash := by
  have h1 := h.tagMax
  have h2 := h.hmacHash
  unfold AesCtrHmac.digestSize
  split
  · rwa [if_pos (by assumption)] at h1
  · rename_i g1
    rw [if_neg g1] at h1
    split
    · rwa [if_pos (by assumption)] at h1
    · rename_i g2
      rw [if_neg g2] at h1
      rcases h2 with g | g | g
      · exact absurd g g1
      · exact absurd g g2
      · rwa [if_pos g]

theorem ctr_params_eq {k : AesCtrHmacStreamingKey} (h : CtrParamsOk k.getParams) :
    AesCtrHmacStreamingKeyManager.params k =
      { ikm := k.keyValue, hkdfAlgo := k.getParams.hkdfHashType,
        keySize := k.getParams.derivedKeySize.toNat,
        ciphertextSegmentSize := k.getParams.ciphertextSegmentSize.toNat, ciphertextOffset := 0,
        tagAlgo := k.getParams.getHmacParams.hash, tagSize := k.getParams.getHmacParams.tagSize.toNat } := by
  have h1 := ctr_tagMax h
  have h2 : AesCtrHmac.digestSize k.getParams.getHmacParams.hash ≤ 64 := by
    unfold AesCtrHmac.digestSize
    split; omega; split; omega; split <;> omega
  have h3 := h.derived
  rw [AesCtrHmacStreamingKeyManager.params, toInt_small (by omega), toInt_small h.int, toInt_small (by omega)]

/-- C70.  Which AES-CTR-HMAC keys, wherever they come from, give a primitive. -/
theorem C70_ctr_keys :
    (∃ p, (AesCtrHmacStreamingKeyManager.keyTypeManager lib).getPrimitive kd = .ok p) ↔
      kd.typeUrl = ps! "type.googleapis.com/google.crypto.tink.AesCtrHmacStreamingKey" ∧
      ∃ k, AesCtrHmacStreamingKey.fromString kd.value = .ok k ∧ k.version = 0 ∧
        k.getParams.derivedKeySize.toNat ≤ k.keyValue.length ∧ CtrParamsOk k.getParams := by
  constructor
  · rintro ⟨p, h⟩
    obtain ⟨hu, k, hk, hv, -⟩ := getPrimitive_iff.1 h
    exact ⟨hu, k, hk, ctr_key_iff.1 hv⟩
  · rintro ⟨hu, k, hk, h1, h2, h3⟩
    have hd := h3.derived
    have hs := h3.segment
    have ht := h3.tagMin
    have hm := ctr_tagMax h3
    have hnew : ∃ np, AesCtrHmac.new lib (AesCtrHmacStreamingKeyManager.params k) = .ok np := by
      rw [ctr_params_eq h3]
      refine ⟨_, status_bind_ok.2 ⟨(), ctr_validate_ok h3.hash ?_ ?_ rfl ?_ h3.hmacHash ?_ ?_, rfl⟩⟩ <;>
        dsimp only <;> omega
    obtain ⟨np, hnp⟩ := hnew
    exact ⟨np, getPrimitive_iff.2 ⟨hu, k, hk, ctr_key_iff.2 ⟨h1, h2, h3⟩, hnp⟩⟩

/-- C70.  An AES-GCM-HKDF key that was made can be used, unless the segment size does not fit an `int` or
the key is very large: the key data can be stored, they give the primitive of the key for the parameters
asked for, and streams can be made. -/
theorem C70_gcm_usable (hl : SoundLibrary lib) {f : AesGcmHkdfStreamingKeyFormat}
    (hf : AesGcmHkdfStreamingKeyFormat.fromString b = .ok f)
    (h : (AesGcmHkdfStreamingKeyManager.keyTypeManager lib).newKeyData seed b = .ok kd)
    (hsize : f.getParams.ciphertextSegmentSize.toNat < 2 ^ 31) (hkey : f.keySize.toNat < 2 ^ 31 - 1000) :
    Fits kd ∧ ∃ p, (AesGcmHkdfStreamingKeyManager.keyTypeManager lib).getPrimitive kd = .ok p ∧
      AesGcmHkdf.new lib (gcmKey lib seed f) = .ok p ∧ Opens lib p := by
  obtain ⟨f', k, hf', hv, hk, rfl⟩ := (newKeyData_iff fun f => ⟨_, rfl⟩).1 h
  have : f' = f := by
    have := hf'.symm.trans hf
    simpa using this
  subst this
  obtain ⟨hp, hd⟩ := gcm_format_iff.1 hv
  replace hk : AesGcmHkdfStreamingKeyManager.createKey lib seed f' = .ok k := hk
  simp only [AesGcmHkdfStreamingKeyManager.createKey, Except.ok.injEq] at hk
  have hlen := hl.random seed f'.keySize.toNat
  have hkl : k.keyValue.length = f'.keySize.toNat := by rw [← hk]; exact hlen
  have hkp : k.getParams = f'.getParams := by rw [← hk]; rfl
  obtain ⟨v, hs, hvl⟩ := gcmKey_serialized (k := k) (by omega)
  have hser : (AesGcmHkdfStreamingKeyManager.keyTypeManager lib).serializeKey k = .ok v := hs
  rw [hser]
  refine ⟨keyData_fits (by show (ps! "type.googleapis.com/google.crypto.tink.AesGcmHkdfStreamingKey").length ≤ 100; decide)
    (by show v.length < _; omega), ?_⟩
  obtain ⟨p, hpr⟩ := (C70_gcm_keys (lib := lib) (kd := {
      typeUrl := (AesGcmHkdfStreamingKeyManager.keyTypeManager lib).keyType, value := v
      keyMaterialType := KeyMaterialType.SYMMETRIC })).2
    ⟨rfl, k, AesGcmHkdfStreamingKey.fromString_serializeToString hs, by rw [← hk], by rw [hkp, hkl]; exact hd,
      by rw [hkp]; exact hp, by rw [hkp]; exact hsize⟩
  obtain ⟨-, k', hk', -, hnew⟩ := getPrimitive_iff.1 hpr
  have : k' = k := by
    have := hk'.symm.trans (AesGcmHkdfStreamingKey.fromString_serializeToString hs)
    simpa using this
  subst this
  replace hnew : AesGcmHkdf.new lib (AesGcmHkdfStreamingKeyManager.params k') = .ok p := hnew
  have heq : AesGcmHkdfStreamingKeyManager.params k' = gcmKey lib seed f' := by
    have hd := hp.derived
    rw [AesGcmHkdfStreamingKeyManager.params, hkp, toInt_small (by omega), toInt_small hsize, ← hk]
    rfl
  rw [heq] at hnew
  exact ⟨p, hpr, hnew, gcm_opens hl hnew rfl (by simp only [gcmKey]; have := hp.segment; omega)⟩

/-- C70.  An AES-CTR-HMAC key that was made can be used, unless it is very large. -/
theorem C70_ctr_usable (hl : SoundLibrary lib) {f : AesCtrHmacStreamingKeyFormat}
    (hf : AesCtrHmacStreamingKeyFormat.fromString b = .ok f)
    (h : (AesCtrHmacStreamingKeyManager.keyTypeManager lib).newKeyData seed b = .ok kd)
    (hkey : f.keySize.toNat < 2 ^ 31 - 1000) :
    Fits kd ∧ ∃ p, (AesCtrHmacStreamingKeyManager.keyTypeManager lib).getPrimitive kd = .ok p ∧
      AesCtrHmac.new lib (ctrKey lib seed f) = .ok p ∧ Opens lib p := by
  obtain ⟨f', k, hf', hv, hk, rfl⟩ := (newKeyData_iff fun f => ⟨_, rfl⟩).1 h
  have : f' = f := by
    have := hf'.symm.trans hf
    simpa using this
  subst this
  obtain ⟨hp, hd⟩ := ctr_format_iff.1 hv
  replace hk : AesCtrHmacStreamingKeyManager.createKey lib seed f' = .ok k := hk
  simp only [AesCtrHmacStreamingKeyManager.createKey, Except.ok.injEq] at hk
  have hlen := hl.random seed f'.keySize.toNat
  have hkl : k.keyValue.length = f'.keySize.toNat := by rw [← hk]; exact hlen
  have hkp : k.getParams = f'.getParams := by rw [← hk]; rfl
  obtain ⟨v, hs, hvl⟩ := ctrKey_serialized (k := k) (by omega)
  have hser : (AesCtrHmacStreamingKeyManager.keyTypeManager lib).serializeKey k = .ok v := hs
  rw [hser]
  refine ⟨keyData_fits (by show (ps! "type.googleapis.com/google.crypto.tink.AesCtrHmacStreamingKey").length ≤ 100; decide)
    (by show v.length < _; omega), ?_⟩
  obtain ⟨p, hpr⟩ := (C70_ctr_keys (lib := lib) (kd := {
      typeUrl := (AesCtrHmacStreamingKeyManager.keyTypeManager lib).keyType, value := v
      keyMaterialType := KeyMaterialType.SYMMETRIC })).2
    ⟨rfl, k, AesCtrHmacStreamingKey.fromString_serializeToString hs, by rw [← hk], by rw [hkp, hkl]; exact hd,
      by rw [hkp]; exact hp⟩
  obtain ⟨-, k', hk', -, hnew⟩ := getPrimitive_iff.1 hpr
  have : k' = k := by
    have := hk'.symm.trans (AesCtrHmacStreamingKey.fromString_serializeToString hs)
    simpa using this
  subst this
  replace hnew : AesCtrHmac.new lib (AesCtrHmacStreamingKeyManager.params k') = .ok p := hnew
  have heq : AesCtrHmacStreamingKeyManager.params k' = ctrKey lib seed f' := by
    rw [ctr_params_eq (by rw [hkp]; exact hp), hkp, ← hk]
    rfl
  rw [heq] at hnew
  refine ⟨p, hpr, hnew, ctr_opens hl hnew hp.hash ?_ rfl ?_ ?_ ?_⟩
  · simp only [ctrKey]; have := hp.derived; omega
  · simp only [ctrKey]; have := hp.segment; omega
  · simp only [ctrKey]; have := hp.tagMin; omega
  · simp only [ctrKey]; have := ctr_tagMax hp; omega

/-- C70, what is missing.  An AES-GCM-HKDF key with a segment size of 2³¹ or more is made, but no
primitive is ever made from it. -/
theorem C70_gcm_large_segment {f : AesGcmHkdfStreamingKeyFormat}
    (hf : AesGcmHkdfStreamingKeyFormat.fromString b = .ok f) (hp : GcmParamsOk f.getParams)
    (hd : f.getParams.derivedKeySize.toNat ≤ f.keySize.toNat)
    (hsize : 2 ^ 31 ≤ f.getParams.ciphertextSegmentSize.toNat) :
    ∃ kd, (AesGcmHkdfStreamingKeyManager.keyTypeManager lib).newKeyData seed b = .ok kd ∧
      ∀ p, (AesGcmHkdfStreamingKeyManager.keyTypeManager lib).getPrimitive kd ≠ .ok p := by
  refine ⟨_, (newKeyData_iff fun f => ⟨_, rfl⟩).2 ⟨f, _, hf, gcm_format_iff.2 ⟨hp, hd⟩, rfl, rfl⟩, ?_⟩
  intro p hpr
  obtain ⟨-, k, hk, -, -, -, h4⟩ := C70_gcm_keys.1 ⟨p, hpr⟩
  dsimp only at hk
  cases hs : (AesGcmHkdfStreamingKeyManager.keyTypeManager lib).serializeKey
      { version := 0, params := some f.getParams, keyValue := lib.random seed f.keySize.toNat } with
  | ok v =>
    rw [hs] at hk
    have := hk.symm.trans (AesGcmHkdfStreamingKey.fromString_serializeToString hs)
    simp only [Except.ok.injEq] at this
    subst this
    simp only [AesGcmHkdfStreamingKey.getParams, Option.getD_some] at h4
    omega
  | error e =>
    rw [hs] at hk
    obtain ⟨-, k, hk', -, -, h3, -⟩ := C70_gcm_keys.1 ⟨p, hpr⟩
    dsimp only at hk'
    rw [hs] at hk'
    have h0 : AesGcmHkdfStreamingKey.fromString [] = .ok {} := by rfl
    have := hk'.symm.trans h0
    simp only [Except.ok.injEq] at this
    subst this
    have := h3.derived
    revert this
    decide

theorem serialize_large {fs : List Field} {num : Nat} {b : Bytes} (h : (⟨num, .len b⟩ : Field) ∈ fs)
    (hb : 2 ^ 31 ≤ b.length) : KeyTypeManager.serialized (serializeFields fs) = [] := by
  have := len_le_encodeFields h
  rw [serializeFields, if_neg (by omega)]
  rfl

theorem mem_bytesField {num : Nat} {b : Bytes} (h : b ≠ []) : (⟨num, .len b⟩ : Field) ∈ bytesField num b := by
  simp [bytesField, h]

/-- C70, what is missing.  A key of 2³¹ bytes or more is made, but its serialization is empty, and no
primitive is ever made from it. -/
theorem C70_gcm_large_key (hl : SoundLibrary lib) {f : AesGcmHkdfStreamingKeyFormat}
    (hf : AesGcmHkdfStreamingKeyFormat.fromString b = .ok f) (hp : GcmParamsOk f.getParams)
    (hsize : 2 ^ 31 ≤ f.keySize.toNat) :
    ∃ kd, (AesGcmHkdfStreamingKeyManager.keyTypeManager lib).newKeyData seed b = .ok kd ∧ kd.value = [] ∧
      ∀ p, (AesGcmHkdfStreamingKeyManager.keyTypeManager lib).getPrimitive kd ≠ .ok p := by
  have hd : f.getParams.derivedKeySize.toNat ≤ f.keySize.toNat := by have := hp.derived; omega
  have hv : KeyTypeManager.serialized ((AesGcmHkdfStreamingKeyManager.keyTypeManager lib).serializeKey
      { version := 0, params := some f.getParams, keyValue := lib.random seed f.keySize.toNat }) = [] := by
    have hlen := hl.random seed f.keySize.toNat
    refine serialize_large (num := 3) (b := lib.random seed f.keySize.toNat) ?_ (by omega)
    refine List.mem_append.2 (.inr (mem_bytesField fun h => ?_))
    dsimp only at h
    rw [h] at hlen
    simp at hlen
    omega
  refine ⟨_, (newKeyData_iff fun f => ⟨_, rfl⟩).2 ⟨f, _, hf, gcm_format_iff.2 ⟨hp, hd⟩, rfl, rfl⟩, hv, ?_⟩
  intro p hpr
  obtain ⟨-, k, hk, -, -, h3, -⟩ := C70_gcm_keys.1 ⟨p, hpr⟩
  dsimp only at hk
  rw [hv] at hk
  have h0 : AesGcmHkdfStreamingKey.fromString [] = .ok {} := by rfl
  have := hk.symm.trans h0
  simp only [Except.ok.injEq] at this
  subst this
  have := h3.derived
  revert this
  decide

/-- The same for AES-CTR-HMAC. -/
theorem C70_ctr_large_key (hl : SoundLibrary lib) {f : AesCtrHmacStreamingKeyFormat}
    (hf : AesCtrHmacStreamingKeyFormat.fromString b = .ok f) (hp : CtrParamsOk f.getParams)
    (hsize : 2 ^ 31 ≤ f.keySize.toNat) :
    ∃ kd, (AesCtrHmacStreamingKeyManager.keyTypeManager lib).newKeyData seed b = .ok kd ∧ kd.value = [] ∧
      ∀ p, (AesCtrHmacStreamingKeyManager.keyTypeManager lib).getPrimitive kd ≠ .ok p := by
  have hd : f.getParams.derivedKeySize.toNat ≤ f.keySize.toNat := by have := hp.derived; omega
  have hv : KeyTypeManager.serialized ((AesCtrHmacStreamingKeyManager.keyTypeManager lib).serializeKey
      { version := 0, params := some f.getParams, keyValue := lib.random seed f.keySize.toNat }) = [] := by
    have hlen := hl.random seed f.keySize.toNat
    refine serialize_large (num := 3) (b := lib.random seed f.keySize.toNat) ?_ (by omega)
    refine List.mem_append.2 (.inr (mem_bytesField fun h => ?_))
    dsimp only at h
    rw [h] at hlen
    simp at hlen
    omega
  refine ⟨_, (newKeyData_iff fun f => ⟨_, rfl⟩).2 ⟨f, _, hf, ctr_format_iff.2 ⟨hp, hd⟩, rfl, rfl⟩, hv, ?_⟩
  intro p hpr
  obtain ⟨-, k, hk, -, -, h3⟩ := C70_ctr_keys.1 ⟨p, hpr⟩
  dsimp only at hk
  rw [hv] at hk
  have h0 : AesCtrHmacStreamingKey.fromString [] = .ok {} := by rfl
  have := hk.symm.trans h0
  simp only [Except.ok.injEq] at this
  subst this
  have := h3.derived
  revert this
  decide

end

end Tink.Props
