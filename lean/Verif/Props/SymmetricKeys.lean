import Verif.Cc.Manages
import Verif.Cc.SizeLemmas
import Verif.Examples.ToySsl

/-!
# C89 to C93: symmetric keys and their primitives

`ccAead lib`, `ccDaead lib`, `ccMac lib` and `ccPrf lib` are the key managers that the C++ registry has for a
key type, after registration; the Python key managers call them (C65).  `lib` is BoringSSL.  The
specifications are in `Spec/SymmetricKeys.lean`, `Spec/BlockModes.lean` and `Spec/Hkdf.lean`.
-/

namespace Tink.Props
open Spec Cpp Cc

section
variable {lib : Ssl} {seed : Seed}

theorem stored_aead {url : PStr} {b : Bytes} (h : b.length < 2 ^ 31) (k : AeadKey) (hk : AeadKey.StoredIn url b k) :
    k.size < 2 ^ 31 := by
  have := AeadKey.size_le hk
  omega

theorem stored_daead {url : PStr} {b : Bytes} (h : b.length < 2 ^ 31) (k : SivKey) (hk : SivKey.StoredIn url b k) :
    k.size < 2 ^ 31 := by
  have := SivKey.size_le hk
  omega

theorem stored_mac {url : PStr} {b : Bytes} (h : b.length < 2 ^ 31) (k : MacKey) (hk : MacKey.StoredIn url b k) :
    k.size < 2 ^ 31 := by
  have := MacKey.size_le hk
  omega

theorem stored_prf {url : PStr} {b : Bytes} (h : b.length < 2 ^ 31) (k : PrfKey) (hk : PrfKey.StoredIn url b k) :
    k.size < 2 ^ 31 := by
  have := PrfKey.size_le hk
  omega

/-! ## C89: which keys are accepted and made -/

/-- C89, AEAD.  The key types. -/
theorem C89_aead_types {url : PStr} : (∃ cc, ccAead lib url = some cc) ↔
    url ∈ [ps! "type.googleapis.com/google.crypto.tink.AesCtrHmacAeadKey",
      ps! "type.googleapis.com/google.crypto.tink.AesGcmKey",
      ps! "type.googleapis.com/google.crypto.tink.AesGcmSivKey",
      ps! "type.googleapis.com/google.crypto.tink.AesEaxKey",
      ps! "type.googleapis.com/google.crypto.tink.XChaCha20Poly1305Key"] := by
  have h : ∀ {c1 c2 c3 c4 c5 : Prop} [Decidable c1] [Decidable c2] [Decidable c3] [Decidable c4] [Decidable c5]
      {x1 x2 x3 x4 x5 : Cpp.KeyManager Cpp.Aead}, (∃ cc, (if c1 then some x1 else if c2 then some x2
        else if c3 then some x3 else if c4 then some x4 else if c5 then some x5 else none) = some cc) ↔
        c1 ∨ c2 ∨ c3 ∨ c4 ∨ c5 := by
    intro c1 c2 c3 c4 c5 _ _ _ _ _ x1 x2 x3 x4 x5
    by_cases h1 : c1 <;> by_cases h2 : c2 <;> by_cases h3 : c3 <;> by_cases h4 : c4 <;> by_cases h5 : c5 <;>
      simp [h1, h2, h3, h4, h5]
  simp only [List.mem_cons, List.not_mem_nil, or_false]
  exact h

/-- C89, AEAD.  There is a primitive for key data if and only if they hold a key that is strong enough. -/
theorem C89_aead_keys (hl : LawfulSsl lib) {kd : KeyData} {cc : Cpp.KeyManager Cpp.Aead}
    (hcc : ccAead lib kd.typeUrl = some cc)
    (hv : kd.value.length < 2 ^ 31) :
    (∃ a, cc.getPrimitive kd = .ok a) ↔ ∃ k, AeadKey.StoredIn kd.typeUrl kd.value k ∧ k.Ok := by
  simp only [(aead_manages hl (seed := 0) hcc).getPrimitive kd rfl (stored_aead hv)]
  exact ⟨fun ⟨_, k, h1, h2, _⟩ => ⟨k, h1, h2⟩, fun ⟨k, h1, h2⟩ => ⟨_, k, h1, h2, rfl⟩⟩

/-- C89, AEAD.  A key is made for a key format if and only if it would be strong enough. -/
theorem C89_aead_formats (hl : LawfulSsl lib) {url : PStr} {cc : Cpp.KeyManager Cpp.Aead}
    (hcc : ccAead lib url = some cc) (b : Bytes) :
    (∃ kd, cc.newKeyData seed b = .ok kd) ↔ ∃ k, AeadKey.AskedFor (lib.random seed) url b k ∧ k.Ok :=
  (aead_manages hl hcc).formats b

/-- C89, AEAD.  The new key data hold the random key asked for, and there is a primitive for them. -/
theorem C89_aead_new (hl : LawfulSsl lib) {url : PStr} {cc : Cpp.KeyManager Cpp.Aead}
    (hcc : ccAead lib url = some cc) {b : Bytes} {kd : KeyData} (h : cc.newKeyData seed b = .ok kd) :
    ∃ k, AeadKey.AskedFor (lib.random seed) url b k ∧ k.Ok ∧ kd.typeUrl = url ∧
      kd.keyMaterialType = KeyMaterialType.SYMMETRIC ∧
      (k.size < 2 ^ 31 - 1000 →
        Fits kd ∧ AeadKey.StoredIn url kd.value k ∧ ∃ a, cc.getPrimitive kd = .ok a) := by
  obtain ⟨k, h1, h2, h3, h4, h5⟩ := (aead_manages hl hcc).usable b kd h
  exact ⟨k, h1, h2, h3, h4, fun hs => ⟨(h5 hs).1, (h5 hs).2.1, _, (h5 hs).2.2⟩⟩

/-- C89, deterministic AEAD. -/
theorem C89_daead_types {url : PStr} : (∃ cc, ccDaead lib url = some cc) ↔
    url = ps! "type.googleapis.com/google.crypto.tink.AesSivKey" := by
  unfold ccDaead
  split
  · rename_i h; simp; exact h
  · rename_i h; simp; exact h

theorem C89_daead_keys (hl : LawfulSsl lib) {kd : KeyData} {cc : Cpp.KeyManager Cpp.DeterministicAead}
    (hcc : ccDaead lib kd.typeUrl = some cc)
    (hv : kd.value.length < 2 ^ 31) :
    (∃ a, cc.getPrimitive kd = .ok a) ↔ ∃ k, SivKey.StoredIn kd.typeUrl kd.value k ∧ k.Ok := by
  simp only [(daead_manages hl (seed := 0) hcc).getPrimitive kd rfl (stored_daead hv)]
  exact ⟨fun ⟨_, k, h1, h2, _⟩ => ⟨k, h1, h2⟩, fun ⟨k, h1, h2⟩ => ⟨_, k, h1, h2, rfl⟩⟩

theorem C89_daead_formats (hl : LawfulSsl lib) {url : PStr} {cc : Cpp.KeyManager Cpp.DeterministicAead}
    (hcc : ccDaead lib url = some cc) (b : Bytes) :
    (∃ kd, cc.newKeyData seed b = .ok kd) ↔ ∃ k, SivKey.AskedFor (lib.random seed) url b k ∧ k.Ok :=
  (daead_manages hl hcc).formats b

theorem C89_daead_new (hl : LawfulSsl lib) {url : PStr} {cc : Cpp.KeyManager Cpp.DeterministicAead}
    (hcc : ccDaead lib url = some cc) {b : Bytes} {kd : KeyData} (h : cc.newKeyData seed b = .ok kd) :
    ∃ k, SivKey.AskedFor (lib.random seed) url b k ∧ k.Ok ∧ kd.typeUrl = url ∧
      kd.keyMaterialType = KeyMaterialType.SYMMETRIC ∧
      Fits kd ∧ SivKey.StoredIn url kd.value k ∧ ∃ a, cc.getPrimitive kd = .ok a := by
  obtain ⟨k, h1, h2, h3, h4, h5⟩ := (daead_manages hl hcc).usable b kd h
  have h64 : k.key.length = 64 := h2
  have hs : k.size < 2 ^ 31 - 1000 := by show k.key.length < _; omega
  exact ⟨k, h1, h2, h3, h4, (h5 hs).1, (h5 hs).2.1, _, (h5 hs).2.2⟩

/-- C89, MAC. -/
theorem C89_mac_types {url : PStr} : (∃ cc, ccMac lib url = some cc) ↔
    url ∈ [ps! "type.googleapis.com/google.crypto.tink.HmacKey",
      ps! "type.googleapis.com/google.crypto.tink.AesCmacKey"] := by
  have h : ∀ {c1 c2 : Prop} [Decidable c1] [Decidable c2] {x1 x2 : Cpp.KeyManager Cpp.Mac},
      (∃ cc, (if c1 then some x1 else if c2 then some x2 else none) = some cc) ↔ c1 ∨ c2 := by
    intro c1 c2 _ _ x1 x2
    by_cases h1 : c1 <;> by_cases h2 : c2 <;> simp [h1, h2]
  simp only [List.mem_cons, List.not_mem_nil, or_false]
  exact h

theorem C89_mac_keys (hl : LawfulSsl lib) {kd : KeyData} {cc : Cpp.KeyManager Cpp.Mac}
    (hcc : ccMac lib kd.typeUrl = some cc)
    (hv : kd.value.length < 2 ^ 31) :
    (∃ a, cc.getPrimitive kd = .ok a) ↔ ∃ k, MacKey.StoredIn kd.typeUrl kd.value k ∧ k.Ok := by
  simp only [(mac_manages hl (seed := 0) hcc).getPrimitive kd rfl (stored_mac hv)]
  exact ⟨fun ⟨_, k, h1, h2, _⟩ => ⟨k, h1, h2⟩, fun ⟨k, h1, h2⟩ => ⟨_, k, h1, h2, rfl⟩⟩

theorem C89_mac_formats (hl : LawfulSsl lib) {url : PStr} {cc : Cpp.KeyManager Cpp.Mac}
    (hcc : ccMac lib url = some cc) (b : Bytes) :
    (∃ kd, cc.newKeyData seed b = .ok kd) ↔ ∃ k, MacKey.AskedFor (lib.random seed) url b k ∧ k.Ok :=
  (mac_manages hl hcc).formats b

theorem C89_mac_new (hl : LawfulSsl lib) {url : PStr} {cc : Cpp.KeyManager Cpp.Mac}
    (hcc : ccMac lib url = some cc) {b : Bytes} {kd : KeyData} (h : cc.newKeyData seed b = .ok kd) :
    ∃ k, MacKey.AskedFor (lib.random seed) url b k ∧ k.Ok ∧ kd.typeUrl = url ∧
      kd.keyMaterialType = KeyMaterialType.SYMMETRIC ∧
      (k.size < 2 ^ 31 - 1000 →
        Fits kd ∧ MacKey.StoredIn url kd.value k ∧ ∃ a, cc.getPrimitive kd = .ok a) := by
  obtain ⟨k, h1, h2, h3, h4, h5⟩ := (mac_manages hl hcc).usable b kd h
  exact ⟨k, h1, h2, h3, h4, fun hs => ⟨(h5 hs).1, (h5 hs).2.1, _, (h5 hs).2.2⟩⟩

/-- C89, PRF. -/
theorem C89_prf_types {url : PStr} : (∃ cc, ccPrf lib url = some cc) ↔
    url ∈ [ps! "type.googleapis.com/google.crypto.tink.HmacPrfKey",
      ps! "type.googleapis.com/google.crypto.tink.HkdfPrfKey",
      ps! "type.googleapis.com/google.crypto.tink.AesCmacPrfKey"] := by
  have h : ∀ {c1 c2 c3 : Prop} [Decidable c1] [Decidable c2] [Decidable c3] {x1 x2 x3 : Cpp.KeyManager Cpp.Prf},
      (∃ cc, (if c1 then some x1 else if c2 then some x2 else if c3 then some x3 else none) = some cc) ↔
        c1 ∨ c2 ∨ c3 := by
    intro c1 c2 c3 _ _ _ x1 x2 x3
    by_cases h1 : c1 <;> by_cases h2 : c2 <;> by_cases h3 : c3 <;> simp [h1, h2, h3]
  simp only [List.mem_cons, List.not_mem_nil, or_false]
  exact h

theorem C89_prf_keys (hl : LawfulSsl lib) {kd : KeyData} {cc : Cpp.KeyManager Cpp.Prf}
    (hcc : ccPrf lib kd.typeUrl = some cc)
    (hv : kd.value.length < 2 ^ 31) :
    (∃ a, cc.getPrimitive kd = .ok a) ↔ ∃ k, PrfKey.StoredIn kd.typeUrl kd.value k ∧ k.Ok := by
  simp only [(prf_manages hl (seed := 0) hcc).getPrimitive kd rfl (stored_prf hv)]
  exact ⟨fun ⟨_, k, h1, h2, _⟩ => ⟨k, h1, h2⟩, fun ⟨k, h1, h2⟩ => ⟨_, k, h1, h2, rfl⟩⟩

theorem C89_prf_formats (hl : LawfulSsl lib) {url : PStr} {cc : Cpp.KeyManager Cpp.Prf}
    (hcc : ccPrf lib url = some cc) (b : Bytes) :
    (∃ kd, cc.newKeyData seed b = .ok kd) ↔ ∃ k, PrfKey.AskedFor (lib.random seed) url b k ∧ k.Ok :=
  (prf_manages hl hcc).formats b

theorem C89_prf_new (hl : LawfulSsl lib) {url : PStr} {cc : Cpp.KeyManager Cpp.Prf}
    (hcc : ccPrf lib url = some cc) {b : Bytes} {kd : KeyData} (h : cc.newKeyData seed b = .ok kd) :
    ∃ k, PrfKey.AskedFor (lib.random seed) url b k ∧ k.Ok ∧ kd.typeUrl = url ∧
      kd.keyMaterialType = KeyMaterialType.SYMMETRIC ∧
      (k.size < 2 ^ 31 - 1000 →
        Fits kd ∧ PrfKey.StoredIn url kd.value k ∧ ∃ a, cc.getPrimitive kd = .ok a) := by
  obtain ⟨k, h1, h2, h3, h4, h5⟩ := (prf_manages hl hcc).usable b kd h
  exact ⟨k, h1, h2, h3, h4, fun hs => ⟨(h5 hs).1, (h5 hs).2.1, _, (h5 hs).2.2⟩⟩

/-! ## C89: what is missing -/

/-- C89, violation.  A key format may ask for an HMAC key of 2 GiB or more.  It is made, but cannot be
serialized: the key data are empty, and there is no primitive for them. -/
theorem C89_hmac_large_key (hl : LawfulSsl lib) {b : Bytes} {f : HmacKeyFormat}
    (hf : HmacKeyFormat.fromString b = .ok f) {n : Nat} (hd : Digest f.getParams.hash n)
    (ht : 10 ≤ f.getParams.tagSize.toNat) (ht' : f.getParams.tagSize.toNat ≤ n)
    (hsize : 2 ^ 31 ≤ f.keySize.toNat) :
    ∃ cc kd, ccMac lib (ps! "type.googleapis.com/google.crypto.tink.HmacKey") = some cc ∧
      cc.newKeyData seed b = .ok kd ∧ kd.value = [] ∧ ∀ a, cc.getPrimitive kd ≠ .ok a := by
  have hv : KeyTypeManager.serialized ((HmacKeyManager.keyTypeManager lib).serializeKey
      { version := 0, params := some f.getParams, keyValue := lib.random seed 0 f.keySize.toNat }) = [] := by
    have hlen := hl.random_length seed 0 f.keySize.toNat
    refine serialize_large (num := 3) (b := lib.random seed 0 f.keySize.toNat) ?_ (by omega)
    refine List.mem_append.2 (.inr (mem_bytesField fun h => ?_))
    dsimp only at h
    rw [h] at hlen
    simp at hlen
    omega
  refine ⟨_, _, if_pos rfl, (newKeyData_iff fun f => ⟨_, rfl⟩).2
    ⟨f, _, hf, hmacFormat_iff.2 ⟨by omega, ht, n, hd, ht'⟩, rfl, rfl⟩, hv, ?_⟩
  intro a ha
  unfold KeyTypeManager.toKeyManager at ha
  dsimp only at ha
  obtain ⟨-, k, hk, hval, -⟩ := getPrimitive_iff.1 ha
  dsimp only at hk
  rw [hv] at hk
  have h0 : HmacKey.fromString [] = .ok {} := by rfl
  have := hk.symm.trans h0
  simp only [Except.ok.injEq] at this
  subst this
  have := (hmacKey_iff.1 hval).2.1
  simp at this

/-- The same for PRF keys. -/
theorem C89_hmac_prf_large_key (hl : LawfulSsl lib) {b : Bytes} {f : HmacPrfKeyFormat}
    (hf : HmacPrfKeyFormat.fromString b = .ok f) (hver : f.version = 0) {n : Nat}
    (hd : Digest f.getParams.hash n) (hsize : 2 ^ 31 ≤ f.keySize.toNat) :
    ∃ cc kd, ccPrf lib (ps! "type.googleapis.com/google.crypto.tink.HmacPrfKey") = some cc ∧
      cc.newKeyData seed b = .ok kd ∧ kd.value = [] ∧ ∀ a, cc.getPrimitive kd ≠ .ok a := by
  have hv : KeyTypeManager.serialized ((HmacPrfKeyManager.keyTypeManager lib).serializeKey
      { version := 0, params := some f.getParams, keyValue := lib.random seed 0 f.keySize.toNat }) = [] := by
    have hlen := hl.random_length seed 0 f.keySize.toNat
    refine serialize_large (num := 3) (b := lib.random seed 0 f.keySize.toNat) ?_ (by omega)
    refine List.mem_append.2 (.inr (mem_bytesField fun h => ?_))
    dsimp only at h
    rw [h] at hlen
    simp at hlen
    omega
  have hfm : HmacPrfKeyManager.validateKeyFormat f = .ok () := by
    unfold HmacPrfKeyManager.validateKeyFormat
    rw [then_invalid, version_iff, ite_invalid', hmacPrfParams_iff, UInt32.lt_iff_toNat_lt]
    exact ⟨hver, by show ¬ _ < 16; omega, n, hd⟩
  refine ⟨_, _, if_pos rfl, (newKeyData_iff fun f => ⟨_, rfl⟩).2 ⟨f, _, hf, hfm, rfl, rfl⟩, hv, ?_⟩
  intro a ha
  unfold KeyTypeManager.toKeyManager at ha
  dsimp only at ha
  obtain ⟨-, k, hk, hval, -⟩ := getPrimitive_iff.1 ha
  dsimp only at hk
  rw [hv] at hk
  have h0 : HmacPrfKey.fromString [] = .ok {} := by rfl
  have := hk.symm.trans h0
  simp only [Except.ok.injEq] at this
  subst this
  replace hval : HmacPrfKeyManager.validateKey {} = .ok () := hval
  cases hval

/-! ## C90: the primitives do what such primitives have to do -/

theorem aeadPrim_exact (hl : LawfulSsl lib) {k : AeadKey} (h2 : k.Ok) : ExactAead (aeadPrim lib k) k.overhead := by
  cases k with
  | aesGcm key => exact nonce_exact hl fun nonce hn => ⟨h2, hn⟩
  | aesGcmSiv key => exact nonce_exact hl fun nonce hn => ⟨h2, hn⟩
  | aesEax key n => exact eax_exact hl h2.1 n
  | xChaCha20Poly1305 key => exact nonce_exact hl fun nonce hn => ⟨h2, hn⟩
  | aesCtrHmac key n hmacKey hash t =>
    obtain ⟨hk, -, -, -, -, m, hd, ht⟩ := h2
    exact eta_exact hl hk (hmac_exact hl hd ht hmacKey) fun d => length_hmac_tag hl hd ht hmacKey d

/-- C90, AEAD. -/
theorem C90_aead (hl : LawfulSsl lib) {kd : KeyData} {cc : Cpp.KeyManager Cpp.Aead} {a : Cpp.Aead}
    (hcc : ccAead lib kd.typeUrl = some cc) (ha : cc.getPrimitive kd = .ok a)
    (hv : kd.value.length < 2 ^ 31) :
    ∃ k, AeadKey.StoredIn kd.typeUrl kd.value k ∧ k.Ok ∧ ExactAead a k.overhead := by
  obtain ⟨k, h1, h2, rfl⟩ := ((aead_manages hl (seed := 0) hcc).getPrimitive kd rfl (stored_aead hv) a).1 ha
  exact ⟨k, h1, h2, aeadPrim_exact hl h2⟩

theorem siv_aes (hl : LawfulSsl lib) {k : SivKey} (h : k.Ok) :
    (∀ b, (lib.aes (k.key.take 32) b).length = 16) ∧ ∀ b, (lib.aes (k.key.drop 32) b).length = 16 := by
  have h : k.key.length = 64 := h
  exact ⟨hl.aes _ (.inr (by rw [List.length_take]; omega)), hl.aes _ (.inr (by rw [List.length_drop]; omega))⟩

/-- C90, deterministic AEAD. -/
theorem C90_daead (hl : LawfulSsl lib) {kd : KeyData} {cc : Cpp.KeyManager Cpp.DeterministicAead}
    {a : Cpp.DeterministicAead} (hcc : ccDaead lib kd.typeUrl = some cc) (ha : cc.getPrimitive kd = .ok a)
    (hv : kd.value.length < 2 ^ 31) :
    ∃ k, SivKey.StoredIn kd.typeUrl kd.value k ∧ k.Ok ∧ ExactDaead a 16 := by
  obtain ⟨k, h1, h2, rfl⟩ := ((daead_manages hl (seed := 0) hcc).getPrimitive kd rfl (stored_daead hv) a).1 ha
  exact ⟨k, h1, h2, siv_exact (siv_aes hl h2).1 (siv_aes hl h2).2⟩

/-- C90, MAC.  Tags have the size that the key prescribes. -/
theorem C90_mac (hl : LawfulSsl lib) {kd : KeyData} {cc : Cpp.KeyManager Cpp.Mac} {a : Cpp.Mac}
    (hcc : ccMac lib kd.typeUrl = some cc) (ha : cc.getPrimitive kd = .ok a)
    (hv : kd.value.length < 2 ^ 31) :
    ∃ k, MacKey.StoredIn kd.typeUrl kd.value k ∧ k.Ok ∧ ExactMac a (k.tag lib) ∧
      ∀ data, (k.tag lib data).length = k.tagSize := by
  obtain ⟨k, h1, h2, rfl⟩ := ((mac_manages hl (seed := 0) hcc).getPrimitive kd rfl (stored_mac hv) a).1 ha
  refine ⟨k, h1, h2, ?_⟩
  cases k with
  | hmac key hash t =>
    obtain ⟨-, -, m, hd, ht⟩ := h2
    exact ⟨hmac_exact hl hd ht key, fun d => length_hmac_tag hl hd ht key d⟩
  | aesCmac key t =>
    obtain ⟨hk, -, ht⟩ := h2
    refine ⟨cmac_exact hl (.inr hk) ht, fun d => ?_⟩
    simp only [MacKey.tag, MacKey.tagSize, List.length_take, length_cmac (hl.aes key (.inr hk))]
    omega

/-- C90, PRF: the first bytes of one output, of the length that the key type allows; for HKDF, if less than
2 GiB are asked for (otherwise see C93). -/
theorem C90_prf (hl : LawfulSsl lib) {kd : KeyData} {cc : Cpp.KeyManager Cpp.Prf} {a : Cpp.Prf}
    (hcc : ccPrf lib kd.typeUrl = some cc) (ha : cc.getPrimitive kd = .ok a)
    (hv : kd.value.length < 2 ^ 31) :
    ∃ k, PrfKey.StoredIn kd.typeUrl kd.value k ∧ k.Ok ∧
      (∀ below, below ≤ 2 ^ 31 ∨ kd.typeUrl ≠ ps! "type.googleapis.com/google.crypto.tink.HkdfPrfKey" →
        ExactPrf a (k.output lib) below) ∧
      ∀ input, k.maxLength (k.output lib input).length := by
  obtain ⟨k, h1, h2, rfl⟩ := ((prf_manages hl (seed := 0) hcc).getPrimitive kd rfl (stored_prf hv) a).1 ha
  refine ⟨k, h1, h2, ?_⟩
  cases k with
  | hmac key hash =>
    obtain ⟨hk, m, hd⟩ := h2
    have he : ∀ input, statefulHmac lib hash m key input = .ok (PrfKey.output lib (.hmac key hash) input) ∧
        (PrfKey.output lib (.hmac key hash) input).length = m := by
      intro input
      obtain ⟨t, ht, hn⟩ := hl.hmac hash m hd key input
      unfold statefulHmac PrfKey.output
      rw [mdSize_iff.2 hd]
      dsimp only
      rw [if_neg (by omega), if_neg (by omega), ht]
      dsimp only
      rw [List.take_of_length_le (by omega)]
      exact ⟨rfl, hn⟩
    constructor
    · intro below hb input n hn
      show (_ → (prfPrim lib (.hmac key hash)).compute input n = _) ∧ (_ → ∃ e, (prfPrim lib (.hmac key hash)).compute input n = _)
      simp only [prfPrim, prfFromMac, mdSize_iff.2 hd, Option.getD_some, (he input).1, bind, Except.bind, pure,
        Except.pure]
      constructor
      · intro h; rw [if_neg (by omega)]
      · intro h; rw [if_pos h]; exact ⟨_, rfl⟩
    · intro input
      show Digest hash _
      rw [(he input).2]
      exact hd
  | aesCmac key =>
    have hk : key.length = 32 := h2
    have he : ∀ input, statefulCmac lib 16 key input = .ok (PrfKey.output lib (.aesCmac key) input) ∧
        (PrfKey.output lib (.aesCmac key) input).length = 16 := by
      intro input
      have hn := length_cmac (hl.aes key (.inr hk)) input
      unfold statefulCmac PrfKey.output
      rw [hk, if_neg (by decide), if_neg (by omega), hl.cmac key (.inr hk)]
      dsimp only
      rw [List.take_of_length_le (by omega)]
      exact ⟨rfl, hn⟩
    constructor
    · intro below hb input n hn
      show (_ → (prfPrim lib (.aesCmac key)).compute input n = _) ∧ (_ → ∃ e, (prfPrim lib (.aesCmac key)).compute input n = _)
      simp only [prfPrim, prfFromMac, (he input).1, bind, Except.bind, pure, Except.pure]
      constructor
      · intro h; rw [if_neg (by omega)]
      · intro h; rw [if_pos h]; exact ⟨_, rfl⟩
    · intro input; exact (he input).2
  | hkdf key hash salt =>
    obtain ⟨m, hd⟩ : ∃ m, Digest hash m := by
      rcases h2.2.2 with rfl | rfl
      · exact ⟨_, .sha256⟩
      · exact ⟨_, .sha512⟩
    have hurl : kd.typeUrl = ps! "type.googleapis.com/google.crypto.tink.HkdfPrfKey" := by
      generalize kd.typeUrl = u at h1
      cases h1
      rfl
    have hlen : ∀ input, (PrfKey.output lib (.hkdf key hash salt) input).length = 255 * m :=
      fun input => length_blocks hl hd 255
    constructor
    · intro below hb input n hn
      have hn : n < 2 ^ 31 := hb.elim (fun h => Nat.lt_of_lt_of_le hn h) (fun h => absurd hurl h)
      rw [hlen]
      show (_ → (prfPrim lib (.hkdf key hash salt)).compute input n = _) ∧ (_ → ∃ e, (prfPrim lib (.hkdf key hash salt)).compute input n = _)
      simp only [prfPrim, mdSize_iff.2 hd, Option.getD_some, hkdf_compute_eq hl hd _ _ _ hn]
      constructor
      · intro h; rw [if_pos h]; rfl
      · intro h; rw [if_neg (by omega)]; exact ⟨_, rfl⟩
    · intro input; exact ⟨m, hd, hlen input⟩

/-! ## C91: the ciphertexts are those of the published algorithms -/

theorem lengthOk_iff {ad : Bytes} (h : ad.length < 2 ^ 64) : lengthOk ad ↔ ad.length < 2 ^ 61 := by
  constructor
  · intro h'
    unfold lengthOk at h'
    rw [← UInt64.toNat_inj, UInt64.toNat_div, UInt64.toNat_mul] at h'
    simp at h'
    omega
  · exact lengthOk_small

theorem macInput_eq {ad p : Bytes} (h : ad.length < 2 ^ 61) : Cc.macInput ad p = AeadKey.macInput ad p := by
  unfold Cc.macInput AeadKey.macInput longToBigEndianStr
  congr 2
  rw [UInt64.toNat_mul]
  simp
  omega

theorem eta_ciphertext (hl : LawfulSsl lib) {key hmacKey nonce ad pt ct : Bytes} {n t : Nat} {hash : EnumVal}
    (hk : IsAesKey key) (had : ad.length < 2 ^ 64) :
    AeadKey.ciphertext lib nonce ad pt (.aesCtrHmac key n hmacKey hash t) = some ct ↔
      lengthOk ad ∧ pt.length < 2 ^ 31 ∧ ct =
        (nonce ++ ctr128 (lib.aes key) (nonce ++ List.replicate (16 - n) 0) pt) ++
          MacKey.tag lib (.hmac hmacKey hash t)
            (Cc.macInput ad (nonce ++ ctr128 (lib.aes key) (nonce ++ List.replicate (16 - n) 0) pt)) := by
  rw [lengthOk_iff had]
  simp only [AeadKey.ciphertext, MacKey.tag, ctr128_eq (hl.aes key hk)]
  by_cases h : pt.length < 2 ^ 31 ∧ ad.length < 2 ^ 61
  · rw [if_pos h, macInput_eq h.2, Option.some.injEq]
    exact ⟨fun e => ⟨h.2, h.1, e.symm⟩, fun e => e.2.2.symm⟩
  · rw [if_neg h]
    constructor
    · intro e; cases e
    · rintro ⟨h1, h2, -⟩; exact absurd ⟨h2, h1⟩ h

theorem aeadPrim_ciphertexts (hl : LawfulSsl lib) {k : AeadKey} (h2 : k.Ok) {ad : Bytes} (had : ad.length < 2 ^ 64)
    (pt ct : Bytes) :
    (∀ seed, (aeadPrim lib k).encrypt seed pt ad = .ok ct ↔
      k.ciphertext lib (lib.random seed 0 k.nonceSize) ad pt = some ct) ∧
    ((aeadPrim lib k).decrypt ct ad = .ok pt ↔
      ∃ nonce, nonce.length = k.nonceSize ∧ k.ciphertext lib nonce ad pt = some ct) := by
  have enc : ∀ seed, (aeadPrim lib k).encrypt seed pt ad = .ok ct ↔
      k.ciphertext lib (lib.random seed 0 k.nonceSize) ad pt = some ct := by
    intro seed
    have hev : ∀ {alg : EvpAead} {n : Nat} {key : Bytes}, nonceEncrypt lib alg n key seed pt ad = .ok ct ↔
        (lib.evpSeal alg key (lib.random seed 0 n) ad pt).map (lib.random seed 0 n ++ ·) = some ct := by
      intro alg n key
      rw [nonceEncrypt_ok, Option.map_eq_some_iff]
      exact ⟨fun ⟨c, h, e⟩ => ⟨c, h, e.symm⟩, fun ⟨c, h, e⟩ => ⟨c, h, e.symm⟩⟩
    cases k with
    | aesGcm key => exact hev
    | aesGcmSiv key => exact hev
    | xChaCha20Poly1305 key => exact hev
    | aesEax key n =>
      show AesEax.encrypt lib key n seed pt ad = .ok ct ↔ _
      rw [eax_encrypt_eq (hl.aes key h2.1), Except.ok.injEq]
      exact Option.some_inj.symm
    | aesCtrHmac key n hmacKey hash t =>
      obtain ⟨hk, -, -, -, -, m, hd, ht⟩ := h2
      have hm : ExactMac (hmacPrim lib hmacKey hash t) _ := hmac_exact hl hd ht hmacKey
      show etaEncrypt _ _ t seed pt ad = .ok ct ↔ _
      rw [eta_encrypt_ok hm fun d => length_hmac_tag hl hd ht hmacKey d, eta_ciphertext hl hk had]
      simp only [ctr_encrypt_ok]
      constructor
      · rintro ⟨g1, p, ⟨g2, rfl⟩, g3⟩; exact ⟨g1, g2, g3⟩
      · rintro ⟨g1, g2, g3⟩; exact ⟨g1, _, ⟨g2, rfl⟩, g3⟩
  refine ⟨enc, ?_⟩
  rw [(aeadPrim_exact hl h2).exact]
  constructor
  · rintro ⟨seed, h⟩
    exact ⟨_, hl.random_length seed 0 _, (enc seed).1 h⟩
  · rintro ⟨nonce, hn, h⟩
    obtain ⟨seed, hseed⟩ := hl.random_any 0 nonce
    refine ⟨seed, (enc seed).2 ?_⟩
    rw [← hn, hseed]
    exact h

/-- C91, AEAD.  Encryption returns the ciphertext for the key and a random nonce; decryption accepts the
ciphertexts for the key, whoever made them and whatever the nonce. -/
theorem C91_aead (hl : LawfulSsl lib) {kd : KeyData} {cc : Cpp.KeyManager Cpp.Aead} {a : Cpp.Aead}
    (hcc : ccAead lib kd.typeUrl = some cc) (ha : cc.getPrimitive kd = .ok a)
    (hv : kd.value.length < 2 ^ 31) :
    ∃ k, AeadKey.StoredIn kd.typeUrl kd.value k ∧
      ∀ ad, ad.length < 2 ^ 64 → ∀ pt ct,
        (∀ seed, a.encrypt seed pt ad = .ok ct ↔
          k.ciphertext lib (lib.random seed 0 k.nonceSize) ad pt = some ct) ∧
        (a.decrypt ct ad = .ok pt ↔
          ∃ nonce, nonce.length = k.nonceSize ∧ k.ciphertext lib nonce ad pt = some ct) := by
  obtain ⟨k, h1, h2, rfl⟩ := ((aead_manages hl (seed := 0) hcc).getPrimitive kd rfl (stored_aead hv) a).1 ha
  exact ⟨k, h1, fun ad had pt ct => aeadPrim_ciphertexts hl h2 had pt ct⟩

/-- C91, deterministic AEAD: AES-SIV, with the first half of the key for the synthetic IV and the second
for encryption. -/
theorem C91_daead (hl : LawfulSsl lib) {kd : KeyData} {cc : Cpp.KeyManager Cpp.DeterministicAead}
    {a : Cpp.DeterministicAead} (hcc : ccDaead lib kd.typeUrl = some cc) (ha : cc.getPrimitive kd = .ok a)
    (hv : kd.value.length < 2 ^ 31) :
    ∃ k, SivKey.StoredIn kd.typeUrl kd.value k ∧ ∀ pt ad,
      a.encryptDeterministically pt ad =
        .ok (Modes.siv (lib.aes (k.key.take 32)) (lib.aes (k.key.drop 32)) ad pt) := by
  obtain ⟨k, h1, h2, rfl⟩ := ((daead_manages hl (seed := 0) hcc).getPrimitive kd rfl (stored_daead hv) a).1 ha
  exact ⟨k, h1, fun pt ad => siv_encrypt_eq (siv_aes hl h2).1 (siv_aes hl h2).2 pt ad⟩

/-! ## C92: AES-CTR-HMAC does not confuse associated data and text -/

theorem macInput_inj {ad ad' p p' : Bytes} (h : ad.length < 2 ^ 61) (h' : ad'.length < 2 ^ 61)
    (e : AeadKey.macInput ad p = AeadKey.macInput ad' p') : ad = ad' ∧ p = p' := by
  unfold AeadKey.macInput at e
  obtain ⟨e1, e2⟩ := List.append_inj' e (by simp [digitsBE_length])
  have e3 := congrArg fromBytesBE e2
  rw [fromBytesBE_digits _ _ (by omega), fromBytesBE_digits _ _ (by omega)] at e3
  exact List.append_inj e1 (by omega)

theorem aead_ctrHmac_unique {url : PStr} {v key hmacKey : Bytes} {n t : Nat} {hash : EnumVal} {k : AeadKey}
    (hk : AeadKey.StoredIn url v (.aesCtrHmac key n hmacKey hash t)) (hk' : AeadKey.StoredIn url v k) :
    k = .aesCtrHmac key n hmacKey hash t := by
  generalize hx : AeadKey.aesCtrHmac key n hmacKey hash t = x at hk
  cases hk with
  | aesCtrHmac g1 g2 g3 g4 =>
    generalize hw : ps! "type.googleapis.com/google.crypto.tink.AesCtrHmacAeadKey" = w at hk'
    cases hk' with
    | aesCtrHmac g1' g2' g3' g4' =>
      rw [g1] at g1'
      cases g1'
      rfl
    | _ => other_type hw
  | _ => cases hx

/-- C92.  An accepted ciphertext ends with an HMAC tag.  If it, or its associated data, differ from those
of an encryption, then the tag is for a string that this encryption has not computed a tag for. -/
theorem C92_aes_ctr_hmac (hl : LawfulSsl lib) {kd : KeyData} {cc : Cpp.KeyManager Cpp.Aead} {a : Cpp.Aead}
    (hcc : ccAead lib kd.typeUrl = some cc) (ha : cc.getPrimitive kd = .ok a)
    {key hmacKey : Bytes} {n t : Nat} {hash : EnumVal}
    (hk : AeadKey.StoredIn kd.typeUrl kd.value (.aesCtrHmac key n hmacKey hash t))
    (hv : kd.value.length < 2 ^ 31)
    {ct ad pt : Bytes} (had : ad.length < 2 ^ 64) (hd : a.decrypt ct ad = .ok pt) :
    ∃ payload, ct = payload ++
        ((lib.hmac hash hmacKey (AeadKey.macInput ad payload)).getD []).take t ∧
      ∀ seed pt' ad' ct', ad'.length < 2 ^ 64 → a.encrypt seed pt' ad' = .ok ct' → (ct', ad') ≠ (ct, ad) →
        ∃ payload', ct' = payload' ++
            ((lib.hmac hash hmacKey (AeadKey.macInput ad' payload')).getD []).take t ∧
          AeadKey.macInput ad' payload' ≠ AeadKey.macInput ad payload := by
  obtain ⟨k, h1, h2⟩ := C91_aead hl hcc ha hv
  obtain rfl := aead_ctrHmac_unique hk h1
  have hcases : ∀ {nonce ad pt ct}, AeadKey.ciphertext lib nonce ad pt (.aesCtrHmac key n hmacKey hash t) = some ct →
      ad.length < 2 ^ 61 ∧ ∃ payload, ct = payload ++
        ((lib.hmac hash hmacKey (AeadKey.macInput ad payload)).getD []).take t := by
    intro nonce ad pt ct h
    simp only [AeadKey.ciphertext] at h
    split at h
    · rename_i g
      cases h
      exact ⟨g.2, _, rfl⟩
    · cases h
  obtain ⟨nonce, -, hc⟩ := (h2 ad had pt ct).2.1 hd
  obtain ⟨had61, payload, hp⟩ := hcases hc
  refine ⟨payload, hp, fun seed pt' ad' ct' had' he hne => ?_⟩
  obtain ⟨had61', payload', hp'⟩ := hcases (((h2 ad' had' pt' ct').1 seed).1 he)
  refine ⟨payload', hp', fun e => hne ?_⟩
  obtain ⟨e1, e2⟩ := macInput_inj had61' had61 e
  rw [hp', hp, e1, e2]

/-! ## C93: long outputs of HKDF -/

theorem prf_hkdf_unique {url : PStr} {v key salt : Bytes} {hash : EnumVal} {k : PrfKey}
    (hk : PrfKey.StoredIn url v (.hkdf key hash salt)) (hk' : PrfKey.StoredIn url v k) :
    k = .hkdf key hash salt := by
  generalize hx : PrfKey.hkdf key hash salt = x at hk
  cases hk with
  | hkdf g1 g2 =>
    generalize hw : ps! "type.googleapis.com/google.crypto.tink.HkdfPrfKey" = w at hk'
    cases hk' with
    | hkdf g1' g2' =>
      rw [g1] at g1'
      cases g1'
      rfl
    | _ => other_type hw
  | _ => cases hx

/-- What HKDF does with a length: it is taken modulo 2³², and if it is 2³¹ or more then, the result is
empty. -/
theorem C93_hkdf_length (hl : LawfulSsl lib) {kd : KeyData} {cc : Cpp.KeyManager Cpp.Prf} {a : Cpp.Prf}
    (hcc : ccPrf lib kd.typeUrl = some cc) (ha : cc.getPrimitive kd = .ok a)
    (hv : kd.value.length < 2 ^ 31)
    {key salt : Bytes} {hash : EnumVal} (hk : PrfKey.StoredIn kd.typeUrl kd.value (.hkdf key hash salt))
    (input : Bytes) (n : Nat) :
    (2 ^ 31 ≤ n % 2 ^ 32 → a.compute input n = .ok []) ∧
    (n % 2 ^ 32 < 2 ^ 31 → a.compute input n = a.compute input (n % 2 ^ 32)) := by
  obtain ⟨k, h1, h2, rfl⟩ := ((prf_manages hl (seed := 0) hcc).getPrimitive kd rfl (stored_prf hv) a).1 ha
  obtain rfl := prf_hkdf_unique hk h1
  constructor
  · intro h
    show hkdfCompute _ _ _ _ _ _ _ = _
    unfold hkdfCompute Hkdf.readBytesFromStream sizeToInt
    rw [if_neg (by omega), Hkdf.readLoop, if_neg]
    have : ((([] : Bytes).length : Nat) : Int) = 0 := rfl
    omega
  · intro h
    show hkdfCompute _ _ _ _ _ _ _ = hkdfCompute _ _ _ _ _ _ _
    unfold hkdfCompute sizeToInt
    rw [Nat.mod_mod]

/-- C93, violation.  Whatever the HKDF key, there is an output that is too long and not refused. -/
theorem C93_hkdf_too_long (hl : LawfulSsl lib) {kd : KeyData} {cc : Cpp.KeyManager Cpp.Prf} {a : Cpp.Prf}
    (hcc : ccPrf lib kd.typeUrl = some cc) (ha : cc.getPrimitive kd = .ok a)
    (hv : kd.value.length < 2 ^ 31)
    {key salt : Bytes} {hash : EnumVal} (hk : PrfKey.StoredIn kd.typeUrl kd.value (.hkdf key hash salt))
    (input : Bytes) :
    ¬ ∀ n, (PrfKey.output lib (.hkdf key hash salt) input).length < n → ∃ e, a.compute input n = .error e := by
  intro h
  obtain ⟨k, h1, -, -, h2⟩ := C90_prf hl hcc ha hv
  obtain rfl := prf_hkdf_unique hk h1
  obtain ⟨d, hd, hlen⟩ := h2 input
  have hd' : d ≤ 64 := by cases hd <;> omega
  obtain ⟨e, he⟩ := h (2 ^ 31) (by rw [hlen]; omega)
  rw [(C93_hkdf_length hl hcc ha hv hk input (2 ^ 31)).1 (by decide)] at he
  cases he

end

/-! ## Examples -/

section Examples
open ToySsl (lawful)

/-- Key data, with a serialized key. -/
def exampleKey (name : PStr) (value : Py Bytes) : KeyData where
  typeUrl := ps! "type.googleapis.com/google.crypto.tink." ++ name
  value := KeyTypeManager.serialized value
  keyMaterialType := KeyMaterialType.SYMMETRIC

def bytes (n : Nat) : Bytes := (List.range n).map UInt8.ofNat

def gcmKey : KeyData := exampleKey (ps! "AesGcmKey") (AesGcmKey.serializeToString { keyValue := bytes 16 })

def gcmSivKey : KeyData :=
  exampleKey (ps! "AesGcmSivKey") (AesGcmSivKey.serializeToString { keyValue := bytes 32 })

def eaxKey : KeyData :=
  exampleKey (ps! "AesEaxKey") (AesEaxKey.serializeToString { params := some { ivSize := 16 }, keyValue := bytes 32 })

def xChaChaKey : KeyData :=
  exampleKey (ps! "XChaCha20Poly1305Key") (XChaCha20Poly1305Key.serializeToString { keyValue := bytes 32 })

def ctrHmacKey : KeyData :=
  exampleKey (ps! "AesCtrHmacAeadKey") (AesCtrHmacAeadKey.serializeToString
    { aesCtrKey := some { params := some { ivSize := 13 }, keyValue := bytes 16 }
      hmacKey := some { params := some { hash := HashType.SHA256, tagSize := 12 }, keyValue := bytes 20 } })

def sivKey : KeyData := exampleKey (ps! "AesSivKey") (AesSivKey.serializeToString { keyValue := bytes 64 })

def hmacKey : KeyData :=
  exampleKey (ps! "HmacKey") (HmacKey.serializeToString
    { params := some { hash := HashType.SHA1, tagSize := 20 }, keyValue := bytes 16 })

def cmacKey : KeyData :=
  exampleKey (ps! "AesCmacKey") (AesCmacKey.serializeToString
    { params := some { tagSize := 16 }, keyValue := bytes 32 })

def hkdfKey : KeyData :=
  exampleKey (ps! "HkdfPrfKey") (HkdfPrfKey.serializeToString
    { params := some { hash := HashType.SHA256, salt := bytes 3 }, keyValue := bytes 32 })

/-- Encryption and decryption with the C++ key manager for the key data. -/
def roundTrip (kd : KeyData) (seed : Seed) (pt ad : Bytes) : Option (Bytes × Bytes) := do
  let cc ← ccAead ToySsl.lib kd.typeUrl
  let a ← (cc.getPrimitive kd).toOption
  let ct ← (a.encrypt seed pt ad).toOption
  let pt ← (a.decrypt ct ad).toOption
  return (ct, pt)

/-- There are primitives for these keys, and they do what C90 and C91 say.  The ciphertexts have the nonce
(a number with `seed`) first. -/
example : (roundTrip gcmKey 5 (by! "text") (by! "ad")).map (fun r => (r.1.take 12, r.1.length, r.2)) =
    some ([0, 0, 0, 0, 0, 0, 0, 0, 0, 0, 0, 5], 32, by! "text") := by decide +kernel

example : (roundTrip gcmSivKey 5 (by! "text") (by! "ad")).map (fun r => (r.1.length, r.2)) =
    some (32, by! "text") := by decide +kernel

example : (roundTrip eaxKey 256 (by! "text that is longer than a block") (by! "ad")).map
    (fun r => (r.1.take 16, r.1.length, r.2)) =
    some ([0, 0, 0, 0, 0, 0, 0, 0, 0, 0, 0, 0, 0, 0, 1, 0], 64, by! "text that is longer than a block") := by
  decide +kernel

example : (roundTrip xChaChaKey 5 (by! "text") (by! "ad")).map (fun r => (r.1.length, r.2)) =
    some (44, by! "text") := by decide +kernel

example : (roundTrip ctrHmacKey 5 (by! "text") (by! "ad")).map (fun r => (r.1.length, r.2)) =
    some (29, by! "text") := by decide +kernel

example : ∃ k, AeadKey.StoredIn ctrHmacKey.typeUrl ctrHmacKey.value k ∧ k.Ok ∧ k.overhead = 25 := by
  refine ⟨.aesCtrHmac (bytes 16) 13 (bytes 20) HashType.SHA256 12, ?_, ?_, rfl⟩
  · exact .aesCtrHmac (k := { aesCtrKey := some { params := some { ivSize := 13 }, keyValue := bytes 16 }
                              hmacKey := some { params := some { hash := HashType.SHA256, tagSize := 12 }
                                                keyValue := bytes 20 } }) (by decide +kernel) rfl rfl rfl
  · exact ⟨.inl (by decide), by decide, by decide, by decide, by decide, 32, .sha256, by decide⟩

/-- The hypotheses of C89 to C92 for this key; C89 then says that there is a primitive. -/
example : ∃ cc a, ccAead ToySsl.lib ctrHmacKey.typeUrl = some cc ∧ cc.getPrimitive ctrHmacKey = .ok a ∧
    ExactAead a 25 := by
  have hk : AeadKey.StoredIn ctrHmacKey.typeUrl ctrHmacKey.value
      (.aesCtrHmac (bytes 16) 13 (bytes 20) HashType.SHA256 12) :=
    .aesCtrHmac (k := { aesCtrKey := some { params := some { ivSize := 13 }, keyValue := bytes 16 }
                        hmacKey := some { params := some { hash := HashType.SHA256, tagSize := 12 }
                                          keyValue := bytes 20 } }) (by decide +kernel) rfl rfl rfl
  have hv : ctrHmacKey.value.length < 2 ^ 31 := by decide +kernel
  obtain ⟨cc, hcc⟩ := (C89_aead_types (lib := ToySsl.lib) (url := ctrHmacKey.typeUrl)).2 (by decide +kernel)
  obtain ⟨a, ha⟩ := (C89_aead_keys lawful hcc hv).2
    ⟨_, hk, .inl (by decide), by decide, by decide, by decide, by decide, 32, .sha256, by decide⟩
  obtain ⟨k, h1, h2, h3⟩ := C90_aead lawful hcc ha hv
  obtain rfl := aead_ctrHmac_unique hk h1
  exact ⟨cc, a, hcc, ha, h3⟩

/-- Keys that are too weak are refused: an AES key of 24 bytes, and tags of 9 bytes. -/
example : ((ccAead ToySsl.lib gcmKey.typeUrl).map fun cc => (cc.getPrimitive
    (exampleKey (ps! "AesGcmKey") (AesGcmKey.serializeToString { keyValue := bytes 24 }))).toOption.isSome) =
    some false := by decide +kernel

example : ((ccMac ToySsl.lib hmacKey.typeUrl).map fun cc => (cc.getPrimitive
    (exampleKey (ps! "HmacKey") (HmacKey.serializeToString
      { params := some { hash := HashType.SHA1, tagSize := 9 }, keyValue := bytes 16 }))).toOption.isSome) =
    some false := by decide +kernel

/-- New keys. -/
example : ((ccAead ToySsl.lib (ps! "type.googleapis.com/google.crypto.tink.AesGcmKey")).bind fun cc =>
    (cc.newKeyData 7 [0x10, 16]).toOption) =
    some (exampleKey (ps! "AesGcmKey") (AesGcmKey.serializeToString
      { keyValue := [0, 0, 0, 0, 0, 0, 0, 0, 0, 0, 0, 0, 0, 0, 0, 7] })) := by decide +kernel

example : ((ccAead ToySsl.lib (ps! "type.googleapis.com/google.crypto.tink.AesGcmKey")).map fun cc =>
    (cc.newKeyData 7 [0x10, 15]).toOption.isSome) = some false := by decide +kernel

example : ((ccDaead ToySsl.lib sivKey.typeUrl).bind fun cc => do
    let a ← (cc.getPrimitive sivKey).toOption
    let ct ← (a.encryptDeterministically (by! "text") (by! "ad")).toOption
    let pt ← (a.decryptDeterministically ct (by! "ad")).toOption
    return (ct.length, pt, (a.decryptDeterministically ct (by! "da")).toOption.isSome)) =
    some (20, by! "text", false) := by decide +kernel

example : ([hmacKey, cmacKey].map fun kd => (ccMac ToySsl.lib kd.typeUrl).bind fun cc => do
    let a ← (cc.getPrimitive kd).toOption
    let t ← (a.computeMac (by! "data")).toOption
    return (t.length, (a.verifyMac t (by! "data")).toOption.isSome,
      (a.verifyMac (t.take 19 ++ [77]) (by! "data")).toOption.isSome)) =
    [some (20, true, false), some (16, true, false)] := by decide +kernel

/-- A key format for HMAC keys of 2³¹ bytes meets the hypotheses of `C89_hmac_large_key`. -/
example : HmacKeyFormat.fromString [0x0a, 4, 0x08, 3, 0x10, 16, 0x10, 0x80, 0x80, 0x80, 0x80, 0x08] =
    .ok { params := some { hash := HashType.SHA256, tagSize := 16 }, keySize := 2 ^ 31 } := by decide +kernel

example : HmacPrfKeyFormat.fromString [0x0a, 2, 0x08, 3, 0x10, 0x80, 0x80, 0x80, 0x80, 0x08] =
    .ok { params := some { hash := HashType.SHA256 }, keySize := 2 ^ 31 } := by decide +kernel

/-- An HKDF key: outputs of up to 255 · 32 bytes; more are refused, but 2³¹ bytes are not. -/
example : ((ccPrf ToySsl.lib hkdfKey.typeUrl).bind fun cc => do
    let a ← (cc.getPrimitive hkdfKey).toOption
    return ((a.compute (by! "in") 40).toOption.map List.length, (a.compute (by! "in") (2 ^ 31)).toOption)) =
    some (some 40, some []) := by decide +kernel

theorem hkdfKey_stored : PrfKey.StoredIn hkdfKey.typeUrl hkdfKey.value (.hkdf (bytes 32) HashType.SHA256 (bytes 3)) :=
  .hkdf (k := { params := some { hash := HashType.SHA256, salt := bytes 3 }, keyValue := bytes 32 })
    (by decide +kernel) rfl

example : ∃ cc a, ccPrf ToySsl.lib hkdfKey.typeUrl = some cc ∧ cc.getPrimitive hkdfKey = .ok a ∧
    a.compute (by! "in") (2 ^ 31) = .ok [] ∧ ∃ e, a.compute (by! "in") 8161 = .error e := by
  have hv : hkdfKey.value.length < 2 ^ 31 := by decide +kernel
  obtain ⟨cc, hcc⟩ := (C89_prf_types (lib := ToySsl.lib) (url := hkdfKey.typeUrl)).2 (by decide +kernel)
  obtain ⟨a, ha⟩ := (C89_prf_keys lawful hcc hv).2 ⟨_, hkdfKey_stored, by decide, by decide, .inl rfl⟩
  refine ⟨cc, a, hcc, ha, (C93_hkdf_length lawful hcc ha hv hkdfKey_stored _ _).1 (by decide), ?_⟩
  obtain ⟨k, h1, h2, h3, h4⟩ := C90_prf lawful hcc ha hv
  obtain rfl := prf_hkdf_unique hkdfKey_stored h1
  refine (h3 (2 ^ 31) (.inl (Nat.le_refl _)) _ _ (by decide)).2 ?_
  obtain ⟨d, hd, hlen⟩ := h4 (by! "in")
  cases hd
  omega

end Examples

end Tink.Props
