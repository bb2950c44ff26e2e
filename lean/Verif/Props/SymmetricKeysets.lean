import Verif.Cc.KeysetLemmas

/-!
# C94: keysets of symmetric keys, from Python down to the block cipher

What the primitive of a keyset does, in terms of the keys that the keyset stores.  The library is any
library whose C++ key managers for these key types are those of `Cc/KeyManagers.lean`.
-/

namespace Tink.Props
open Spec Config Cc

section
variable {σ δ ε τ S P C : Type} [DecidableEq C] {L : Library σ δ ε τ S P C} {isInst : P → C → Bool}
  {r : Registry P C} {lib : Ssl} {h : KeysetHandle} {p : P}

/-! ## AEAD -/

theorem aead_registry (hcc : ∀ u cc, ccAead lib u = some cc → L.ccAead u = some cc)
    (hr : PackageRegistered L r .aead) {kd : KeyData} (hu : kd.typeUrl ∈ aeadTypes) (hf : Fits kd) :
    ∃ cc, ccAead lib kd.typeUrl = some cc ∧
      r.primitive kd (L.cls .aead) = reported (fun a => L.aead.inj (aeadCcToPy a)) (cc.getPrimitive kd) := by
  obtain ⟨cc, hc⟩ := (C89_aead_types (lib := lib)).2 hu
  have hmem : ∀ u ∈ aeadTypes, (u, PrimClass.aead) ∈ keyTypes .aead ∧
      u ≠ ps! "type.googleapis.com/google.crypto.tink.KmsAeadKey" ∧
      u ≠ ps! "type.googleapis.com/google.crypto.tink.KmsEnvelopeAeadKey" := by decide
  obtain ⟨h1, h2, h3⟩ := hmem _ hu
  obtain ⟨m, hm, hcl, -, htm⟩ := hr.managers _ _ h1
  cases htm with
  | aead _ _ found serves =>
    rw [hcc _ _ hc] at found
    cases found
    exact ⟨_, hc, registry_primitive hm hcl serves hf⟩
  | kmsAead e => exact absurd e h2
  | kmsEnvelopeAead e => exact absurd e h3

theorem aead_key (hl : LawfulSsl lib) (hcc : ∀ u cc, ccAead lib u = some cc → L.ccAead u = some cc)
    (hr : PackageRegistered L r .aead) {kd : KeyData} (hu : kd.typeUrl ∈ aeadTypes) (hf : Fits kd) {o : P}
    (ho : r.primitive kd (L.cls .aead) = .ok o) :
    ∃ a key, o = L.aead.inj (aeadCcToPy a) ∧ AeadKey.StoredIn kd.typeUrl kd.value key ∧ key.Ok ∧
      ExactAead a key.overhead ∧ ∀ ad, ad.length < 2 ^ 64 → ∀ pt ct,
        (∀ seed, a.encrypt seed pt ad = .ok ct ↔
          key.ciphertext lib (lib.random seed 0 key.nonceSize) ad pt = some ct) ∧
        (a.decrypt ct ad = .ok pt ↔
          ∃ nonce, nonce.length = key.nonceSize ∧ key.ciphertext lib nonce ad pt = some ct) := by
  obtain ⟨cc, hc, hp⟩ := aead_registry hcc hr hu hf
  rw [hp] at ho
  obtain ⟨a, ha, rfl⟩ := reported_inj_ok.1 ho
  obtain ⟨k, h1, h2⟩ := C91_aead hl hc ha (fits_length hf)
  obtain ⟨k', h3, h4, h5⟩ := C90_aead hl hc ha (fits_length hf)
  obtain rfl := aead_unique h1 h3
  exact ⟨a, k', rfl, h3, h4, h5, h2⟩

theorem aead_obtained (hr : PackageRegistered L r .aead) (hp : h.primitive isInst r (L.cls .aead) = .ok p) :
    ∃ kps, Obtained isInst (aeadWrapper L.aead (L.wrapperType .aead) (L.cls .aead)) r h (L.cls .aead) kps p := by
  obtain ⟨_, w, kps, h1, h2, _⟩ := primitive_ok_iff.1 hp
  obtain ⟨w', h3, h4⟩ := hr.wrappers .aead (by decide)
  rw [h1] at h3
  cases h3
  cases h4
  exact ⟨kps, h1, hp, h2⟩

/-- C94, AEAD.  A keyset gives a primitive if and only if it is valid and its enabled keys are strong
enough. -/
theorem C94_aead_primitive (hi : LawfulConfig L isInst) (hl : LawfulSsl lib)
    (hcc : ∀ u cc, ccAead lib u = some cc → L.ccAead u = some cc) (hr : PackageRegistered L r .aead)
    (hk : KeysOf aeadTypes h.keyset) :
    (∃ p, h.primitive isInst r (L.cls .aead) = .ok p) ↔
      Valid h.keyset ∧ ∀ k ∈ h.keyset.key, Enabled k →
        PrefixKnown k ∧ ∃ key, AeadKey.StoredIn k.data.typeUrl k.data.value key ∧ key.Ok := by
  obtain ⟨w, h1, h2⟩ := hr.wrappers .aead (by decide)
  cases h2
  have := handle_primitive_iff (isInst := isInst) (h := h) h1
    (ok := fun k => ∃ key, AeadKey.StoredIn k.data.typeUrl k.data.value key ∧ key.Ok) (good := fun _ => True)
    (fun k hm he => by
      obtain ⟨cc, hc, hp⟩ := aead_registry hcc hr (hk k hm he).1 (hk k hm he).2
      show (∃ o, r.primitive k.data (L.cls .aead) = .ok o) ↔ _
      rw [← C89_aead_keys hl hc (fits_length (hk k hm he).2), hp]
      simp only [reported_inj_ok]
      exact ⟨fun ⟨_, a, ha, _⟩ => ⟨a, ha⟩, fun ⟨a, ha⟩ => ⟨_, a, ha, rfl⟩⟩)
    (fun k hm he o ho => by
      obtain ⟨a, -, rfl, -⟩ := aead_key hl hcc hr (hk k hm he).1 (hk k hm he).2 ho
      exact hi.aead _)
    (fun kps id => ⟨fun _ _ _ => trivial, fun _ => ⟨_, rfl⟩⟩)
  simpa using this

/-- C94, AEAD.  The primitive encrypts with the algorithm of the primary key and a random nonce, and puts
the key's prefix before the ciphertext. -/
theorem C94_aead_encrypt (hl : LawfulSsl lib) (hcc : ∀ u cc, ccAead lib u = some cc → L.ccAead u = some cc)
    (hr : PackageRegistered L r .aead) (hk : KeysOf aeadTypes h.keyset)
    (hp : h.primitive isInst r (L.cls .aead) = .ok p) {k : Key} (hm : k ∈ h.keyset.key)
    (hpk : IsPrimaryKey h.keyset k) :
    ∃ pre key, outputPrefix k = .ok pre ∧ AeadKey.StoredIn k.data.typeUrl k.data.value key ∧
      ∀ seed pt ad, ad.length < 2 ^ 64 → (L.aead.view p).encrypt seed pt ad =
        match key.ciphertext lib (lib.random seed 0 key.nonceSize) ad pt with
        | some body => .ok (pre ++ body)
        | none => .error .tinkError := by
  obtain ⟨kps, H⟩ := aead_obtained hr hp
  obtain ⟨o, ho⟩ := isPrimary_of_key ((C20_validate_iff _).1 (primitive_ok_iff.1 hp).1) H.keys.1 hm hpk
  obtain ⟨pre, hpre⟩ := H.prop.2 _ ho.mem
  have he := mem_enabled H.keys.1 ho.mem
  obtain ⟨a, key, ha, h1, -, -, h2⟩ := aead_key hl hcc hr (hk k hm hpk.1).1 (hk k hm hpk.1).2
    (H.keys.2 _ ho.mem)
  refine ⟨pre, key, hpre, h1, fun seed pt ad had => ?_⟩
  dsimp only at ha
  rw [C01_aead_encrypt_eq H ho hpre, ha, L.aead.view_inj, C65_primitives.1]
  have h3 := fun ct => (h2 ad had pt ct).1 seed
  cases hx : key.ciphertext lib (lib.random seed 0 key.nonceSize) ad pt with
  | some body => rw [(h3 body).2 hx]; rfl
  | none =>
    cases hy : a.encrypt seed pt ad with
    | ok ct => rw [(h3 ct).1 hy] at hx; cases hx
    | error e => rfl

/-- C94, AEAD.  Decryption gives what the first key, in the order of the keyset with RAW keys last, makes
of the ciphertext, and anything else is a `TinkError`. -/
theorem C94_aead_decrypt (hl : LawfulSsl lib) (hcc : ∀ u cc, ccAead lib u = some cc → L.ccAead u = some cc)
    (hr : PackageRegistered L r .aead) (hk : KeysOf aeadTypes h.keyset)
    (hp : h.primitive isInst r (L.cls .aead) = .ok p) {ad : Bytes} (had : ad.length < 2 ^ 64) (ct : Bytes) :
    (∀ pt, (L.aead.view p).decrypt ct ad = .ok pt ↔ FirstDoes (AeadOpens lib ad ct) h.keyset pt) ∧
    ∀ e, (L.aead.view p).decrypt ct ad = .error e → e = .tinkError := by
  obtain ⟨kps, H⟩ := aead_obtained hr hp
  have hq : ∀ q ∈ kps, ∃ a key, q.2 = L.aead.inj (aeadCcToPy a) ∧
      AeadKey.StoredIn q.1.data.typeUrl q.1.data.value key ∧ ∀ pt ct,
        (a.decrypt ct ad = .ok pt ↔
          ∃ nonce, nonce.length = key.nonceSize ∧ key.ciphertext lib nonce ad pt = some ct) := by
    intro q hq
    have he := mem_enabled H.keys.1 hq
    obtain ⟨a, key, ha, h1, -, -, h2⟩ := aead_key hl hcc hr (hk _ he.1 he.2).1 (hk _ he.1 he.2).2 (H.keys.2 _ hq)
    exact ⟨a, key, ha, h1, fun pt ct => (h2 ad had pt ct).2⟩
  have hT : ∀ q ∈ kps, ∀ b e, (L.aead.view q.2).decrypt b ad = .error e → e = .tinkError := by
    intro q hm b e he
    obtain ⟨a, key, ha, -⟩ := hq q hm
    rw [ha, L.aead.view_inj, C65_primitives.2.1] at he
    cases hx : a.decrypt b ad with
    | ok x => rw [hx] at he; cases he
    | error s => rw [hx] at he; cases he; rfl
  have hmem : ∀ q ∈ tryOrder kps, q ∈ kps := fun q hm => mem_tryOrder.1 hm
  constructor
  · intro pt
    rw [C03_aead_decrypt_eq H]
    unfold FirstDoes
    rw [← map_tryOrder H.keys.1]
    refine search_iff (f := fun _ o body => (L.aead.view o).decrypt body ad) (fun q hm pt => ?_)
      (fun q hm b e he => by rw [hT q (hmem q hm) b e he]; rfl) pt
    obtain ⟨a, key, ha, h1, h2⟩ := hq q (hmem q hm)
    simp only [ha, L.aead.view_inj, C65_primitives.2.1, reported_ok, h2]
    constructor
    · rintro ⟨body, key', nonce, h3, h4, h5, h6⟩
      obtain rfl := aead_unique h1 h4
      exact ⟨body, h3, nonce, h5, h6⟩
    · rintro ⟨body, h3, nonce, h5, h6⟩
      exact ⟨body, key, nonce, h3, h1, h5, h6⟩
  · intro e he
    rcases C03_aead_other_errors H he with h | ⟨_, q, hm, b, _, hb⟩
    · exact h
    · exact hT q hm b e hb

/-! ## Deterministic AEAD -/

theorem daead_registry (hcc : ∀ u cc, ccDaead lib u = some cc → L.ccDaead u = some cc)
    (hr : PackageRegistered L r .daead) {kd : KeyData} (hu : kd.typeUrl ∈ daeadTypes) (hf : Fits kd) :
    ∃ cc, ccDaead lib kd.typeUrl = some cc ∧
      r.primitive kd (L.cls .daead) = reported (fun a => L.daead.inj (daeadCcToPy a)) (cc.getPrimitive kd) := by
  obtain ⟨cc, hc⟩ := (C89_daead_types (lib := lib)).2 (by simpa [daeadTypes] using hu)
  have hmem : ∀ u ∈ daeadTypes, (u, PrimClass.daead) ∈ keyTypes .daead := by decide
  obtain ⟨m, hm, hcl, -, htm⟩ := hr.managers _ _ (hmem _ hu)
  cases htm with
  | daead found serves =>
    rw [hcc _ _ hc] at found
    cases found
    exact ⟨_, hc, registry_primitive hm hcl serves hf⟩

theorem daead_key (hl : LawfulSsl lib) (hcc : ∀ u cc, ccDaead lib u = some cc → L.ccDaead u = some cc)
    (hr : PackageRegistered L r .daead) {kd : KeyData} (hu : kd.typeUrl ∈ daeadTypes) (hf : Fits kd) {o : P}
    (ho : r.primitive kd (L.cls .daead) = .ok o) :
    ∃ a key, o = L.daead.inj (daeadCcToPy a) ∧ SivKey.StoredIn kd.typeUrl kd.value key ∧ key.Ok ∧
      ExactDaead a 16 ∧ ∀ pt ad, a.encryptDeterministically pt ad = .ok (key.ciphertext lib ad pt) := by
  obtain ⟨cc, hc, hp⟩ := daead_registry hcc hr hu hf
  rw [hp] at ho
  obtain ⟨a, ha, rfl⟩ := reported_inj_ok.1 ho
  obtain ⟨k, h1, h2⟩ := C91_daead hl hc ha (fits_length hf)
  obtain ⟨k', h3, h4, h5⟩ := C90_daead hl hc ha (fits_length hf)
  obtain rfl := siv_unique h1 h3
  exact ⟨a, k', rfl, h3, h4, h5, h2⟩

theorem daead_obtained (hr : PackageRegistered L r .daead) (hp : h.primitive isInst r (L.cls .daead) = .ok p) :
    ∃ kps, Obtained isInst (daeadWrapper L.daead (L.wrapperType .daead) (L.cls .daead)) r h (L.cls .daead) kps p := by
  obtain ⟨_, w, kps, h1, h2, _⟩ := primitive_ok_iff.1 hp
  obtain ⟨w', h3, h4⟩ := hr.wrappers .daead (by decide)
  rw [h1] at h3
  cases h3
  cases h4
  exact ⟨kps, h1, hp, h2⟩

/-- C94, deterministic AEAD. -/
theorem C94_daead_primitive (hi : LawfulConfig L isInst) (hl : LawfulSsl lib)
    (hcc : ∀ u cc, ccDaead lib u = some cc → L.ccDaead u = some cc) (hr : PackageRegistered L r .daead)
    (hk : KeysOf daeadTypes h.keyset) :
    (∃ p, h.primitive isInst r (L.cls .daead) = .ok p) ↔
      Valid h.keyset ∧ ∀ k ∈ h.keyset.key, Enabled k →
        PrefixKnown k ∧ ∃ key, SivKey.StoredIn k.data.typeUrl k.data.value key ∧ key.Ok := by
  obtain ⟨w, h1, h2⟩ := hr.wrappers .daead (by decide)
  cases h2
  have := handle_primitive_iff (isInst := isInst) (h := h) h1
    (ok := fun k => ∃ key, SivKey.StoredIn k.data.typeUrl k.data.value key ∧ key.Ok) (good := fun _ => True)
    (fun k hm he => by
      obtain ⟨cc, hc, hp⟩ := daead_registry hcc hr (hk k hm he).1 (hk k hm he).2
      show (∃ o, r.primitive k.data (L.cls .daead) = .ok o) ↔ _
      rw [← C89_daead_keys hl hc (fits_length (hk k hm he).2), hp]
      simp only [reported_inj_ok]
      exact ⟨fun ⟨_, a, ha, _⟩ => ⟨a, ha⟩, fun ⟨a, ha⟩ => ⟨_, a, ha, rfl⟩⟩)
    (fun k hm he o ho => by
      obtain ⟨a, -, rfl, -⟩ := daead_key hl hcc hr (hk k hm he).1 (hk k hm he).2 ho
      exact hi.daead _)
    (fun kps id => ⟨fun _ _ _ => trivial, fun _ => ⟨_, rfl⟩⟩)
  simpa using this

theorem C94_daead_encrypt (hl : LawfulSsl lib) (hcc : ∀ u cc, ccDaead lib u = some cc → L.ccDaead u = some cc)
    (hr : PackageRegistered L r .daead) (hk : KeysOf daeadTypes h.keyset)
    (hp : h.primitive isInst r (L.cls .daead) = .ok p) {k : Key} (hm : k ∈ h.keyset.key)
    (hpk : IsPrimaryKey h.keyset k) :
    ∃ pre key, outputPrefix k = .ok pre ∧ SivKey.StoredIn k.data.typeUrl k.data.value key ∧
      ∀ pt ad, (L.daead.view p).encryptDeterministically pt ad = .ok (pre ++ key.ciphertext lib ad pt) := by
  obtain ⟨kps, H⟩ := daead_obtained hr hp
  obtain ⟨o, ho⟩ := isPrimary_of_key ((C20_validate_iff _).1 (primitive_ok_iff.1 hp).1) H.keys.1 hm hpk
  obtain ⟨pre, hpre⟩ := H.prop.2 _ ho.mem
  obtain ⟨a, key, ha, h1, -, -, h2⟩ := daead_key hl hcc hr (hk k hm hpk.1).1 (hk k hm hpk.1).2
    (H.keys.2 _ ho.mem)
  refine ⟨pre, key, hpre, h1, fun pt ad => ?_⟩
  dsimp only at ha
  rw [C05_daead_encrypt_eq H ho hpre, ha, L.daead.view_inj, C65_primitives.2.2.1, h2]
  rfl

theorem C94_daead_decrypt (hl : LawfulSsl lib) (hcc : ∀ u cc, ccDaead lib u = some cc → L.ccDaead u = some cc)
    (hr : PackageRegistered L r .daead) (hk : KeysOf daeadTypes h.keyset)
    (hp : h.primitive isInst r (L.cls .daead) = .ok p) (ct ad : Bytes) :
    (∀ pt, (L.daead.view p).decryptDeterministically ct ad = .ok pt ↔
      FirstDoes (SivOpens lib ad ct) h.keyset pt) ∧
    ∀ e, (L.daead.view p).decryptDeterministically ct ad = .error e → e = .tinkError := by
  obtain ⟨kps, H⟩ := daead_obtained hr hp
  have hq : ∀ q ∈ kps, ∃ a key, q.2 = L.daead.inj (daeadCcToPy a) ∧
      SivKey.StoredIn q.1.data.typeUrl q.1.data.value key ∧ ∀ pt ct,
        (a.decryptDeterministically ct ad = .ok pt ↔ ct = key.ciphertext lib ad pt) := by
    intro q hq
    have he := mem_enabled H.keys.1 hq
    obtain ⟨a, key, ha, h1, -, h2, h3⟩ := daead_key hl hcc hr (hk _ he.1 he.2).1 (hk _ he.1 he.2).2 (H.keys.2 _ hq)
    refine ⟨a, key, ha, h1, fun pt ct => ?_⟩
    rw [h2.exact, h3, Except.ok.injEq]
    exact eq_comm
  have hT : ∀ q ∈ kps, ∀ b e, (L.daead.view q.2).decryptDeterministically b ad = .error e → e = .tinkError := by
    intro q hm b e he
    obtain ⟨a, key, ha, -⟩ := hq q hm
    rw [ha, L.daead.view_inj, C65_primitives.2.2.2.1] at he
    cases hx : a.decryptDeterministically b ad with
    | ok x => rw [hx] at he; cases he
    | error s => rw [hx] at he; cases he; rfl
  have hmem : ∀ q ∈ tryOrder kps, q ∈ kps := fun q hm => mem_tryOrder.1 hm
  constructor
  · intro pt
    rw [C05_daead_decrypt_eq H]
    unfold FirstDoes
    rw [← map_tryOrder H.keys.1]
    refine search_iff (f := fun _ o body => (L.daead.view o).decryptDeterministically body ad) (fun q hm pt => ?_)
      (fun q hm b e he => by rw [hT q (hmem q hm) b e he]; rfl) pt
    obtain ⟨a, key, ha, h1, h2⟩ := hq q (hmem q hm)
    simp only [ha, L.daead.view_inj, C65_primitives.2.2.2.1, reported_ok, h2]
    constructor
    · rintro ⟨body, key', h3, h4, h5⟩
      obtain rfl := siv_unique h1 h4
      exact ⟨body, h3, h5⟩
    · rintro ⟨body, h3, h5⟩
      exact ⟨body, key, h3, h1, h5⟩
  · intro e he
    rw [C05_daead_decrypt_eq H] at he
    rcases outcomes_error he with h | ⟨_, q, hm, b, _, hb⟩
    · exact h
    · exact hT q hm b e hb

/-! ## MAC -/

theorem mac_registry (hcc : ∀ u cc, ccMac lib u = some cc → L.ccMac u = some cc)
    (hr : PackageRegistered L r .mac) {kd : KeyData} (hu : kd.typeUrl ∈ macTypes) (hf : Fits kd) :
    ∃ cc, ccMac lib kd.typeUrl = some cc ∧
      r.primitive kd (L.cls .mac) = reported (fun a => L.mac.inj (macCcToPy a)) (cc.getPrimitive kd) := by
  obtain ⟨cc, hc⟩ := (C89_mac_types (lib := lib)).2 hu
  have hmem : ∀ u ∈ macTypes, (u, PrimClass.mac) ∈ keyTypes .mac := by decide
  obtain ⟨m, hm, hcl, -, htm⟩ := hr.managers _ _ (hmem _ hu)
  cases htm with
  | mac found serves =>
    rw [hcc _ _ hc] at found
    cases found
    exact ⟨_, hc, registry_primitive hm hcl serves hf⟩

theorem mac_key (hl : LawfulSsl lib) (hcc : ∀ u cc, ccMac lib u = some cc → L.ccMac u = some cc)
    (hr : PackageRegistered L r .mac) {kd : KeyData} (hu : kd.typeUrl ∈ macTypes) (hf : Fits kd) {o : P}
    (ho : r.primitive kd (L.cls .mac) = .ok o) :
    ∃ a key, o = L.mac.inj (macCcToPy a) ∧ MacKey.StoredIn kd.typeUrl kd.value key ∧ key.Ok ∧
      ExactMac a (key.tag lib) := by
  obtain ⟨cc, hc, hp⟩ := mac_registry hcc hr hu hf
  rw [hp] at ho
  obtain ⟨a, ha, rfl⟩ := reported_inj_ok.1 ho
  obtain ⟨k, h1, h2, h3, -⟩ := C90_mac hl hc ha (fits_length hf)
  exact ⟨a, k, rfl, h1, h2, h3⟩

theorem mac_obtained (hr : PackageRegistered L r .mac) (hp : h.primitive isInst r (L.cls .mac) = .ok p) :
    ∃ kps, Obtained isInst (macWrapper L.mac (L.wrapperType .mac) (L.cls .mac)) r h (L.cls .mac) kps p := by
  obtain ⟨_, w, kps, h1, h2, _⟩ := primitive_ok_iff.1 hp
  obtain ⟨w', h3, h4⟩ := hr.wrappers .mac (by decide)
  rw [h1] at h3
  cases h3
  cases h4
  exact ⟨kps, h1, hp, h2⟩

/-- C94, MAC. -/
theorem C94_mac_primitive (hi : LawfulConfig L isInst) (hl : LawfulSsl lib)
    (hcc : ∀ u cc, ccMac lib u = some cc → L.ccMac u = some cc) (hr : PackageRegistered L r .mac)
    (hk : KeysOf macTypes h.keyset) :
    (∃ p, h.primitive isInst r (L.cls .mac) = .ok p) ↔
      Valid h.keyset ∧ ∀ k ∈ h.keyset.key, Enabled k →
        PrefixKnown k ∧ ∃ key, MacKey.StoredIn k.data.typeUrl k.data.value key ∧ key.Ok := by
  obtain ⟨w, h1, h2⟩ := hr.wrappers .mac (by decide)
  cases h2
  have := handle_primitive_iff (isInst := isInst) (h := h) h1
    (ok := fun k => ∃ key, MacKey.StoredIn k.data.typeUrl k.data.value key ∧ key.Ok) (good := fun _ => True)
    (fun k hm he => by
      obtain ⟨cc, hc, hp⟩ := mac_registry hcc hr (hk k hm he).1 (hk k hm he).2
      show (∃ o, r.primitive k.data (L.cls .mac) = .ok o) ↔ _
      rw [← C89_mac_keys hl hc (fits_length (hk k hm he).2), hp]
      simp only [reported_inj_ok]
      exact ⟨fun ⟨_, a, ha, _⟩ => ⟨a, ha⟩, fun ⟨a, ha⟩ => ⟨_, a, ha, rfl⟩⟩)
    (fun k hm he o ho => by
      obtain ⟨a, -, rfl, -⟩ := mac_key hl hcc hr (hk k hm he).1 (hk k hm he).2 ho
      exact hi.mac _)
    (fun kps id => ⟨fun _ _ _ => trivial, fun _ => ⟨_, rfl⟩⟩)
  simpa using this

theorem C94_mac_compute (hl : LawfulSsl lib) (hcc : ∀ u cc, ccMac lib u = some cc → L.ccMac u = some cc)
    (hr : PackageRegistered L r .mac) (hk : KeysOf macTypes h.keyset)
    (hp : h.primitive isInst r (L.cls .mac) = .ok p) {k : Key} (hm : k ∈ h.keyset.key)
    (hpk : IsPrimaryKey h.keyset k) :
    ∃ pre key, outputPrefix k = .ok pre ∧ MacKey.StoredIn k.data.typeUrl k.data.value key ∧
      ∀ data, (L.mac.view p).computeMac data = .ok (pre ++ key.tag lib (authenticated k data)) := by
  obtain ⟨kps, H⟩ := mac_obtained hr hp
  obtain ⟨o, ho⟩ := isPrimary_of_key ((C20_validate_iff _).1 (primitive_ok_iff.1 hp).1) H.keys.1 hm hpk
  obtain ⟨pre, hpre⟩ := H.prop.2 _ ho.mem
  obtain ⟨a, key, ha, h1, -, h2⟩ := mac_key hl hcc hr (hk k hm hpk.1).1 (hk k hm hpk.1).2
    (H.keys.2 _ ho.mem)
  refine ⟨pre, key, hpre, h1, fun data => ?_⟩
  dsimp only at ha
  rw [C07_mac_compute_eq H ho hpre, ha, L.mac.view_inj, C65_primitives.2.2.2.2.2.2.1, h2.compute]
  rfl

/-- C94, MAC.  A tag is accepted if and only if it is longer than a prefix and an enabled key computes it;
otherwise the result is a `TinkError`. -/
theorem C94_mac_verify (hl : LawfulSsl lib) (hcc : ∀ u cc, ccMac lib u = some cc → L.ccMac u = some cc)
    (hr : PackageRegistered L r .mac) (hk : KeysOf macTypes h.keyset)
    (hp : h.primitive isInst r (L.cls .mac) = .ok p) (tag data : Bytes) :
    ((L.mac.view p).verifyMac tag data = .ok () ↔
      5 < tag.length ∧ ∃ k ∈ h.keyset.key, Enabled k ∧ TagOf lib data tag k) ∧
    ∀ e, (L.mac.view p).verifyMac tag data = .error e → e = .tinkError := by
  obtain ⟨kps, H⟩ := mac_obtained hr hp
  have hq : ∀ q ∈ kps, ∃ a key, q.2 = L.mac.inj (macCcToPy a) ∧
      MacKey.StoredIn q.1.data.typeUrl q.1.data.value key ∧ ∀ t data,
        (a.verifyMac t data = .ok () ↔ t = key.tag lib data) := by
    intro q hq
    have he := mem_enabled H.keys.1 hq
    obtain ⟨a, key, ha, h1, -, h2⟩ := mac_key hl hcc hr (hk _ he.1 he.2).1 (hk _ he.1 he.2).2 (H.keys.2 _ hq)
    exact ⟨a, key, ha, h1, h2.verify⟩
  have hT : ∀ q ∈ kps, ∀ b d e, (L.mac.view q.2).verifyMac b d = .error e → e = .tinkError := by
    intro q hm b d e he
    obtain ⟨a, key, ha, -⟩ := hq q hm
    rw [ha, L.mac.view_inj, C65_primitives.2.2.2.2.2.2.2.1] at he
    cases hx : a.verifyMac b d with
    | ok x => rw [hx] at he; cases he
    | error s => rw [hx] at he; cases he; rfl
  have hmem : ∀ q ∈ tryOrder kps, q ∈ kps := fun q hm => mem_tryOrder.1 hm
  rw [C08_mac_verify_eq H]
  by_cases hlen : tag.length ≤ 5
  · rw [if_pos hlen]
    constructor
    · simp; omega
    · intro e he; cases he; rfl
  rw [if_neg hlen]
  constructor
  · refine (search_iff (l := tryOrder kps) (x := tag) (f := fun k o body => (L.mac.view o).verifyMac body (authenticated k data))
      (does := fun k (_ : Unit) => TagOf lib data tag k) (fun q hm u => by
        obtain ⟨a, key, ha, h1, h2⟩ := hq q (hmem q hm)
        cases u
        simp only [ha, L.mac.view_inj, C65_primitives.2.2.2.2.2.2.2.1, reported_ok, h2]
        constructor
        · rintro ⟨body, key', h3, h4, h5⟩
          obtain rfl := mac_unique h1 h4
          exact ⟨body, h3, h5⟩
        · rintro ⟨body, h3, h5⟩
          exact ⟨body, key, h3, h1, h5⟩)
      (fun q hm b e he => by rw [hT q (hmem q hm) b _ e he]; rfl) ()).trans ?_
    rw [map_tryOrder H.keys.1]
    constructor
    · rintro ⟨before, k, after, h1, h2, -⟩
      have := mem_keysInOrder.1 (show k ∈ keysInOrder h.keyset by rw [h1]; simp)
      exact ⟨by omega, k, this.1, this.2, h2⟩
    · rintro ⟨-, k, h1, h2, h3⟩
      obtain ⟨before, k', after, g1, g2, g3⟩ := first_of_mem (mem_keysInOrder.2 ⟨h1, h2⟩) h3
      exact ⟨before, k', after, g1, g2, fun k hk _ => g3 k hk⟩
  · intro e he
    rcases outcomes_error he with h | ⟨_, q, hm, b, _, hb⟩
    · exact h
    · exact hT q hm b _ e hb

/-! ## PRF -/

theorem prf_registry (hcc : ∀ u cc, ccPrf lib u = some cc → L.ccPrf u = some cc)
    (hr : PackageRegistered L r .prf) {kd : KeyData} (hu : kd.typeUrl ∈ prfTypes) (hf : Fits kd) :
    ∃ cc, ccPrf lib kd.typeUrl = some cc ∧
      r.primitive kd (L.cls .prf) = reported (fun a => L.prf.inj (prfCcToPy a)) (cc.getPrimitive kd) := by
  obtain ⟨cc, hc⟩ := (C89_prf_types (lib := lib)).2 hu
  have hmem : ∀ u ∈ prfTypes, (u, PrimClass.prf) ∈ keyTypes .prf := by decide
  obtain ⟨m, hm, hcl, -, htm⟩ := hr.managers _ _ (hmem _ hu)
  cases htm with
  | prf found serves =>
    rw [hcc _ _ hc] at found
    cases found
    exact ⟨_, hc, registry_primitive hm hcl serves hf⟩

theorem prf_key (hl : LawfulSsl lib) (hcc : ∀ u cc, ccPrf lib u = some cc → L.ccPrf u = some cc)
    (hr : PackageRegistered L r .prf) {k : Key} (hu : k.data.typeUrl ∈ prfTypes) (hf : Fits k.data) {o : P}
    (ho : r.primitive k.data (L.cls .prf) = .ok o) :
    ∃ a, o = L.prf.inj a ∧ Computes lib (L.prf.view o) k := by
  obtain ⟨cc, hc, hp⟩ := prf_registry hcc hr hu hf
  rw [hp] at ho
  obtain ⟨a, ha, rfl⟩ := reported_inj_ok.1 ho
  obtain ⟨key, h1, -, h2, -⟩ := C90_prf hl hc ha (fits_length hf)
  replace h2 := h2 (2 ^ 31) (.inl (Nat.le_refl _))
  refine ⟨_, rfl, key, h1, fun input n hn => ?_⟩
  rw [L.prf.view_inj, C65_primitives.2.2.2.2.2.2.2.2.2.2]
  by_cases hle : n ≤ (key.output lib input).length
  · rw [if_pos hle, (h2 input n hn).1 hle]; rfl
  · rw [if_neg hle]
    obtain ⟨e, he⟩ := (h2 input n hn).2 (by omega)
    rw [he]; rfl

theorem prf_obtained (hr : PackageRegistered L r .prf) (hp : h.primitive isInst r (L.cls .prfSet) = .ok p) :
    ∃ kps, Obtained isInst
      (prfSetWrapper L.prf L.prfSet (L.wrapperType .prfSet) (L.cls .prf) (L.cls .prfSet)) r h
      (L.cls .prfSet) kps p := by
  obtain ⟨_, w, kps, h1, h2, _⟩ := primitive_ok_iff.1 hp
  obtain ⟨w', h3, h4⟩ := hr.wrappers .prfSet (by decide)
  rw [h1] at h3
  cases h3
  cases h4
  exact ⟨kps, h1, hp, h2⟩

/-- C94, PRF.  The keys must be RAW. -/
theorem C94_prf_primitive (hi : LawfulConfig L isInst) (hl : LawfulSsl lib)
    (hcc : ∀ u cc, ccPrf lib u = some cc → L.ccPrf u = some cc) (hr : PackageRegistered L r .prf)
    (hk : KeysOf prfTypes h.keyset) :
    (∃ p, h.primitive isInst r (L.cls .prfSet) = .ok p) ↔
      Valid h.keyset ∧ ∀ k ∈ h.keyset.key, Enabled k →
        k.outputPrefixType = OutputPrefixType.RAW ∧
        ∃ key, PrfKey.StoredIn k.data.typeUrl k.data.value key ∧ key.Ok := by
  obtain ⟨w, h1, h2⟩ := hr.wrappers .prfSet (by decide)
  cases h2
  have := handle_primitive_iff (isInst := isInst) (h := h) h1
    (ok := fun k => ∃ key, PrfKey.StoredIn k.data.typeUrl k.data.value key ∧ key.Ok)
    (good := fun k => k.outputPrefixType = OutputPrefixType.RAW)
    (fun k hm he => by
      obtain ⟨cc, hc, hp⟩ := prf_registry hcc hr (hk k hm he).1 (hk k hm he).2
      show (∃ o, r.primitive k.data (L.cls .prf) = .ok o) ↔ _
      rw [← C89_prf_keys hl hc (fits_length (hk k hm he).2), hp]
      simp only [reported_inj_ok]
      exact ⟨fun ⟨_, a, ha, _⟩ => ⟨a, ha⟩, fun ⟨a, ha⟩ => ⟨_, a, ha, rfl⟩⟩)
    (fun k hm he o ho => by
      obtain ⟨a, rfl, -⟩ := prf_key hl hcc hr (hk k hm he).1 (hk k hm he).2 ho
      exact hi.prf _)
    (fun kps id => by
      refine Iff.trans ?_ (prf_validate_iff (C := C) (ci := L.cls .prf) (V := L.prf) id kps)
      constructor
      · rintro ⟨p, hp⟩
        obtain ⟨s, hs, -⟩ := bind_ok_iff.1 hp
        obtain ⟨⟨⟩, hv, -⟩ := bind_ok_iff.1 hs
        exact hv
      · exact fun hv => ⟨_, bind_ok_iff.2 ⟨_, bind_ok_iff.2 ⟨(), hv, rfl⟩, rfl⟩⟩)
  rw [this]
  constructor
  · exact fun ⟨a, b⟩ => ⟨a, fun k hm he => (b k hm he).2⟩
  · exact fun ⟨a, b⟩ => ⟨a, fun k hm he => ⟨by simp [PrefixKnown, (b k hm he).1], b k hm he⟩⟩

/-- C94, PRF.  The primary function is that of the primary key, and the functions by id are those of the
enabled keys. -/
theorem C94_prf_set (hl : LawfulSsl lib) (hcc : ∀ u cc, ccPrf lib u = some cc → L.ccPrf u = some cc)
    (hr : PackageRegistered L r .prf) (hk : KeysOf prfTypes h.keyset)
    (hp : h.primitive isInst r (L.cls .prfSet) = .ok p) :
    (∀ k ∈ h.keyset.key, IsPrimaryKey h.keyset k →
      (L.prfSet.view p).primaryId = .ok k.keyId ∧
      ∃ f, (L.prfSet.view p).primary = .ok f ∧ Computes lib f k) ∧
    ∃ all, (L.prfSet.view p).all = .ok all ∧ ∀ id,
      (∀ f, PyDict.get? all id = some f → ∃ k ∈ h.keyset.key, Enabled k ∧ k.keyId = id ∧ Computes lib f k) ∧
      (PyDict.get? all id = none → ∀ k ∈ h.keyset.key, Enabled k → k.keyId ≠ id) := by
  obtain ⟨kps, H⟩ := prf_obtained hr hp
  have hq : ∀ q ∈ kps, Computes lib (L.prf.view q.2) q.1 := by
    intro q hq
    have he := mem_enabled H.keys.1 hq
    obtain ⟨-, -, h1⟩ := prf_key hl hcc hr (hk _ he.1 he.2).1 (hk _ he.1 he.2).2 (H.keys.2 _ hq)
    exact h1
  obtain ⟨-, hprim, all, ha, hget⟩ := C10_prf_set H
  refine ⟨fun k hm hpk => ?_, all, ha, fun id => ⟨fun f hf => ?_, fun hn k hm he hid => ?_⟩⟩
  · obtain ⟨o, ho⟩ := isPrimary_of_key ((C20_validate_iff _).1 (primitive_ok_iff.1 hp).1) H.keys.1 hm hpk
    rw [hpk.2]
    exact ⟨(hprim k o ho).1, _, (hprim k o ho).2, hq _ ho.mem⟩
  · rw [hget] at hf
    obtain ⟨q, h1, rfl⟩ := Option.map_eq_some_iff.1 hf
    have h2 := List.mem_filter.1 (List.mem_of_getLast? h1)
    have he := mem_enabled H.keys.1 h2.1
    exact ⟨q.1, he.1, he.2, by simpa using h2.2, hq q h2.1⟩
  · rw [hget, Option.map_eq_none_iff, List.getLast?_eq_none_iff] at hn
    have hmm : k ∈ kps.map Prod.fst := by
      rw [H.keys.1, List.mem_filter, decide_eq_true_eq]; exact ⟨hm, he⟩
    obtain ⟨q, h1, rfl⟩ := List.mem_map.1 hmm
    have : q ∈ kps.filter (fun q => q.1.keyId = id) := List.mem_filter.2 ⟨h1, by simpa using hid⟩
    rw [hn] at this
    cases this

end

end Tink.Props
