import Verif.Props.HybridKeys
import Verif.Props.SignatureKeysets
import Verif.Props.TokenOrder
import Verif.Spec.HybridKeysets

/-!
# C102: keysets of hybrid encryption keys, from Python down to BoringSSL

What the primitives of private and public keysets do, in terms of the keys that the keysets store.  The library
is any library whose C++ key managers for these key types are those of `Cc/HybridKeyManagers.lean`.
-/

namespace Tink.Props
open Spec Config Cc

section
variable {σ δ ε τ S P C : Type} [DecidableEq C] {L : Library σ δ ε τ S P C} {isInst : P → C → Bool}
  {r : Registry P C} {lib : HybSsl} {h : KeysetHandle} {p : P}

theorem hybrid_private_iff {u : PStr} : (∃ pu, HybridType u pu) ↔ u ∈ hybridPrivateTypes := by
  constructor
  · rintro ⟨pu, h⟩; cases h <;> decide
  · intro h
    simp only [hybridPrivateTypes, List.mem_cons, List.not_mem_nil, or_false] at h
    rcases h with rfl | rfl
    · exact ⟨_, .ecies⟩
    · exact ⟨_, .hpke⟩

theorem hybrid_public_iff {pu : PStr} : (∃ u, HybridType u pu) ↔ pu ∈ hybridPublicTypes := by
  constructor
  · rintro ⟨u, h⟩; cases h <;> decide
  · intro h
    simp only [hybridPublicTypes, List.mem_cons, List.not_mem_nil, or_false] at h
    rcases h with rfl | rfl
    · exact ⟨_, .ecies⟩
    · exact ⟨_, .hpke⟩

/-! ## Encryption -/

theorem hybrid_encrypt_registry (hcc : ∀ u cc, ccHybridEncrypt lib u = some cc → L.ccHybridEncrypt u = some cc)
    (hr : PackageRegistered L r .hybrid) {kd : KeyData} (hu : kd.typeUrl ∈ hybridPublicTypes) (hf : Fits kd) :
    ∃ cc, ccHybridEncrypt lib kd.typeUrl = some cc ∧
      r.primitive kd (L.cls .hybridEncrypt) =
        reported (fun a => L.hybridEncrypt.inj (hybridEncryptCcToPy a)) (cc.getPrimitive kd) := by
  obtain ⟨cc, hc⟩ := (C100_encrypt_types (lib := lib)).2 (hybrid_public_iff.2 hu)
  have hmem : ∀ u ∈ hybridPublicTypes, (u, PrimClass.hybridEncrypt) ∈ keyTypes .hybrid := by decide
  obtain ⟨m, hm, hcl, -, htm⟩ := hr.managers _ _ (hmem _ hu)
  cases htm with
  | hybridEncrypt found serves =>
    rw [hcc _ _ hc] at found
    cases found
    exact ⟨_, hc, registry_primitive hm hcl serves hf⟩

theorem hybrid_encrypt_key (hl : LawfulHyb lib)
    (hcc : ∀ u cc, ccHybridEncrypt lib u = some cc → L.ccHybridEncrypt u = some cc)
    (hr : PackageRegistered L r .hybrid) {kd : KeyData} (hu : kd.typeUrl ∈ hybridPublicTypes) (hf : Fits kd) {o : P}
    (ho : r.primitive kd (L.cls .hybridEncrypt) = .ok o) :
    ∃ a v, o = L.hybridEncrypt.inj (hybridEncryptCcToPy a) ∧ HybPub.StoredIn kd.typeUrl kd.value v ∧ v.Ok lib ∧
      ∀ seed pt info ct, a.encrypt seed pt info = .ok ct ↔ v.Encrypts lib seed info pt ct := by
  obtain ⟨cc, hc, hp⟩ := hybrid_encrypt_registry hcc hr hu hf
  rw [hp] at ho
  obtain ⟨a, ha, rfl⟩ := reported_inj_ok.1 ho
  obtain ⟨k, h1, h2, h3⟩ := C101_encrypt hl hc ha
  exact ⟨a, k, rfl, h1, h2, h3⟩

theorem hybrid_encrypt_obtained (hr : PackageRegistered L r .hybrid)
    (hp : h.primitive isInst r (L.cls .hybridEncrypt) = .ok p) :
    ∃ kps, Obtained isInst (hybridEncryptWrapper L.hybridEncrypt (L.wrapperType .hybridEncrypt)
      (L.cls .hybridEncrypt)) r h (L.cls .hybridEncrypt) kps p := by
  obtain ⟨_, w, kps, h1, h2, _⟩ := primitive_ok_iff.1 hp
  obtain ⟨w', h3, h4⟩ := hr.wrappers .hybridEncrypt (by decide)
  rw [h1] at h3
  cases h3
  cases h4
  exact ⟨kps, h1, hp, h2⟩

/-- C102.  When a public keyset gives a `HybridEncrypt`. -/
theorem C102_encrypt_primitive (hi : LawfulConfig L isInst) (hl : LawfulHyb lib)
    (hcc : ∀ u cc, ccHybridEncrypt lib u = some cc → L.ccHybridEncrypt u = some cc)
    (hr : PackageRegistered L r .hybrid) (hk : KeysOf hybridPublicTypes h.keyset) :
    (∃ p, h.primitive isInst r (L.cls .hybridEncrypt) = .ok p) ↔
      Valid h.keyset ∧ ∀ k ∈ h.keyset.key, Enabled k →
        PrefixKnown k ∧ ∃ v, HybPub.StoredIn k.data.typeUrl k.data.value v ∧ v.Ok lib := by
  obtain ⟨w, h1, h2⟩ := hr.wrappers .hybridEncrypt (by decide)
  cases h2
  have := handle_primitive_iff (isInst := isInst) (h := h) h1
    (ok := fun k => ∃ v, HybPub.StoredIn k.data.typeUrl k.data.value v ∧ v.Ok lib) (good := fun _ => True)
    (fun k hm he => by
      obtain ⟨cc, hc, hp⟩ := hybrid_encrypt_registry hcc hr (hk k hm he).1 (hk k hm he).2
      show (∃ o, r.primitive k.data (L.cls .hybridEncrypt) = .ok o) ↔ _
      rw [← C100_encrypt_keys hl hc, hp]
      simp only [reported_inj_ok]
      exact ⟨fun ⟨_, a, ha, _⟩ => ⟨a, ha⟩, fun ⟨a, ha⟩ => ⟨_, a, ha, rfl⟩⟩)
    (fun k hm he o ho => by
      obtain ⟨a, -, rfl, -⟩ := hybrid_encrypt_key hl hcc hr (hk k hm he).1 (hk k hm he).2 ho
      exact hi.hybridEncrypt _)
    (fun kps id => ⟨fun _ _ _ => trivial, fun _ => ⟨_, rfl⟩⟩)
  simpa using this

/-- C102.  The ciphertexts of a keyset are those of its primary key, after its prefix.  Otherwise the result is
a `TinkError`, unless the computation does not end with a status, which is not covered (see `runStatus`). -/
theorem C102_encrypt (hl : LawfulHyb lib)
    (hcc : ∀ u cc, ccHybridEncrypt lib u = some cc → L.ccHybridEncrypt u = some cc)
    (hr : PackageRegistered L r .hybrid) (hk : KeysOf hybridPublicTypes h.keyset)
    (hp : h.primitive isInst r (L.cls .hybridEncrypt) = .ok p) {k : Key} (hm : k ∈ h.keyset.key)
    (hpk : IsPrimaryKey h.keyset k) :
    ∃ pre v, outputPrefix k = .ok pre ∧ HybPub.StoredIn k.data.typeUrl k.data.value v ∧ v.Ok lib ∧
      ∀ seed pt info,
        (∀ ct, (L.hybridEncrypt.view p).encrypt seed pt info = .ok ct ↔
          ∃ body, v.Encrypts lib seed info pt body ∧ ct = pre ++ body) ∧
        (v.Ends lib seed → ∀ e, (L.hybridEncrypt.view p).encrypt seed pt info = .error e → e = .tinkError) := by
  obtain ⟨kps, H⟩ := hybrid_encrypt_obtained hr hp
  obtain ⟨o, ho⟩ := isPrimary_of_key ((C20_validate_iff _).1 (primitive_ok_iff.1 hp).1) H.keys.1 hm hpk
  obtain ⟨pre, hpre⟩ := H.prop.2 _ ho.mem
  obtain ⟨a, v, ha, h1, h1', h2⟩ := hybrid_encrypt_key hl hcc hr (hk k hm hpk.1).1 (hk k hm hpk.1).2
    (H.keys.2 _ ho.mem)
  refine ⟨pre, v, hpre, h1, h1', fun seed pt info => ?_⟩
  dsimp only at ha
  rw [C06_hybrid_encrypt_eq H ho hpre, ha, L.hybridEncrypt.view_inj, C65_primitives.2.2.2.2.1]
  cases hx : a.encrypt seed pt info with
  | ok x =>
    refine ⟨fun ct => ⟨fun e => ?_, fun ⟨body, g1, g2⟩ => ?_⟩, fun _ e he => by cases he⟩
    · cases e
      exact ⟨x, (h2 _ _ _ _).1 hx, rfl⟩
    · rw [(h2 _ _ _ _).2 g1] at hx
      cases hx
      rw [g2]
      rfl
  | error st =>
    refine ⟨fun ct => ⟨(by intro e; cases e), fun ⟨body, g1, g2⟩ => ?_⟩, fun _ e he => by cases he; rfl⟩
    rw [(h2 _ _ _ _).2 g1] at hx
    cases hx

/-- C102.  If there is no enabled key with the primary key's id, which is possible for public keysets, the result
is a `TinkError`. -/
theorem C102_encrypt_no_primary (hr : PackageRegistered L r .hybrid)
    (hp : h.primitive isInst r (L.cls .hybridEncrypt) = .ok p)
    (hno : ∀ k ∈ h.keyset.key, ¬ IsPrimaryKey h.keyset k) (seed : Seed) (pt info : Bytes) :
    (L.hybridEncrypt.view p).encrypt seed pt info = .error .tinkError := by
  obtain ⟨kps, H⟩ := hybrid_encrypt_obtained hr hp
  refine C06_hybrid_encrypt_no_primary H (fun q hq => ?_) seed pt info
  have he := Cc.mem_enabled H.keys.1 hq.mem
  have hid := List.mem_filter.1 (List.mem_of_getLast? hq)
  exact hno _ he.1 ⟨he.2, by simpa using hid.2⟩

/-! ## Decryption -/

theorem hybrid_decrypt_registry (hcc : ∀ u cc, ccHybridDecrypt lib u = some cc → L.ccHybridDecrypt u = some cc)
    (hr : PackageRegistered L r .hybrid) {kd : KeyData} (hu : kd.typeUrl ∈ hybridPrivateTypes) (hf : Fits kd) :
    ∃ cc, ccHybridDecrypt lib kd.typeUrl = some cc ∧
      r.primitive kd (L.cls .hybridDecrypt) =
        reported (fun a => L.hybridDecrypt.inj (hybridDecryptCcToPy a)) (cc.getPrimitive kd) := by
  obtain ⟨cc, hc⟩ := (C100_decrypt_types (lib := lib)).2 (hybrid_private_iff.2 hu)
  have hmem : ∀ u ∈ hybridPrivateTypes, (u, PrimClass.hybridDecrypt) ∈ keyTypes .hybrid := by decide
  obtain ⟨m, hm, hcl, -, htm⟩ := hr.managers _ _ (hmem _ hu)
  cases htm with
  | hybridDecrypt found serves =>
    rw [hcc _ _ hc] at found
    cases found
    exact ⟨_, hc, registry_primitive hm hcl serves hf⟩

theorem hybrid_decrypt_key (hl : LawfulHyb lib)
    (hcc : ∀ u cc, ccHybridDecrypt lib u = some cc → L.ccHybridDecrypt u = some cc)
    (hr : PackageRegistered L r .hybrid) {kd : KeyData} (hu : kd.typeUrl ∈ hybridPrivateTypes) (hf : Fits kd) {o : P}
    (ho : r.primitive kd (L.cls .hybridDecrypt) = .ok o) :
    ∃ a s, o = L.hybridDecrypt.inj (hybridDecryptCcToPy a) ∧ HybPriv.StoredIn kd.typeUrl kd.value s ∧ s.Ok ∧
      ∀ ct info pt, a.decrypt ct info = .ok pt ↔ s.Decrypts lib info ct pt := by
  obtain ⟨cc, hc, hp⟩ := hybrid_decrypt_registry hcc hr hu hf
  rw [hp] at ho
  obtain ⟨a, ha, rfl⟩ := reported_inj_ok.1 ho
  obtain ⟨k, h1, h2, h3⟩ := C101_decrypt hl hc ha
  exact ⟨a, k, rfl, h1, h2, h3⟩

theorem hybrid_decrypt_obtained (hr : PackageRegistered L r .hybrid)
    (hp : h.primitive isInst r (L.cls .hybridDecrypt) = .ok p) :
    ∃ kps, Obtained isInst (hybridDecryptWrapper L.hybridDecrypt (L.wrapperType .hybridDecrypt)
      (L.cls .hybridDecrypt)) r h (L.cls .hybridDecrypt) kps p := by
  obtain ⟨_, w, kps, h1, h2, _⟩ := primitive_ok_iff.1 hp
  obtain ⟨w', h3, h4⟩ := hr.wrappers .hybridDecrypt (by decide)
  rw [h1] at h3
  cases h3
  cases h4
  exact ⟨kps, h1, hp, h2⟩

/-- C102.  When a private keyset gives a `HybridDecrypt`. -/
theorem C102_decrypt_primitive (hi : LawfulConfig L isInst) (hl : LawfulHyb lib)
    (hcc : ∀ u cc, ccHybridDecrypt lib u = some cc → L.ccHybridDecrypt u = some cc)
    (hr : PackageRegistered L r .hybrid) (hk : KeysOf hybridPrivateTypes h.keyset) :
    (∃ p, h.primitive isInst r (L.cls .hybridDecrypt) = .ok p) ↔
      Valid h.keyset ∧ ∀ k ∈ h.keyset.key, Enabled k →
        PrefixKnown k ∧ ∃ s, HybPriv.StoredIn k.data.typeUrl k.data.value s ∧ s.Ok := by
  obtain ⟨w, h1, h2⟩ := hr.wrappers .hybridDecrypt (by decide)
  cases h2
  have := handle_primitive_iff (isInst := isInst) (h := h) h1
    (ok := fun k => ∃ s, HybPriv.StoredIn k.data.typeUrl k.data.value s ∧ s.Ok) (good := fun _ => True)
    (fun k hm he => by
      obtain ⟨cc, hc, hp⟩ := hybrid_decrypt_registry hcc hr (hk k hm he).1 (hk k hm he).2
      show (∃ o, r.primitive k.data (L.cls .hybridDecrypt) = .ok o) ↔ _
      rw [← C100_decrypt_keys hl hc, hp]
      simp only [reported_inj_ok]
      exact ⟨fun ⟨_, a, ha, _⟩ => ⟨a, ha⟩, fun ⟨a, ha⟩ => ⟨_, a, ha, rfl⟩⟩)
    (fun k hm he o ho => by
      obtain ⟨a, -, rfl, -⟩ := hybrid_decrypt_key hl hcc hr (hk k hm he).1 (hk k hm he).2 ho
      exact hi.hybridDecrypt _)
    (fun kps id => ⟨fun _ _ _ => trivial, fun _ => ⟨_, rfl⟩⟩)
  simpa using this

/-- C102.  Decryption gives what the first key, in the order of the keyset with RAW keys last, makes of the
ciphertext, and anything else is a `TinkError`.  Keys for which the computation does not end with a status are
not covered (`_hno`, see `runStatus`). -/
theorem C102_decrypt (hl : LawfulHyb lib)
    (hcc : ∀ u cc, ccHybridDecrypt lib u = some cc → L.ccHybridDecrypt u = some cc)
    (hr : PackageRegistered L r .hybrid) (hk : KeysOf hybridPrivateTypes h.keyset) (_hno : NoOverflowIn h.keyset)
    (hp : h.primitive isInst r (L.cls .hybridDecrypt) = .ok p) (ct info : Bytes) :
    (∀ pt, (L.hybridDecrypt.view p).decrypt ct info = .ok pt ↔ FirstDoes (HybridOpens lib info ct) h.keyset pt) ∧
    ∀ e, (L.hybridDecrypt.view p).decrypt ct info = .error e → e = .tinkError := by
  obtain ⟨kps, H⟩ := hybrid_decrypt_obtained hr hp
  have hV := C65_primitives.2.2.2.2.2.1
  have hq : ∀ q ∈ kps, ∃ a s, q.2 = L.hybridDecrypt.inj (hybridDecryptCcToPy a) ∧
      HybPriv.StoredIn q.1.data.typeUrl q.1.data.value s ∧ ∀ ct info pt,
        (a.decrypt ct info = .ok pt ↔ s.Decrypts lib info ct pt) := by
    intro q hq
    have he := Cc.mem_enabled H.keys.1 hq
    obtain ⟨a, s, ha, h1, -, h2⟩ := hybrid_decrypt_key hl hcc hr (hk _ he.1 he.2).1 (hk _ he.1 he.2).2
      (H.keys.2 _ hq)
    exact ⟨a, s, ha, h1, h2⟩
  have hT : ∀ q ∈ kps, ∀ b e, (L.hybridDecrypt.view q.2).decrypt b info = .error e → e = .tinkError := by
    intro q hm b e he
    obtain ⟨a, s, ha, -⟩ := hq q hm
    rw [ha, L.hybridDecrypt.view_inj, hV] at he
    cases hx : a.decrypt b info with
    | ok x => rw [hx] at he; cases he
    | error s => rw [hx] at he; cases he; rfl
  have hmem : ∀ q ∈ tryOrder kps, q ∈ kps := fun q hm => mem_tryOrder.1 hm
  rw [C06_hybrid_decrypt_eq H]
  constructor
  · intro pt
    unfold FirstDoes
    rw [← map_tryOrder H.keys.1]
    refine search_iff (f := fun _ o body => (L.hybridDecrypt.view o).decrypt body info) (fun q hm pt => ?_)
      (fun q hm b e he => by rw [hT q (hmem q hm) b e he]; rfl) pt
    obtain ⟨a, s, ha, h1, h2⟩ := hq q (hmem q hm)
    simp only [ha, L.hybridDecrypt.view_inj, hV, reported_ok, h2]
    constructor
    · rintro ⟨body, s', h3, h4, h5⟩
      cases (C101_unique hl).1 _ _ h1 h4
      exact ⟨body, h3, h5⟩
    · rintro ⟨body, h3, h5⟩
      exact ⟨body, s, h3, h1, h5⟩
  · intro e he
    rcases outcomes_error he with h | ⟨_, q, hm, b, _, hb⟩
    · exact h
    · exact hT q hm b e hb

/-! ## The public keyset -/

theorem hybrid_public_registry (hl : LawfulHyb lib) (hcc : ∀ u cc, ccHybridDecrypt lib u = some cc → L.ccHybridDecrypt u = some cc)
    (hr : PackageRegistered L r .hybrid) {k : Key} (hk : k.data.typeUrl ∈ hybridPrivateTypes ∧ Fits k.data ∧
      k.data.keyMaterialType = KeyMaterialType.ASYMMETRIC_PRIVATE ∧
      ∀ s, HybPriv.StoredIn k.data.typeUrl k.data.value s → s.size < 2 ^ 31 - 1000) :
    ∃ cc f, ccHybridDecrypt lib k.data.typeUrl = some cc ∧ cc.publicKeyData = some f ∧
      r.publicKeyData k.data = reported id (f k.data.value) := by
  obtain ⟨hu, hf, hm, hs⟩ := hk
  obtain ⟨cc, hc⟩ := (C100_decrypt_types (lib := lib)).2 (hybrid_private_iff.2 hu)
  obtain ⟨f, hff, hfiff⟩ := C100_public hl hc
  have hmem : ∀ u ∈ hybridPrivateTypes, (u, PrimClass.hybridDecrypt) ∈ keyTypes .hybrid := by decide
  obtain ⟨m, hg, -, -, htm⟩ := hr.managers _ _ (hmem _ hu)
  cases htm with
  | hybridDecrypt found serves =>
    rw [hcc _ _ hc] at found
    cases found
    refine ⟨cc, f, hc, hff, ?_⟩
    obtain ⟨g, hgm⟩ := Option.isSome_iff_exists.1 serves.isPrivate
    unfold Registry.publicKeyData Registry.keyManager Registry.keyManagerInternal
    rw [if_neg (by simp [hm]), hg]
    show (match m.publicKeyData with | none => _ | some f => f k.data) = _
    rw [hgm]
    show g k.data = _
    rw [serves.publicKeyData g hgm k.data hf (fun f' pub h1 h2 => by
      obtain ⟨s, g1, -⟩ := (hfiff _).1 ⟨pub, by rw [hff] at h1; cases h1; exact h2⟩
      exact (C100_public_part hl hc h1 h2 g1 (hs s g1)).2.2.1), hff]

/-- C102.  When the public keyset is handed out.  This looks at all keys, also at those that are disabled or
destroyed. -/
theorem C102_public (hl : LawfulHyb lib) (hcc : ∀ u cc, ccHybridDecrypt lib u = some cc → L.ccHybridDecrypt u = some cc)
    (hr : PackageRegistered L r .hybrid) (hv : Valid h.keyset) (hk : PrivateHybridKeyset h.keyset) :
    (∃ pub, h.publicKeysetHandle r = .ok pub) ↔
      ∀ k ∈ h.keyset.key, k.outputPrefixType ≠ OutputPrefixType.UNKNOWN_PREFIX ∧
        k.status ≠ KeyStatusType.UNKNOWN_STATUS ∧
        ∃ s, HybPriv.StoredIn k.data.typeUrl k.data.value s ∧ s.publicPart.Checked := by
  constructor
  · rintro ⟨pub, hp⟩ k hkm
    unfold KeysetHandle.publicKeysetHandle at hp
    obtain ⟨keys, hkeys, -⟩ := bind_ok_iff.1 hp
    rw [mapM_ok_iff] at hkeys
    obtain ⟨hlen, hall⟩ := hkeys
    obtain ⟨i, hi, rfl⟩ := List.getElem_of_mem hkm
    have hmem : (h.keyset.key[i], keys[i]'(by omega)) ∈ h.keyset.key.zip keys := by
      rw [List.mem_iff_getElem]
      exact ⟨i, by simp [← hlen, hi], by simp⟩
    obtain ⟨kd, hkd, h2⟩ := bind_ok_iff.1 (hall _ hmem)
    obtain ⟨⟨⟩, hval, -⟩ := bind_ok_iff.1 h2
    obtain ⟨-, v2, v3⟩ := validateKey_iff.1 hval
    obtain ⟨cc, f, hc, hf, hpk⟩ := hybrid_public_registry hl hcc hr (hk _ hkm)
    rw [hpk] at hkd
    obtain ⟨f', hf', hiff⟩ := C100_public hl hc
    cases hf.symm.trans hf'
    exact ⟨v2, v3, (hiff _).1 ⟨kd, reported_ok.1 hkd⟩⟩
  · intro hall
    have hex : ∀ l : List Key, (∀ k ∈ l, k ∈ h.keyset.key) → ∃ kds : List KeyData, kds.length = l.length ∧
        ∀ q ∈ l.zip kds, r.publicKeyData q.1.data = .ok q.2 ∧
          q.2.keyMaterialType = KeyMaterialType.ASYMMETRIC_PUBLIC := by
      intro l
      induction l with
      | nil => intro _; exact ⟨[], rfl, by simp⟩
      | cons k l ih =>
        intro hl'
        obtain ⟨kds, h1, h2⟩ := ih fun k hk => hl' k (by simp [hk])
        have hkm := hl' k (by simp)
        obtain ⟨cc, f, hc, hf, hpk⟩ := hybrid_public_registry hl hcc hr (hk _ hkm)
        obtain ⟨f', hf', hiff⟩ := C100_public hl hc
        cases hf.symm.trans hf'
        obtain ⟨s, g1, g2⟩ := (hall k hkm).2.2
        obtain ⟨kd, hkd⟩ := (hiff _).2 ⟨s, g1, g2⟩
        have hpart := C100_public_part hl hc hf hkd g1 ((hk _ hkm).2.2.2 s g1)
        refine ⟨kd :: kds, by simp [h1], fun q hq => ?_⟩
        rw [List.zip_cons_cons] at hq
        rcases List.mem_cons.1 hq with rfl | hq
        · exact ⟨by rw [hpk]; exact reported_ok.2 hkd, hpart.2.1⟩
        · exact h2 q hq
    obtain ⟨kds, h1, h2⟩ := hex _ fun _ h => h
    refine ⟨_, C27_public_keyset_ok h1 (fun q hq => (h2 q hq).1)
      (fun k hkm => ⟨(hall k hkm).1, (hall k hkm).2.1⟩)
      (valid_withKeyData hv h1 fun kd hkd => ?_)⟩
    obtain ⟨i, hi, rfl⟩ := List.getElem_of_mem hkd
    have hmem : (h.keyset.key[i]'(by omega), kds[i]) ∈ h.keyset.key.zip kds := by
      rw [List.mem_iff_getElem]
      exact ⟨i, by simp [h1] at hi ⊢; exact hi, by simp⟩
    exact (h2 _ hmem).2

/-- C102.  The public keyset has the same primary key id and, key by key, the public counterparts.  It contains
nothing secret. -/
theorem C102_public_keys (hl : LawfulHyb lib) (hcc : ∀ u cc, ccHybridDecrypt lib u = some cc → L.ccHybridDecrypt u = some cc)
    (hr : PackageRegistered L r .hybrid) (hk : PrivateHybridKeyset h.keyset) {pub : KeysetHandle}
    (hp : h.publicKeysetHandle r = .ok pub) :
    pub.keyset.primaryKeyId = h.keyset.primaryKeyId ∧ pub.keyset.key.length = h.keyset.key.length ∧
      (∀ q ∈ h.keyset.key.zip pub.keyset.key, HybridCounterpart q.1 q.2) ∧ Valid pub.keyset ∧ NoSecret pub.keyset := by
  obtain ⟨kds, h1, h2, h3, h4⟩ := C27_public_keyset hp
  have hkey : ∀ q ∈ h.keyset.key.zip kds,
      HybridCounterpart q.1 ⟨some q.2, q.1.status, q.1.keyId, q.1.outputPrefixType⟩ := by
    intro q hq
    have hkm := (List.of_mem_zip hq).1
    obtain ⟨cc, f, hc, hf, hpk⟩ := hybrid_public_registry hl hcc hr (hk _ hkm)
    have hok := C18_public_key_data_iff.2 (h2 q hq)
    rw [hpk] at hok
    have hfk := reported_ok.1 hok
    obtain ⟨f', hf', hiff⟩ := C100_public hl hc
    cases hf.symm.trans hf'
    obtain ⟨s, g1, -⟩ := (hiff _).1 ⟨_, hfk⟩
    obtain ⟨p1, p2, p3, p4⟩ := C100_public_part hl hc hf hfk g1 ((hk _ hkm).2.2.2 s g1)
    exact ⟨rfl, rfl, rfl, p1, p2, p3, s, g1, p4⟩
  have hall : ∀ q ∈ h.keyset.key.zip pub.keyset.key, HybridCounterpart q.1 q.2 := by
    rw [h3]
    unfold withKeyData
    dsimp only
    generalize h.keyset.key = l at h1 hkey
    clear hp h2 h3 h4 hk
    induction l generalizing kds with
    | nil => simp
    | cons k l ih =>
      cases kds with
      | nil => simp at h1
      | cons kd kds =>
        intro q hq
        simp only [List.zip_cons_cons, List.map_cons, List.mem_cons] at hq
        rcases hq with rfl | hq
        · exact hkey (k, kd) (by simp)
        · exact ih kds (by simpa using h1) (fun q hq => hkey q (by simp [hq])) q hq
  have hlen : pub.keyset.key.length = h.keyset.key.length := by
    rw [h3]
    simp [withKeyData, h1]
  refine ⟨by rw [h3]; rfl, hlen, hall, h4, fun k hkm => ?_⟩
  obtain ⟨i, hi, rfl⟩ := List.getElem_of_mem hkm
  have hmem : (h.keyset.key[i]'(by omega), pub.keyset.key[i]) ∈ h.keyset.key.zip pub.keyset.key := by
    rw [List.mem_iff_getElem]
    exact ⟨i, by simp; omega, by simp⟩
  have := (hall _ hmem).2.2.2.2.1
  unfold Secret
  dsimp only at this
  rw [this]
  decide

/-- An acceptable key decrypts a ciphertext to one text. -/
theorem decrypts_unique (hl : LawfulHyb lib) {url : PStr} {b : Bytes} {s : HybPriv} (hs : HybPriv.StoredIn url b s)
    (hok : s.Ok) {info ct pt pt' : Bytes} (h1 : s.Decrypts lib info ct pt) (h2 : s.Decrypts lib info ct pt') :
    pt = pt' := by
  have hut : ∃ pu, HybridType url pu := by
    cases hs with
    | ecies => exact ⟨_, .ecies⟩
    | hpke => exact ⟨_, .hpke⟩
  obtain ⟨cc, hc⟩ := (C100_decrypt_types (lib := lib)).2 hut
  obtain ⟨a, ha⟩ := (C100_decrypt_keys (kd := ⟨url, b, 0⟩) hl hc).2 ⟨s, hs, hok⟩
  obtain ⟨s', h3, -, h4⟩ := C101_decrypt (kd := ⟨url, b, 0⟩) hl hc ha
  cases (C101_unique hl).1 _ _ hs h3
  have := ((h4 _ _ _).2 h1).symm.trans ((h4 _ _ _).2 h2)
  cases this
  rfl

/-- Ciphertexts are not empty. -/
theorem overhead_pos {v : HybPub} {n : Nat} (hn : v.Overhead n) : 0 < n := by
  cases hn with
  | ecies _ hk =>
    have : ∀ g : EcGroup, 0 < g.fieldSize := by intro g; cases g <;> decide
    cases hk with
    | crunchy hc hf => rename_i g; have := this g; omega
    | _ => omega
  | hpke => decide

/-- C102.  If the public part of the primary key is that of its private part, then the private keyset decrypts
what the public keyset encrypts, unless another of its keys makes something else of the ciphertext. -/
theorem C102_round_trip (hl : LawfulHyb lib)
    (hccd : ∀ u cc, ccHybridDecrypt lib u = some cc → L.ccHybridDecrypt u = some cc)
    (hcce : ∀ u cc, ccHybridEncrypt lib u = some cc → L.ccHybridEncrypt u = some cc)
    (hr : PackageRegistered L r .hybrid) (hk : PrivateHybridKeyset h.keyset) (hno : NoOverflowIn h.keyset)
    (hp : h.primitive isInst r (L.cls .hybridDecrypt) = .ok p) {k : Key} (hm : k ∈ h.keyset.key)
    (hpk : IsPrimaryKey h.keyset k)
    (hmatch : ∀ s, HybPriv.StoredIn k.data.typeUrl k.data.value s → s.Matches lib)
    {pub : KeysetHandle} (hpub : h.publicKeysetHandle r = .ok pub) {isInst' : P → C → Bool} {p' : P}
    (hp' : pub.primitive isInst' r (L.cls .hybridEncrypt) = .ok p') {seed : Seed} {pt info ct : Bytes}
    (hct : (L.hybridEncrypt.view p').encrypt seed pt info = .ok ct)
    (hother : ∀ k' ∈ h.keyset.key, Enabled k' → k' ≠ k → ∀ pt', HybridOpens lib info ct k' pt' → pt' = pt) :
    (L.hybridDecrypt.view p).decrypt ct info = .ok pt := by
  obtain ⟨c1, c2, c3, c4, c5⟩ := C102_public_keys hl hccd hr hk hpub
  have hkeys : KeysOf hybridPublicTypes pub.keyset := by
    intro k' hk' _
    obtain ⟨i, hi, rfl⟩ := List.getElem_of_mem hk'
    have hmem : (h.keyset.key[i]'(by omega), pub.keyset.key[i]) ∈ h.keyset.key.zip pub.keyset.key := by
      rw [List.mem_iff_getElem]
      exact ⟨i, by simp; omega, by simp⟩
    obtain ⟨-, -, -, g1, -, g2, -⟩ := c3 _ hmem
    exact ⟨hybrid_public_iff.1 ⟨_, g1⟩, g2⟩
  obtain ⟨i, hi, hki⟩ := List.getElem_of_mem hm
  have hmem : (k, pub.keyset.key[i]'(by omega)) ∈ h.keyset.key.zip pub.keyset.key := by
    rw [List.mem_iff_getElem]
    exact ⟨i, by simp; omega, by simp [hki]⟩
  obtain ⟨g1, g2, g3, g4, -, g6, s, g7, g8⟩ := c3 _ hmem
  dsimp only at g1 g2 g3 g4 g6 g8
  have hprim : IsPrimaryKey pub.keyset (pub.keyset.key[i]'(by omega)) := by
    refine ⟨?_, by rw [g2, c1]; exact hpk.2⟩
    have := hpk.1
    unfold Enabled at this ⊢
    rw [g1]
    exact this
  obtain ⟨pre, v, h1, h2, -, h3⟩ := C102_encrypt hl hcce hr hkeys hp' (List.getElem_mem _) hprim
  obtain ⟨body, h4, rfl⟩ := ((h3 seed pt info).1 _).1 hct
  cases (C101_unique hl).2 _ _ g8 h2
  have hdec := hyb_round_trip hl (hmatch s g7) h4
  have hne : body ≠ [] := by
    obtain ⟨n, hn, hlen⟩ := encrypts_length hl h4
    intro e
    rw [e] at hlen
    have := overhead_pos hn
    simp at hlen
    omega
  have hopens : HybridOpens lib info (pre ++ body) k pt := by
    refine ⟨body, s, payload_append ?_ _ (.inr hne), g7, hdec⟩
    rw [← h1]
    unfold outputPrefix
    rw [g2, g3]
  refine ((C102_decrypt hl hccd hr (fun k hkm _ => ⟨(hk k hkm).1, (hk k hkm).2.1⟩) hno hp _ _).1 _).2 ?_
  obtain ⟨before, k', after, q1, ⟨pt', q2⟩, q3⟩ := first_of_mem (p := fun k => ∃ a, HybridOpens lib info (pre ++ body) k a)
    (mem_keysInOrder.2 ⟨hm, hpk.1⟩) ⟨pt, hopens⟩
  have hk' := mem_keysInOrder.1 (show k' ∈ keysInOrder h.keyset by rw [q1]; simp)
  have heq : pt' = pt := by
    by_cases e : k' = k
    · subst e
      obtain ⟨kps, -, -, hkps⟩ := hybrid_decrypt_obtained hr hp
      obtain ⟨o, ho⟩ := enabled_primitive hkps hm hpk.1
      obtain ⟨a, s', -, r1, r2, -⟩ := hybrid_decrypt_key hl hccd hr (hk _ hm).1 (hk _ hm).2.1 (hkps.2 _ ho)
      cases (C101_unique hl).1 _ _ g7 r1
      obtain ⟨b1, s1, t1, t2, t3⟩ := q2
      obtain ⟨b2, s2, u1, u2, u3⟩ := hopens
      cases t1.symm.trans u1
      cases (C101_unique hl).1 _ _ t2 g7
      cases (C101_unique hl).1 _ _ u2 g7
      exact decrypts_unique hl g7 r2 t3 u3
    · exact hother k' hk'.1 hk'.2 e pt' q2
  subst heq
  exact ⟨before, k', after, q1, q2, fun x hx a ha => q3 x hx ⟨a, ha⟩⟩

end

end Tink.Props
