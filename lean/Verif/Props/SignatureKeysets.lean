import Verif.Cc.KeysetLemmas
import Verif.Props.Rotation
import Verif.Props.SignatureKeys
import Verif.Spec.SignatureKeysets

/-!
# C98: keysets of signature keys, from Python down to BoringSSL

What the primitives of private and public keysets do, in terms of the keys that the keysets store.  The library
is any library whose C++ key managers for these key types are those of `Cc/SigKeyManagers.lean`.
-/

namespace Tink.Props
open Spec Config Cc

section
variable {σ δ ε τ S P C : Type} [DecidableEq C] {L : Library σ δ ε τ S P C} {isInst : P → C → Bool}
  {r : Registry P C} {lib : SigSsl} {h : KeysetHandle} {p : P}

/-! ## Signing -/

theorem sign_types_iff {u : PStr} : (∃ pu, PublicType u pu) ↔ u ∈ signTypes := by
  constructor
  · rintro ⟨pu, h⟩; cases h <;> decide
  · intro h
    simp only [signTypes, List.mem_cons, List.not_mem_nil, or_false] at h
    rcases h with rfl | rfl | rfl | rfl
    · exact ⟨_, .ecdsa⟩
    · exact ⟨_, .ed25519⟩
    · exact ⟨_, .rsaPkcs1⟩
    · exact ⟨_, .rsaPss⟩

theorem verify_types_iff {pu : PStr} : (∃ u, PublicType u pu) ↔ pu ∈ verifyTypes := by
  constructor
  · rintro ⟨u, h⟩; cases h <;> decide
  · intro h
    simp only [verifyTypes, List.mem_cons, List.not_mem_nil, or_false] at h
    rcases h with rfl | rfl | rfl | rfl
    · exact ⟨_, .ecdsa⟩
    · exact ⟨_, .ed25519⟩
    · exact ⟨_, .rsaPkcs1⟩
    · exact ⟨_, .rsaPss⟩

theorem sign_registry (hcc : ∀ u cc, ccSign lib u = some cc → L.ccSign u = some cc)
    (hr : PackageRegistered L r .signature) {kd : KeyData} (hu : kd.typeUrl ∈ signTypes) (hf : Fits kd) :
    ∃ cc, ccSign lib kd.typeUrl = some cc ∧
      r.primitive kd (L.cls .sign) = reported (fun a => L.sign.inj (signCcToPy a)) (cc.getPrimitive kd) := by
  obtain ⟨cc, hc⟩ := (C96_sign_types (lib := lib)).2 (sign_types_iff.2 hu)
  have hmem : ∀ u ∈ signTypes, (u, PrimClass.sign) ∈ keyTypes .signature := by decide
  obtain ⟨m, hm, hcl, -, htm⟩ := hr.managers _ _ (hmem _ hu)
  cases htm with
  | sign found serves =>
    rw [hcc _ _ hc] at found
    cases found
    exact ⟨_, hc, registry_primitive hm hcl serves hf⟩

theorem sign_key (hl : LawfulSigSsl lib) (hcc : ∀ u cc, ccSign lib u = some cc → L.ccSign u = some cc)
    (hr : PackageRegistered L r .signature) {kd : KeyData} (hu : kd.typeUrl ∈ signTypes) (hf : Fits kd) {o : P}
    (ho : r.primitive kd (L.cls .sign) = .ok o) :
    ∃ a s, o = L.sign.inj (signCcToPy a) ∧ SigKey.StoredIn kd.typeUrl kd.value s ∧ s.Ok lib ∧
      ∀ seed data sig, a.sign seed data = .ok sig ↔ s.signature lib seed data = some sig := by
  obtain ⟨cc, hc, hp⟩ := sign_registry hcc hr hu hf
  rw [hp] at ho
  obtain ⟨a, ha, rfl⟩ := reported_inj_ok.1 ho
  obtain ⟨k, h1, h2, h3⟩ := C97_sign hl hc ha
  exact ⟨a, k, rfl, h1, h2, h3⟩

theorem signature_sign_obtained (hr : PackageRegistered L r .signature)
    (hp : h.primitive isInst r (L.cls .sign) = .ok p) :
    ∃ kps, Obtained isInst (signWrapper L.sign (L.wrapperType .sign) (L.cls .sign)) r h (L.cls .sign) kps p := by
  obtain ⟨_, w, kps, h1, h2, _⟩ := primitive_ok_iff.1 hp
  obtain ⟨w', h3, h4⟩ := hr.wrappers .sign (by decide)
  rw [h1] at h3
  cases h3
  cases h4
  exact ⟨kps, h1, hp, h2⟩

/-- C98.  When a private keyset gives a `PublicKeySign`. -/
theorem C98_sign_primitive (hi : LawfulConfig L isInst) (hl : LawfulSigSsl lib)
    (hcc : ∀ u cc, ccSign lib u = some cc → L.ccSign u = some cc) (hr : PackageRegistered L r .signature)
    (hk : KeysOf signTypes h.keyset) :
    (∃ p, h.primitive isInst r (L.cls .sign) = .ok p) ↔
      Valid h.keyset ∧ ∀ k ∈ h.keyset.key, Enabled k →
        PrefixKnown k ∧ ∃ s, SigKey.StoredIn k.data.typeUrl k.data.value s ∧ s.Ok lib := by
  obtain ⟨w, h1, h2⟩ := hr.wrappers .sign (by decide)
  cases h2
  have := handle_primitive_iff (isInst := isInst) (h := h) h1
    (ok := fun k => ∃ s, SigKey.StoredIn k.data.typeUrl k.data.value s ∧ s.Ok lib) (good := fun _ => True)
    (fun k hm he => by
      obtain ⟨cc, hc, hp⟩ := sign_registry hcc hr (hk k hm he).1 (hk k hm he).2
      show (∃ o, r.primitive k.data (L.cls .sign) = .ok o) ↔ _
      rw [← C96_sign_keys hl hc, hp]
      simp only [reported_inj_ok]
      exact ⟨fun ⟨_, a, ha, _⟩ => ⟨a, ha⟩, fun ⟨a, ha⟩ => ⟨_, a, ha, rfl⟩⟩)
    (fun k hm he o ho => by
      obtain ⟨a, -, rfl, -⟩ := sign_key hl hcc hr (hk k hm he).1 (hk k hm he).2 ho
      exact hi.sign _)
    (fun kps id => ⟨fun _ _ _ => trivial, fun _ => ⟨_, rfl⟩⟩)
  simpa using this

/-- C98.  The signatures of a keyset are those of its primary key, after its prefix.  If the key makes none, the
result is a `TinkError`. -/
theorem C98_sign (hl : LawfulSigSsl lib) (hcc : ∀ u cc, ccSign lib u = some cc → L.ccSign u = some cc)
    (hr : PackageRegistered L r .signature) (hk : KeysOf signTypes h.keyset)
    (hp : h.primitive isInst r (L.cls .sign) = .ok p) {k : Key} (hm : k ∈ h.keyset.key)
    (hpk : IsPrimaryKey h.keyset k) :
    ∃ pre s, outputPrefix k = .ok pre ∧ SigKey.StoredIn k.data.typeUrl k.data.value s ∧ s.Ok lib ∧
      ∀ seed data, (L.sign.view p).sign seed data =
        match s.signature lib seed (authenticated k data) with
        | some sig => .ok (pre ++ sig)
        | none => .error .tinkError := by
  obtain ⟨kps, H⟩ := signature_sign_obtained hr hp
  obtain ⟨o, ho⟩ := isPrimary_of_key ((C20_validate_iff _).1 (primitive_ok_iff.1 hp).1) H.keys.1 hm hpk
  obtain ⟨pre, hpre⟩ := H.prop.2 _ ho.mem
  obtain ⟨a, s, ha, h1, h1', h2⟩ := sign_key hl hcc hr (hk k hm hpk.1).1 (hk k hm hpk.1).2
    (H.keys.2 _ ho.mem)
  refine ⟨pre, s, hpre, h1, h1', fun seed data => ?_⟩
  dsimp only at ha
  rw [C09_sign_eq H ho hpre, ha, L.sign.view_inj, C65_primitives.2.2.2.2.2.2.2.2.1]
  cases hx : a.sign seed (authenticated k data) with
  | ok x =>
    rw [(h2 _ _ _).1 hx]
    rfl
  | error e =>
    cases hy : s.signature lib seed (authenticated k data) with
    | some x =>
      rw [(h2 _ _ _).2 hy] at hx
      cases hx
    | none => rfl

/-! ## Verifying -/

theorem verify_registry (hcc : ∀ u cc, ccVerify lib u = some cc → L.ccVerify u = some cc)
    (hr : PackageRegistered L r .signature) {kd : KeyData} (hu : kd.typeUrl ∈ verifyTypes) (hf : Fits kd) :
    ∃ cc, ccVerify lib kd.typeUrl = some cc ∧
      r.primitive kd (L.cls .verify) =
        reported (fun a => L.verify.inj (verifyCcToPy a)) (cc.getPrimitive kd) := by
  obtain ⟨cc, hc⟩ := (C96_verify_types (lib := lib)).2 (verify_types_iff.2 hu)
  have hmem : ∀ u ∈ verifyTypes, (u, PrimClass.verify) ∈ keyTypes .signature := by decide
  obtain ⟨m, hm, hcl, -, htm⟩ := hr.managers _ _ (hmem _ hu)
  cases htm with
  | verify found serves =>
    rw [hcc _ _ hc] at found
    cases found
    exact ⟨_, hc, registry_primitive hm hcl serves hf⟩

theorem verify_key (hl : LawfulSigSsl lib) (hcc : ∀ u cc, ccVerify lib u = some cc → L.ccVerify u = some cc)
    (hr : PackageRegistered L r .signature) {kd : KeyData} (hu : kd.typeUrl ∈ verifyTypes) (hf : Fits kd) {o : P}
    (ho : r.primitive kd (L.cls .verify) = .ok o) :
    ∃ a v, o = L.verify.inj (verifyCcToPy a) ∧ PubKey.StoredIn kd.typeUrl kd.value v ∧ v.Ok lib ∧
      ∀ sig data, a.verify sig data = .ok () ↔ v.Valid lib data sig := by
  obtain ⟨cc, hc, hp⟩ := verify_registry hcc hr hu hf
  rw [hp] at ho
  obtain ⟨a, ha, rfl⟩ := reported_inj_ok.1 ho
  obtain ⟨k, h1, h2, h3⟩ := C97_verify hl hc ha
  exact ⟨a, k, rfl, h1, h2, h3⟩

theorem signature_verify_obtained (hr : PackageRegistered L r .signature)
    (hp : h.primitive isInst r (L.cls .verify) = .ok p) :
    ∃ kps, Obtained isInst (verifyWrapper L.verify (L.wrapperType .verify) (L.cls .verify)) r h (L.cls .verify)
      kps p := by
  obtain ⟨_, w, kps, h1, h2, _⟩ := primitive_ok_iff.1 hp
  obtain ⟨w', h3, h4⟩ := hr.wrappers .verify (by decide)
  rw [h1] at h3
  cases h3
  cases h4
  exact ⟨kps, h1, hp, h2⟩

/-- C98.  When a public keyset gives a `PublicKeyVerify`. -/
theorem C98_verify_primitive (hi : LawfulConfig L isInst) (hl : LawfulSigSsl lib)
    (hcc : ∀ u cc, ccVerify lib u = some cc → L.ccVerify u = some cc) (hr : PackageRegistered L r .signature)
    (hk : KeysOf verifyTypes h.keyset) :
    (∃ p, h.primitive isInst r (L.cls .verify) = .ok p) ↔
      Valid h.keyset ∧ ∀ k ∈ h.keyset.key, Enabled k →
        PrefixKnown k ∧ ∃ v, PubKey.StoredIn k.data.typeUrl k.data.value v ∧ v.Ok lib := by
  obtain ⟨w, h1, h2⟩ := hr.wrappers .verify (by decide)
  cases h2
  have := handle_primitive_iff (isInst := isInst) (h := h) h1
    (ok := fun k => ∃ v, PubKey.StoredIn k.data.typeUrl k.data.value v ∧ v.Ok lib) (good := fun _ => True)
    (fun k hm he => by
      obtain ⟨cc, hc, hp⟩ := verify_registry hcc hr (hk k hm he).1 (hk k hm he).2
      show (∃ o, r.primitive k.data (L.cls .verify) = .ok o) ↔ _
      rw [← C96_verify_keys hl hc, hp]
      simp only [reported_inj_ok]
      exact ⟨fun ⟨_, a, ha, _⟩ => ⟨a, ha⟩, fun ⟨a, ha⟩ => ⟨_, a, ha, rfl⟩⟩)
    (fun k hm he o ho => by
      obtain ⟨a, -, rfl, -⟩ := verify_key hl hcc hr (hk k hm he).1 (hk k hm he).2 ho
      exact hi.verify _)
    (fun kps id => ⟨fun _ _ _ => trivial, fun _ => ⟨_, rfl⟩⟩)
  simpa using this

/-- C98.  A signature is accepted if and only if it is longer than a prefix and valid under an enabled key;
otherwise the result is a `TinkError`. -/
theorem C98_verify (hl : LawfulSigSsl lib) (hcc : ∀ u cc, ccVerify lib u = some cc → L.ccVerify u = some cc)
    (hr : PackageRegistered L r .signature) (hk : KeysOf verifyTypes h.keyset)
    (hp : h.primitive isInst r (L.cls .verify) = .ok p) (sig data : Bytes) :
    ((L.verify.view p).verify sig data = .ok () ↔
      5 < sig.length ∧ ∃ k ∈ h.keyset.key, Enabled k ∧ SignatureUnder lib data sig k) ∧
    ∀ e, (L.verify.view p).verify sig data = .error e → e = .tinkError := by
  obtain ⟨kps, H⟩ := signature_verify_obtained hr hp
  have hV := C65_primitives.2.2.2.2.2.2.2.2.2.1
  have hq : ∀ q ∈ kps, ∃ a v, q.2 = L.verify.inj (verifyCcToPy a) ∧
      PubKey.StoredIn q.1.data.typeUrl q.1.data.value v ∧ ∀ sig data,
        (a.verify sig data = .ok () ↔ v.Valid lib data sig) := by
    intro q hq
    have he := Cc.mem_enabled H.keys.1 hq
    obtain ⟨a, v, ha, h1, -, h2⟩ := verify_key hl hcc hr (hk _ he.1 he.2).1 (hk _ he.1 he.2).2 (H.keys.2 _ hq)
    exact ⟨a, v, ha, h1, h2⟩
  have hT : ∀ q ∈ kps, ∀ b d e, (L.verify.view q.2).verify b d = .error e → e = .tinkError := by
    intro q hm b d e he
    obtain ⟨a, v, ha, -⟩ := hq q hm
    rw [ha, L.verify.view_inj, hV] at he
    cases hx : a.verify b d with
    | ok x => rw [hx] at he; cases he
    | error s => rw [hx] at he; cases he; rfl
  have hmem : ∀ q ∈ tryOrder kps, q ∈ kps := fun q hm => mem_tryOrder.1 hm
  rw [C08_signature_verify_eq H]
  by_cases hlen : sig.length ≤ 5
  · rw [if_pos hlen]
    constructor
    · simp; omega
    · intro e he; cases he; rfl
  rw [if_neg hlen]
  constructor
  · refine (search_iff (l := tryOrder kps) (x := sig)
      (f := fun k o body => (L.verify.view o).verify body (authenticated k data))
      (does := fun k (_ : Unit) => SignatureUnder lib data sig k) (fun q hm u => by
        obtain ⟨a, v, ha, h1, h2⟩ := hq q (hmem q hm)
        cases u
        simp only [ha, L.verify.view_inj, hV, reported_ok, h2]
        constructor
        · rintro ⟨body, v', h3, h4, h5⟩
          cases (C97_unique hl).2 _ _ h1 h4
          exact ⟨body, h3, h5⟩
        · rintro ⟨body, h3, h5⟩
          exact ⟨body, v, h3, h1, h5⟩)
      (fun q hm b e he => by rw [hT q (hmem q hm) b _ e he]; rfl) ()).trans ?_
    rw [map_tryOrder H.keys.1]
    constructor
    · rintro ⟨before, k, after, h1, h2, -⟩
      have := mem_keysInOrder.1 (show k ∈ keysInOrder h.keyset by rw [h1]; simp)
      exact ⟨by omega, k, this.1, this.2, h2⟩
    · rintro ⟨-, k, h1, h2, h3⟩
      obtain ⟨before, k', after, g1, g2, g3⟩ := first_of_mem (mem_keysInOrder.2 ⟨h1, h2⟩) h3
      exact ⟨before, k', after, g1, g2, fun k hk _ => g3 k hk⟩
  · intro e he
    rcases outcomes_error he with h | ⟨_, q, hm, b, _, hb⟩
    · exact h
    · exact hT q hm b _ e hb

/-! ## The public keyset -/

theorem public_registry (hl : LawfulSigSsl lib) (hcc : ∀ u cc, ccSign lib u = some cc → L.ccSign u = some cc)
    (hr : PackageRegistered L r .signature) {k : Key} (hk : k.data.typeUrl ∈ signTypes ∧ Fits k.data ∧
      k.data.keyMaterialType = KeyMaterialType.ASYMMETRIC_PRIVATE ∧
      ∀ s, SigKey.StoredIn k.data.typeUrl k.data.value s → s.size < 2 ^ 31 - 1000) :
    ∃ cc f, ccSign lib k.data.typeUrl = some cc ∧ cc.publicKeyData = some f ∧
      r.publicKeyData k.data = reported id (f k.data.value) := by
  obtain ⟨hu, hf, hm, hs⟩ := hk
  obtain ⟨cc, hc⟩ := (C96_sign_types (lib := lib)).2 (sign_types_iff.2 hu)
  obtain ⟨f, hff, hfiff⟩ := C96_public hl hc
  have hmem : ∀ u ∈ signTypes, (u, PrimClass.sign) ∈ keyTypes .signature := by decide
  obtain ⟨m, hg, -, -, htm⟩ := hr.managers _ _ (hmem _ hu)
  cases htm with
  | sign found serves =>
    rw [hcc _ _ hc] at found
    cases found
    refine ⟨cc, f, hc, hff, ?_⟩
    obtain ⟨g, hgm⟩ := Option.isSome_iff_exists.1 serves.isPrivate
    unfold Registry.publicKeyData Registry.keyManager Registry.keyManagerInternal
    rw [if_neg (by simp [hm]), hg]
    show (match m.publicKeyData with | none => _ | some f => f k.data) = _
    rw [hgm]
    show g k.data = _
    rw [serves.publicKeyData g hgm k.data hf (fun f' pub h1 h2 => by
      obtain ⟨s, g1, -⟩ := (hfiff _).1 ⟨pub, by rw [hff] at h1; cases h1; exact h2⟩
      exact (C96_public_part hl hc h1 h2 g1 (hs s g1)).2.2.1), hff]

omit [DecidableEq C] in
theorem valid_withKeyData {ks : Keyset} {kds : List KeyData} (hv : Valid ks) (hlen : kds.length = ks.key.length)
    (hpub : ∀ kd ∈ kds, kd.keyMaterialType = KeyMaterialType.ASYMMETRIC_PUBLIC) :
    Valid (withKeyData ks kds) := by
  have hfst : (ks.key.zip kds).map Prod.fst = ks.key := List.map_fst_zip (by omega)
  constructor
  · obtain ⟨k, h1, h2⟩ := hv.nonempty
    rw [← hfst] at h1
    obtain ⟨q, hq, rfl⟩ := List.mem_map.1 h1
    exact ⟨_, List.mem_map.2 ⟨q, hq, rfl⟩, h2⟩
  · intro k hk hs
    obtain ⟨q, hq, rfl⟩ := List.mem_map.1 hk
    exact ⟨by simp, (hv.complete q.1 (List.of_mem_zip hq).1 hs).2⟩
  · intro pre k₁ mid k₂ post he hb
    obtain ⟨l1, l2, e1, -, e2⟩ := List.map_eq_append_iff.1 he
    obtain ⟨q1, l3, rfl, rfl, e3⟩ := List.map_eq_cons_iff.1 e2
    obtain ⟨l4, l5, rfl, -, e4⟩ := List.map_eq_append_iff.1 e3
    obtain ⟨q2, l6, rfl, rfl, -⟩ := List.map_eq_cons_iff.1 e4
    rw [e1] at hfst
    simp only [List.map_append, List.map_cons] at hfst
    exact hv.one_primary _ _ _ _ _ hfst.symm hb
  · right
    intro k hk
    obtain ⟨q, hq, rfl⟩ := List.mem_map.1 hk
    exact hpub _ (List.of_mem_zip hq).2

/-- Valid signatures are longer than a prefix. -/
theorem valid_length (hl : LawfulSigSsl lib) {v : PubKey} (hok : v.Ok lib) {data sig : Bytes}
    (h : v.Valid lib data sig) : 5 < sig.length := by
  cases v with
  | ecdsa g x y hash encoding =>
    obtain ⟨r, s, -, -, rfl, -⟩ := h
    unfold ecdsaEncode
    split
    · rw [List.length_append, digitsBE_length, digitsBE_length]
      cases g <;> decide
    · have hpos : ∀ n, 0 < (derLength n).length := by
        intro n
        unfold derLength
        split <;> simp
      have p1 := hpos (bitLength r / 8 + 1)
      have p2 := hpos (bitLength s / 8 + 1)
      have p3 := hpos (derInteger r ++ derInteger s).length
      unfold derSignature derElement
      rw [List.length_cons, List.length_append, List.length_append]
      unfold derInteger derElement at p3 ⊢
      simp only [List.length_cons, List.length_append, digitsBE_length] at p3 ⊢
      omega
  | ed25519 pub => have := h.1; omega
  | rsaPkcs1 n e hash =>
    have := hl.rsaSize _ _ _ _ _ h
    have hb := hok.1.1
    unfold bnNumBytes at this
    omega
  | rsaPss n e h1 h2 salt =>
    obtain ⟨em, g1, -⟩ := h
    have := (hl.rsaRawSize _ _ _ _ g1).1
    have hb := hok.1.1
    unfold bnNumBytes at this
    omega

/-- C98.  When the public keyset is handed out.  This looks at all keys, also at those that are disabled or
destroyed. -/
theorem C98_public (hl : LawfulSigSsl lib) (hcc : ∀ u cc, ccSign lib u = some cc → L.ccSign u = some cc)
    (hr : PackageRegistered L r .signature) (hv : Valid h.keyset) (hk : PrivateKeyset h.keyset) :
    (∃ pub, h.publicKeysetHandle r = .ok pub) ↔
      ∀ k ∈ h.keyset.key, k.outputPrefixType ≠ OutputPrefixType.UNKNOWN_PREFIX ∧
        k.status ≠ KeyStatusType.UNKNOWN_STATUS ∧
        ∃ s, SigKey.StoredIn k.data.typeUrl k.data.value s ∧ s.Checked := by
  constructor
  · rintro ⟨pub, hp⟩ k hkm
    unfold KeysetHandle.publicKeysetHandle at hp
    obtain ⟨keys, hkeys, -⟩ := bind_ok_iff.1 hp
    rw [mapM_ok_iff] at hkeys
    obtain ⟨hlen, hall⟩ := hkeys
    obtain ⟨i, hi, rfl⟩ := List.getElem_of_mem hkm
    have hmem : (h.keyset.key[i], keys[i]'(by omega)) ∈ h.keyset.key.zip keys := by
      rw [List.mem_iff_getElem]
      exact ⟨i, by simp [← hlen, hi], by simp⟩
    obtain ⟨kd, hkd, h2⟩ := bind_ok_iff.1 (hall _ hmem)
    obtain ⟨⟨⟩, hval, -⟩ := bind_ok_iff.1 h2
    obtain ⟨-, v2, v3⟩ := validateKey_iff.1 hval
    obtain ⟨cc, f, hc, hf, hpk⟩ := public_registry hl hcc hr (hk _ hkm)
    rw [hpk] at hkd
    obtain ⟨f', hf', hiff⟩ := C96_public hl hc
    cases hf.symm.trans hf'
    exact ⟨v2, v3, (hiff _).1 ⟨kd, reported_ok.1 hkd⟩⟩
  · intro hall
    have hex : ∀ l : List Key, (∀ k ∈ l, k ∈ h.keyset.key) → ∃ kds : List KeyData, kds.length = l.length ∧
        ∀ q ∈ l.zip kds, r.publicKeyData q.1.data = .ok q.2 ∧
          q.2.keyMaterialType = KeyMaterialType.ASYMMETRIC_PUBLIC := by
      intro l
      induction l with
      | nil => intro _; exact ⟨[], rfl, by simp⟩
      | cons k l ih =>
        intro hl'
        obtain ⟨kds, h1, h2⟩ := ih fun k hk => hl' k (by simp [hk])
        have hkm := hl' k (by simp)
        obtain ⟨cc, f, hc, hf, hpk⟩ := public_registry hl hcc hr (hk _ hkm)
        obtain ⟨f', hf', hiff⟩ := C96_public hl hc
        cases hf.symm.trans hf'
        obtain ⟨s, g1, g2⟩ := (hall k hkm).2.2
        obtain ⟨kd, hkd⟩ := (hiff _).2 ⟨s, g1, g2⟩
        have hpart := C96_public_part hl hc hf hkd g1 ((hk _ hkm).2.2.2 s g1)
        refine ⟨kd :: kds, by simp [h1], fun q hq => ?_⟩
        rw [List.zip_cons_cons] at hq
        rcases List.mem_cons.1 hq with rfl | hq
        · exact ⟨by rw [hpk]; exact reported_ok.2 hkd, hpart.2.1⟩
        · exact h2 q hq
    obtain ⟨kds, h1, h2⟩ := hex _ fun _ h => h
    refine ⟨_, C27_public_keyset_ok h1 (fun q hq => (h2 q hq).1)
      (fun k hkm => ⟨(hall k hkm).1, (hall k hkm).2.1⟩)
      (valid_withKeyData hv h1 fun kd hkd => ?_)⟩
    obtain ⟨i, hi, rfl⟩ := List.getElem_of_mem hkd
    have hmem : (h.keyset.key[i]'(by omega), kds[i]) ∈ h.keyset.key.zip kds := by
      rw [List.mem_iff_getElem]
      exact ⟨i, by simp [h1] at hi ⊢; exact hi, by simp⟩
    exact (h2 _ hmem).2

/-- C98.  The public keyset has the same primary key id and, key by key, the public counterparts.  It contains
nothing secret. -/
theorem C98_public_keys (hl : LawfulSigSsl lib) (hcc : ∀ u cc, ccSign lib u = some cc → L.ccSign u = some cc)
    (hr : PackageRegistered L r .signature) (hk : PrivateKeyset h.keyset) {pub : KeysetHandle}
    (hp : h.publicKeysetHandle r = .ok pub) :
    pub.keyset.primaryKeyId = h.keyset.primaryKeyId ∧ pub.keyset.key.length = h.keyset.key.length ∧
      (∀ q ∈ h.keyset.key.zip pub.keyset.key, Counterpart q.1 q.2) ∧ Valid pub.keyset ∧ NoSecret pub.keyset := by
  obtain ⟨kds, h1, h2, h3, h4⟩ := C27_public_keyset hp
  have hkey : ∀ q ∈ h.keyset.key.zip kds,
      Counterpart q.1 ⟨some q.2, q.1.status, q.1.keyId, q.1.outputPrefixType⟩ := by
    intro q hq
    have hkm := (List.of_mem_zip hq).1
    obtain ⟨cc, f, hc, hf, hpk⟩ := public_registry hl hcc hr (hk _ hkm)
    have hok := C18_public_key_data_iff.2 (h2 q hq)
    rw [hpk] at hok
    have hfk := reported_ok.1 hok
    obtain ⟨f', hf', hiff⟩ := C96_public hl hc
    cases hf.symm.trans hf'
    obtain ⟨s, g1, -⟩ := (hiff _).1 ⟨_, hfk⟩
    obtain ⟨p1, p2, p3, p4⟩ := C96_public_part hl hc hf hfk g1 ((hk _ hkm).2.2.2 s g1)
    exact ⟨rfl, rfl, rfl, p1, p2, p3, s, g1, p4⟩
  have hall : ∀ q ∈ h.keyset.key.zip pub.keyset.key, Counterpart q.1 q.2 := by
    rw [h3]
    unfold withKeyData
    dsimp only
    generalize h.keyset.key = l at h1 hkey
    clear hp h2 h3 h4 hk
    induction l generalizing kds with
    | nil => simp
    | cons k l ih =>
      cases kds with
      | nil => simp at h1
      | cons kd kds =>
        intro q hq
        simp only [List.zip_cons_cons, List.map_cons, List.mem_cons] at hq
        rcases hq with rfl | hq
        · exact hkey (k, kd) (by simp)
        · exact ih kds (by simpa using h1) (fun q hq => hkey q (by simp [hq])) q hq
  have hlen : pub.keyset.key.length = h.keyset.key.length := by
    rw [h3]
    simp [withKeyData, h1]
  refine ⟨by rw [h3]; rfl, hlen, hall, h4, fun k hkm => ?_⟩
  obtain ⟨i, hi, rfl⟩ := List.getElem_of_mem hkm
  have hmem : (h.keyset.key[i]'(by omega), pub.keyset.key[i]) ∈ h.keyset.key.zip pub.keyset.key := by
    rw [List.mem_iff_getElem]
    exact ⟨i, by simp; omega, by simp⟩
  have := (hall _ hmem).2.2.2.2.1
  unfold Secret
  dsimp only at this
  rw [this]
  decide

/-- C98.  If the public part of the primary key is that of its private part, then the public keyset accepts
whatever the private keyset signs. -/
theorem C98_round_trip (hl : LawfulSigSsl lib)
    (hccs : ∀ u cc, ccSign lib u = some cc → L.ccSign u = some cc)
    (hccv : ∀ u cc, ccVerify lib u = some cc → L.ccVerify u = some cc)
    (hr : PackageRegistered L r .signature) (hk : PrivateKeyset h.keyset)
    (hp : h.primitive isInst r (L.cls .sign) = .ok p) {k : Key} (hm : k ∈ h.keyset.key)
    (hpk : IsPrimaryKey h.keyset k)
    (hmatch : ∀ s, SigKey.StoredIn k.data.typeUrl k.data.value s → s.Matches lib)
    {pub : KeysetHandle} (hpub : h.publicKeysetHandle r = .ok pub) {isInst' : P → C → Bool} {p' : P}
    (hp' : pub.primitive isInst' r (L.cls .verify) = .ok p') {seed : Seed} {data sig : Bytes}
    (hsig : (L.sign.view p).sign seed data = .ok sig) : (L.verify.view p').verify sig data = .ok () := by
  obtain ⟨pre, s, h1, h2, h2', h3⟩ := C98_sign hl hccs hr (fun k hkm _ => ⟨(hk k hkm).1, (hk k hkm).2.1⟩) hp hm hpk
  rw [h3] at hsig
  cases hx : s.signature lib seed (authenticated k data) with
  | none => rw [hx] at hsig; cases hsig
  | some body =>
  rw [hx] at hsig
  cases hsig
  obtain ⟨c1, c2, c3, c4, c5⟩ := C98_public_keys hl hccs hr hk hpub
  have hkeys : KeysOf verifyTypes pub.keyset := by
    intro k' hk' _
    obtain ⟨i, hi, rfl⟩ := List.getElem_of_mem hk'
    have hmem : (h.keyset.key[i]'(by omega), pub.keyset.key[i]) ∈ h.keyset.key.zip pub.keyset.key := by
      rw [List.mem_iff_getElem]
      exact ⟨i, by simp; omega, by simp⟩
    obtain ⟨-, -, -, g1, -, g2, -⟩ := c3 _ hmem
    exact ⟨verify_types_iff.1 ⟨_, g1⟩, g2⟩
  have hvalid := signature_valid hl h2' (hmatch s h2) hx
  obtain ⟨i, hi, hki⟩ := List.getElem_of_mem hm
  have hmem : (k, pub.keyset.key[i]'(by omega)) ∈ h.keyset.key.zip pub.keyset.key := by
    rw [List.mem_iff_getElem]
    exact ⟨i, by simp; omega, by simp [hki]⟩
  obtain ⟨g1, g2, g3, g4, -, g6, s', g7, g8⟩ := c3 _ hmem
  dsimp only at g1 g2 g3 g4 g6 g8
  cases (C97_unique hl).1 _ _ h2 g7
  have hlong := valid_length hl h2'.1 hvalid
  have hne : body ≠ [] := by intro e; rw [e] at hlong; simp at hlong
  refine (C98_verify hl hccv hr hkeys hp' _ _).1.2 ⟨by rw [List.length_append]; omega, _, List.getElem_mem _, ?_, body, _,
    ?_, g8, ?_⟩
  · have := hpk.1
    unfold Enabled at this ⊢
    rw [g1]
    exact this
  · refine payload_append ?_ _ (.inr hne)
    rw [← h1]
    unfold outputPrefix
    rw [g2, g3]
  · unfold authenticated at hvalid ⊢
    rw [g3]
    exact hvalid

end

end Tink.Props
