import Verif.Props.Config
import Verif.Props.Aead
import Verif.Props.Deterministic
import Verif.Props.MacSignature
import Verif.Props.Hybrid
import Verif.Props.PrimitiveSet

/-!
# C66: from registration to use

A program that registers a package, makes a keyset from a predefined template and takes the primitive
of the keyset has a primitive that works, if the C++ primitives of single keys do.
-/

namespace Tink.Props
open Spec Config

section
variable {σ δ ε τ S P C : Type} [DecidableEq C] {L : Library σ δ ε τ S P C} {isInst : P → C → Bool}
  {r : Registry P C} {t : KeyTemplate} {seed : Seed} {kd : KeyData}

omit [DecidableEq C] in
theorem single_primary {h : KeysetHandle} {d : UInt32} {k : Key} {o : P}
    (hh : h.keyset = ⟨d, [k]⟩) (hk : k.keyId = d) : IsPrimary h.keyset [(k, o)] (k, o) := by
  rw [hh]
  simp [IsPrimary, hk]

omit [DecidableEq C] in
theorem single_tryOrder (k : Key) (o : P) : tryOrder [(k, o)] = [] ++ (k, o) :: [] := by
  unfold tryOrder
  by_cases h : k.outputPrefixType = OutputPrefixType.RAW <;> simp [h]

theorem reported_ok {α : Type} {x : StatusOr α} {a : α} : reported id x = .ok a ↔ x = .ok a := by
  cases x with
  | ok b => simp [reported]
  | error e => simp [reported]

/-- C66.  AEAD: what the new keyset encrypts it decrypts. -/
theorem C66_aead (hl : LawfulConfig L isInst) (hr : PackageRegistered L r .aead) (ht : .ok t ∈ templates .aead)
    {cc : Cpp.KeyManager Cpp.Aead} {a : Cpp.Aead} (found : L.ccAead t.typeUrl = some cc)
    (new : cc.newKeyData seed t.value = .ok kd) (made : cc.getPrimitive kd = .ok a)
    (hfk : Fits kd) (hu : kd.typeUrl = t.typeUrl)
    (correct : ∀ s pt ad ct, a.encrypt s pt ad = .ok ct → ct ≠ [] ∧ a.decrypt ct ad = .ok pt)
    (d : UInt32) (draws : List UInt32) :
    ∃ h p, KeysetHandle.generateNew r seed (d :: draws) t = some (.ok h) ∧
      h.primitive isInst r (L.cls .aead) = .ok p ∧
      ∀ s pt ad, (∀ body, a.encrypt s pt ad = .ok body → ∃ ct, (L.aead.view p).encrypt s pt ad = .ok ct) ∧
        ∀ ct, (L.aead.view p).encrypt s pt ad = .ok ct → (L.aead.view p).decrypt ct ad = .ok pt := by
  obtain ⟨h, w, p, h1, h2, hw, H⟩ := C64_new_keyset hl hr ht (.aead found new made) hfk hu d draws
  cases hw
  refine ⟨h, p, h1, H.primitive, fun s pt ad => ?_⟩
  have hprim := single_primary (P := P) (o := L.aead.inj (aeadCcToPy a)) h2 rfl
  constructor
  · intro body hb
    obtain ⟨pre, _, he⟩ := C01_aead_encrypt_ok H hprim (seed := s) (pt := pt) (ad := ad) (body := body)
      (by rw [L.aead.view_inj]; exact (C65_primitives.1 ..).trans (reported_ok.2 hb))
    exact ⟨_, he⟩
  · intro ct hct
    obtain ⟨pre, hpre⟩ := H.prop.2 _ hprim.mem
    have he := C01_aead_encrypt_eq H hprim hpre s pt ad
    rw [he] at hct
    obtain ⟨body, hb, _⟩ := bind_ok_iff.1 hct
    have hb' : a.encrypt s pt ad = .ok body := by
      rw [L.aead.view_inj] at hb; exact reported_ok.1 ((C65_primitives.1 ..).symm.trans hb)
    obtain ⟨hne, hdec⟩ := correct s pt ad body hb'
    rw [← he] at hct
    refine C01_aead_round_trip H H hprim (single_tryOrder _ _) rfl rfl hb ?_ (.inr hne) hct (by simp)
    rw [L.aead.view_inj]
    exact (C65_primitives.2.1 ..).trans (reported_ok.2 hdec)

/-- C66.  Deterministic AEAD. -/
theorem C66_daead (hl : LawfulConfig L isInst) (hr : PackageRegistered L r .daead) (ht : .ok t ∈ templates .daead)
    {cc : Cpp.KeyManager Cpp.DeterministicAead} {a : Cpp.DeterministicAead}
    (found : L.ccDaead t.typeUrl = some cc)
    (new : cc.newKeyData seed t.value = .ok kd) (made : cc.getPrimitive kd = .ok a)
    (hfk : Fits kd) (hu : kd.typeUrl = t.typeUrl)
    (correct : ∀ pt ad ct, a.encryptDeterministically pt ad = .ok ct →
      ct ≠ [] ∧ a.decryptDeterministically ct ad = .ok pt)
    (d : UInt32) (draws : List UInt32) :
    ∃ h p, KeysetHandle.generateNew r seed (d :: draws) t = some (.ok h) ∧
      h.primitive isInst r (L.cls .daead) = .ok p ∧
      ∀ pt ad, (∀ body, a.encryptDeterministically pt ad = .ok body →
          ∃ ct, (L.daead.view p).encryptDeterministically pt ad = .ok ct) ∧
        ∀ ct, (L.daead.view p).encryptDeterministically pt ad = .ok ct →
          (L.daead.view p).decryptDeterministically ct ad = .ok pt := by
  obtain ⟨h, w, p, h1, h2, hw, H⟩ := C64_new_keyset hl hr ht (.daead found new made) hfk hu d draws
  cases hw
  refine ⟨h, p, h1, H.primitive, fun pt ad => ?_⟩
  have hprim := single_primary (P := P) (o := L.daead.inj (daeadCcToPy a)) h2 rfl
  obtain ⟨pre, hpre⟩ := H.prop.2 _ hprim.mem
  have he := C05_daead_encrypt_eq H hprim hpre pt ad
  constructor
  · intro body hb
    rw [he, L.daead.view_inj]
    exact ⟨pre ++ body, bind_ok_iff.2 ⟨body, (C65_primitives.2.2.1 ..).trans (reported_ok.2 hb), rfl⟩⟩
  · intro ct hct
    rw [he] at hct
    obtain ⟨body, hb, _⟩ := bind_ok_iff.1 hct
    have hb' : a.encryptDeterministically pt ad = .ok body := by
      rw [L.daead.view_inj] at hb; exact reported_ok.1 ((C65_primitives.2.2.1 ..).symm.trans hb)
    obtain ⟨hne, hdec⟩ := correct pt ad body hb'
    rw [← he] at hct
    refine C05_daead_round_trip H H hprim (single_tryOrder _ _) rfl rfl hb ?_ (.inr hne) hct (by simp)
    rw [L.daead.view_inj]
    exact (C65_primitives.2.2.2.1 ..).trans (reported_ok.2 hdec)

/-- C66.  MAC: the tags that the new keyset computes it accepts. -/
theorem C66_mac (hl : LawfulConfig L isInst) (hr : PackageRegistered L r .mac) (ht : .ok t ∈ templates .mac)
    {cc : Cpp.KeyManager Cpp.Mac} {a : Cpp.Mac} (found : L.ccMac t.typeUrl = some cc)
    (new : cc.newKeyData seed t.value = .ok kd) (made : cc.getPrimitive kd = .ok a)
    (hfk : Fits kd) (hu : kd.typeUrl = t.typeUrl)
    (correct : ∀ data tag, a.computeMac data = .ok tag → 5 < tag.length ∧ a.verifyMac tag data = .ok ())
    (d : UInt32) (draws : List UInt32) :
    ∃ h p, KeysetHandle.generateNew r seed (d :: draws) t = some (.ok h) ∧
      h.primitive isInst r (L.cls .mac) = .ok p ∧
      ∀ data, (∀ body, a.computeMac data = .ok body → ∃ tag, (L.mac.view p).computeMac data = .ok tag) ∧
        ∀ tag, (L.mac.view p).computeMac data = .ok tag → (L.mac.view p).verifyMac tag data = .ok () := by
  obtain ⟨h, w, p, h1, h2, hw, H⟩ := C64_new_keyset hl hr ht (.mac found new made) hfk hu d draws
  cases hw
  refine ⟨h, p, h1, H.primitive, fun data => ?_⟩
  have hprim := single_primary (P := P) (o := L.mac.inj (macCcToPy a)) h2 rfl
  obtain ⟨pre, hpre⟩ := H.prop.2 _ hprim.mem
  have he := C07_mac_compute_eq H hprim hpre data
  have hleg : authenticated (⟨some kd, KeyStatusType.ENABLED, d, t.outputPrefixType⟩ : Key) data = data := by
    obtain ⟨t', h0, _, _, _, _, hpt⟩ := C64_templates .mac _ ht
    cases h0
    unfold authenticated
    rw [if_neg]
    rcases hpt with ⟨hpt, _⟩ | hpt <;> simp only [hpt] <;> decide
  rw [hleg] at he
  constructor
  · intro body hb
    rw [he, L.mac.view_inj]
    exact ⟨pre ++ body, bind_ok_iff.2 ⟨body,
      (C65_primitives.2.2.2.2.2.2.1 ..).trans (reported_ok.2 hb), rfl⟩⟩
  · intro tag htag
    rw [he] at htag
    obtain ⟨body, hb, _⟩ := bind_ok_iff.1 htag
    have hb' : a.computeMac data = .ok body := by
      rw [L.mac.view_inj] at hb
      exact reported_ok.1 ((C65_primitives.2.2.2.2.2.2.1 ..).symm.trans hb)
    obtain ⟨hne, hver⟩ := correct data body hb'
    rw [← he] at htag
    refine C07_mac_round_trip H H hprim (single_tryOrder _ _) rfl rfl (by rw [hleg]; exact hb) ?_ ?_ htag
      (by simp)
    · rw [L.mac.view_inj, hleg]
      exact (C65_primitives.2.2.2.2.2.2.2.1 ..).trans (reported_ok.2 hver)
    · split
      · exact hne
      · intro hn; rw [hn] at hne; simp at hne

/-- C66.  PRF: the new keyset's PRF set consists of the key's PRF, which is its primary. -/
theorem C66_prf (hl : LawfulConfig L isInst) (hr : PackageRegistered L r .prf) (ht : .ok t ∈ templates .prf)
    {cc : Cpp.KeyManager Cpp.Prf} {a : Cpp.Prf} (found : L.ccPrf t.typeUrl = some cc)
    (new : cc.newKeyData seed t.value = .ok kd) (made : cc.getPrimitive kd = .ok a)
    (hfk : Fits kd) (hu : kd.typeUrl = t.typeUrl) (d : UInt32) (draws : List UInt32) :
    ∃ h p q, KeysetHandle.generateNew r seed (d :: draws) t = some (.ok h) ∧
      h.primitive isInst r (L.cls .prfSet) = .ok p ∧
      (L.prfSet.view p).primaryId = .ok d ∧ (L.prfSet.view p).primary = .ok q ∧
      (∃ all, (L.prfSet.view p).all = .ok all ∧
        ∀ id, PyDict.get? all id = if id = d then some q else none) ∧
      ∀ input length, q.compute input length = reported id (a.compute input length) := by
  obtain ⟨h, w, p, h1, h2, hw, H⟩ := C64_new_keyset hl hr ht (.prf found new made) hfk hu d draws
  cases hw
  have hprim := single_primary (P := P) (o := L.prf.inj (prfCcToPy a)) h2 rfl
  obtain ⟨_, g1, all, g2, g3⟩ := C10_prf_set H
  obtain ⟨g4, g5⟩ := g1 _ _ hprim
  rw [L.prf.view_inj] at g5
  rw [h2] at g4
  refine ⟨h, p, prfCcToPy a, h1, H.primitive, g4, g5, ⟨all, g2, fun id => ?_⟩, ?_⟩
  · rw [g3 id]
    by_cases hid : id = d
    · subst hid; simp [L.prf.view_inj]
    · simp [hid, Ne.symm hid]
  · exact C65_primitives.2.2.2.2.2.2.2.2.2.2 a

/-- The public handle of a new keyset, and its primitive. -/
theorem public_obtained {A B A' B' : Type} {V : View P A} {toPy : B → A} {V' : View P A'} {toPy' : B' → A'}
    {cs : Cpp.KeyManager B} {cv : Cpp.KeyManager B'} {m m' : KeyManager P C} {url : PStr}
    (hg : PyDict.get? r.keyManagers kd.typeUrl = some (m, true)) (hs : Serves V toPy cs true m)
    (hfk : Fits kd) (hpriv : kd.keyMaterialType = KeyMaterialType.ASYMMETRIC_PRIVATE)
    {f : Bytes → StatusOr KeyData} (hf : cs.publicKeyData = some f) {pub : KeyData}
    (hpub : f kd.value = .ok pub) (hfp : Fits pub) (hurl : pub.typeUrl = url)
    (hg' : PyDict.get? r.keyManagers url = some (m', true)) (hs' : Serves V' toPy' cv false m')
    {w : PrimitiveWrapper P C} {c : C} (hw : PyDict.get? r.wrappers c = some w)
    (hc : m'.primitiveClass = w.inputPrimitiveClass) {v : B'} (hmade : cv.getPrimitive pub = .ok v)
    (hi : isInst (V'.inj (toPy' v)) w.inputPrimitiveClass = true) {d : UInt32} {pt : EnumVal}
    (hpt : pt = OutputPrefixType.TINK ∨ pt = OutputPrefixType.RAW)
    (hwr : ∀ s, ∃ p, w.wrap s = .ok p) {h : KeysetHandle}
    (hh : h.keyset = ⟨d, [⟨some kd, KeyStatusType.ENABLED, d, pt⟩]⟩) :
    ∃ hp p, h.publicKeysetHandle r = .ok hp ∧
      hp.keyset = ⟨d, [⟨some pub, KeyStatusType.ENABLED, d, pt⟩]⟩ ∧
      Obtained isInst w r hp c [(⟨some pub, KeyStatusType.ENABLED, d, pt⟩, V'.inj (toPy' v))] p := by
  have hne : pt ≠ OutputPrefixType.UNKNOWN_PREFIX := by rcases hpt with rfl | rfl <;> decide
  have hpk : r.publicKeyData kd = .ok pub := by
    obtain ⟨g, hgm⟩ := Option.isSome_iff_exists.1 hs.isPrivate
    unfold Registry.publicKeyData Registry.keyManager Registry.keyManagerInternal
    rw [if_neg (by simp [hpriv]), hg]
    show (match m.publicKeyData with | none => _ | some f => f kd) = _
    rw [hgm]
    show g kd = _
    rw [hs.publicKeyData g hgm kd hfk (fun f' pub' h1 h2 => by
      rw [hf] at h1; cases h1; rw [hpub] at h2; cases h2; exact hfp), hf]
    dsimp only
    rw [hpub]
    rfl
  have hok := C27_public_keyset_ok (r := r) (h := h) (kds := [pub]) (by rw [hh]; rfl)
    (by rw [hh]; intro q hq; rw [List.mem_singleton.1 hq]; exact hpk)
    (by rw [hh]; intro k hk; rw [List.mem_singleton.1 hk]; exact ⟨hne, (by decide : KeyStatusType.ENABLED ≠ KeyStatusType.UNKNOWN_STATUS)⟩)
    (by rw [hh]; exact single_valid hne)
  have hws : withKeyData h.keyset [pub] = ⟨d, [⟨some pub, KeyStatusType.ENABLED, d, pt⟩]⟩ := by
    rw [hh]; rfl
  rw [hws] at hok
  obtain ⟨p, hp⟩ := hwr (psetOf w.inputPrimitiveClass d
    [(⟨some pub, KeyStatusType.ENABLED, d, pt⟩, V'.inj (toPy' v))])
  refine ⟨_, p, hok, rfl, single_obtained hw ?_ hi hne ?_ hp⟩
  · unfold Registry.primitive Registry.keyManager Registry.keyManagerInternal
    rw [hurl, hg']
    show (if m'.primitiveClass ≠ _ then _ else m'.primitive pub) = _
    rw [if_neg (by simp [hc]), hs'.primitive pub hfp, hmade]
    rfl
  · unfold outputPrefix
    rcases hpt with rfl | rfl <;> exact ⟨_, rfl⟩

/-- C66.  Signatures: the public keyset accepts what the new keyset signs. -/
theorem C66_signature (hl : LawfulConfig L isInst) (hr : PackageRegistered L r .signature)
    (ht : .ok t ∈ templates .signature)
    {cs : Cpp.KeyManager Cpp.PublicKeySign} {a : Cpp.PublicKeySign}
    (found : L.ccSign t.typeUrl = some cs)
    (new : cs.newKeyData seed t.value = .ok kd) (made : cs.getPrimitive kd = .ok a)
    (hfk : Fits kd) (hu : kd.typeUrl = t.typeUrl)
    (hpriv : kd.keyMaterialType = KeyMaterialType.ASYMMETRIC_PRIVATE)
    {f : Bytes → StatusOr KeyData} (hf : cs.publicKeyData = some f) {pub : KeyData}
    (hpub : f kd.value = .ok pub) (hfp : Fits pub)
    (hurl : (pub.typeUrl, PrimClass.verify) ∈ keyTypes .signature)
    {cv : Cpp.KeyManager Cpp.PublicKeyVerify} {v : Cpp.PublicKeyVerify}
    (found' : L.ccVerify pub.typeUrl = some cv) (made' : cv.getPrimitive pub = .ok v)
    (correct : ∀ s data sig, a.sign s data = .ok sig → 5 < sig.length ∧ v.verify sig data = .ok ())
    (d : UInt32) (draws : List UInt32) :
    ∃ h p hp p', KeysetHandle.generateNew r seed (d :: draws) t = some (.ok h) ∧
      h.primitive isInst r (L.cls .sign) = .ok p ∧
      h.publicKeysetHandle r = .ok hp ∧ hp.primitive isInst r (L.cls .verify) = .ok p' ∧
      ∀ s data, (∀ body, a.sign s data = .ok body → ∃ sig, (L.sign.view p).sign s data = .ok sig) ∧
        ∀ sig, (L.sign.view p).sign s data = .ok sig → (L.verify.view p').verify sig data = .ok () := by
  obtain ⟨h, w, p, h1, h2, hw, H⟩ := C64_new_keyset hl hr ht (.sign found new made) hfk hu d draws
  cases hw
  obtain ⟨t', h0, _, hk, _, _, hpt⟩ := C64_templates .signature _ ht
  cases h0
  have hpt : t.outputPrefixType = OutputPrefixType.TINK ∨ t.outputPrefixType = OutputPrefixType.RAW := by
    rcases hpt with ⟨h, _⟩ | h
    · exact .inl h
    · exact .inr h
  obtain ⟨m, hg, _, _, htm⟩ := hr.managers _ _ hk
  rw [← hu] at hg
  obtain ⟨m', hg', hc', _, htm'⟩ := hr.managers _ _ hurl
  obtain ⟨w', hw', htw'⟩ := hr.wrappers .verify (by decide)
  cases htm with
  | sign found1 hs =>
  cases htm' with
  | verify found2 hs' =>
  rw [found] at found1; cases found1
  rw [found'] at found2; cases found2
  cases htw'
  obtain ⟨hp, p', h3, h4, H'⟩ := public_obtained (isInst := isInst) hg hs hfk hpriv hf hpub hfp rfl hg' hs'
    hw' hc' made' (hl.verify _) hpt (fun s => ⟨_, rfl⟩) h2
  refine ⟨h, p, hp, p', h1, H.primitive, h3, H'.primitive, fun s data => ?_⟩
  have hprim := single_primary (P := P) (o := L.sign.inj (signCcToPy a)) h2 rfl
  obtain ⟨pre, hpre⟩ := H.prop.2 _ hprim.mem
  have he := C09_sign_eq H hprim hpre s data
  have hleg : authenticated (⟨some kd, KeyStatusType.ENABLED, d, t.outputPrefixType⟩ : Key) data = data := by
    unfold authenticated
    rw [if_neg]
    rcases hpt with hpt | hpt <;> simp only [hpt] <;> decide
  rw [hleg] at he
  have hsign := C65_primitives.2.2.2.2.2.2.2.2.1
  have hverify := C65_primitives.2.2.2.2.2.2.2.2.2.1
  constructor
  · intro body hb
    rw [he, L.sign.view_inj]
    exact ⟨pre ++ body, bind_ok_iff.2 ⟨body, (hsign ..).trans (reported_ok.2 hb), rfl⟩⟩
  · intro sig hsig
    rw [he] at hsig
    obtain ⟨body, hb, _⟩ := bind_ok_iff.1 hsig
    have hb' : a.sign s data = .ok body := by
      rw [L.sign.view_inj] at hb
      exact reported_ok.1 ((hsign ..).symm.trans hb)
    obtain ⟨hne, hver⟩ := correct s data body hb'
    rw [← he] at hsig
    refine C09_signature_round_trip H H' hprim (single_tryOrder _ _) rfl rfl (by rw [hleg]; exact hb) ?_ ?_
      hsig (by simp)
    · rw [L.verify.view_inj, hleg]
      exact (hverify ..).trans (reported_ok.2 hver)
    · split
      · exact hne
      · intro hn; rw [hn] at hne; simp at hne

/-- C66.  Hybrid encryption: the new keyset decrypts what its public keyset encrypts. -/
theorem C66_hybrid (hl : LawfulConfig L isInst) (hr : PackageRegistered L r .hybrid)
    (ht : .ok t ∈ templates .hybrid)
    {cd : Cpp.KeyManager Cpp.HybridDecrypt} {a : Cpp.HybridDecrypt}
    (found : L.ccHybridDecrypt t.typeUrl = some cd)
    (new : cd.newKeyData seed t.value = .ok kd) (made : cd.getPrimitive kd = .ok a)
    (hfk : Fits kd) (hu : kd.typeUrl = t.typeUrl)
    (hpriv : kd.keyMaterialType = KeyMaterialType.ASYMMETRIC_PRIVATE)
    {f : Bytes → StatusOr KeyData} (hf : cd.publicKeyData = some f) {pub : KeyData}
    (hpub : f kd.value = .ok pub) (hfp : Fits pub)
    (hurl : (pub.typeUrl, PrimClass.hybridEncrypt) ∈ keyTypes .hybrid)
    {ce : Cpp.KeyManager Cpp.HybridEncrypt} {v : Cpp.HybridEncrypt}
    (found' : L.ccHybridEncrypt pub.typeUrl = some ce) (made' : ce.getPrimitive pub = .ok v)
    (correct : ∀ s pt info ct, v.encrypt s pt info = .ok ct → ct ≠ [] ∧ a.decrypt ct info = .ok pt)
    (d : UInt32) (draws : List UInt32) :
    ∃ h p hp p', KeysetHandle.generateNew r seed (d :: draws) t = some (.ok h) ∧
      h.primitive isInst r (L.cls .hybridDecrypt) = .ok p ∧
      h.publicKeysetHandle r = .ok hp ∧ hp.primitive isInst r (L.cls .hybridEncrypt) = .ok p' ∧
      ∀ s pt info, (∀ body, v.encrypt s pt info = .ok body →
          ∃ ct, (L.hybridEncrypt.view p').encrypt s pt info = .ok ct) ∧
        ∀ ct, (L.hybridEncrypt.view p').encrypt s pt info = .ok ct →
          (L.hybridDecrypt.view p).decrypt ct info = .ok pt := by
  obtain ⟨h, w, p, h1, h2, hw, H⟩ := C64_new_keyset hl hr ht (.hybridDecrypt found new made) hfk hu d draws
  cases hw
  obtain ⟨t', h0, _, hk, _, _, hpt⟩ := C64_templates .hybrid _ ht
  cases h0
  have hpt : t.outputPrefixType = OutputPrefixType.TINK ∨ t.outputPrefixType = OutputPrefixType.RAW := by
    rcases hpt with ⟨h, _⟩ | h
    · exact .inl h
    · exact .inr h
  obtain ⟨m, hg, _, _, htm⟩ := hr.managers _ _ hk
  rw [← hu] at hg
  obtain ⟨m', hg', hc', _, htm'⟩ := hr.managers _ _ hurl
  obtain ⟨w', hw', htw'⟩ := hr.wrappers .hybridEncrypt (by decide)
  cases htm with
  | hybridDecrypt found1 hs =>
  cases htm' with
  | hybridEncrypt found2 hs' =>
  rw [found] at found1; cases found1
  rw [found'] at found2; cases found2
  cases htw'
  obtain ⟨hp, p', h3, h4, H'⟩ := public_obtained (isInst := isInst) hg hs hfk hpriv hf hpub hfp rfl hg' hs'
    hw' hc' made' (hl.hybridEncrypt _) hpt (fun s => ⟨_, rfl⟩) h2
  refine ⟨h, p, hp, p', h1, H.primitive, h3, H'.primitive, fun s pt info => ?_⟩
  have hprim := single_primary (P := P) (o := L.hybridEncrypt.inj (hybridEncryptCcToPy v)) h4 rfl
  obtain ⟨pre, hpre⟩ := H'.prop.2 _ hprim.mem
  have he := C06_hybrid_encrypt_eq H' hprim hpre s pt info
  have henc := C65_primitives.2.2.2.2.1
  have hdec := C65_primitives.2.2.2.2.2.1
  constructor
  · intro body hb
    rw [he, L.hybridEncrypt.view_inj]
    exact ⟨pre ++ body, bind_ok_iff.2 ⟨body, (henc ..).trans (reported_ok.2 hb), rfl⟩⟩
  · intro ct hct
    rw [he] at hct
    obtain ⟨body, hb, _⟩ := bind_ok_iff.1 hct
    have hb' : v.encrypt s pt info = .ok body := by
      rw [L.hybridEncrypt.view_inj] at hb
      exact reported_ok.1 ((henc ..).symm.trans hb)
    obtain ⟨hne, hd⟩ := correct s pt info body hb'
    rw [← he] at hct
    refine C06_hybrid_round_trip H' H hprim (single_tryOrder _ _) rfl rfl hb ?_ (.inr hne) hct (by simp)
    rw [L.hybridDecrypt.view_inj]
    exact (hdec ..).trans (reported_ok.2 hd)

end

/-! ## Examples -/

section
open ToyConfig

/-- The registry after `tink_config.register()`. -/
def toyRegistry : Registry ToyConfig.Prim PrimClass :=
  runConfig ToyConfig.isInst library (history ++ .registerTinkConfig :: later) {}

theorem toy_registered (pkg : Package) : PackageRegistered library toyRegistry pkg :=
  C64_registered lawful (.inr rfl) toy_foreign (by simp [later])

theorem template_type {pkg : Package} {t : KeyTemplate} (ht : .ok t ∈ templates pkg) :
    (t.typeUrl, keyClass pkg) ∈ keyTypes pkg := by
  obtain ⟨_, h0, _, hk, _⟩ := C64_templates pkg _ ht
  cases h0
  exact hk

/-- The key data that the toy library makes are small. -/
theorem toy_fits {pkg : Package} {url : PStr} {k : PrimClass} (hk : (url, k) ∈ keyTypes pkg)
    {e : EnumVal} (he : e ∈ [KeyMaterialType.SYMMETRIC, KeyMaterialType.ASYMMETRIC_PRIVATE,
      KeyMaterialType.ASYMMETRIC_PUBLIC]) : Fits ⟨url, [7], e⟩ := by
  have hall : ∀ pkg ∈ packages, ∀ url ∈ (keyTypes pkg).map Prod.fst,
      ∀ e ∈ [KeyMaterialType.SYMMETRIC, KeyMaterialType.ASYMMETRIC_PRIVATE,
        KeyMaterialType.ASYMMETRIC_PUBLIC],
      Except.isOk (KeyData.serializeToString ⟨url, [7], e⟩) = true := by
    decide +kernel
  exact fits_of (hall pkg (mem_packages pkg) _ (List.mem_map.2 ⟨_, hk, rfl⟩) _ he)

/-- `C66_aead`, with every predefined template. -/
example {t : KeyTemplate} (ht : .ok t ∈ templates .aead) :=
  C66_aead (seed := 7) lawful (toy_registered .aead) ht (a := ToyConfig.aead [7])
    (if_pos (template_type ht)) rfl rfl (toy_fits (template_type ht) (by decide)) rfl
    (fun _ pt ad ct h => by cases h; exact ⟨pack_ne_nil _ _ _, unpack_pack ..⟩) 42 []

/-- `C66_daead`. -/
example {t : KeyTemplate} (ht : .ok t ∈ templates .daead) :=
  C66_daead (seed := 7) lawful (toy_registered .daead) ht (a := ToyConfig.daead [7])
    (if_pos (template_type ht)) rfl rfl (toy_fits (template_type ht) (by decide)) rfl
    (fun pt ad ct h => by cases h; exact ⟨pack_ne_nil _ _ _, unpack_pack ..⟩) 42 []

/-- `C66_mac`. -/
example {t : KeyTemplate} (ht : .ok t ∈ templates .mac) :=
  C66_mac (seed := 7) lawful (toy_registered .mac) ht (a := ToyConfig.mac [7])
    (if_pos (template_type ht)) rfl rfl (toy_fits (template_type ht) (by decide)) rfl
    (fun data tag h => by cases h; exact ⟨pack_length .., check_pack ..⟩) 42 []

/-- `C66_prf`. -/
example {t : KeyTemplate} (ht : .ok t ∈ templates .prf) :=
  C66_prf (seed := 7) lawful (toy_registered .prf) ht (a := ToyConfig.prf [7])
    (if_pos (template_type ht)) rfl rfl (toy_fits (template_type ht) (by decide)) rfl 42 []

theorem public_type : ∀ pkg ∈ packages, ∀ x ∈ keyTypes pkg,
    (x.2 = .sign → (publicUrl x.1, PrimClass.verify) ∈ keyTypes .signature) ∧
    (x.2 = .hybridDecrypt → (publicUrl x.1, PrimClass.hybridEncrypt) ∈ keyTypes .hybrid) := by
  have h : ∀ pkg ∈ packages, ∀ x ∈ keyTypes pkg,
      (!decide (x.2 = .sign) || decide ((publicUrl x.1, PrimClass.verify) ∈ keyTypes .signature)) = true ∧
      (!decide (x.2 = .hybridDecrypt) ||
        decide ((publicUrl x.1, PrimClass.hybridEncrypt) ∈ keyTypes .hybrid)) = true := by
    decide +kernel
  intro pkg hp x hx
  obtain ⟨h1, h2⟩ := h pkg hp x hx
  exact ⟨fun hs => by simpa [hs] using h1, fun hs => by simpa [hs] using h2⟩

/-- `C66_signature`. -/
example {t : KeyTemplate} (ht : .ok t ∈ templates .signature) :=
  C66_signature (seed := 7) lawful (toy_registered .signature) ht (a := ToyConfig.sign [7])
    (if_pos (template_type ht)) rfl rfl (toy_fits (template_type ht) (by decide)) rfl rfl rfl rfl
    (toy_fits ((public_type _ (mem_packages _) _ (template_type ht)).1 rfl) (by decide))
    ((public_type _ (mem_packages _) _ (template_type ht)).1 rfl)
    (v := ToyConfig.verify [7])
    (if_pos ((public_type _ (mem_packages _) _ (template_type ht)).1 rfl)) rfl
    (fun s data sig h => by cases h; exact ⟨pack_length .., check_pack ..⟩) 42 []

/-- `C66_hybrid`. -/
example {t : KeyTemplate} (ht : .ok t ∈ templates .hybrid) :=
  C66_hybrid (seed := 7) lawful (toy_registered .hybrid) ht (a := ToyConfig.hybridDecrypt [7])
    (if_pos (template_type ht)) rfl rfl (toy_fits (template_type ht) (by decide)) rfl rfl rfl rfl
    (toy_fits ((public_type _ (mem_packages _) _ (template_type ht)).2 rfl) (by decide))
    ((public_type _ (mem_packages _) _ (template_type ht)).2 rfl)
    (v := ToyConfig.hybridEncrypt [7])
    (if_pos ((public_type _ (mem_packages _) _ (template_type ht)).2 rfl)) rfl
    (fun s pt info ct h => by cases h; exact ⟨pack_ne_nil _ _ _, unpack_pack ..⟩) 42 []

end
end Tink.Props
