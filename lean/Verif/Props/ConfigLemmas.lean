import Verif.Props.CcKeyManager
import Verif.Props.JwtRegister
import Verif.Props.Handle

/-!
# Lemmas for C64
-/

namespace Tink.Props
open Spec Config

section
variable {σ δ ε τ S P C : Type} [DecidableEq C]

/-- The statements of `register()` of a package. -/
def registerPackage (L : Library σ δ ε τ S P C) : Package → List (Stmt P C)
  | .aead => registerAead L
  | .daead => registerDaead L
  | .hybrid => registerHybrid L
  | .mac => registerMac L
  | .prf => registerPrf L
  | .signature => registerSignature L
  | .streamingAead => registerStreamingAead L

/-! ## A registry with the expected entries -/

/-- Under the type URLs of the managers `T` there are these managers, if any, with new keys allowed, and
for the classes of the wrappers `W` these wrappers, if any. -/
structure Canon (T : KeyManager P C → Prop) (W : PrimitiveWrapper P C → Prop) (r : Registry P C) :
    Prop where
  managers : ∀ m, T m → ∀ m' b, PyDict.get? r.keyManagers m.keyType = some (m', b) → m' = m ∧ b = true
  wrappers : ∀ w, W w → ∀ w', PyDict.get? r.wrappers w.primitiveClass = some w' → w' = w

/-- The managers and wrappers can be registered side by side. -/
structure Distinct (isInst : P → C → Bool) (T : KeyManager P C → Prop)
    (W : PrimitiveWrapper P C → Prop) : Prop where
  managers : ∀ m m', T m → T m' → m.keyType = m'.keyType → m = m'
  supports : ∀ m, T m → m.doesSupport m.keyType = true
  wrappers : ∀ w w', W w → W w' → w.primitiveClass = w'.primitiveClass → w = w'
  wraps : ∀ w, W w → ∃ p, w.wrap { primitiveClass := w.inputPrimitiveClass } = .ok p ∧
    isInst p w.primitiveClass = true

/-- A statement that succeeds and registers something expected. -/
def Known (T : KeyManager P C → Prop) (W : PrimitiveWrapper P C → Prop) : Stmt P C → Prop
  | .bindings x => x = .ok ()
  | .keyManager x => ∃ m, x = .ok m ∧ T m
  | .wrapper w => W w

/-- What is registered as expected stays. -/
structure Keeps (T : KeyManager P C → Prop) (W : PrimitiveWrapper P C → Prop)
    (r r' : Registry P C) : Prop where
  managers : ∀ m, T m → PyDict.get? r.keyManagers m.keyType = some (m, true) →
    PyDict.get? r'.keyManagers m.keyType = some (m, true)
  wrappers : ∀ w, W w → PyDict.get? r.wrappers w.primitiveClass = some w →
    PyDict.get? r'.wrappers w.primitiveClass = some w

/-- The statement has had its effect. -/
def Done (r : Registry P C) : Stmt P C → Prop
  | .bindings _ => True
  | .keyManager x => ∀ m, x = .ok m → PyDict.get? r.keyManagers m.keyType = some (m, true)
  | .wrapper w => PyDict.get? r.wrappers w.primitiveClass = some w

theorem registerKeyManager_canon {T : KeyManager P C → Prop} {W : PrimitiveWrapper P C → Prop}
    {isInst : P → C → Bool} (hd : Distinct isInst T W) {r : Registry P C} (hr : Canon T W r)
    {m : KeyManager P C} (hm : T m) :
    r.registerKeyManager m true =
      ({ r with keyManagers := PyDict.set r.keyManagers m.keyType (m, true) }, .ok ()) := by
  unfold Registry.registerKeyManager
  simp only [hd.supports m hm, Bool.not_true, Bool.false_eq_true, if_false]
  cases hg : PyDict.get? r.keyManagers m.keyType with
  | none => rfl
  | some x =>
    obtain ⟨m', b⟩ := x
    obtain ⟨rfl, rfl⟩ := hr.managers m hm m' b hg
    simp

theorem registerPrimitiveWrapper_canon {T : KeyManager P C → Prop} {W : PrimitiveWrapper P C → Prop}
    {isInst : P → C → Bool} (hd : Distinct isInst T W) {r : Registry P C} (hr : Canon T W r)
    {w : PrimitiveWrapper P C} (hw : W w) :
    r.registerPrimitiveWrapper isInst w =
      ({ r with wrappers := PyDict.set r.wrappers w.primitiveClass w }, .ok ()) := by
  obtain ⟨p, hp, hi⟩ := hd.wraps w hw
  unfold Registry.registerPrimitiveWrapper
  cases hg : PyDict.get? r.wrappers w.primitiveClass with
  | none => simp [hp, hi]
  | some w' =>
    obtain rfl := hr.wrappers w hw w' hg
    simp [hp, hi]

theorem exec_known {T : KeyManager P C → Prop} {W : PrimitiveWrapper P C → Prop}
    {isInst : P → C → Bool} (hd : Distinct isInst T W) {r : Registry P C} (hr : Canon T W r)
    {s : Stmt P C} (hs : Known T W s) :
    (s.exec isInst r).2 = .ok () ∧ Canon T W (s.exec isInst r).1 ∧
      Keeps T W r (s.exec isInst r).1 ∧ Done (s.exec isInst r).1 s := by
  cases s with
  | bindings x => exact ⟨hs, hr, ⟨fun _ _ h => h, fun _ _ h => h⟩, trivial⟩
  | keyManager x =>
    obtain ⟨m, rfl, hm⟩ := hs
    simp only [Stmt.exec]
    rw [registerKeyManager_canon hd hr hm]
    refine ⟨rfl, ⟨?_, hr.wrappers⟩, ⟨?_, fun _ _ h => h⟩, ?_⟩
    · intro m1 hm1 m' b h
      rw [PyDict.get?_set] at h
      by_cases hu : m.keyType = m1.keyType
      · rw [if_pos hu] at h; cases h; exact ⟨hd.managers _ _ hm hm1 hu, rfl⟩
      · rw [if_neg hu] at h; exact hr.managers m1 hm1 m' b h
    · intro m1 hm1 h
      rw [PyDict.get?_set]
      by_cases hu : m.keyType = m1.keyType
      · rw [if_pos hu, hd.managers _ _ hm hm1 hu]
      · rw [if_neg hu]; exact h
    · intro m1 h
      cases h
      exact PyDict.get?_set_self ..
  | wrapper w =>
    simp only [Stmt.exec]
    rw [registerPrimitiveWrapper_canon hd hr hs]
    refine ⟨rfl, ⟨hr.managers, ?_⟩, ⟨fun _ _ h => h, ?_⟩, PyDict.get?_set_self ..⟩
    · intro w1 hw1 w' h
      rw [PyDict.get?_set] at h
      by_cases hu : w.primitiveClass = w1.primitiveClass
      · rw [if_pos hu] at h; cases h; exact hd.wrappers _ _ hs hw1 hu
      · rw [if_neg hu] at h; exact hr.wrappers w1 hw1 w' h
    · intro w1 hw1 h
      rw [PyDict.get?_set]
      by_cases hu : w.primitiveClass = w1.primitiveClass
      · rw [if_pos hu, hd.wrappers _ _ hs hw1 hu]
      · rw [if_neg hu]; exact h

theorem Keeps.trans {T : KeyManager P C → Prop} {W : PrimitiveWrapper P C → Prop}
    {r r' r'' : Registry P C} (h : Keeps T W r r') (h' : Keeps T W r' r'') : Keeps T W r r'' :=
  ⟨fun m hm hg => h'.managers m hm (h.managers m hm hg),
   fun w hw hg => h'.wrappers w hw (h.wrappers w hw hg)⟩

theorem Keeps.done {T : KeyManager P C → Prop} {W : PrimitiveWrapper P C → Prop}
    {r r' : Registry P C} (h : Keeps T W r r') {s : Stmt P C} (hs : Known T W s) (hd : Done r s) :
    Done r' s := by
  cases s with
  | bindings x => trivial
  | keyManager x =>
    obtain ⟨m, rfl, hm⟩ := hs
    intro m1 h1
    cases h1
    exact h.managers m hm (hd m rfl)
  | wrapper w => exact h.wrappers w hs hd

theorem execAll_known {T : KeyManager P C → Prop} {W : PrimitiveWrapper P C → Prop}
    {isInst : P → C → Bool} (hd : Distinct isInst T W) (ss : List (Stmt P C)) :
    ∀ (r : Registry P C), Canon T W r → (∀ s ∈ ss, Known T W s) →
    (execAll isInst ss r).2 = .ok () ∧ Canon T W (execAll isInst ss r).1 ∧
      Keeps T W r (execAll isInst ss r).1 ∧ ∀ s ∈ ss, Done (execAll isInst ss r).1 s := by
  induction ss with
  | nil => intro r hr _; exact ⟨rfl, hr, ⟨fun _ _ h => h, fun _ _ h => h⟩, nofun⟩
  | cons s ss ih =>
    intro r hr hs
    obtain ⟨h1, h2, h3, h4⟩ := exec_known hd hr (hs s (by simp))
    have he : execAll isInst (s :: ss) r = execAll isInst ss (s.exec isInst r).1 := by
      show andThen (s.exec isInst r) _ = _
      generalize s.exec isInst r = x at h1
      obtain ⟨r', y⟩ := x
      cases h1
      rfl
    rw [he]
    obtain ⟨g1, g2, g3, g4⟩ := ih _ h2 fun s hm => hs s (by simp [hm])
    refine ⟨g1, g2, h3.trans g3, ?_⟩
    intro s' hs'
    rcases List.mem_cons.1 hs' with rfl | hs'
    · exact g3.done (hs _ (by simp)) h4
    · exact g4 s' hs'

/-! ## Foreign registrations -/

theorem registerKeyManager_get_ne (r : Registry P C) (m : KeyManager P C) (b : Bool) {url : PStr}
    (h : m.keyType ≠ url) :
    PyDict.get? (r.registerKeyManager m b).1.keyManagers url = PyDict.get? r.keyManagers url := by
  unfold Registry.registerKeyManager
  dsimp only
  repeat' split
  all_goals first | rfl | exact PyDict.get?_set_ne _ _ _ h | (simp only [PyDict.get?_set, if_neg h])

theorem registerKeyManager_wrappers (r : Registry P C) (m : KeyManager P C) (b : Bool) :
    (r.registerKeyManager m b).1.wrappers = r.wrappers := by
  unfold Registry.registerKeyManager
  dsimp only
  repeat' split
  all_goals rfl

theorem registerPrimitiveWrapper_get_ne (isInst : P → C → Bool) (r : Registry P C)
    (w : PrimitiveWrapper P C) {c : C} (h : w.primitiveClass ≠ c) :
    PyDict.get? (r.registerPrimitiveWrapper isInst w).1.wrappers c = PyDict.get? r.wrappers c := by
  rcases registerPrimitiveWrapper_cases isInst r w with hr | ⟨_, _, hr⟩
  · rw [hr]
  · rw [hr]; simp only [PyDict.get?_set, if_neg h]

theorem canon_registerKeyManager {T : KeyManager P C → Prop} {W : PrimitiveWrapper P C → Prop}
    {r : Registry P C} (hr : Canon T W r) {m : KeyManager P C} (b : Bool)
    (h : ∀ m', T m' → m.keyType ≠ m'.keyType) :
    Canon T W (r.registerKeyManager m b).1 ∧ Keeps T W r (r.registerKeyManager m b).1 := by
  refine ⟨⟨?_, ?_⟩, ⟨?_, ?_⟩⟩
  · intro m1 h1 m' b' hg
    rw [registerKeyManager_get_ne r m b (h m1 h1)] at hg
    exact hr.managers m1 h1 m' b' hg
  · rw [registerKeyManager_wrappers]; exact hr.wrappers
  · intro m1 h1 hg
    rw [registerKeyManager_get_ne r m b (h m1 h1)]; exact hg
  · rw [registerKeyManager_wrappers]; exact fun _ _ h => h

theorem canon_registerPrimitiveWrapper {T : KeyManager P C → Prop} {W : PrimitiveWrapper P C → Prop}
    (isInst : P → C → Bool) {r : Registry P C} (hr : Canon T W r) {w : PrimitiveWrapper P C}
    (h : ∀ w', W w' → w.primitiveClass ≠ w'.primitiveClass) :
    Canon T W (r.registerPrimitiveWrapper isInst w).1 ∧
      Keeps T W r (r.registerPrimitiveWrapper isInst w).1 := by
  refine ⟨⟨?_, ?_⟩, ⟨?_, ?_⟩⟩
  · rw [register_wrapper_managers]; exact hr.managers
  · intro w1 h1 w' hg
    rw [registerPrimitiveWrapper_get_ne isInst r w (h w1 h1)] at hg
    exact hr.wrappers w1 h1 w' hg
  · rw [register_wrapper_managers]; exact fun _ _ h => h
  · intro w1 h1 hg
    rw [registerPrimitiveWrapper_get_ne isInst r w (h w1 h1)]; exact hg

/-! ## What Tink registers -/

/-- The managers that a package registers, by type URL. -/
def packageManagers (L : Library σ δ ε τ S P C) :
    Package → List (PStr × PrimClass × Py (KeyManager P C))
  | .aead =>
    ([ps! "AesCtrHmacAeadKey", ps! "AesGcmKey", ps! "AesGcmSivKey", ps! "AesEaxKey",
      ps! "XChaCha20Poly1305Key"].map fun i => (typeUrl i, .aead, aeadManager L i)) ++
    [(typeUrl (ps! "KmsAeadKey"), .aead,
        .ok (kmsAeadKeyManager L.aead L.kmsManagerType (L.cls .aead) L.kmsClients)),
     (typeUrl (ps! "KmsEnvelopeAeadKey"), .aead,
        .ok (kmsEnvelopeAeadKeyManager L.aead L.envelopeManagerType (L.cls .aead)
          L.kmsRegistry L.kmsClients L.kmsSeed L.kmsSplit))]
  | .daead => [(typeUrl (ps! "AesSivKey"), .daead, daeadManager L (ps! "AesSivKey"))]
  | .hybrid =>
    [(typeUrl (ps! "EciesAeadHkdfPrivateKey"), .hybridDecrypt,
        hybridDecryptManager L (ps! "EciesAeadHkdfPrivateKey")),
     (typeUrl (ps! "EciesAeadHkdfPublicKey"), .hybridEncrypt,
        hybridEncryptManager L (ps! "EciesAeadHkdfPublicKey")),
     (typeUrl (ps! "HpkePrivateKey"), .hybridDecrypt, hybridDecryptManager L (ps! "HpkePrivateKey")),
     (typeUrl (ps! "HpkePublicKey"), .hybridEncrypt, hybridEncryptManager L (ps! "HpkePublicKey"))]
  | .mac => [ps! "HmacKey", ps! "AesCmacKey"].map fun i => (typeUrl i, .mac, macManager L i)
  | .prf =>
    [ps! "AesCmacPrfKey", ps! "HmacPrfKey", ps! "HkdfPrfKey"].map fun i =>
      (typeUrl i, .prf, prfManager L i)
  | .signature =>
    ([ps! "EcdsaPrivateKey", ps! "Ed25519PrivateKey", ps! "RsaSsaPssPrivateKey",
      ps! "RsaSsaPkcs1PrivateKey"].map fun i => (typeUrl i, .sign, signManager L i)) ++
    ([ps! "EcdsaPublicKey", ps! "Ed25519PublicKey", ps! "RsaSsaPssPublicKey",
      ps! "RsaSsaPkcs1PublicKey"].map fun i => (typeUrl i, .verify, verifyManager L i))
  | .streamingAead =>
    [ps! "AesCtrHmacStreamingKey", ps! "AesGcmHkdfStreamingKey"].map fun i =>
      (typeUrl i, .rawStreamingAead, streamingManager L i)

/-- The type URLs and classes of `packageManagers`. -/
def packageTypes : Package → List (PStr × PrimClass)
  | .aead =>
    [ps! "AesCtrHmacAeadKey", ps! "AesGcmKey", ps! "AesGcmSivKey", ps! "AesEaxKey",
      ps! "XChaCha20Poly1305Key", ps! "KmsAeadKey", ps! "KmsEnvelopeAeadKey"].map
        fun i => (typeUrl i, .aead)
  | .daead => [(typeUrl (ps! "AesSivKey"), .daead)]
  | .hybrid =>
    [(typeUrl (ps! "EciesAeadHkdfPrivateKey"), .hybridDecrypt),
     (typeUrl (ps! "EciesAeadHkdfPublicKey"), .hybridEncrypt),
     (typeUrl (ps! "HpkePrivateKey"), .hybridDecrypt),
     (typeUrl (ps! "HpkePublicKey"), .hybridEncrypt)]
  | .mac => [ps! "HmacKey", ps! "AesCmacKey"].map fun i => (typeUrl i, .mac)
  | .prf => [ps! "AesCmacPrfKey", ps! "HmacPrfKey", ps! "HkdfPrfKey"].map fun i => (typeUrl i, .prf)
  | .signature =>
    ([ps! "EcdsaPrivateKey", ps! "Ed25519PrivateKey", ps! "RsaSsaPssPrivateKey",
      ps! "RsaSsaPkcs1PrivateKey"].map fun i => (typeUrl i, .sign)) ++
    ([ps! "EcdsaPublicKey", ps! "Ed25519PublicKey", ps! "RsaSsaPssPublicKey",
      ps! "RsaSsaPkcs1PublicKey"].map fun i => (typeUrl i, .verify))
  | .streamingAead =>
    [ps! "AesCtrHmacStreamingKey", ps! "AesGcmHkdfStreamingKey"].map fun i =>
      (typeUrl i, .rawStreamingAead)

/-- All of them. -/
def allManagers (L : Library σ δ ε τ S P C) : List (PStr × PrimClass × Py (KeyManager P C)) :=
  packages.flatMap (packageManagers L)

theorem packageManagers_types (L : Library σ δ ε τ S P C) (pkg : Package) :
    (packageManagers L pkg).map (fun x => (x.1, x.2.1)) = packageTypes pkg := by
  cases pkg <;> rfl

theorem allManagers_urls (L : Library σ δ ε τ S P C) :
    (allManagers L).map Prod.fst = packages.flatMap (fun pkg => (packageTypes pkg).map Prod.fst) := rfl

omit [DecidableEq C] in
theorem allTypes_nodup :
    (packages.flatMap (fun pkg => (packageTypes pkg).map Prod.fst)).Nodup := by decide +kernel

theorem mem_packages (pkg : Package) : pkg ∈ packages := by cases pkg <;> decide

theorem packageTypes_iff (pkg : Package) (x : PStr × PrimClass) :
    x ∈ packageTypes pkg ↔ x ∈ keyTypes pkg := by
  have h1 : ∀ pkg ∈ packages, ∀ x ∈ packageTypes pkg, x ∈ keyTypes pkg := by decide +kernel
  have h2 : ∀ pkg ∈ packages, ∀ x ∈ keyTypes pkg, x ∈ packageTypes pkg := by decide +kernel
  exact ⟨h1 pkg (mem_packages pkg) x, h2 pkg (mem_packages pkg) x⟩

theorem eq_of_nodup_map {α β : Type} (f : α → β) : ∀ {l : List α}, (l.map f).Nodup →
    ∀ {a b : α}, a ∈ l → b ∈ l → f a = f b → a = b := by
  intro l
  induction l with
  | nil => intro _ a b ha; cases ha
  | cons x l ih =>
    intro hn a b ha hb hf
    rw [List.map_cons, List.nodup_cons] at hn
    rcases List.mem_cons.1 ha with rfl | ha' <;> rcases List.mem_cons.1 hb with rfl | hb'
    · rfl
    · exact absurd (hf ▸ List.mem_map.2 ⟨b, hb', rfl⟩) hn.1
    · exact absurd (hf ▸ List.mem_map.2 ⟨a, ha', rfl⟩) hn.1
    · exact ih hn.2 ha' hb' hf

theorem ccRegistry_some {A B : Type} {x : Option (Cpp.KeyManager B)} {cc : Cpp.KeyManager B}
    (h : x = some cc) (f : Cpp.KeyManager B → A) :
    (do let c ← CcKeyManager.fromCcRegistry x; return f c : Py A) = .ok (f cc) := by
  subst h; rfl

/-- What is known of a manager that Tink registers. -/
structure Good (L : Library σ δ ε τ S P C) (url : PStr) (k : PrimClass) (m : KeyManager P C) : Prop where
  keyType : m.keyType = url
  cls : m.primitiveClass = L.cls k
  supports : m.doesSupport m.keyType = true
  tink : TinkManager L url k m

section
variable {L : Library σ δ ε τ S P C} {isInst : P → C → Bool}

theorem good_aead (hl : LawfulConfig L isInst) {i : PStr} (hi : (typeUrl i, PrimClass.aead) ∈ keyTypes .aead)
    (h1 : typeUrl i ≠ ps! "type.googleapis.com/google.crypto.tink.KmsAeadKey")
    (h2 : typeUrl i ≠ ps! "type.googleapis.com/google.crypto.tink.KmsEnvelopeAeadKey") :
    ∃ m, aeadManager L i = .ok m ∧ Good L (typeUrl i) .aead m := by
  obtain ⟨cc, hc, ht⟩ := hl.ccAead _ hi h1 h2
  exact ⟨_, ccRegistry_some hc _, ht, rfl, decide_eq_true rfl, .aead h1 h2 hc (C65_serves ..)⟩

theorem good_daead (hl : LawfulConfig L isInst) {i : PStr}
    (hi : (typeUrl i, PrimClass.daead) ∈ keyTypes .daead) :
    ∃ m, daeadManager L i = .ok m ∧ Good L (typeUrl i) .daead m := by
  obtain ⟨cc, hc, ht⟩ := hl.ccDaead _ hi
  exact ⟨_, ccRegistry_some hc _, ht, rfl, decide_eq_true rfl, .daead hc (C65_serves ..)⟩

theorem good_hybridDecrypt (hl : LawfulConfig L isInst) {i : PStr}
    (hi : (typeUrl i, PrimClass.hybridDecrypt) ∈ keyTypes .hybrid) :
    ∃ m, hybridDecryptManager L i = .ok m ∧ Good L (typeUrl i) .hybridDecrypt m := by
  obtain ⟨cc, hc, ht⟩ := hl.ccHybridDecrypt _ hi
  exact ⟨_, ccRegistry_some hc _, ht, rfl, decide_eq_true rfl, .hybridDecrypt hc (C65_serves_private ..)⟩

theorem good_hybridEncrypt (hl : LawfulConfig L isInst) {i : PStr}
    (hi : (typeUrl i, PrimClass.hybridEncrypt) ∈ keyTypes .hybrid) :
    ∃ m, hybridEncryptManager L i = .ok m ∧ Good L (typeUrl i) .hybridEncrypt m := by
  obtain ⟨cc, hc, ht⟩ := hl.ccHybridEncrypt _ hi
  exact ⟨_, ccRegistry_some hc _, ht, rfl, decide_eq_true rfl, .hybridEncrypt hc (C65_serves ..)⟩

theorem good_mac (hl : LawfulConfig L isInst) {i : PStr} (hi : (typeUrl i, PrimClass.mac) ∈ keyTypes .mac) :
    ∃ m, macManager L i = .ok m ∧ Good L (typeUrl i) .mac m := by
  obtain ⟨cc, hc, ht⟩ := hl.ccMac _ hi
  exact ⟨_, ccRegistry_some hc _, ht, rfl, decide_eq_true rfl, .mac hc (C65_serves ..)⟩

theorem good_prf (hl : LawfulConfig L isInst) {i : PStr} (hi : (typeUrl i, PrimClass.prf) ∈ keyTypes .prf) :
    ∃ m, prfManager L i = .ok m ∧ Good L (typeUrl i) .prf m := by
  obtain ⟨cc, hc, ht⟩ := hl.ccPrf _ hi
  exact ⟨_, ccRegistry_some hc _, ht, rfl, decide_eq_true rfl, .prf hc (C65_serves ..)⟩

theorem good_sign (hl : LawfulConfig L isInst) {i : PStr}
    (hi : (typeUrl i, PrimClass.sign) ∈ keyTypes .signature) :
    ∃ m, signManager L i = .ok m ∧ Good L (typeUrl i) .sign m := by
  obtain ⟨cc, hc, ht⟩ := hl.ccSign _ hi
  exact ⟨_, ccRegistry_some hc _, ht, rfl, decide_eq_true rfl, .sign hc (C65_serves_private ..)⟩

theorem good_verify (hl : LawfulConfig L isInst) {i : PStr}
    (hi : (typeUrl i, PrimClass.verify) ∈ keyTypes .signature) :
    ∃ m, verifyManager L i = .ok m ∧ Good L (typeUrl i) .verify m := by
  obtain ⟨cc, hc, ht⟩ := hl.ccVerify _ hi
  exact ⟨_, ccRegistry_some hc _, ht, rfl, decide_eq_true rfl, .verify hc (C65_serves ..)⟩

theorem good_streaming (hl : LawfulConfig L isInst) {i : PStr}
    (hi : (typeUrl i, PrimClass.rawStreamingAead) ∈ keyTypes .streamingAead) :
    ∃ m, streamingManager L i = .ok m ∧ Good L (typeUrl i) .rawStreamingAead m := by
  obtain ⟨cc, hc, ht⟩ := hl.ccStreamingAead _ hi
  exact ⟨_, ccRegistry_some hc _, ht, rfl, decide_eq_true rfl, .rawStreamingAead hc (C65_serves ..)⟩

theorem packageManagers_good (hl : LawfulConfig L isInst) (pkg : Package) :
    ∀ x ∈ packageManagers L pkg, ∃ m, x.2.2 = .ok m ∧ Good L x.1 x.2.1 m := by
  cases pkg with
  | aead =>
    intro x hx
    rcases List.mem_append.1 hx with hx | hx
    · obtain ⟨i, hi, rfl⟩ := List.mem_map.1 hx
      have h : ∀ i ∈ [ps! "AesCtrHmacAeadKey", ps! "AesGcmKey", ps! "AesGcmSivKey", ps! "AesEaxKey",
          ps! "XChaCha20Poly1305Key"], (typeUrl i, PrimClass.aead) ∈ keyTypes .aead ∧
          typeUrl i ≠ ps! "type.googleapis.com/google.crypto.tink.KmsAeadKey" ∧
          typeUrl i ≠ ps! "type.googleapis.com/google.crypto.tink.KmsEnvelopeAeadKey" := by
        decide +kernel
      exact good_aead hl (h i hi).1 (h i hi).2.1 (h i hi).2.2
    · simp only [List.mem_cons, List.not_mem_nil, or_false] at hx
      rcases hx with rfl | rfl
      · exact ⟨_, rfl, rfl, rfl, by simp [kmsAeadKeyManager], .kmsAead rfl⟩
      · exact ⟨_, rfl, rfl, rfl, by simp [kmsEnvelopeAeadKeyManager], .kmsEnvelopeAead rfl⟩
  | daead =>
    intro x hx
    rw [List.mem_singleton.1 hx]
    exact good_daead hl (by decide +kernel)
  | hybrid =>
    intro x hx
    simp only [packageManagers, List.mem_cons, List.not_mem_nil, or_false] at hx
    rcases hx with rfl | rfl | rfl | rfl
    · exact good_hybridDecrypt hl (by decide +kernel)
    · exact good_hybridEncrypt hl (by decide +kernel)
    · exact good_hybridDecrypt hl (by decide +kernel)
    · exact good_hybridEncrypt hl (by decide +kernel)
  | mac =>
    intro x hx
    obtain ⟨i, hi, rfl⟩ := List.mem_map.1 hx
    have h : ∀ i ∈ [ps! "HmacKey", ps! "AesCmacKey"], (typeUrl i, PrimClass.mac) ∈ keyTypes .mac := by
      decide +kernel
    exact good_mac hl (h i hi)
  | prf =>
    intro x hx
    obtain ⟨i, hi, rfl⟩ := List.mem_map.1 hx
    have h : ∀ i ∈ [ps! "AesCmacPrfKey", ps! "HmacPrfKey", ps! "HkdfPrfKey"],
      (typeUrl i, PrimClass.prf) ∈ keyTypes .prf := by decide +kernel
    exact good_prf hl (h i hi)
  | signature =>
    intro x hx
    rcases List.mem_append.1 hx with hx | hx <;> obtain ⟨i, hi, rfl⟩ := List.mem_map.1 hx
    · have h : ∀ i ∈ [ps! "EcdsaPrivateKey", ps! "Ed25519PrivateKey", ps! "RsaSsaPssPrivateKey",
          ps! "RsaSsaPkcs1PrivateKey"], (typeUrl i, PrimClass.sign) ∈ keyTypes .signature := by
        decide +kernel
      exact good_sign hl (h i hi)
    · have h : ∀ i ∈ [ps! "EcdsaPublicKey", ps! "Ed25519PublicKey", ps! "RsaSsaPssPublicKey",
          ps! "RsaSsaPkcs1PublicKey"], (typeUrl i, PrimClass.verify) ∈ keyTypes .signature := by
        decide +kernel
      exact good_verify hl (h i hi)
  | streamingAead =>
    intro x hx
    obtain ⟨i, hi, rfl⟩ := List.mem_map.1 hx
    have h : ∀ i ∈ [ps! "AesCtrHmacStreamingKey", ps! "AesGcmHkdfStreamingKey"],
      (typeUrl i, PrimClass.rawStreamingAead) ∈ keyTypes .streamingAead := by decide +kernel
    exact good_streaming hl (h i hi)

/-- The managers that Tink registers. -/
def IsManager (L : Library σ δ ε τ S P C) (m : KeyManager P C) : Prop :=
  ∃ pkg url k, (url, k, .ok m) ∈ packageManagers L pkg

/-- The wrappers that Tink registers. -/
def IsWrapper (L : Library σ δ ε τ S P C) (w : PrimitiveWrapper P C) : Prop := ∃ k, TinkWrapper L k w

omit [DecidableEq C] in
theorem tinkWrapper_class {k : PrimClass} {w : PrimitiveWrapper P C} (h : TinkWrapper L k w) :
    w.primitiveClass = L.cls k := by
  cases h <;> rfl

omit [DecidableEq C] in
theorem tinkWrapper_unique {k : PrimClass} {w w' : PrimitiveWrapper P C} (h : TinkWrapper L k w)
    (h' : TinkWrapper L k w') : w = w' := by
  cases h <;> cases h' <;> rfl

omit [DecidableEq C] in
theorem tinkWrapper_mem {k : PrimClass} {w : PrimitiveWrapper P C} (h : TinkWrapper L k w) :
    ∃ pkg, k ∈ wrapped pkg := by
  cases h
  · exact ⟨.aead, by decide⟩
  · exact ⟨.daead, by decide⟩
  · exact ⟨.hybrid, by decide⟩
  · exact ⟨.hybrid, by decide⟩
  · exact ⟨.mac, by decide⟩
  · exact ⟨.prf, by decide⟩
  · exact ⟨.signature, by decide⟩
  · exact ⟨.signature, by decide⟩
  · exact ⟨.streamingAead, by decide⟩

theorem distinct (hl : LawfulConfig L isInst) : Distinct isInst (IsManager L) (IsWrapper L) where
  managers m m' := by
    rintro ⟨p, u, k, h⟩ ⟨p', u', k', h'⟩ he
    obtain ⟨_, h1, hg⟩ := packageManagers_good hl p _ h
    obtain ⟨_, h1', hg'⟩ := packageManagers_good hl p' _ h'
    cases h1
    cases h1'
    have hu : u = u' := hg.keyType.symm.trans (he.trans hg'.keyType)
    have ha : (u, k, Except.ok m) ∈ allManagers L := List.mem_flatMap.2 ⟨p, mem_packages p, h⟩
    have ha' : (u', k', Except.ok m') ∈ allManagers L := List.mem_flatMap.2 ⟨p', mem_packages p', h'⟩
    have hn : ((allManagers L).map Prod.fst).Nodup := by
      rw [allManagers_urls]; exact allTypes_nodup
    have := eq_of_nodup_map Prod.fst hn ha ha' hu
    cases this
    rfl
  supports m := by
    rintro ⟨p, u, k, h⟩
    obtain ⟨_, h1, hg⟩ := packageManagers_good hl p _ h
    cases h1
    exact hg.supports
  wrappers w w' := by
    rintro ⟨k, h⟩ ⟨k', h'⟩ he
    rw [tinkWrapper_class h, tinkWrapper_class h'] at he
    obtain rfl := hl.classes _ _ he
    exact tinkWrapper_unique h h'
  wraps w := by
    rintro ⟨k, h⟩
    cases h
    · exact ⟨_, rfl, hl.aead _⟩
    · exact ⟨_, rfl, hl.daead _⟩
    · exact ⟨_, rfl, hl.hybridDecrypt _⟩
    · exact ⟨_, rfl, hl.hybridEncrypt _⟩
    · exact ⟨_, rfl, hl.mac _⟩
    · exact ⟨_, rfl, hl.prfSet _⟩
    · exact ⟨_, rfl, hl.sign _⟩
    · exact ⟨_, rfl, hl.verify _⟩
    · exact ⟨_, rfl, hl.streamingAead _⟩

theorem keyManager_known (hl : LawfulConfig L isInst) {pkg : Package}
    {x : PStr × PrimClass × Py (KeyManager P C)} (h : x ∈ packageManagers L pkg) :
    Known (IsManager L) (IsWrapper L) (.keyManager x.2.2) := by
  obtain ⟨m, hm, _⟩ := packageManagers_good hl pkg x h
  refine ⟨m, hm, pkg, x.1, x.2.1, ?_⟩
  rw [← hm]
  exact h

theorem packageManagers_stmt (pkg : Package) {x : PStr × PrimClass × Py (KeyManager P C)}
    (h : x ∈ packageManagers L pkg) : .keyManager x.2.2 ∈ registerPackage L pkg := by
  cases pkg with
  | aead =>
    rcases List.mem_append.1 h with h | h
    · obtain ⟨i, hi, rfl⟩ := List.mem_map.1 h
      exact List.mem_append_left _ (List.mem_cons_of_mem _ (List.mem_map.2 ⟨i, hi, rfl⟩))
    · simp only [List.mem_cons, List.not_mem_nil, or_false] at h
      rcases h with rfl | rfl <;> simp [registerPackage, registerAead]
  | daead => rw [List.mem_singleton.1 h]; simp [registerPackage, registerDaead]
  | hybrid =>
    simp only [packageManagers, List.mem_cons, List.not_mem_nil, or_false] at h
    rcases h with rfl | rfl | rfl | rfl <;> simp [registerPackage, registerHybrid]
  | mac =>
    obtain ⟨i, hi, rfl⟩ := List.mem_map.1 h
    exact List.mem_append_left _ (List.mem_cons_of_mem _ (List.mem_map.2 ⟨i, hi, rfl⟩))
  | prf =>
    obtain ⟨i, hi, rfl⟩ := List.mem_map.1 h
    exact List.mem_append_left _ (List.mem_cons_of_mem _ (List.mem_map.2 ⟨i, hi, rfl⟩))
  | signature =>
    rcases List.mem_append.1 h with h | h <;> obtain ⟨i, hi, rfl⟩ := List.mem_map.1 h
    · exact List.mem_append_left _ (List.mem_append_left _
        (List.mem_cons_of_mem _ (List.mem_map.2 ⟨i, hi, rfl⟩)))
    · exact List.mem_append_left _ (List.mem_append_right _ (List.mem_map.2 ⟨i, hi, rfl⟩))
  | streamingAead =>
    obtain ⟨i, hi, rfl⟩ := List.mem_map.1 h
    exact List.mem_append_left _ (List.mem_cons_of_mem _ (List.mem_map.2 ⟨i, hi, rfl⟩))

theorem registerPackage_wrapper (pkg : Package) {k : PrimClass} (h : k ∈ wrapped pkg) :
    ∃ w, TinkWrapper L k w ∧ .wrapper w ∈ registerPackage L pkg := by
  cases pkg with
  | aead =>
    obtain rfl := List.mem_singleton.1 h
    exact ⟨_, .aead, by simp [registerPackage, registerAead]⟩
  | daead =>
    obtain rfl := List.mem_singleton.1 h
    exact ⟨_, .daead, by simp [registerPackage, registerDaead]⟩
  | hybrid =>
    simp only [wrapped, List.mem_cons, List.not_mem_nil, or_false] at h
    rcases h with rfl | rfl
    · exact ⟨_, .hybridDecrypt, by simp [registerPackage, registerHybrid]⟩
    · exact ⟨_, .hybridEncrypt, by simp [registerPackage, registerHybrid]⟩
  | mac =>
    obtain rfl := List.mem_singleton.1 h
    exact ⟨_, .mac, by simp [registerPackage, registerMac]⟩
  | prf =>
    obtain rfl := List.mem_singleton.1 h
    exact ⟨_, .prfSet, by simp [registerPackage, registerPrf]⟩
  | signature =>
    simp only [wrapped, List.mem_cons, List.not_mem_nil, or_false] at h
    rcases h with rfl | rfl
    · exact ⟨_, .sign, by simp [registerPackage, registerSignature]⟩
    · exact ⟨_, .verify, by simp [registerPackage, registerSignature]⟩
  | streamingAead =>
    obtain rfl := List.mem_singleton.1 h
    exact ⟨_, .streamingAead, by simp [registerPackage, registerStreamingAead]⟩

/-- The statements of a package: calls of the bindings, registrations of its managers and of its
wrappers. -/
theorem registerPackage_cases (hl : LawfulConfig L isInst) (pkg : Package) {s : Stmt P C}
    (h : s ∈ registerPackage L pkg) :
    s = .bindings (.ok ()) ∨ (∃ x ∈ packageManagers L pkg, s = .keyManager x.2.2) ∨
      ∃ k w, TinkWrapper L k w ∧ s = .wrapper w := by
  cases pkg with
  | aead =>
    rcases List.mem_append.1 h with h | h
    · rcases List.mem_cons.1 h with rfl | h
      · left; rw [hl.bindingsRegister]
      · obtain ⟨i, hi, rfl⟩ := List.mem_map.1 h
        exact .inr (.inl ⟨_, List.mem_append_left _ (List.mem_map.2 ⟨i, hi, rfl⟩), rfl⟩)
    · simp only [List.mem_cons, List.not_mem_nil, or_false] at h
      rcases h with rfl | rfl | rfl
      · exact .inr (.inr ⟨_, _, .aead, rfl⟩)
      · exact .inr (.inl ⟨_, List.mem_append_right _ (List.mem_cons_self ..), rfl⟩)
      · exact .inr (.inl ⟨_, List.mem_append_right _ (List.mem_cons_of_mem _ (List.mem_cons_self ..)),
          rfl⟩)
  | daead =>
    simp only [registerPackage, registerDaead, List.mem_cons, List.not_mem_nil, or_false] at h
    rcases h with rfl | rfl | rfl
    · left; rw [hl.bindingsRegister]
    · exact .inr (.inl ⟨_, List.mem_cons_self .., rfl⟩)
    · exact .inr (.inr ⟨_, _, .daead, rfl⟩)
  | hybrid =>
    simp only [registerPackage, registerHybrid, List.mem_cons, List.not_mem_nil, or_false] at h
    rcases h with rfl | rfl | rfl | rfl | rfl | rfl | rfl | rfl
    · left; rw [hl.bindingsRegister]
    · left; rw [hl.bindingsRegisterHpke]
    · exact .inr (.inr ⟨_, _, .hybridDecrypt, rfl⟩)
    · exact .inr (.inr ⟨_, _, .hybridEncrypt, rfl⟩)
    · exact .inr (.inl ⟨_, List.mem_cons_self .., rfl⟩)
    · exact .inr (.inl ⟨_, List.mem_cons_of_mem _ (List.mem_cons_self ..), rfl⟩)
    · exact .inr (.inl ⟨_, List.mem_cons_of_mem _ (List.mem_cons_of_mem _ (List.mem_cons_self ..)), rfl⟩)
    · exact .inr (.inl ⟨_, List.mem_cons_of_mem _ (List.mem_cons_of_mem _
        (List.mem_cons_of_mem _ (List.mem_cons_self ..))), rfl⟩)
  | mac =>
    rcases List.mem_append.1 h with h | h
    · rcases List.mem_cons.1 h with rfl | h
      · left; rw [hl.bindingsRegister]
      · obtain ⟨i, hi, rfl⟩ := List.mem_map.1 h
        exact .inr (.inl ⟨_, List.mem_map.2 ⟨i, hi, rfl⟩, rfl⟩)
    · rw [List.mem_singleton.1 h]; exact .inr (.inr ⟨_, _, .mac, rfl⟩)
  | prf =>
    rcases List.mem_append.1 h with h | h
    · rcases List.mem_cons.1 h with rfl | h
      · left; rw [hl.bindingsRegister]
      · obtain ⟨i, hi, rfl⟩ := List.mem_map.1 h
        exact .inr (.inl ⟨_, List.mem_map.2 ⟨i, hi, rfl⟩, rfl⟩)
    · rw [List.mem_singleton.1 h]; exact .inr (.inr ⟨_, _, .prfSet, rfl⟩)
  | signature =>
    rcases List.mem_append.1 h with h | h
    · rcases List.mem_append.1 h with h | h
      · rcases List.mem_cons.1 h with rfl | h
        · left; rw [hl.bindingsRegister]
        · obtain ⟨i, hi, rfl⟩ := List.mem_map.1 h
          exact .inr (.inl ⟨_, List.mem_append_left _ (List.mem_map.2 ⟨i, hi, rfl⟩), rfl⟩)
      · obtain ⟨i, hi, rfl⟩ := List.mem_map.1 h
        exact .inr (.inl ⟨_, List.mem_append_right _ (List.mem_map.2 ⟨i, hi, rfl⟩), rfl⟩)
    · simp only [List.mem_cons, List.not_mem_nil, or_false] at h
      rcases h with rfl | rfl
      · exact .inr (.inr ⟨_, _, .sign, rfl⟩)
      · exact .inr (.inr ⟨_, _, .verify, rfl⟩)
  | streamingAead =>
    rcases List.mem_append.1 h with h | h
    · rcases List.mem_cons.1 h with rfl | h
      · left; rw [hl.bindingsRegister]
      · obtain ⟨i, hi, rfl⟩ := List.mem_map.1 h
        exact .inr (.inl ⟨_, List.mem_map.2 ⟨i, hi, rfl⟩, rfl⟩)
    · rw [List.mem_singleton.1 h]; exact .inr (.inr ⟨_, _, .streamingAead, rfl⟩)

theorem registerPackage_known (hl : LawfulConfig L isInst) (pkg : Package) {s : Stmt P C}
    (h : s ∈ registerPackage L pkg) : Known (IsManager L) (IsWrapper L) s := by
  rcases registerPackage_cases hl pkg h with rfl | ⟨x, hx, rfl⟩ | ⟨k, w, hw, rfl⟩
  · rfl
  · exact keyManager_known hl hx
  · exact ⟨k, hw⟩

theorem registerTinkConfig_mem {s : Stmt P C} :
    s ∈ registerTinkConfig L ↔ ∃ pkg, s ∈ registerPackage L pkg := by
  unfold registerTinkConfig
  simp only [List.mem_append]
  constructor
  · rintro ((((((h | h) | h) | h) | h) | h) | h)
    · exact ⟨.aead, h⟩
    · exact ⟨.daead, h⟩
    · exact ⟨.hybrid, h⟩
    · exact ⟨.mac, h⟩
    · exact ⟨.prf, h⟩
    · exact ⟨.signature, h⟩
    · exact ⟨.streamingAead, h⟩
  · rintro ⟨pkg, h⟩
    cases pkg with
    | aead => exact .inl (.inl (.inl (.inl (.inl (.inl h)))))
    | daead => exact .inl (.inl (.inl (.inl (.inl (.inr h)))))
    | hybrid => exact .inl (.inl (.inl (.inl (.inr h))))
    | mac => exact .inl (.inl (.inl (.inr h)))
    | prf => exact .inl (.inl (.inr h))
    | signature => exact .inl (.inr h)
    | streamingAead => exact .inr h

/-- When the statements of a package have had their effect, the package is registered. -/
theorem registered_of_done (hl : LawfulConfig L isInst) {r : Registry P C} {pkg : Package}
    (h : ∀ s ∈ registerPackage L pkg, Done r s) : PackageRegistered L r pkg where
  managers url k hk := by
    rw [← packageTypes_iff, ← packageManagers_types L] at hk
    obtain ⟨x, hx, he⟩ := List.mem_map.1 hk
    obtain ⟨m, hm, hg⟩ := packageManagers_good hl pkg x hx
    cases he
    have := h _ (packageManagers_stmt pkg hx) m hm
    rw [hg.keyType] at this
    exact ⟨m, this, hg.cls, hg.keyType, hg.tink⟩
  wrappers k hk := by
    obtain ⟨w, hw, hs⟩ := registerPackage_wrapper (L := L) pkg hk
    refine ⟨w, ?_, hw⟩
    rw [← tinkWrapper_class hw]
    exact h _ hs

end
end
end Tink.Props
