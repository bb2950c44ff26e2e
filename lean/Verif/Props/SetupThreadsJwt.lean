import Verif.Props.SetupThreads
import Verif.Jwt.FreshLemmas
import Verif.Jwt.MacKeyLemmas

/-!
# C114 for JWTs: `register_jwt_mac()` and `register_jwt_signature()` called by several threads
-/

namespace Tink.Props
open Spec Threads

/-! ## Threads that register the same managers and wrappers -/

section
variable {P C : Type} [DecidableEq C] {isInst : P → C → Bool} {T : KeyManager P C → Prop}
  {V : PrimitiveWrapper P C → Prop} {before after : List (Event P C)}

/-- One of these managers, with new keys allowed, or one of these wrappers is registered. -/
def Ours (T : KeyManager P C → Prop) (V : PrimitiveWrapper P C → Prop) : Call P C → Prop
  | .registerKeyManager m b => T m ∧ b = true
  | .registerPrimitiveWrapper w => V w
  | _ => False

/-- Something for other type URLs and classes is registered, or nothing. -/
def Apart (T : KeyManager P C → Prop) (V : PrimitiveWrapper P C → Prop) : Call P C → Prop
  | .registerKeyManager m _ => ∀ m0, T m0 → m0.keyType ≠ m.keyType
  | .registerPrimitiveWrapper w => ∀ w0, V w0 → w0.primitiveClass ≠ w.primitiveClass
  | .reset => False
  | _ => True

/-- After the registration `c`, the registry has its entry, and calls numbered `n` or later find it. -/
def InPlace (cfg : Config P C) (n : Nat) : Call P C → Prop
  | .registerKeyManager m b => ManagerRegistered cfg m.keyType m b ∧
      ∀ j res, n ≤ j → Finished cfg j (.lookup m.keyType) res → res = .ok (.manager m b)
  | .registerPrimitiveWrapper w => WrapperRegistered cfg w.primitiveClass w ∧
      ∀ j res, n ≤ j → Finished cfg j (.wrapperFor w.primitiveClass) res → res = .ok (.wrapper w)
  | _ => True

theorem same_entries (hd : Distinct isInst T V)
    (hs : ∀ c, .start c ∈ before ++ after → Ours T V c ∨ Apart T V c) {cfg1 cfg2 : Config P C}
    (e1 : cfg1 = (Config.of {}).run isInst before) (e2 : cfg2 = cfg1.run isInst after) {c : Call P C}
    (hc : Ours T V c) :
    (∀ i res, Finished cfg2 i c res → res = .ok .unit) ∧
    ((∃ i res, Finished cfg1 i c res) → InPlace cfg2 cfg1.calls.length c) := by
  have hno : NeverReset (before ++ after) := fun h => by rcases hs _ h with h | h <;> exact h
  have hall : ∀ c, .start c ∈ before ++ after → Allowed isInst
      (fun u m b => ∀ m0, T m0 → m0.keyType = u → m = m0 ∧ b = true)
      (fun c w => ∀ w0, V w0 → w0.primitiveClass = c → w = w0) True c := by
    intro c hx
    rcases hs c hx with h | h
    · cases c with
      | registerKeyManager m b =>
        obtain ⟨h, rfl⟩ := h
        exact ⟨fun _ m0 h0 e => ⟨hd.managers _ _ h h0 e.symm, rfl⟩, fun m' b' hK _ _ m0 h0 e => ⟨(hK m0 h0 e).1, rfl⟩⟩
      | registerPrimitiveWrapper w => exact fun _ w0 h0 e => hd.wrappers _ _ h h0 e.symm
      | _ => cases h
    · cases c with
      | registerKeyManager m b =>
        exact ⟨fun _ m0 h0 e => absurd e (h m0 h0), fun _ _ _ _ _ m0 h0 e => absurd e (h m0 h0)⟩
      | registerPrimitiveWrapper w => exact fun _ w0 h0 e => absurd e (h w0 h0)
      | reset => cases h
      | lookup u => trivial
      | wrapperFor c => trivial
  obtain ⟨hi2, hr, ho2⟩ := split_run (isInst := isInst) (r := {}) (keep := True)
    ⟨fun _ _ _ _ h => (nomatch h), fun _ _ _ h => (nomatch h)⟩ hall e1 e2
  cases c with
  | registerKeyManager m b =>
    obtain ⟨h, rfl⟩ := hc
    refine ⟨fun i res hf => ?_, ?_⟩
    · obtain ⟨s0, ho, -⟩ := ho2 i _ _ hf
      rcases ho with ⟨e, -⟩ | ⟨-, ho | ⟨m', b', hK, ho⟩⟩ | ⟨-, ho⟩
      · exact e
      · rw [hd.supports m h] at ho; cases ho
      · obtain ⟨rfl, rfl⟩ := hK m h rfl
        rcases ho with (ho | ho) | ⟨ho, -⟩
        · exact absurd rfl ho
        · exact absurd rfl ho
        · cases ho
      · exact absurd trivial ho
    · rintro ⟨i, res, hf⟩
      obtain ⟨-, -, ho1⟩ := split_run (isInst := isInst) (r := {}) (keep := True) (before := []) (after := before)
        ⟨fun _ _ _ _ h => (nomatch h), fun _ _ _ h => (nomatch h)⟩
        (fun c hc => hall c (by rw [List.nil_append] at hc; exact List.mem_append_left _ hc)) rfl e1
      have hok : res = .ok .unit := by
        obtain ⟨s0, ho, -⟩ := ho1 i _ _ hf
        rcases ho with ⟨e, -⟩ | ⟨-, ho | ⟨m', b', hK, ho⟩⟩ | ⟨-, ho⟩
        · exact e
        · rw [hd.supports m h] at ho; cases ho
        · obtain ⟨rfl, rfl⟩ := hK m h rfl
          rcases ho with (ho | ho) | ⟨ho, -⟩
          · exact absurd rfl ho
          · exact absurd rfl ho
          · cases ho
        · exact absurd trivial ho
      subst hok
      obtain ⟨⟨m', b', hm⟩, hl⟩ := C112_stays_registered hno e1 e2 (.inr ⟨i, m, true, rfl, hf⟩)
      refine ⟨?_, fun j res hj hx => ?_⟩
      · obtain ⟨rfl, rfl⟩ := hi2.1 _ _ _ _ hm m h rfl
        exact hm
      · obtain ⟨m1, b1, rfl⟩ := hl j res hj hx
        obtain ⟨s0, ho, -⟩ := ho2 j _ _ hx
        rcases ho with ⟨m2, b2, e, hK⟩ | ⟨e, -⟩ | ⟨e, -⟩
        · obtain ⟨rfl, rfl⟩ := hK m h rfl
          exact e
        · cases e
        · cases e
  | registerPrimitiveWrapper w =>
    have good : ∀ s0 res s, Outcome isInst (fun u m b => ∀ m0, T m0 → m0.keyType = u → m = m0 ∧ b = true)
        (fun c w => ∀ w0, V w0 → w0.primitiveClass = c → w = w0) True s0 (.registerPrimitiveWrapper w) res s →
        res = .ok .unit := by
      intro s0 res s ho
      rcases ho with ⟨e, -⟩ | ⟨-, w', hW, ho⟩ | ⟨-, ho⟩ | ⟨-, ho⟩
      · exact e
      · exact absurd (congrArg _ (hW w hc rfl)) ho
      · exact absurd trivial ho
      · exact absurd (hd.wraps w hc) ho
    refine ⟨fun i res hf => ?_, ?_⟩
    · obtain ⟨s0, ho, -⟩ := ho2 i _ _ hf
      exact good _ _ _ ho
    · rintro ⟨i, res, hf⟩
      obtain ⟨-, -, ho1⟩ := split_run (isInst := isInst) (r := {}) (keep := True) (before := []) (after := before)
        ⟨fun _ _ _ _ h => (nomatch h), fun _ _ _ h => (nomatch h)⟩
        (fun c hc => hall c (by rw [List.nil_append] at hc; exact List.mem_append_left _ hc)) rfl e1
      obtain ⟨s0, ho, -⟩ := ho1 i _ _ hf
      have hok := good _ _ _ ho
      subst hok
      obtain ⟨⟨w', hm⟩, hl⟩ := C112_wrapper_stays_registered hno e1 e2 (.inr ⟨i, w, rfl, hf⟩)
      refine ⟨?_, fun j res hj hx => ?_⟩
      · obtain rfl := hi2.2 _ _ _ hm w hc rfl
        exact hm
      · obtain ⟨w1, rfl⟩ := hl j res hj hx
        obtain ⟨s0, ho, -⟩ := ho2 j _ _ hx
        rcases ho with ⟨w2, e, hW⟩ | ⟨e, -⟩ | ⟨e, -⟩
        · obtain rfl := hW w hc rfl
          exact e
        · cases e
        · cases e
  | _ => cases hc

end

/-! ## JWTs -/

section
open Jwt
variable {F P C : Type} [DecidableEq C] {isInst : P → C → Bool} {L : Library F P C} {before after : List (Event P C)}

/-- The managers for JWTs, with their type URLs. -/
def jwtManagers (L : Library F P C) : List (PStr × KeyManager P C) :=
  [(jwtHmacType, macManager L),
   (JWT_ECDSA_PRIVATE_KEY_TYPE, signManager L JWT_ECDSA_PRIVATE_KEY_TYPE ecdsaPrivateAlgKid),
   (JWT_ECDSA_PUBLIC_KEY_TYPE, verifyManager L JWT_ECDSA_PUBLIC_KEY_TYPE ecdsaPublicAlgKid),
   (JWT_RSA_SSA_PKCS1_PRIVATE_KEY_TYPE, signManager L JWT_RSA_SSA_PKCS1_PRIVATE_KEY_TYPE rsaSsaPkcs1PrivateAlgKid),
   (JWT_RSA_SSA_PKCS1_PUBLIC_KEY_TYPE, verifyManager L JWT_RSA_SSA_PKCS1_PUBLIC_KEY_TYPE rsaSsaPkcs1PublicAlgKid),
   (JWT_RSA_SSA_PSS_PRIVATE_KEY_TYPE, signManager L JWT_RSA_SSA_PSS_PRIVATE_KEY_TYPE rsaSsaPssPrivateAlgKid),
   (JWT_RSA_SSA_PSS_PUBLIC_KEY_TYPE, verifyManager L JWT_RSA_SSA_PSS_PUBLIC_KEY_TYPE rsaSsaPssPublicAlgKid)]

/-- The calls of the registry in `register_jwt_mac()`. -/
def jwtMacCalls (L : Library F P C) : List (RegistryOp P C) :=
  [.registerKeyManager (macManager L) true, .registerPrimitiveWrapper (macWrapper L)]

/-- The calls of the registry in `register_jwt_signature()`. -/
def jwtSignatureCalls (L : Library F P C) : List (RegistryOp P C) :=
  ((jwtManagers L).drop 1).map (fun x => .registerKeyManager x.2 true) ++
    [.registerPrimitiveWrapper (signWrapper L), .registerPrimitiveWrapper (verifyWrapper L)]

/-- Calls one after another, until one raises an exception. -/
def inOrder (isInst : P → C → Bool) : List (RegistryOp P C) → Registry P C → Registry P C × Py Unit
  | [], r => (r, .ok ())
  | [op], r => op.call isInst r
  | op :: ops, r => andThen (op.call isInst r) (inOrder isInst ops)

omit [DecidableEq C] in
theorem andThen_assoc (x : Registry P C × Py Unit) (f g : Registry P C → Registry P C × Py Unit) :
    andThen (andThen x f) g = andThen x fun r => andThen (f r) g := by
  obtain ⟨r, _ | ⟨⟩⟩ := x <;> rfl

/-- C114, for JWTs.  These are the calls that the model of `register_jwt_mac()` and `register_jwt_signature()` (C43)
makes. -/
theorem C114_jwt_calls (r : Registry P C) :
    registerJwtMac isInst L r = inOrder isInst (jwtMacCalls L) r ∧
    registerJwtSignature isInst L r = inOrder isInst (jwtSignatureCalls L) r := by
  refine ⟨rfl, ?_⟩
  unfold registerJwtSignature registerSignatureManagers
  simp only [andThen_assoc]
  rfl

/-- Managers and wrappers for other type URLs and classes; or no registration. -/
def OtherThanJwt (L : Library F P C) : Call P C → Prop
  | .registerKeyManager m _ => m.keyType ∉ (jwtManagers L).map Prod.fst
  | .registerPrimitiveWrapper w => w.primitiveClass ∉ [L.macClass, L.signClass, L.verifyClass]
  | .reset => False
  | _ => True

omit [DecidableEq C] in
theorem jwtManagers_type (hl : LawfulLibrary L) {x : PStr × KeyManager P C} (h : x ∈ jwtManagers L) :
    x.2.keyType = x.1 ∧ x.2.doesSupport x.2.keyType = true := by
  simp only [jwtManagers, List.mem_cons, List.not_mem_nil, or_false] at h
  rcases h with rfl | rfl | rfl | rfl | rfl | rfl | rfl
  · exact ⟨hl.ccMac _, decide_eq_true rfl⟩
  · exact ⟨hl.ccSign _, decide_eq_true rfl⟩
  · exact ⟨hl.ccVerify _, decide_eq_true rfl⟩
  · exact ⟨hl.ccSign _, decide_eq_true rfl⟩
  · exact ⟨hl.ccVerify _, decide_eq_true rfl⟩
  · exact ⟨hl.ccSign _, decide_eq_true rfl⟩
  · exact ⟨hl.ccVerify _, decide_eq_true rfl⟩

omit [DecidableEq C] in
theorem jwtManagers_urls : ((jwtManagers L).map Prod.fst).Nodup := by
  have : (jwtManagers L).map Prod.fst = [jwtHmacType, JWT_ECDSA_PRIVATE_KEY_TYPE, JWT_ECDSA_PUBLIC_KEY_TYPE,
    JWT_RSA_SSA_PKCS1_PRIVATE_KEY_TYPE, JWT_RSA_SSA_PKCS1_PUBLIC_KEY_TYPE, JWT_RSA_SSA_PSS_PRIVATE_KEY_TYPE,
    JWT_RSA_SSA_PSS_PUBLIC_KEY_TYPE] := rfl
  rw [this]
  decide +kernel

theorem nodup_fst {α β : Type} {l : List (α × β)} (hn : (l.map Prod.fst).Nodup) {a : α} {b b' : β} (h : (a, b) ∈ l)
    (h' : (a, b') ∈ l) : b = b' := by
  induction l with
  | nil => cases h
  | cons x t ih =>
    rw [List.map_cons, List.nodup_cons] at hn
    rcases List.mem_cons.1 h with rfl | h1
    · rcases List.mem_cons.1 h' with h2 | h2
      · cases h2; rfl
      · exact absurd (List.mem_map.2 ⟨_, h2, rfl⟩) hn.1
    · rcases List.mem_cons.1 h' with rfl | h2
      · exact absurd (List.mem_map.2 ⟨_, h1, rfl⟩) hn.1
      · exact ih hn.2 h1 h2

theorem jwt_distinct (hl : LawfulLibrary L) (hc : LawfulClasses isInst L) (hi : JwtMacInstances isInst L)
    (hs : L.macClass ≠ L.signClass) (hv : L.macClass ≠ L.verifyClass) :
    Distinct isInst (fun m => ∃ u, (u, m) ∈ jwtManagers L)
      (fun w => w ∈ [macWrapper L, signWrapper L, verifyWrapper L]) where
  managers := by
    rintro m m' ⟨u, h⟩ ⟨u', h'⟩ e
    have e1 := (jwtManagers_type hl h).1
    have e2 := (jwtManagers_type hl h').1
    dsimp only at e1 e2
    obtain rfl : u = u' := by rw [← e1, ← e2, e]
    exact nodup_fst jwtManagers_urls h h'
  supports := by
    rintro m ⟨u, h⟩
    exact (jwtManagers_type hl h).2
  wrappers := by
    intro w w' h h' e
    simp only [List.mem_cons, List.not_mem_nil, or_false] at h h'
    rcases h with rfl | rfl | rfl <;> rcases h' with rfl | rfl | rfl
    · rfl
    · exact absurd e hs
    · exact absurd e hv
    · exact absurd e.symm hs
    · rfl
    · exact absurd e hc.different
    · exact absurd e.symm hv
    · exact absurd e.symm hc.different
    · rfl
  wraps := by
    intro w h
    simp only [List.mem_cons, List.not_mem_nil, or_false] at h
    rcases h with rfl | rfl | rfl
    · exact ⟨_, rfl, hi.mac _⟩
    · exact ⟨_, rfl, hc.sign _⟩
    · exact ⟨_, rfl, hc.verify _⟩

/-- C114, for JWTs.  Any number of threads call `register_jwt_mac()` and `register_jwt_signature()` at the same time.  No
registration fails; and once one is finished, what it registered is in the registry from then on, and lookups that start
later find it. -/
theorem C114_jwt (hl : LawfulLibrary L) (hc : LawfulClasses isInst L) (hi : JwtMacInstances isInst L)
    (hsign : L.macClass ≠ L.signClass) (hverify : L.macClass ≠ L.verifyClass)
    (hs : ∀ c, .start c ∈ before ++ after →
      (∃ op ∈ jwtMacCalls L ++ jwtSignatureCalls L, c = callOf op) ∨ OtherThanJwt L c) {cfg1 cfg2 : Config P C}
    (e1 : cfg1 = (Config.of {}).run isInst before) (e2 : cfg2 = cfg1.run isInst after) {op : RegistryOp P C}
    (hop : op ∈ jwtMacCalls L ++ jwtSignatureCalls L) :
    (∀ i res, Finished cfg2 i (callOf op) res → res = .ok .unit) ∧
    ((∃ i res, Finished cfg1 i (callOf op) res) → InPlace cfg2 cfg1.calls.length (callOf op)) := by
  have ours : ∀ op ∈ jwtMacCalls L ++ jwtSignatureCalls L, Ours (fun m => ∃ u, (u, m) ∈ jwtManagers L)
      (fun w => w ∈ [macWrapper L, signWrapper L, verifyWrapper L]) (callOf op) := by
    intro op hop
    rcases List.mem_append.1 hop with h | h
    · simp only [jwtMacCalls, List.mem_cons, List.not_mem_nil, or_false] at h
      rcases h with rfl | rfl
      · exact ⟨⟨jwtHmacType, by simp [jwtManagers]⟩, rfl⟩
      · exact List.mem_cons_self
    · rcases List.mem_append.1 h with h | h
      · obtain ⟨x, hx, rfl⟩ := List.mem_map.1 h
        exact ⟨⟨x.1, List.mem_of_mem_drop hx⟩, rfl⟩
      · simp only [List.mem_cons, List.not_mem_nil, or_false] at h
        rcases h with rfl | rfl
        · exact List.mem_cons_of_mem _ List.mem_cons_self
        · exact List.mem_cons_of_mem _ (List.mem_cons_of_mem _ List.mem_cons_self)
  refine same_entries (jwt_distinct hl hc hi hsign hverify) (fun c hx => ?_) e1 e2 (ours op hop)
  rcases hs c hx with ⟨op, ho, rfl⟩ | h
  · exact .inl (ours op ho)
  · refine .inr ?_
    cases c with
    | registerKeyManager m b =>
      rintro m0 ⟨u, h0⟩ e
      refine h ?_
      rw [← e, (jwtManagers_type hl h0).1]
      exact List.mem_map.2 ⟨_, h0, rfl⟩
    | registerPrimitiveWrapper w =>
      intro w0 h0 e
      refine h ?_
      simp only [List.mem_cons, List.not_mem_nil, or_false] at h0
      rw [← e]
      rcases h0 with rfl | rfl | rfl
      · exact List.mem_cons_self
      · exact List.mem_cons_of_mem _ List.mem_cons_self
      · exact List.mem_cons_of_mem _ (List.mem_cons_of_mem _ List.mem_cons_self)
    | reset => exact h
    | lookup u => trivial
    | wrapperFor c => trivial

end

/-! ## Example -/

namespace SetupThreadsJwtExample
open ToyJwt

def steps (i n : Nat) : List (Event Prim Cls) := List.replicate n (.step i)

/-- Two threads call `register_jwt_mac()`; both find the type URL free before either registers. -/
def race : List (Event Prim Cls) :=
  .start (.registerKeyManager (macManager library) true) :: .start (.registerKeyManager (macManager library) true) ::
    (steps 0 2 ++ steps 1 2 ++ steps 0 1)

def rest : List (Event Prim Cls) :=
  .start (.lookup jwtHmacType) :: .start (.registerPrimitiveWrapper (macWrapper library)) ::
    (steps 2 2 ++ steps 1 1 ++ steps 2 2 ++ steps 3 4)

theorem starts : ∀ c, .start c ∈ race ++ rest →
    (∃ op ∈ jwtMacCalls library ++ jwtSignatureCalls library, c = callOf op) ∨ OtherThanJwt library c := by
  intro c hc
  simp [race, rest, steps] at hc
  rcases hc with rfl | rfl | rfl
  · exact .inl ⟨.registerKeyManager (macManager library) true, by simp [jwtMacCalls], rfl⟩
  · exact .inr trivial
  · exact .inl ⟨.registerPrimitiveWrapper (macWrapper library), by simp [jwtMacCalls], rfl⟩

end SetupThreadsJwtExample

open SetupThreadsJwtExample ToyJwt in
/-- The lookup that is made while the second thread registers finds the manager. -/
example : InPlace (((Config.of {}).run ToyJwt.isInst race).run ToyJwt.isInst rest) 2
      (.registerKeyManager (macManager library) true) ∧
    Finished (((Config.of {}).run ToyJwt.isInst race).run ToyJwt.isInst rest) 2 (.lookup jwtHmacType)
      (.ok (.manager (macManager library) true)) :=
  ⟨(C114_jwt (op := .registerKeyManager (macManager library) true) toyLawful
      ⟨fun _ => rfl, fun _ => rfl, fun _ => rfl, fun _ => rfl, by decide⟩ ⟨fun _ => rfl, fun _ => rfl⟩ (by decide)
      (by decide) starts rfl rfl (by simp [jwtMacCalls])).2 ⟨0, .ok .unit, rfl⟩, rfl⟩

end Tink.Props
