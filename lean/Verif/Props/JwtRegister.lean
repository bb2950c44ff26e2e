import Verif.Jwt.Register
import Verif.Props.Registry
import Verif.Spec.JwtKeys
import Verif.Examples.ToyJwt

/-!
# The JWT key managers after registration

The theorems about JWT keysets (C41-C44) suppose that the key managers for JWT keys are Tink's.  This is so
after any history in which JWT key managers are registered with `register_jwt_mac` and
`register_jwt_signature` only.
-/

namespace Tink
namespace Props
open Jwt Spec

section
variable {F P C : Type} [DecidableEq C]

/-- What is in the registry under a type URL stays, or is the manager that was registered. -/
theorem register_get {r : Registry P C} {m m' : KeyManager P C} {b b' : Bool} {url : PStr}
    (h : PyDict.get? (r.registerKeyManager m b).1.keyManagers url = some (m', b')) :
    (∃ b'', PyDict.get? r.keyManagers url = some (m', b'')) ∨ (m' = m ∧ url = m.keyType) := by
  unfold Registry.registerKeyManager at h
  cases hs : m.doesSupport m.keyType with
  | false => simp only [hs] at h; exact .inl ⟨_, h⟩
  | true =>
    simp only [hs, Bool.not_true, Bool.false_eq_true, if_false] at h
    cases hg : PyDict.get? r.keyManagers m.keyType with
    | none =>
      simp only [hg, PyDict.get?_set] at h
      by_cases hu : m.keyType = url
      · rw [if_pos hu] at h; cases h; exact .inr ⟨rfl, hu.symm⟩
      · rw [if_neg hu] at h; exact .inl ⟨_, h⟩
    | some x =>
      obtain ⟨m1, b1⟩ := x
      simp only [hg] at h
      by_cases h1 : m1.pyType ≠ m.pyType ∨ m1.primitiveClass ≠ m.primitiveClass
      · rw [if_pos h1] at h; exact .inl ⟨_, h⟩
      · rw [if_neg h1] at h
        by_cases h2 : (!b1 && b) = true
        · rw [if_pos h2] at h; exact .inl ⟨_, h⟩
        · rw [if_neg h2, PyDict.get?_set] at h
          by_cases hu : m.keyType = url
          · rw [if_pos hu] at h; cases h; subst hu; exact .inl ⟨_, hg⟩
          · rw [if_neg hu] at h; exact .inl ⟨_, h⟩

theorem register_wrapper_managers (isInst : P → C → Bool) (r : Registry P C) (w : PrimitiveWrapper P C) :
    (r.registerPrimitiveWrapper isInst w).1.keyManagers = r.keyManagers := by
  unfold Registry.registerPrimitiveWrapper
  dsimp only
  repeat' split
  all_goals rfl

/-- All JWT key managers in the registry are Tink's. -/
structure Managers (L : Library F P C) (r : Registry P C) : Prop where
  mac : MacManagers L.macInternal L.macInternalClass L.env
    (L.ccMac (ps! "type.googleapis.com/google.crypto.tink.JwtHmacKey")) r
  sign : SignManagers L.signInternal L.signInternalClass L.env L.ccSign r
  verify : VerifyManagers L.verifyInternal L.verifyInternalClass L.env L.ccVerify r

/-- The classes are different classes, and C++ key managers have the type URL they were asked for. -/
structure LawfulLibrary (L : Library F P C) : Prop where
  mac_sign : L.macInternalClass ≠ L.signInternalClass
  mac_verify : L.macInternalClass ≠ L.verifyInternalClass
  sign_verify : L.signInternalClass ≠ L.verifyInternalClass
  ccMac : ∀ url, (L.ccMac url).keyType = url
  ccSign : ∀ url, (L.ccSign url).keyType = url
  ccVerify : ∀ url, (L.ccVerify url).keyType = url

theorem Managers.other {L : Library F P C} {r : Registry P C} (h : Managers L r) {m : KeyManager P C}
    (b : Bool) (h1 : m.primitiveClass ≠ L.macInternalClass) (h2 : m.primitiveClass ≠ L.signInternalClass)
    (h3 : m.primitiveClass ≠ L.verifyInternalClass) : Managers L (r.registerKeyManager m b).1 where
  mac url m' b' hg hc := by
    rcases register_get hg with ⟨b'', hg⟩ | ⟨rfl, _⟩
    · exact h.mac url m' b'' hg hc
    · exact absurd hc h1
  sign url m' b' hg hc := by
    rcases register_get hg with ⟨b'', hg⟩ | ⟨rfl, _⟩
    · exact h.sign url m' b'' hg hc
    · exact absurd hc h2
  verify url m' b' hg hc := by
    rcases register_get hg with ⟨b'', hg⟩ | ⟨rfl, _⟩
    · exact h.verify url m' b'' hg hc
    · exact absurd hc h3

theorem Managers.wrapper {L : Library F P C} {r : Registry P C} (h : Managers L r)
    (isInst : P → C → Bool) (w : PrimitiveWrapper P C) :
    Managers L (r.registerPrimitiveWrapper isInst w).1 where
  mac url m b hg := h.mac url m b (register_wrapper_managers isInst r w ▸ hg)
  sign url m b hg := h.sign url m b (register_wrapper_managers isInst r w ▸ hg)
  verify url m b hg := h.verify url m b (register_wrapper_managers isInst r w ▸ hg)

theorem Managers.hmac {L : Library F P C} (hl : LawfulLibrary L) {r : Registry P C} (h : Managers L r) :
    Managers L (registerHmac L r).1 where
  mac url m' b' hg hc := by
    rcases register_get hg with ⟨b'', hg⟩ | ⟨rfl, _⟩
    · exact h.mac url m' b'' hg hc
    · exact ⟨_, rfl⟩
  sign url m' b' hg hc := by
    rcases register_get hg with ⟨b'', hg⟩ | ⟨rfl, _⟩
    · exact h.sign url m' b'' hg hc
    · exact absurd hc hl.mac_sign
  verify url m' b' hg hc := by
    rcases register_get hg with ⟨b'', hg⟩ | ⟨rfl, _⟩
    · exact h.verify url m' b'' hg hc
    · exact absurd hc hl.mac_verify

theorem Managers.signManager {L : Library F P C} (hl : LawfulLibrary L) {r : Registry P C}
    (h : Managers L r) (url : PStr) {f : KeyData → Py (PyStr × Option PyStr)} (hf : f ∈ privateReaders) :
    Managers L (registerSignManager L url f r).1 where
  mac url m' b' hg hc := by
    rcases register_get hg with ⟨b'', hg⟩ | ⟨rfl, _⟩
    · exact h.mac url m' b'' hg hc
    · exact absurd hc hl.mac_sign.symm
  sign url' m' b' hg hc := by
    rcases register_get hg with ⟨b'', hg⟩ | ⟨rfl, hu⟩
    · exact h.sign url' m' b'' hg hc
    · have hu : url' = url := hu.trans (hl.ccSign url)
      subst hu
      exact ⟨_, f, hf, rfl⟩
  verify url m' b' hg hc := by
    rcases register_get hg with ⟨b'', hg⟩ | ⟨rfl, _⟩
    · exact h.verify url m' b'' hg hc
    · exact absurd hc hl.sign_verify

theorem Managers.verifyManager {L : Library F P C} (hl : LawfulLibrary L) {r : Registry P C}
    (h : Managers L r) (url : PStr) {f : KeyData → Py (PyStr × Option PyStr)} (hf : f ∈ publicReaders) :
    Managers L (registerVerifyManager L url f r).1 where
  mac url m' b' hg hc := by
    rcases register_get hg with ⟨b'', hg⟩ | ⟨rfl, _⟩
    · exact h.mac url m' b'' hg hc
    · exact absurd hc hl.mac_verify.symm
  sign url m' b' hg hc := by
    rcases register_get hg with ⟨b'', hg⟩ | ⟨rfl, _⟩
    · exact h.sign url m' b'' hg hc
    · exact absurd hc hl.sign_verify.symm
  verify url' m' b' hg hc := by
    rcases register_get hg with ⟨b'', hg⟩ | ⟨rfl, hu⟩
    · exact h.verify url' m' b'' hg hc
    · have hu : url' = url := hu.trans (hl.ccVerify url)
      subst hu
      exact ⟨_, f, hf, rfl⟩

omit [DecidableEq C] in
theorem andThen_inv {I : Registry P C → Prop} {x : Registry P C × Py Unit}
    {f : Registry P C → Registry P C × Py Unit} (hx : I x.1) (hf : ∀ r, I r → I (f r).1) :
    I (andThen x f).1 := by
  obtain ⟨r, _ | ⟨⟩⟩ := x
  · exact hx
  · exact hf r hx

/-- A call that may change the registry, in a program that uses JWTs. -/
inductive JwtOp (P C : Type) where
  | registerJwtMac
  | registerJwtSignature
  | other (op : RegistryOp P C)

/-- The registry after a call, and the outcome of the call. -/
def JwtOp.call (isInst : P → C → Bool) (L : Library F P C) (r : Registry P C) :
    JwtOp P C → Registry P C × Py Unit
  | .registerJwtMac => Jwt.registerJwtMac isInst L r
  | .registerJwtSignature => Jwt.registerJwtSignature isInst L r
  | .other op => op.call isInst r

/-- The registry after a history. -/
def runJwt (isInst : P → C → Bool) (L : Library F P C) (ops : List (JwtOp P C)) (r : Registry P C) :
    Registry P C :=
  ops.foldl (fun r op => (op.call isInst L r).1) r

/-- After any history in which no foreign key manager for the internal JWT interfaces is registered, those
in the registry are Tink's. -/
theorem C43_registered (isInst : P → C → Bool) {L : Library F P C} (hl : LawfulLibrary L)
    (ops : List (JwtOp P C))
    (ho : ∀ m b, .other (.registerKeyManager m b) ∈ ops → m.primitiveClass ≠ L.macInternalClass ∧
      m.primitiveClass ≠ L.signInternalClass ∧ m.primitiveClass ≠ L.verifyInternalClass) :
    Managers L (runJwt isInst L ops {}) := by
  have step : ∀ ops (r : Registry P C), Managers L r →
      (∀ m b, JwtOp.other (.registerKeyManager m b) ∈ ops → m.primitiveClass ≠ L.macInternalClass ∧
        m.primitiveClass ≠ L.signInternalClass ∧ m.primitiveClass ≠ L.verifyInternalClass) →
      Managers L (runJwt isInst L ops r) := by
    intro ops
    induction ops with
    | nil => intro r h _; exact h
    | cons op ops ih =>
      intro r h ho
      refine ih _ ?_ fun m b hm => ho m b (by simp [hm])
      cases op with
      | registerJwtMac =>
        exact andThen_inv (I := Managers L) (h.hmac hl) fun r h => h.wrapper isInst _
      | registerJwtSignature =>
        refine andThen_inv (I := Managers L) ?_ fun r h =>
          andThen_inv (I := Managers L) (h.wrapper isInst _) fun r h => h.wrapper isInst _
        refine andThen_inv (I := Managers L) (h.signManager hl _ (by simp [privateReaders])) fun r h => ?_
        refine andThen_inv (I := Managers L) (h.verifyManager hl _ (by simp [publicReaders])) fun r h => ?_
        refine andThen_inv (I := Managers L) (h.signManager hl _ (by simp [privateReaders])) fun r h => ?_
        refine andThen_inv (I := Managers L) (h.verifyManager hl _ (by simp [publicReaders])) fun r h => ?_
        refine andThen_inv (I := Managers L) (h.signManager hl _ (by simp [privateReaders])) fun r h => ?_
        exact h.verifyManager hl _ (by simp [publicReaders])
      | other op =>
        cases op with
        | registerKeyManager m b =>
          obtain ⟨h1, h2, h3⟩ := ho m b (by simp)
          exact h.other b h1 h2 h3
        | registerPrimitiveWrapper w => exact h.wrapper isInst w
        | reset => exact ⟨nofun, nofun, nofun⟩
  exact step ops {} ⟨nofun, nofun, nofun⟩ ho

end

/-! ## Examples -/

section
open ToyJwt

theorem toyLawful : LawfulLibrary library :=
  ⟨by decide, by decide, by decide, fun _ => rfl, fun _ => rfl, fun _ => rfl⟩

/-- After `register_jwt_mac`, `reset`, and both registrations, one of them twice. -/
example : Managers library (runJwt isInst library [.registerJwtMac, .other .reset, .registerJwtMac,
    .registerJwtSignature, .registerJwtMac] {}) :=
  C43_registered isInst toyLawful _ (by intro m b h; simp at h)

theorem toyManagers : Managers library registry :=
  C43_registered isInst toyLawful [.registerJwtMac, .registerJwtSignature]
    (by intro m b h; simp at h)

/-- Registration succeeds and adds seven key managers and three wrappers. -/
example : raised (registerJwtMac isInst library {}).2 = none ∧
    raised (registerJwtSignature isInst library (registerJwtMac isInst library {}).1).2 = none ∧
    registry.keyManagers.length = 7 ∧ registry.wrappers.length = 3 := by decide +kernel

end

end Props
end Tink
