import Verif.Wrap.Wrappers

/-!
# Wrappers as registry objects

The registry holds objects of arbitrary classes.  `P` is the type of all
primitive objects; a `View P A` says that the objects with interface `A` are
among them.  The wrapper classes below are what
`Registry.register_primitive_wrapper` receives.
-/

namespace Tink
variable {P C : Type}

/-- The objects of class `A` among all objects: `inj a` is the object, `view o`
is what its methods do.  For an object `o` of another class `view o` is
arbitrary (in Python, methods raising `AttributeError`). -/
structure View (P A : Type) where
  inj : A → P
  view : P → A
  view_inj : ∀ a, view (inj a) = a

/-- The same entry, seen through an interface. -/
def Entry.map {A : Type} (f : P → A) (e : Entry P) : Entry A :=
  { primitive := f e.primitive, identifier := e.identifier, status := e.status,
    outputPrefixType := e.outputPrefixType, keyId := e.keyId }

/-- The same primitive set, seen through an interface. -/
def PrimitiveSet.map {A : Type} (f : P → A) (s : PrimitiveSet P C) : PrimitiveSet A C :=
  { primitives := s.primitives.map fun kv => (kv.1, kv.2.map (Entry.map f))
    primary? := s.primary?.map (Entry.map f)
    primitiveClass := s.primitiveClass }

/-- `AeadWrapper`, `/repo/python/tink/aead/_aead_wrapper.py:54-71`; `t` is its Python type. -/
def aeadWrapper (V : View P Aead) (t : Nat) (c : C) : PrimitiveWrapper P C where
  pyType := t
  primitiveClass := c
  inputPrimitiveClass := c
  wrap s := .ok (V.inj (WrappedAead.wrap (s.map V.view)))

/-- `DeterministicAeadWrapper`,
`/repo/python/tink/daead/_deterministic_aead_wrapper.py:57-79`. -/
def daeadWrapper (V : View P DeterministicAead) (t : Nat) (c : C) : PrimitiveWrapper P C where
  pyType := t
  primitiveClass := c
  inputPrimitiveClass := c
  wrap s := .ok (V.inj (WrappedDeterministicAead.wrap (s.map V.view)))

/-- `HybridDecryptWrapper`, `/repo/python/tink/hybrid/_hybrid_wrapper.py:50-69`. -/
def hybridDecryptWrapper (V : View P HybridDecrypt) (t : Nat) (c : C) :
    PrimitiveWrapper P C where
  pyType := t
  primitiveClass := c
  inputPrimitiveClass := c
  wrap s := .ok (V.inj (WrappedHybridDecrypt.wrap (s.map V.view)))

/-- `HybridEncryptWrapper`, `/repo/python/tink/hybrid/_hybrid_wrapper.py:86-104`. -/
def hybridEncryptWrapper (V : View P HybridEncrypt) (t : Nat) (c : C) :
    PrimitiveWrapper P C where
  pyType := t
  primitiveClass := c
  inputPrimitiveClass := c
  wrap s := .ok (V.inj (WrappedHybridEncrypt.wrap (s.map V.view)))

/-- `MacWrapper`, `/repo/python/tink/mac/_mac_wrapper.py:67-85`. -/
def macWrapper (V : View P Mac) (t : Nat) (c : C) : PrimitiveWrapper P C where
  pyType := t
  primitiveClass := c
  inputPrimitiveClass := c
  wrap s := .ok (V.inj (WrappedMac.wrap (s.map V.view)))

/-- `PublicKeySignWrapper`, `/repo/python/tink/signature/_signature_wrapper.py:52-70`. -/
def signWrapper (V : View P PublicKeySign) (t : Nat) (c : C) : PrimitiveWrapper P C where
  pyType := t
  primitiveClass := c
  inputPrimitiveClass := c
  wrap s := .ok (V.inj (WrappedPublicKeySign.wrap (s.map V.view)))

/-- `PublicKeyVerifyWrapper`, `/repo/python/tink/signature/_signature_wrapper.py:120-144`. -/
def verifyWrapper (V : View P PublicKeyVerify) (t : Nat) (c : C) : PrimitiveWrapper P C where
  pyType := t
  primitiveClass := c
  inputPrimitiveClass := c
  wrap s := .ok (V.inj (WrappedPublicKeyVerify.wrap (s.map V.view)))

/-- `PrfSetWrapper`, `/repo/python/tink/prf/_prf_set_wrapper.py:48-64`: the input primitives
are `Prf` objects (class `ci`), the result a `PrfSet` (class `c`). -/
def prfSetWrapper (V : View P Prf) (W : View P PrfSet) (t : Nat) (ci c : C) :
    PrimitiveWrapper P C where
  pyType := t
  primitiveClass := c
  inputPrimitiveClass := ci
  wrap s := do
    let set ← WrappedPrfSet.wrap (s.map V.view)
    return W.inj set

end Tink
