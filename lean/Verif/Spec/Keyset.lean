import Verif.Keyset.Handle

/-!
# Specification vocabulary for keysets and keyset primitives

Small definitions used in the statements of the properties.  They do not mention
primitive sets, identifiers or entries.
-/

namespace Tink.Spec

variable {P C : Type}

/-- A key that may be used. -/
def Enabled (k : Key) : Prop := k.status = KeyStatusType.ENABLED

instance (k : Key) : Decidable (Enabled k) := by unfold Enabled; infer_instance

/-- `kps` lists the enabled keys of `ks`, in keyset order, each with the primitive
that the registry creates from its key data. -/
def EnabledPrimitives [DecidableEq C] (r : Registry P C) (cls : C) (ks : Keyset)
    (kps : List (Key × P)) : Prop :=
  kps.map Prod.fst = ks.key.filter (fun k => Enabled k) ∧
  ∀ q ∈ kps, r.primitive q.1.data cls = .ok q.2

/-- `q` is the enabled key with the primary id (the last one, should there be several). -/
def IsPrimary {A : Type} (ks : Keyset) (kps : List (Key × A)) (q : Key × A) : Prop :=
  (kps.filter (fun q => q.1.keyId = ks.primaryKeyId)).getLast? = some q

/-- What a key is given of a ciphertext, tag or signature `x`: a RAW key gets all
of it; any other key gets what follows its own prefix, provided that `x` starts
with that prefix and something follows. -/
def payload (k : Key) (x : Bytes) : Option Bytes :=
  match outputPrefix k with
  | .ok [] => some x
  | .ok p => if p <+: x ∧ p.length < x.length then some (x.drop p.length) else none
  | .error _ => none

/-- The order in which the keys are tried: keys with a prefix first, then RAW
keys, each group in keyset order. -/
def tryOrder {A : Type} (kps : List (Key × A)) : List (Key × A) :=
  kps.filter (fun q => q.1.outputPrefixType ≠ OutputPrefixType.RAW) ++
  kps.filter (fun q => q.1.outputPrefixType = OutputPrefixType.RAW)

/-- The keys grouped by output prefix: the groups in the order in which their first key appears,
each group in keyset order. -/
def groupOrder {A : Type} (kps : List (Key × A)) : List (Key × A) :=
  ((kps.filterMap (fun q => (outputPrefix q.1).toOption)).eraseDups).flatMap
    fun id => kps.filter (fun q => (outputPrefix q.1).toOption = some id)

/-- The outcome is a refusal by `TinkError` (or a subclass). -/
def Rejects {α : Type} (x : Py α) : Prop := ∃ e, x = .error e ∧ e.isTink = true

/-- The first outcome that is not a refusal; a `TinkError` if there is none. -/
def firstNonTink {α : Type} : List (Py α) → Py α
  | [] => .error .tinkError
  | .ok a :: _ => .ok a
  | .error e :: xs => if e.isTink then firstNonTink xs else .error e

/-- The outcomes of the keys that `x` concerns, in the order in which they are tried:
`f k a body` is what key `k` with primitive `a` does with its part of `x`. -/
def outcomes {A α : Type} (f : Key → A → Bytes → Py α) (kps : List (Key × A)) (x : Bytes) :
    List (Py α) :=
  (tryOrder kps).filterMap fun q => (payload q.1 x).map (f q.1 q.2)

/-- The data that a key authenticates: LEGACY keys append a zero byte. -/
def authenticated (k : Key) (data : Bytes) : Bytes :=
  if k.outputPrefixType = OutputPrefixType.LEGACY then data ++ [0] else data

end Tink.Spec

namespace Tink.Spec
variable {P C : Type}

/-- The primitive `p` of class `c` was obtained from the handle `h` with
`h.primitive(c)`, the registry's wrapper for `c` being `W`; `kps` lists the enabled
keys of the keyset, in order, with the primitive that the registry creates for
each. -/
structure Obtained [DecidableEq C] (isInst : P → C → Bool) (W : PrimitiveWrapper P C)
    (r : Registry P C) (h : KeysetHandle) (c : C) (kps : List (Key × P)) (p : P) : Prop where
  wrapper : PyDict.get? r.wrappers c = some W
  primitive : h.primitive isInst r c = .ok p
  keys : EnabledPrimitives r W.inputPrimitiveClass h.keyset kps

end Tink.Spec
