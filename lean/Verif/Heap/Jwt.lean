import Verif.Heap.Objects
import Verif.Jwt.Raw

/-!
# `tink/jwt/_raw_jwt.py`, with objects

`Jwt/Raw.lean` again, with lists and dicts as objects.  `VerifiedJwt` keeps a `RawJwt` and passes on what its
methods return (python/tink/jwt/_verified_jwt.py 45-100).

A call that raises leaves no object behind that anybody could see; such objects are left out.
-/

namespace Tink
namespace Heap
open Jwt Json JsonUtil

variable {F : Type}

/-- A `RawJwt` (python/tink/jwt/_raw_jwt.py 48-74): the type header, and the address of the payload. -/
structure Token (F : Type) where
  typeHeader : Option (Val F)
  payload : Nat

/-- The payload of a token. -/
def Token.entries (h : Store F) (t : Token F) : List (PyStr × Val F) :=
  match h[t.payload]? with
  | some (.dict d) => d
  | _ => []

/-! ## Checks -/

/-- `_validate_string_claim` (python/tink/jwt/_raw_jwt.py 76-79). -/
def stringClaim (p : List (PyStr × Val F)) (name : PyStr) : Py Unit :=
  match PyDict.get? p name with
  | none => .ok ()
  | some (.str _) => .ok ()
  | some _ => .error .jwtInvalidError

/-- `_validate_timestamp_claim` (python/tink/jwt/_raw_jwt.py 81-88). -/
def timestampClaim (fl : Floats F) (p : List (PyStr × Val F)) (name : PyStr) : Py Unit :=
  match PyDict.get? p name with
  | none => .ok ()
  | some (.bool _) => .ok ()
  | some (.int n) => if n > maxTimestamp ∨ n < 0 then .error .jwtInvalidError else .ok ()
  | some (.float x) => if outOfRange fl x then .error .jwtInvalidError else .ok ()
  | some _ => .error .jwtInvalidError

/-- `isinstance(value, str)`. -/
def isStr : Val F → Bool
  | .str _ => true
  | _ => false

/-- `_validate_audience_claim` (python/tink/jwt/_raw_jwt.py 90-99). -/
def audienceClaim (h : Store F) (p : List (PyStr × Val F)) : Py Unit :=
  match PyDict.get? p (py! "aud") with
  | none => .ok ()
  | some (.str _) => .ok ()
  | some (.ref l) =>
    match h[l]? with
    | some (.list items) =>
      if items.isEmpty then .error .jwtInvalidError
      else if items.all isStr then .ok ()
      else .error .jwtInvalidError
    | _ => .error .jwtInvalidError
  | some _ => .error .jwtInvalidError

/-- The checks of `RawJwt.__init__` (python/tink/jwt/_raw_jwt.py 68-74). -/
def checkPayload (fl : Floats F) (h : Store F) (p : List (PyStr × Val F)) : Py Unit := do
  stringClaim p (py! "iss")
  stringClaim p (py! "sub")
  stringClaim p (py! "jti")
  timestampClaim fl p (py! "exp")
  timestampClaim fl p (py! "nbf")
  timestampClaim fl p (py! "iat")
  audienceClaim h p

/-- `RawJwt.__init__` (python/tink/jwt/_raw_jwt.py 60-74): the payload is not copied. -/
def initToken (fl : Floats F) (h : Store F) (typeHeader : Option (Val F)) (payload : Val F) :
    Py (Token F × Store F) :=
  match payload with
  | .ref l =>
    match h[l]? with
    | some (.dict p) =>
      match checkPayload fl h p with
      | .error e => .error e
      | .ok () => .ok (⟨typeHeader, l⟩, h)
    | _ => .error .jwtInvalidError
  | _ => .error .jwtInvalidError

/-! ## Creation -/

/-- The arguments of `new_raw_jwt` (python/tink/jwt/_raw_jwt.py 234-245): those that are lists or dicts, or
contain them, as objects.  The dict of custom claims is given by its items; a value of another type is
`none`. -/
structure Args (F : Type) where
  typeHeader : Option PyStr := none
  issuer : Option PyStr := none
  subject : Option PyStr := none
  audience : Option PyStr := none
  audiences : Option (Val F) := none
  jwtId : Option PyStr := none
  expiration : Option DateTime := none
  withoutExpiration : Bool := false
  notBefore : Option DateTime := none
  issuedAt : Option DateTime := none
  customClaims : List (ClaimName × Option (Val F)) := []

/-- Puts a claim into the payload, if it is given. -/
def put (d : List (PyStr × Val F)) (name : PyStr) : Option (Val F) → List (PyStr × Val F)
  | none => d
  | some v => PyDict.set d name v

/-- A string that is given and not empty, as a claim. -/
def nonEmptyText : Option PyStr → Option (Val F)
  | some (c :: s) => some (.str (c :: s))
  | _ => none

/-- A time as a claim. -/
def timeVal : Option DateTime → Py (Option (Val F))
  | none => .ok none
  | some t =>
    match fromDatetime t with
    | .ok n => .ok (some (.int n))
    | .error e => .error e

/-- `copy.copy(audiences)` (python/tink/jwt/_raw_jwt.py 201-202). -/
def copyAudiences (h : Store F) : Option (Val F) → Option (Val F) × Store F
  | none => (none, h)
  | some v => (some (copyShallow h v).1, (copyShallow h v).2)

/-- What is stored for a custom claim (python/tink/jwt/_raw_jwt.py 214-219): of a list or dict what
`json.loads(json.dumps(value))` returns.  `json.dumps` raises `ValueError` for an object that contains
itself. -/
def storedVal (env : JsonEnv F) (h : Store F) : Val F → Py (Val F × Store F)
  | .ref l =>
    match readAll h (.ref l) with
    | none => .error .valueError
    | some v =>
      match dumps env v with
      | .error e => .error e
      | .ok text =>
        match loads env text with
        | .error e => .error e
        | .ok w => .ok (alloc h w)
  | v => .ok (v, h)

/-- The loop over the custom claims (python/tink/jwt/_raw_jwt.py 210-221). -/
def addCustom (env : JsonEnv F) (h : Store F) (d : List (PyStr × Val F)) :
    List (ClaimName × Option (Val F)) → Py (List (PyStr × Val F) × Store F)
  | [] => .ok (d, h)
  | (.other, _) :: _ => .error .jwtInvalidError
  | (.str name, value) :: rest =>
    if name ∈ registeredNames then .error .jwtInvalidError
    else
      match value with
      | none => .error .jwtInvalidError
      | some v =>
        match storedVal env h v with
        | .error e => .error e
        | .ok (w, h') => addCustom env h' (PyDict.set d name w) rest

/-- The payload without the claims that are times (python/tink/jwt/_raw_jwt.py 192-202). -/
def baseEntries (a : Args F) (audiences : Option (Val F)) : List (PyStr × Val F) :=
  put (put (put (put (put [] (py! "iss") (nonEmptyText a.issuer))
    (py! "sub") (nonEmptyText a.subject)) (py! "jti") (a.jwtId.map .str)) (py! "aud") (a.audience.map .str))
    (py! "aud") audiences

/-- `RawJwt.create` and `new_raw_jwt` (python/tink/jwt/_raw_jwt.py 169-224, 234-258). -/
def create (env : JsonEnv F) (h : Store F) (a : Args F) : Py (Token F × Store F) :=
  if a.expiration.isNone && !a.withoutExpiration then .error .valueError
  else if a.expiration.isSome && a.withoutExpiration then .error .valueError
  else if a.audience.isSome && a.audiences.isSome then .error .jwtInvalidError
  else do
    let exp ← timeVal a.expiration
    let nbf ← timeVal a.notBefore
    let iat ← timeVal a.issuedAt
    let r ← addCustom env (copyAudiences h a.audiences).2
      (put (put (put (baseEntries a (copyAudiences h a.audiences).1) (py! "exp") exp) (py! "nbf") nbf)
        (py! "iat") iat) a.customClaims
    initToken env.floats (r.2 ++ [.dict r.1]) (a.typeHeader.map .str) (.ref r.2.length)

/-- The objects of a type header that was read from the header of a token. -/
def allocHeader (h : Store F) : Option (JVal F) → Option (Val F) × Store F
  | none => (none, h)
  | some v => (some (alloc h v).1, (alloc h v).2)

/-- `_from_json` and `raw_jwt_from_json` (python/tink/jwt/_raw_jwt.py 226-231, 261-263), which
verification uses; the type header is part of what `json_loads` returned for the header. -/
def fromJson (env : JsonEnv F) (h : Store F) (typeHeader : Option (JVal F)) (payload : PyStr) :
    Py (Token F × Store F) :=
  match jsonLoads env payload with
  | .error e => .error e
  | .ok v => initToken env.floats (alloc (allocHeader h typeHeader).2 v).2 (allocHeader h typeHeader).1
      (alloc (allocHeader h typeHeader).2 v).1

/-! ## What the methods return -/

/-- `issuer`, `subject`, `jwt_id` (python/tink/jwt/_raw_jwt.py 112-113, 118-119, 133-134): what is in the
payload. -/
def claimOf (h : Store F) (t : Token F) (name : PyStr) : Py (Val F) :=
  match PyDict.get? (t.entries h) name with
  | some v => .ok v
  | none => .error .keyError

/-- `type_header` (python/tink/jwt/_raw_jwt.py 104-107): it is not copied. -/
def typeHeaderOf (t : Token F) : Py (Val F) :=
  match t.typeHeader with
  | some v => .ok v
  | none => .error .keyError

/-- `audiences` (python/tink/jwt/_raw_jwt.py 124-128): a new list. -/
def audiencesOf (h : Store F) (t : Token F) : Py (Val F × Store F) :=
  match claimOf h t (py! "aud") with
  | .error e => .error e
  | .ok (.str s) => .ok (.ref h.length, h ++ [.list [.str s]])
  | .ok (.ref l) =>
    match h[l]? with
    | some (.list items) => .ok (.ref h.length, h ++ [.list items])
    | _ => .error .typeError
  | .ok _ => .error .typeError

/-- `copy.deepcopy` of a list or dict without cycles; objects that occur twice, which there are none of in
what `json.loads` returns, would be copied twice. -/
def deepcopy (h : Store F) (v : Val F) : Py (Val F × Store F) :=
  match readAll h v with
  | some j => .ok (alloc h j)
  | none => .error .recursionError

/-- `custom_claim` (python/tink/jwt/_raw_jwt.py 157-163). -/
def customClaimOf (h : Store F) (t : Token F) (name : PyStr) : Py (Val F × Store F) :=
  if name ∈ registeredNames then .error .jwtInvalidError
  else
    match claimOf h t name with
    | .error e => .error e
    | .ok (.ref l) => deepcopy h (.ref l)
    | .ok v => .ok (v, h)

/-! ## A program that uses tokens -/

/-- The objects, the addresses that the program has got hold of, and the tokens. -/
structure World (F : Type) where
  store : Store F := []
  known : List Nat := []
  tokens : List (Token F) := []

/-- What a program can do: with objects it has got hold of, and with tokens. -/
inductive Op (F : Type) where
  /-- `x = [...]` or `x = {...}` -/
  | new (o : Obj F)
  /-- Changes an object in any way. -/
  | set (l : Nat) (o : Obj F)
  /-- Looks at what an object contains. -/
  | look (l : Nat)
  | create (a : Args F)
  | fromJson (typeHeader : Option (JVal F)) (payload : PyStr)
  | typeHeader (i : Nat)
  | issuer (i : Nat)
  | subject (i : Nat)
  | jwtId (i : Nat)
  | audiences (i : Nat)
  | customClaim (i : Nat) (name : PyStr)

/-- The addresses among some values. -/
def addrs (vs : List (Val F)) : List Nat := vs.filterMap Val.addr?

/-- The addresses in the arguments of `new_raw_jwt`. -/
def Args.addrs (a : Args F) : List Nat :=
  Heap.addrs (a.audiences.toList ++ a.customClaims.filterMap Prod.snd)

/-- The program gets hold of a value. -/
def World.learn (w : World F) (v : Val F) : World F := { w with known := addrs [v] ++ w.known }

/-- The value that a method of the `i`-th token returns. -/
def World.get (w : World F) (i : Nat) (f : Token F → Py (Val F × Store F)) : World F :=
  match w.tokens[i]? with
  | none => w
  | some t =>
    match f t with
    | .error _ => w
    | .ok (v, h) => { w with store := h }.learn v

/-- A token is made. -/
def World.make (w : World F) : Py (Token F × Store F) → World F
  | .error _ => w
  | .ok (t, h) => { w with store := h, tokens := w.tokens ++ [t] }

/-- A method that returns a part of the token. -/
def part (h : Store F) : Py (Val F) → Py (Val F × Store F)
  | .error e => .error e
  | .ok v => .ok (v, h)

/-- One step of a program.  A program cannot make up addresses: without having got hold of the objects,
nothing happens. -/
def step (env : JsonEnv F) (w : World F) : Op F → World F
  | .new o =>
    if addrs o.vals ⊆ w.known then
      { w with store := w.store ++ [o], known := w.store.length :: w.known }
    else w
  | .set l o =>
    if l ∈ w.known ∧ addrs o.vals ⊆ w.known then { w with store := w.store.set l o } else w
  | .look l =>
    if l ∈ w.known then
      match w.store[l]? with
      | some o => { w with known := addrs o.vals ++ w.known }
      | none => w
    else w
  | .create a => if a.addrs ⊆ w.known then w.make (create env w.store a) else w
  | .fromJson typeHeader payload => w.make (fromJson env w.store typeHeader payload)
  | .typeHeader i => w.get i fun t => part w.store (typeHeaderOf t)
  | .issuer i => w.get i fun t => part w.store (claimOf w.store t (py! "iss"))
  | .subject i => w.get i fun t => part w.store (claimOf w.store t (py! "sub"))
  | .jwtId i => w.get i fun t => part w.store (claimOf w.store t (py! "jti"))
  | .audiences i => w.get i (audiencesOf w.store)
  | .customClaim i name => w.get i fun t => customClaimOf w.store t name

/-- A run of a program. -/
def run (env : JsonEnv F) (w : World F) (ops : List (Op F)) : World F := ops.foldl (step env) w

end Heap
end Tink
