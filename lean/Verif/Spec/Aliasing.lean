import Verif.Heap.Jwt
import Verif.Spec.Same

/-!
# Vocabulary for objects that are shared
-/

namespace Tink
namespace Spec
open Heap Jwt

variable {F : Type}

/-- The JSON value that a value is at the moment. -/
def Is (h : Store F) (v : Val F) (j : JVal F) : Prop := ∃ n, read h n v = some j

/-- What a token says at the moment. -/
structure TokenIs (h : Store F) (t : Token F) (c : RawJwt F) : Prop where
  typeHeader : (t.typeHeader = none ∧ c.typeHeader = none) ∨
    ∃ v j, t.typeHeader = some v ∧ c.typeHeader = some j ∧ Is h v j
  payload : Is h (.ref t.payload) (.dict c.payload)

/-- A JSON value that is not a list or a dict. -/
def Plain : JVal F → Prop
  | .list _ => False
  | .dict _ => False
  | _ => True

/-- A step in which no token is made whose type header is a list or a dict. -/
def PlainHeader : Op F → Prop
  | .fromJson (some v) _ => Plain v
  | _ => True

/-- Custom claims, as objects and as values. -/
def ClaimsAre (h : Store F) :
    List (ClaimName × Option (Val F)) → List (ClaimName × ClaimValue F) → Prop
  | [], [] => True
  | (n, none) :: l, (m, .other) :: l' => n = m ∧ ClaimsAre h l l'
  | (n, some v) :: l, (m, .json j) :: l' => n = m ∧ Is h v j ∧ ClaimsAre h l l'
  | _, _ => False

/-- The arguments of `new_raw_jwt`, as objects and as values. -/
structure ArgsAre (h : Store F) (a : Args F) (b : RawJwtArgs F) : Prop where
  typeHeader : a.typeHeader = b.typeHeader
  issuer : a.issuer = b.issuer
  subject : a.subject = b.subject
  audience : a.audience = b.audience
  jwtId : a.jwtId = b.jwtId
  expiration : a.expiration = b.expiration
  withoutExpiration : a.withoutExpiration = b.withoutExpiration
  notBefore : a.notBefore = b.notBefore
  issuedAt : a.issuedAt = b.issuedAt
  audiences : (a.audiences = none ∧ b.audiences = none) ∨
    ∃ l items, a.audiences = some (.ref l) ∧ b.audiences = some items ∧ Is h (.ref l) (.list items)
  customClaims : ClaimsAre h a.customClaims b.customClaims

/-- Every object is still there, with the same contents. -/
def Unchanged (h h' : Store F) : Prop := ∀ (l : Nat) o, h[l]? = some o → h'[l]? = some o

end Spec
end Tink
