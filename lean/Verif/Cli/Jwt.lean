import Verif.Cli.Programs
import Verif.Jwt.Register
import Verif.Jwt.JwkSet
import Verif.Jwt.Verified

/-!
# The example programs for JWTs

`/repo/python/examples/jwt`: `jwt_sign_cli.py`, `jwt_generate_public_jwk_set.py` and
`jwt_verify_cli.py`.

As in `Verif.Cli.Programs`, every program is a process of its own, and flags marked as required are
given.  Times are in microseconds since 1970.
-/

namespace Tink.Cli
open Jwt Jwk

section
variable {F P C κ : Type} [DecidableEq C]

/-- `jwt.register_jwt_signature()`, in a new process. -/
def jwtRegistered (L : Jwt.Library F P C) (isInst : P → C → Bool) : Run κ (Registry P C) :=
  match registerJwtSignature isInst L {} with
  | (_, .error e) => Run.lift (.error e)
  | (r, .ok ()) => pure r

/-- `main`, `jwt_sign_cli.py:39-72`.  `now` is the time of line 56. -/
def jwtSignCli (L : Jwt.Library F P C) (isInst : P → C → Bool) (E : JsonFormatEnv F) (os : Os)
    (seed : Seed) (now : Int) (keysetPath : Path) (audience : PyStr) (tokenPath : Path) :
    Run κ Exit := do
  let r ← jwtRegistered L isInst
  withKeyset E os keysetPath fun h =>
    tryTink (h.primitive isInst r L.signClass) fun p => do
      let expiration ← Run.lift (DateTime.add { wall := now, tz := utc } 100000000)
      let raw ← Run.lift (newRawJwt L.env.json
        { audiences := some [.str audience], expiration := some expiration })
      let token ← Run.lift ((L.sign.view p).signAndEncode seed raw)
      openWrite os tokenPath
      writeText os tokenPath token
      return none

/-- `main`, `jwt_generate_public_jwk_set.py:33-55`. -/
def jwkSetCli (L : Jwt.Library F P C) (isInst : P → C → Bool) (E : JsonFormatEnv F) (os : Os)
    (keysetPath jwkSetPath : Path) : Run κ Exit := do
  let _ ← jwtRegistered L isInst
  let text ← readText os keysetPath
  tryTink (JsonProtoKeysetFormat.parseWithoutSecret E text) fun h => do
    let jwkSet ← Run.lift (fromPublicKeysetHandle L.env.json h)
    openWrite os jwkSetPath
    writeText os jwkSetPath jwkSet
    return none

/-- `jwt.jwk_set_to_public_keyset_handle(text)`.  `draws` are the key ids that it draws; it draws as
long as there are any. -/
def importJwkSet (env : JsonEnv F) (draws : List UInt32) (text : PyStr) : Py KeysetHandle :=
  match toPublicKeysetHandle env draws text with
  | none => .error (.other 0)
  | some x => x

/-- The `try` block of `jwt_verify_cli.py:62-66`.  The difference of two times cannot fail. -/
def verifyToken (L : Jwt.Library F P C) (p : P) (clock : Int) (token : PyStr) (v : JwtValidator) :
    Py Unit := do
  let verified ← (L.verify.view p).verifyAndDecode clock token v
  let _ ← (verified.api L.env.json.floats).expiration
  return ()

/-- `main`, `jwt_verify_cli.py:37-69`.  `clock` is the time at which the token is validated; that of
line 51 is only used for a log message.  The first path is not required. -/
def jwtVerifyCli (L : Jwt.Library F P C) (isInst : P → C → Bool) (os : Os) (draws : List UInt32)
    (clock : Int) (jwkSetPath : Option Path) (audience : PyStr) (tokenPath : Path) : Run κ Exit := do
  let r ← jwtRegistered L isInst
  let path ← givenPath jwkSetPath
  let text ← readText os path
  tryTink (importJwkSet L.env.json draws text) fun h =>
    tryTink (h.primitive isInst r L.verifyClass) fun p => do
      let token ← readText os tokenPath
      let v ← Run.lift (newValidator { expectedAudience := some audience })
      tryTink (verifyToken L p clock token v) fun _ => return some 0

end

end Tink.Cli
