import Verif.Cli.Jwt
import Verif.Spec.Cli
import Verif.Spec.JwkSet
import Verif.Spec.Jwt

/-!
# Vocabulary for C86: the example programs for JWTs
-/

namespace Tink.Spec
open Cli Jwt Jwk

section
variable {F P C κ : Type} [DecidableEq C]

/-- The file at the path can be read, and holds this text. -/
def TextFile (os : Os) (files : Nat → Option Bytes) (path : Path) (text : PyStr) : Prop :=
  ∃ b, FileHolds os files path b ∧ TextOf b text

/-- The file at the path can be read, and is a keyset without secrets in the JSON format. -/
def PublicKeysetFile (E : JsonFormatEnv F) (os : Os) (files : Nat → Option Bytes) (path : Path)
    (h : KeysetHandle) : Prop :=
  ∃ text, TextFile os files path text ∧ JsonProtoKeysetFormat.parseWithoutSecret E text = .ok h

/-- The registry of a process that has called `register_jwt_signature()`. -/
def jwtRegistry (L : Jwt.Library F P C) (isInst : P → C → Bool) : Registry P C :=
  (registerJwtSignature isInst L {}).1

/-- `token` is signed by the keyset, at the time `now`: for the audience, and to expire 100 seconds
later. -/
def TokenFor (L : Jwt.Library F P C) (isInst : P → C → Bool) (h : KeysetHandle) (seed : Seed) (now : Int)
    (audience token : PyStr) : Prop :=
  ∃ p raw, h.primitive isInst (jwtRegistry L isInst) L.signClass = .ok p ∧
    Representable ⟨now, utc⟩ 100000000 ∧
    newRawJwt L.env.json { audiences := some [.str audience], expiration := some ⟨now + 100000000, utc⟩ } =
      .ok raw ∧
    (L.sign.view p).signAndEncode seed raw = .ok token

/-- The keyset accepts the token at the time `clock`, for the audience. -/
def Accepts (L : Jwt.Library F P C) (isInst : P → C → Bool) (h : KeysetHandle) (clock : Int)
    (audience token : PyStr) : Prop :=
  ∃ p v a, h.primitive isInst (jwtRegistry L isInst) L.verifyClass = .ok p ∧
    newValidator { expectedAudience := some audience } = .ok v ∧
    (L.verify.view p).verifyAndDecode clock token v = .ok a

/-- The public key belongs to the private key: same id, type of prefix, algorithm and custom kid, and
its signatures are right. -/
structure PublicKeyOf (L : Jwt.Library F P C) (k k' : Key) : Prop where
  keyId : k'.keyId = k.keyId
  outputPrefixType : k'.outputPrefixType = k.outputPrefixType
  same : ∃ alg kid, SignKey k.data alg kid ∧ VerifyKey k'.data alg kid
  signatures : ∀ data data' signer verifier,
    k.data.serializeToString = .ok data → (L.ccSign k.data.typeUrl).primitive data = .ok signer →
    k'.data.serializeToString = .ok data' → (L.ccVerify k'.data.typeUrl).primitive data' = .ok verifier →
    ∀ seed d sig, signer.sign seed d = .ok sig → verifier.verify sig d = .ok ()

end

end Tink.Spec
