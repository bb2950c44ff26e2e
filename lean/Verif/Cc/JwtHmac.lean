import Verif.Cc.KeyManagers
import Verif.Jwt.KeyManagers

/-!
# The C++ key manager for JWT MAC keys, and C++ key managers as the JWT key managers see them

`/repo/cc/jwt/internal/raw_jwt_hmac_key_manager.{h,cc}`, which `/repo/python/tink/cc/cc_jwt_config.cc:31-34`
registers, and `/repo/python/tink/cc/cc_key_manager.h`.  `DeriveKey` is left out.
-/

namespace Tink.Cc
open Cpp

namespace RawJwtHmacKeyManager

/-- `MinimumKeySize`, `/repo/cc/jwt/internal/raw_jwt_hmac_key_manager.cc:50-62`. -/
def minimumKeySize (algorithm : EnumVal) : StatusOr Nat :=
  if algorithm = JwtHmacAlgorithm.HS256 then .ok 32
  else if algorithm = JwtHmacAlgorithm.HS384 then .ok 48
  else if algorithm = JwtHmacAlgorithm.HS512 then .ok 64
  else invalidArgument

/-- `ValidateKey`, lines 83-95. -/
def validateKey (k : JwtHmacKey) : StatusOr Unit := do
  validateVersion k.version 0
  let min ← minimumKeySize k.algorithm
  if k.keyValue.length < min then invalidArgument else .ok ()

/-- `ValidateKeyFormat`, lines 98-109. -/
def validateKeyFormat (f : JwtHmacKeyFormat) : StatusOr Unit := do
  let min ← minimumKeySize f.algorithm
  if f.keySize.toNat < min then invalidArgument else .ok ()

/-- `CreateKey`, lines 66-74. -/
def createKey (lib : Ssl) (seed : Seed) (f : JwtHmacKeyFormat) : StatusOr JwtHmacKey :=
  .ok { version := 0, algorithm := f.algorithm, keyValue := lib.random seed 0 f.keySize.toNat }

/-- `MacFactory::Create`, `/repo/cc/jwt/internal/raw_jwt_hmac_key_manager.h:55-80`. -/
def create (lib : Ssl) (k : JwtHmacKey) : StatusOr Cpp.Mac :=
  if k.algorithm = JwtHmacAlgorithm.HS256 then hmacNew lib HashType.SHA256 32 k.keyValue
  else if k.algorithm = JwtHmacAlgorithm.HS384 then hmacNew lib HashType.SHA384 48 k.keyValue
  else if k.algorithm = JwtHmacAlgorithm.HS512 then hmacNew lib HashType.SHA512 64 k.keyValue
  else invalidArgument

/-- The key type manager, lines 50-115. -/
def keyTypeManager (lib : Ssl) : KeyTypeManager JwtHmacKey JwtHmacKeyFormat Cpp.Mac where
  keyType := ps! "type.googleapis.com/google.crypto.tink.JwtHmacKey"
  keyMaterialType := KeyMaterialType.SYMMETRIC
  parseKey := JwtHmacKey.fromString
  serializeKey := JwtHmacKey.serializeToString
  parseKeyFormat := JwtHmacKeyFormat.fromString
  validateKey := validateKey
  validateKeyFormat := validateKeyFormat
  createKey := createKey lib
  create := create lib

end RawJwtHmacKeyManager

end Tink.Cc

namespace Tink.Jwt

/-- A C++ key manager as seen by the JWT key managers in Python: `CcKeyManager`,
`/repo/python/tink/cc/cc_key_manager.h:48-115`; `toPy` shows a C++ primitive.  All calls are in functions with
the decorator `use_tink_errors`, e.g. `/repo/python/tink/jwt/_jwt_hmac_key_manager.py:48-54, 108-120, 125-129`,
which is here around the call itself: it leaves the other exceptions of these functions as they are. -/
def boundKeyManager {A B : Type} (toPy : B → A) (m : Cpp.KeyManager B) : CcKeyManager A where
  keyType := m.keyType
  primitive b := useTinkErrors (do
    let p ← Tink.CcKeyManager.primitive m b
    return toPy p)
  newKeyData seed b := useTinkErrors (Tink.CcKeyManager.newKeyData m seed b)
  publicKeyData b := useTinkErrors (Tink.CcKeyManager.publicKeyData m b)

end Tink.Jwt
