import Verif.Core.Registry

/-!
# Primitive interfaces

The abstract classes of the primitives.  Objects are records of their methods;
methods may raise anything.  Randomised methods take a seed.
-/

namespace Tink

/-- `Aead`, `/repo/python/tink/aead/_aead.py`. -/
structure Aead where
  encrypt : Seed → Bytes → Bytes → Py Bytes
  decrypt : Bytes → Bytes → Py Bytes

/-- `DeterministicAead`, `/repo/python/tink/daead/_deterministic_aead.py`. -/
structure DeterministicAead where
  encryptDeterministically : Bytes → Bytes → Py Bytes
  decryptDeterministically : Bytes → Bytes → Py Bytes

/-- `HybridEncrypt`, `/repo/python/tink/hybrid/_hybrid_encrypt.py`. -/
structure HybridEncrypt where
  encrypt : Seed → Bytes → Bytes → Py Bytes

/-- `HybridDecrypt`, `/repo/python/tink/hybrid/_hybrid_decrypt.py`. -/
structure HybridDecrypt where
  decrypt : Bytes → Bytes → Py Bytes

/-- `Mac`, `/repo/python/tink/mac/_mac.py`. -/
structure Mac where
  computeMac : Bytes → Py Bytes
  verifyMac : Bytes → Bytes → Py Unit

/-- `PublicKeySign`, `/repo/python/tink/signature/_public_key_sign.py`. -/
structure PublicKeySign where
  sign : Seed → Bytes → Py Bytes

/-- `PublicKeyVerify`, `/repo/python/tink/signature/_public_key_verify.py`. -/
structure PublicKeyVerify where
  verify : Bytes → Bytes → Py Unit

/-- `Prf`, `/repo/python/tink/prf/_prf_set.py:20-59`. -/
structure Prf where
  compute : Bytes → Nat → Py Bytes

/-- `PrfSet`, `/repo/python/tink/prf/_prf_set.py:62-79`. -/
structure PrfSet where
  primaryId : Py UInt32
  all : Py (PyDict UInt32 Prf)
  primary : Py Prf

end Tink
