import Verif.Py.Dict
import Verif.Py.Lit
import Verif.Py.Utf8
import Verif.Core.Proto
import Verif.Wrap.Primitives

/-!
# Fake primitives for tests

`/repo/python/tink/testing/helper.py`.  Each fake is a function of its name; the names that the
constructors default to are the `…Name` below.  Exceptions in `encode` and `decode` are
`UnicodeEncodeError` and `UnicodeDecodeError`.
-/

namespace Tink.Testing

/-- `b.split(b'|')`, for any one-byte separator. -/
def split (sep : UInt8) : Bytes → List Bytes
  | [] => [[]]
  | b :: bs =>
    if b = sep then [] :: split sep bs
    else
      match split sep bs with
      | [] => [[b]]
      | w :: ws => (b :: w) :: ws

/-- `b'|'`. -/
def bar : UInt8 := 124

/-! ## MAC and signatures -/

/-- `FakeMac.compute_mac`, `helper.py:80-81`, and `FakePublicKeySign.sign`, `helper.py:159-160`. -/
def fakeTag (name : PyStr) (data : Bytes) : Py Bytes := do
  let n ← utf8Encode name
  return data ++ [bar] ++ n

/-- `FakeMac.verify_mac`, `helper.py:83-85`, and `FakePublicKeyVerify.verify`, `helper.py:169-171`: the
message of the exception contains the decoded tag. -/
def fakeVerify (name : PyStr) (tag data : Bytes) : Py Unit := do
  let n ← utf8Encode name
  if tag ≠ data ++ [bar] ++ n then
    let _ ← utf8Decode tag
    .error .tinkError
  else return ()

/-- `FakeMac`, `helper.py:74-85`. -/
def fakeMac (name : PyStr) : Mac where
  computeMac data := fakeTag name data
  verifyMac tag data := fakeVerify name tag data

/-- `FakePublicKeySign`, `helper.py:153-160`. -/
def fakePublicKeySign (name : PyStr) : PublicKeySign where
  sign _ data := fakeTag name data

/-- `FakePublicKeyVerify`, `helper.py:163-171`. -/
def fakePublicKeyVerify (name : PyStr) : PublicKeyVerify where
  verify sig data := fakeVerify name sig data

/-- The default name, `helper.py:77`. -/
def fakeMacName : PyStr := py! "FakeMac"
/-- The default name, `helper.py:156`. -/
def fakePublicKeySignName : PyStr := py! "FakePublicKeySign"
/-- The default name, `helper.py:166`. -/
def fakePublicKeyVerifyName : PyStr := py! "FakePublicKeyVerify"

/-! ## Encryption -/

/-- `FakeAead.encrypt`, `helper.py:94-95`; `FakeDeterministicAead.encrypt_deterministically`,
`helper.py:112-114`; `FakeHybridEncrypt.encrypt`, `helper.py:149-150`. -/
def fakeEncrypt (name : PyStr) (plaintext ad : Bytes) : Py Bytes := do
  let n ← utf8Encode name
  return plaintext ++ [bar] ++ ad ++ [bar] ++ n

/-- `raise core.TinkError('failed to decrypt ciphertext ' + ciphertext.decode())`. -/
def failedToDecrypt (ciphertext : Bytes) : Py Bytes := do
  let _ ← utf8Decode ciphertext
  .error .tinkError

/-- `FakeAead.decrypt`, `helper.py:97-103`; `FakeDeterministicAead.decrypt_deterministically`,
`helper.py:116-124`; `FakeHybridDecrypt.decrypt`, `helper.py:133-140`.  The name is encoded only if the
other conditions hold. -/
def fakeDecrypt (name : PyStr) (ciphertext ad : Bytes) : Py Bytes :=
  match split bar ciphertext with
  | d0 :: d1 :: d2 :: _ =>
    if d1 ≠ ad then failedToDecrypt ciphertext
    else do
      let n ← utf8Encode name
      if d2 ≠ n then failedToDecrypt ciphertext else return d0
  | _ => failedToDecrypt ciphertext

/-- `FakeAead`, `helper.py:88-103`. -/
def fakeAead (name : PyStr) : Aead where
  encrypt _ pt ad := fakeEncrypt name pt ad
  decrypt ct ad := fakeDecrypt name ct ad

/-- `FakeDeterministicAead`, `helper.py:106-124`. -/
def fakeDeterministicAead (name : PyStr) : DeterministicAead where
  encryptDeterministically pt ad := fakeEncrypt name pt ad
  decryptDeterministically ct ad := fakeDecrypt name ct ad

/-- `FakeHybridEncrypt`, `helper.py:143-150`. -/
def fakeHybridEncrypt (name : PyStr) : HybridEncrypt where
  encrypt _ pt info := fakeEncrypt name pt info

/-- `FakeHybridDecrypt`, `helper.py:127-140`. -/
def fakeHybridDecrypt (name : PyStr) : HybridDecrypt where
  decrypt ct info := fakeDecrypt name ct info

/-- The default name, `helper.py:91`. -/
def fakeAeadName : PyStr := py! "FakeAead"
/-- The default name, `helper.py:109`. -/
def fakeDeterministicAeadName : PyStr := py! "FakeDeterministicAead"
/-- The default name of both classes, `helper.py:130,146`. -/
def fakeHybridName : PyStr := py! "Hybrid"

/-! ## PRF -/

/-- `output[:n]` for an `int` that may be negative. -/
def sliceTo (b : Bytes) (n : Int) : Bytes :=
  if n < 0 then b.take (b.length + n).toNat else b.take n.toNat

/-- `FakePrf.compute`, `helper.py:180-186`.  `range(n)` is empty for negative `n`. -/
def fakeCompute (name : PyStr) (input : Bytes) (outputLength : Int) : Py Bytes :=
  if outputLength > 32 then .error .tinkError
  else do
    let n ← utf8Encode name
    let output := input ++ [bar] ++ n ++ [bar] ++ List.replicate outputLength.toNat 42
    return sliceTo output outputLength

/-- `FakePrf`, `helper.py:174-186`, for lengths that are not negative. -/
def fakePrf (name : PyStr) : Prf where
  compute input n := fakeCompute name input n

/-- `FakePrfSet`, `helper.py:189-202`. -/
def fakePrfSet (name : PyStr) : PrfSet where
  primaryId := .ok 0
  all := .ok [(0, fakePrf name)]
  primary := .ok (fakePrf name)

/-! ## Keys and test data -/

/-- `fake_key`, `helper.py:54-71`.  The arguments are of the right types and in the ranges of the fields. -/
def fakeKey (value : Bytes := by! "fakevalue") (typeUrl : PStr := ps! "fakeurl")
    (keyMaterialType : EnumVal := KeyMaterialType.SYMMETRIC) (keyId : UInt32 := 1234)
    (status : EnumVal := KeyStatusType.ENABLED) (outputPrefixType : EnumVal := OutputPrefixType.TINK) : Key where
  keyData := some { typeUrl := typeUrl, value := value, keyMaterialType := keyMaterialType }
  status := status
  keyId := keyId
  outputPrefixType := outputPrefixType

/-- `os.path.join(a, b)` on POSIX, for a `b` that is not absolute. -/
def pathJoin (a b : PyStr) : PyStr :=
  if a = [] ∨ a.getLast? = some 47 then a ++ b else a ++ [47] ++ b

/-- `tink_py_testdata_path`, `helper.py:32-51`; `environ` is `os.environ`, `pathExists` is
`os.path.exists`.  `FileNotFoundError` is an `OSError`. -/
def tinkPyTestdataPath (environ : PyDict PyStr PyStr) (pathExists : PyStr → Bool) : Py PyStr :=
  let first := match PyDict.get? environ (py! "TINK_PYTHON_ROOT_PATH") with
    | some v => [pathJoin v (py! "testdata")]
    | none => []
  let second := match PyDict.get? environ (py! "TEST_SRCDIR") with
    | some v => [pathJoin v (py! "tink_py/testdata")]
    | none => []
  match first ++ second with
  | [] => .error .valueError
  | p :: _ => if pathExists p then .ok p else .error .osError

end Tink.Testing
