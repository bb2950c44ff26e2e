import Verif.Stream.Segments
import Verif.Stream.RawDecrypting
import Verif.Stream.RawEncrypting
import Verif.Stream.Wrapper

/-!
# The streaming AEAD of one key

`/repo/cc/subtle/nonce_based_streaming_aead.cc`, `/repo/python/tink/cc/cc_streaming_aead_wrappers.cc`,
`/repo/python/tink/streaming_aead/_streaming_aead_key_manager.py`.
-/

namespace Tink

/-- `NonceBasedStreamingAead`, `/repo/cc/subtle/nonce_based_streaming_aead.h`: the two virtual functions.
The random bytes of an encrypter depend on a seed. -/
structure NonceBased (κ ν : Type) where
  newSegmentEncrypter : Seed → Bytes → StatusOr (SegmentEncrypter κ × κ)
  newSegmentDecrypter : Bytes → StatusOr (SegmentDecrypter ν × ν)

/-- A destination: the Python object, and the memory for the buffer, which is not initialised. -/
structure Dest (σ : Type) where
  writable : Bool
  object : σ
  buffer : Bytes

/-- A Python encrypting stream with its C++ objects. -/
structure CcEncrypting (κ σ : Type) where
  encrypter : SegmentEncrypter κ
  raw : RawEncryptingStream (EncryptingStream κ (PythonOutputStream σ))

/-- A Python decrypting stream with its C++ objects. -/
structure CcDecrypting (ν : Type) where
  decrypter : SegmentDecrypter ν
  raw : RawDecryptingStream (DecryptingStream ν (PythonInputStream Unit))

namespace NonceBased
variable {κ ν σ : Type}

/-- `NewEncryptingStream`, `nonce_based_streaming_aead.cc:38-47`. -/
def newEncryptingStream {ο : Type} (p : NonceBased κ ν) (seed : Seed) (dest : ο) (ad : Bytes) :
    StatusOr (SegmentEncrypter κ × EncryptingStream κ ο) := do
  let (se, k) ← p.newSegmentEncrypter seed ad
  let e ← EncryptingStream.new se k dest
  return (se, e)

/-- `NewDecryptingStream`, `nonce_based_streaming_aead.cc:49-58`. -/
def newDecryptingStream {ι : Type} (p : NonceBased κ ν) (source : ι) (ad : Bytes) :
    StatusOr (SegmentDecrypter ν × DecryptingStream ν ι) := do
  let (sd, v) ← p.newSegmentDecrypter ad
  let d ← DecryptingStream.new sd v source
  return (sd, d)

/-- A status other than OK becomes `TinkError`: `cc/pybind/cc_streaming_aead_wrappers.cc:46-48, 64-66`,
`core/_tink_error.py:29-37`. -/
def raising {α : Type} : StatusOr α → Py α
  | .ok a => .ok a
  | .error _ => .error .tinkError

/-- `new_raw_encrypting_stream`, `_streaming_aead_key_manager.py:33-37`: `RawEncryptingStream.__init__`,
`_encrypting_stream.py:57-63`, with `NewCcEncryptingStream`, `cc_streaming_aead_wrappers.cc:27-44`. -/
def newRawEncryptingStream (p : NonceBased κ ν) (seed : Seed) (dest : Dest σ) (ad : Bytes) :
    Py (CcEncrypting κ σ) :=
  if dest.writable then
    (raising (p.newEncryptingStream seed (PythonOutputStream.new dest.object dest.buffer) ad)).map
      fun q => ⟨q.1, { adapter := q.2 }⟩
  else .error .valueError

/-- `new_raw_decrypting_stream`, `_streaming_aead_key_manager.py:39-48`: `RawDecryptingStream.__init__`,
`_decrypting_stream.py:47-55`, with `NewCcDecryptingStream`, `cc_streaming_aead_wrappers.cc:46-61`.  The
source is a `RewindableInputStream`, which is readable.  `buffer` is the memory for the buffer. -/
def newRawDecryptingStream (p : NonceBased κ ν) (buffer : Bytes) (ad : Bytes) : Py (CcDecrypting ν) :=
  (raising (p.newDecryptingStream (PythonInputStream.new () buffer) ad)).map
    fun q => ⟨q.1, { adapter := q.2, closeSource := false }⟩

/-- What `read` returned or raised. -/
def result : Py Bytes → ReadResult
  | .ok b => .data b
  | .error e => .raised e

/-- The C++ stream under a Python decrypting stream. -/
def cppStream (text : Exc → Bool) (fuel : Nat) (sd : SegmentDecrypter ν) :
    CInputStream (DecryptingStream ν (PythonInputStream Unit)) :=
  DecryptingStream.stream sd (PythonInputStream.stream text) fuel

/-- `read(size)` of the decrypting streams; `text` as in `pybindSource`. -/
def rawStream (text : Exc → Bool) : RawStream (CcDecrypting ν) where
  read fuel t size :=
    (t.raw.read (cppStream text fuel t.decrypter) fuel (some size)).map fun q =>
      ({ t with raw := q.1 }, result q.2)

/-- The Python object: `_StreamingAeadCcToPyWrapper`, `_streaming_aead_key_manager.py:27-48`. -/
def toRaw (p : NonceBased κ ν) (text : Exc → Bool) (buffer : Bytes) :
    RawStreamingAead (Dest σ) (CcEncrypting κ σ) (CcDecrypting ν) where
  newRawEncryptingStream := p.newRawEncryptingStream
  newRawDecryptingStream := p.newRawDecryptingStream buffer
  stream := rawStream text

end NonceBased

namespace CcEncrypting
variable {κ σ : Type}

/-- The C++ stream under a Python encrypting stream. -/
def stream (snk : CSink σ) (fuel : Nat) (se : SegmentEncrypter κ) :
    COutputStream (EncryptingStream κ (PythonOutputStream σ)) :=
  EncryptingStream.stream se (PythonOutputStream.stream snk fuel) fuel

/-- `write(b)`. -/
def write (snk : CSink σ) (fuel : Nat) (t : CcEncrypting κ σ) (b : Bytes) :
    Option (CcEncrypting κ σ × Ran (Py Nat)) :=
  (t.raw.write (stream snk fuel t.encrypter) fuel (.bytesLike b)).map fun q =>
    ({ t with raw := q.1 }, q.2)

/-- `close()`. -/
def close (snk : CSink σ) (fuel : Nat) (t : CcEncrypting κ σ) :
    Option (CcEncrypting κ σ × Py Unit) :=
  (t.raw.close (stream snk fuel t.encrypter)).map fun q => ({ t with raw := q.1 }, q.2)

/-- The Python object that is written to. -/
def object (t : CcEncrypting κ σ) : σ := t.raw.adapter.dest.adapter

end CcEncrypting
end Tink
