import Verif.Cc.Subtle

/-!
# Pseudorandom functions

`/repo/cc/subtle/prf/prf_set_util.cc`, `/repo/cc/subtle/prf/hkdf_streaming_prf.cc`,
`/repo/cc/util/input_stream_util.cc`, `/repo/cc/subtle/stateful_hmac_boringssl.cc` and
`/repo/cc/subtle/stateful_cmac_boringssl.cc`.
-/

namespace Tink.Cc

/-! ## The stream of HKDF -/

namespace Hkdf

/-- `HkdfInputStream`, `hkdf_streaming_prf.cc:49-184`; `prk` is the key of `hmac_ctx_`, status `none` is
OK. -/
structure Stream where
  status : Option Status := none
  prk : Bytes := []
  ti : Bytes := []
  i : Nat := 0
  input : Bytes
  positionInTi : Nat := 0

/-- `UpdateTi`, lines 136-161. -/
def updateTi (lib : Ssl) (hash : EnumVal) (s : Stream) : StatusOr Stream :=
  match lib.hmac hash s.prk ((if s.i ≠ 0 then s.ti else []) ++ s.input ++ [UInt8.ofNat (s.i + 1)]) with
  | none => internalError
  | some t => .ok { s with ti := t, i := s.i + 1, positionInTi := 0 }

/-- `Init`, lines 86-122, and the constructor, lines 51-55; `size` is the size of the digest. -/
def init (lib : Ssl) (hash : EnumVal) (size : Nat) (secret salt input : Bytes) : Stream :=
  let s : Stream := { input := input }
  match lib.hmac hash salt secret with
  | none => { s with status := some ⟨.internal, false⟩ }
  | some prk =>
    if prk.length ≠ size then { s with status := some ⟨.internal, false⟩ }
    else
      match updateTi lib hash { s with prk := prk } with
      | .error e => { s with status := some e }
      | .ok s' => s'

/-- `returnDataFromPosition`, lines 124-130. -/
def returnDataFromPosition (s : Stream) : Stream × Bytes :=
  ({ s with positionInTi := s.ti.length }, s.ti.drop s.positionInTi)

/-- `Next`, lines 57-74. -/
def next (lib : Ssl) (hash : EnumVal) (s : Stream) : Stream × StatusOr Bytes :=
  match s.status with
  | some e => (s, .error e)
  | none =>
    if s.positionInTi < s.ti.length then
      let r := returnDataFromPosition s
      (r.1, .ok r.2)
    else if s.i = 255 then ({ s with status := some ⟨.outOfRange, false⟩ }, .error ⟨.outOfRange, false⟩)
    else
      match updateTi lib hash s with
      | .error e => ({ s with status := some e }, .error e)
      | .ok s' =>
        let r := returnDataFromPosition s'
        (r.1, .ok r.2)

/-- `BackUp`, lines 76-78. -/
def backUp (s : Stream) (count : Nat) : Stream :=
  { s with positionInTi := s.positionInTi - min count s.positionInTi }

/-- The loop of `ReadBytesFromStreamImpl`, `input_stream_util.cc:43-55`; `read` is what has been read.  Each
turn but the first reads a new one of at most 255 blocks, so 512 turns are enough. -/
def readLoop (lib : Ssl) (hash : EnumVal) (numBytes : Int) : Nat → Stream → Bytes → StatusOr Bytes
  | 0, _, _ => internalError
  | fuel + 1, s, read =>
    if (read.length : Int) < numBytes then
      match next lib hash s with
      | (_, .error e) => .error e
      | (s', .ok chunk) =>
        let copy := min (numBytes.toNat - read.length) chunk.length
        readLoop lib hash numBytes fuel (backUp s' (chunk.length - copy)) (read ++ chunk.take copy)
    else .ok read

/-- `ReadBytesFromStream`, lines 60-63. -/
def readBytesFromStream (lib : Ssl) (hash : EnumVal) (numBytes : Int) (s : Stream) : StatusOr Bytes :=
  readLoop lib hash numBytes 512 s []

end Hkdf

/-- The conversion of a `size_t` to `int`. -/
def sizeToInt (n : Nat) : Int := if n % 2 ^ 32 < 2 ^ 31 then (n % 2 ^ 32 : Nat) else (n % 2 ^ 32 : Nat) - 2 ^ 32

/-- `PrfFromStreamingPrf::Compute`, `prf_set_util.cc:43-52`, with `HkdfStreamingPrf::ComputePrf`,
`hkdf_streaming_prf.cc:182-185`.  `ReadBytesFromStream` takes an `int`. -/
def hkdfCompute (lib : Ssl) (hash : EnumVal) (size : Nat) (secret salt input : Bytes) (outputLength : Nat) :
    StatusOr Bytes :=
  Hkdf.readBytesFromStream lib hash (sizeToInt outputLength) (Hkdf.init lib hash size secret salt input)

/-- `HkdfStreamingPrf::New`, lines 188-211, and `CreatePrfFromStreamingPrf`. -/
def hkdfNew (lib : Ssl) (hash : EnumVal) (secret salt : Bytes) : StatusOr Cpp.Prf :=
  if hash ≠ HashType.SHA256 && hash ≠ HashType.SHA512 && hash ≠ HashType.SHA1 then invalidArgument
  else if secret.length < 10 then invalidArgument
  else
    match mdSize hash with
    | none => .error ⟨.other 12, false⟩
    | some size => .ok { compute := hkdfCompute lib hash size secret salt }

/-! ## PRFs from MACs -/

/-- `PrfFromStatefulMacFactory::Compute`, `prf_set_util.cc:63-86`; `mac` makes the MAC object, passes it
the input and finalizes it. -/
def prfFromMac (mac : Bytes → StatusOr Bytes) : Cpp.Prf where
  compute input outputLength := do
    let output ← mac input
    if output.length < outputLength then invalidArgument else return output.take outputLength

/-- `StatefulHmacBoringSsl`: `New`, `Update` and `Finalize`, `stateful_hmac_boringssl.cc:41-92`, with
`kMinKeySize` 16.  The library has one status for failures, INTERNAL. -/
def statefulHmac (lib : Ssl) (hash : EnumVal) (tagSize : Nat) (key data : Bytes) : StatusOr Bytes :=
  match mdSize hash with
  | none => .error ⟨.other 12, false⟩
  | some size =>
    if size < tagSize then invalidArgument
    else if key.length < 16 then invalidArgument
    else
      match lib.hmac hash key data with
      | none => internalError
      | some buf => .ok (buf.take tagSize)

/-- `StatefulCmacBoringSsl`: `New`, `Update` and `Finalize`, `stateful_cmac_boringssl.cc:41-89`. -/
def statefulCmac (lib : Ssl) (tagSize : Nat) (key data : Bytes) : StatusOr Bytes :=
  if UInt32.ofNat key.length ≠ 16 && UInt32.ofNat key.length ≠ 32 then invalidArgument
  else if tagSize > 16 then invalidArgument
  else
    match lib.cmac key data with
    | none => internalError
    | some buf => .ok (buf.take tagSize)

end Tink.Cc
