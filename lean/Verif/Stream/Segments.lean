import Verif.Stream.CppOutput
import Verif.Stream.CppInput

/-!
# Encrypting and decrypting streams that work in segments

`/repo/cc/subtle/streaming_aead_encrypting_stream.cc`,
`/repo/cc/subtle/streaming_aead_decrypting_stream.cc`.

The member `position_`, which only `Position()` reads, is left out.  C++ `int`s are unbounded here.
-/

namespace Tink

/-- `StreamSegmentEncrypter`, `/repo/cc/subtle/stream_segment_encrypter.h`, an object with state `κ`. -/
structure SegmentEncrypter (κ : Type) where
  encryptSegment : κ → Bytes → Bool → κ × StatusOr Bytes
  header : Bytes
  plaintextSegmentSize : Int
  ciphertextOffset : Int

/-- `StreamSegmentDecrypter`, `/repo/cc/subtle/stream_segment_decrypter.h`, an object with state `ν`. -/
structure SegmentDecrypter (ν : Type) where
  init : ν → Bytes → ν × StatusOr Unit
  decryptSegment : ν → Bytes → Nat → Bool → StatusOr Bytes
  headerSize : Int
  ciphertextSegmentSize : Int
  ciphertextOffset : Int

/-- The codes `kInvalidArgument` and `kInternal` of absl. -/
def Code.invalidArgument : Code := .other 3
def Code.internal : Code := .other 13

/-- `std::vector<uint8_t>::resize`. -/
def resize (b : Bytes) (n : Nat) : Bytes := b.take n ++ List.replicate (n - b.length) 0

/-! ## The encrypting stream -/

/-- `WriteToStream`, `streaming_aead_encrypting_stream.cc:47-67`; `space` and `bytes` are
`available_space` and `available_bytes`.  `none`: not finished after `fuel` turns. -/
def writeToStream {ο : Type} (st : COutputStream ο) :
    Nat → ο → Bytes → Nat → Nat → Option (ο × StatusOr Unit)
  | 0, _, _, _, _ => none
  | fuel + 1, s, remaining, space, bytes =>
    if 0 < remaining.length then
      match st.next s with
      | none => none
      | some (s', .error e) => some (s', .error e)
      | some (s', .ok available) =>
        let n := min available remaining.length
        writeToStream st fuel (st.store s' (remaining.take n)) (remaining.drop n) available n
    else some (if space > bytes then st.backUp s (space - bytes : Nat) else s, .ok ())

/-- The members of `StreamingAeadEncryptingStream`; status `none` is OK. -/
structure EncryptingStream (κ ο : Type) where
  encrypter : κ
  dest : ο
  ptBuffer : Bytes
  ptToEncrypt : Bytes := []
  isFirst : Bool := true
  countBackedUp : Nat
  ptBufferOffset : Nat := 0
  status : Option Status := none

namespace EncryptingStream
variable {κ ο : Type}

/-- Lines 87-90. -/
def firstSegmentSize (se : SegmentEncrypter κ) : Int :=
  se.plaintextSegmentSize - se.ciphertextOffset - se.header.length

/-- `New`, lines 72-104; the pointers are not null. -/
def new (se : SegmentEncrypter κ) (k : κ) (dest : ο) : StatusOr (EncryptingStream κ ο) :=
  if firstSegmentSize se ≤ 0 then .error ⟨.internal, false⟩
  else .ok {
    encrypter := k
    dest := dest
    ptBuffer := List.replicate (firstSegmentSize se).toNat 0
    countBackedUp := (firstSegmentSize se).toNat }

/-- Lines 140-144, 182-192, 196-206: a segment is encrypted and written; the status is kept. -/
def emit (se : SegmentEncrypter κ) (st : COutputStream ο) (fuel : Nat) (e : EncryptingStream κ ο)
    (pt : Bytes) (last : Bool) : Option (EncryptingStream κ ο) :=
  match se.encryptSegment e.encrypter pt last with
  | (k, .error x) => some { e with encrypter := k, status := some x }
  | (k, .ok ct) =>
    match writeToStream st fuel e.dest ct 0 0 with
    | none => none
    | some (s, .error x) => some { e with encrypter := k, dest := s, status := some x }
    | some (s, .ok _) => some { e with encrypter := k, dest := s, status := none }

/-- Lines 113-115, 167-169: the header is written; the status is kept. -/
def emitHeader (se : SegmentEncrypter κ) (st : COutputStream ο) (fuel : Nat)
    (e : EncryptingStream κ ο) : Option (EncryptingStream κ ο) :=
  match writeToStream st fuel e.dest se.header 0 0 with
  | none => none
  | some (s, .error x) => some { e with dest := s, status := some x }
  | some (s, .ok _) => some { e with dest := s, status := none }

/-- Lines 147-151: the buffer becomes the segment to be encrypted, and a fresh one is made. -/
def fresh (se : SegmentEncrypter κ) (e : EncryptingStream κ ο) : EncryptingStream κ ο :=
  { e with
    ptToEncrypt := e.ptBuffer
    ptBuffer := resize e.ptToEncrypt se.plaintextSegmentSize.toNat
    ptBufferOffset := 0 }

/-- `Next`, lines 106-154. -/
def next (se : SegmentEncrypter κ) (st : COutputStream ο) (fuel : Nat) (e : EncryptingStream κ ο) :
    Option (EncryptingStream κ ο × StatusOr Nat) :=
  match e.status with
  | some x => some (e, .error x)
  | none =>
    if e.isFirst then
      match emitHeader se st fuel { e with isFirst := false, countBackedUp := 0 } with
      | none => none
      | some e' =>
        match e'.status with
        | some x => some (e', .error x)
        | none => some (e', .ok e'.ptBuffer.length)
    else if 0 < e.countBackedUp then
      some ({ e with ptBufferOffset := e.ptBuffer.length - e.countBackedUp, countBackedUp := 0 },
        .ok e.countBackedUp)
    else
      match if e.ptToEncrypt.isEmpty then some e else emit se st fuel e e.ptToEncrypt false with
      | none => none
      | some e' =>
        match e'.status with
        | some x => some (e', .error x)
        | none => some (fresh se e', .ok (fresh se e').ptBuffer.length)

/-- The caller stores `d` at `*data`. -/
def store (e : EncryptingStream κ ο) (d : Bytes) : EncryptingStream κ ο :=
  { e with
    ptBuffer := e.ptBuffer.take e.ptBufferOffset ++ d ++
      e.ptBuffer.drop (e.ptBufferOffset + d.length) }

/-- `BackUp`, lines 156-162. -/
def backUp (e : EncryptingStream κ ο) (count : Int) : EncryptingStream κ ο :=
  if e.isFirst || e.status.isSome || count < 1 then e
  else { e with
    countBackedUp := e.countBackedUp +
      min count.toNat (e.ptBuffer.length - e.ptBufferOffset - e.countBackedUp) }

/-- Lines 184-187 and so on: after a failure the destination is closed, and the result ignored. -/
def abandon (st : COutputStream ο) (e : EncryptingStream κ ο) (x : Status) :
    Option (EncryptingStream κ ο × StatusOr Unit) :=
  match st.close e.dest with
  | none => none
  | some (s, _) => some ({ e with dest := s }, .error x)

/-- Lines 195-208: the last segment is written, and the destination closed. -/
def finish (se : SegmentEncrypter κ) (st : COutputStream ο) (fuel : Nat) (e : EncryptingStream κ ο)
    (last : Bytes) : Option (EncryptingStream κ ο × StatusOr Unit) :=
  match emit se st fuel e last true with
  | none => none
  | some e' =>
    match e'.status with
    | some x => abandon st e' x
    | none =>
      match st.close e'.dest with
      | none => none
      | some (s, r) =>
        some ({ e' with dest := s, status := some ⟨.failedPrecondition, false⟩ }, r)

/-- Lines 172-208. -/
def closeSegments (se : SegmentEncrypter κ) (st : COutputStream ο) (fuel : Nat)
    (e : EncryptingStream κ ο) : Option (EncryptingStream κ ο × StatusOr Unit) :=
  if !e.ptBuffer.isEmpty && e.countBackedUp < e.ptBuffer.length then
    let e1 := { e with ptBuffer := resize e.ptBuffer (e.ptBuffer.length - e.countBackedUp) }
    if !e1.ptToEncrypt.isEmpty then
      match emit se st fuel e1 e1.ptToEncrypt false with
      | none => none
      | some e2 =>
        match e2.status with
        | some x => abandon st e2 x
        | none => finish se st fuel e2 e2.ptBuffer
    else finish se st fuel e1 e1.ptBuffer
  else finish se st fuel e e.ptToEncrypt

/-- `Close`, lines 164-209. -/
def close (se : SegmentEncrypter κ) (st : COutputStream ο) (fuel : Nat) (e : EncryptingStream κ ο) :
    Option (EncryptingStream κ ο × StatusOr Unit) :=
  match e.status with
  | some x => some (e, .error x)
  | none =>
    if e.isFirst then
      match emitHeader se st fuel e with
      | none => none
      | some e' =>
        match e'.status with
        | some x => some (e', .error x)
        | none => closeSegments se st fuel e'
    else closeSegments se st fuel e

/-- It is an output stream; `fuel` bounds the loops. -/
def stream (se : SegmentEncrypter κ) (st : COutputStream ο) (fuel : Nat) :
    COutputStream (EncryptingStream κ ο) where
  next := next se st fuel
  store := store
  backUp := backUp
  close := close se st fuel

end EncryptingStream

/-! ## The decrypting stream -/

/-- The loop of `ReadFromStream`, `streaming_aead_decrypting_stream.cc:62-78`: `wanted` is
`bytes_to_be_read`, `out` what has been read, `surplus` is `read_bytes - needed_bytes`. -/
def readLoop {ι : Type} (st : CInputStream ι) :
    Nat → ι → Nat → Bytes → Nat → Prog (ι × Bytes × StatusOr Unit)
  | 0, _, _, _, _ => .out
  | fuel + 1, i, wanted, out, surplus =>
    if 0 < wanted then
      (st.next i).bind fun
        | (i', .error e) => .ret (i', out, .error e)
        | (i', .ok data) =>
          let needed := min data.length wanted
          readLoop st fuel i' (wanted - needed) (out ++ data.take needed) (data.length - needed)
    else .ret (if 0 < surplus then st.backUp i (surplus : Nat) else i, out, .ok ())

/-- `ReadFromStream`, lines 52-79.  After an error other than OUT_OF_RANGE `output` keeps its full size;
it is not used then. -/
def readFromStream {ι : Type} (st : CInputStream ι) (fuel : Nat) (i : ι) (count : Int) :
    Prog (ι × Bytes × StatusOr Unit) :=
  if count ≤ 0 then .ret (i, [], .error ⟨.internal, false⟩)
  else readLoop st fuel i count.toNat [] 0

/-- The members of `StreamingAeadDecryptingStream`; status `none` is OK. -/
structure DecryptingStream (ν ι : Type) where
  decrypter : ν
  source : ι
  ctBuffer : Bytes
  ptBuffer : Bytes := []
  segmentNumber : Nat := 0
  isInitialized : Bool := false
  readLastSegment : Bool := false
  countBackedUp : Nat
  ptBufferOffset : Nat := 0
  status : Option Status := none

namespace DecryptingStream
variable {ν ι : Type}

/-- Lines 99-102. -/
def firstSegmentSize (sd : SegmentDecrypter ν) : Int :=
  sd.ciphertextSegmentSize - sd.ciphertextOffset - sd.headerSize

/-- `New`, lines 84-116; the pointers are not null. -/
def new (sd : SegmentDecrypter ν) (v : ν) (source : ι) : StatusOr (DecryptingStream ν ι) :=
  if firstSegmentSize sd ≤ 0 then .error ⟨.internal, false⟩
  else .ok {
    decrypter := v
    source := source
    ctBuffer := List.replicate (firstSegmentSize sd).toNat 0
    countBackedUp := (firstSegmentSize sd).toNat }

/-- The result of `Next` after a decryption: lines 154-157, 197-201. -/
def delivered (d : DecryptingStream ν ι) (last : Bool) :
    StatusOr Bytes → DecryptingStream ν ι × StatusOr Bytes
  | .error x => ({ d with readLastSegment := last, status := some x }, .error x)
  | .ok pt =>
    ({ d with readLastSegment := last, ptBuffer := pt, ptBufferOffset := 0, status := none }, .ok pt)

/-- Lines 139-154, 182-197: the segment in `ct_buffer_` is decrypted, as the last one if the end of the
source was reached, and also if it is not valid otherwise.  (On the first segment `pt_buffer_offset_` is
0 already, and is not set.) -/
def decryptBuffer (sd : SegmentDecrypter ν) (d : DecryptingStream ν ι) (last : Bool) :
    DecryptingStream ν ι × StatusOr Bytes :=
  match sd.decryptSegment d.decrypter d.ctBuffer d.segmentNumber last with
  | .ok pt => d.delivered last (.ok pt)
  | .error x =>
    if last then d.delivered true (.error x)
    else d.delivered true (sd.decryptSegment d.decrypter d.ctBuffer d.segmentNumber true)

/-- Lines 135-157, 178-201: as many bytes as `ct_buffer_` has are read and decrypted. -/
def nextSegment (sd : SegmentDecrypter ν) (st : CInputStream ι) (fuel : Nat)
    (d : DecryptingStream ν ι) : Prog (DecryptingStream ν ι × StatusOr Bytes) :=
  (readFromStream st fuel d.source d.ctBuffer.length).map fun
    | (i, out, .ok _) => decryptBuffer sd { d with source := i, ctBuffer := out } false
    | (i, out, .error x) =>
      if x.code = .outOfRange then decryptBuffer sd { d with source := i, ctBuffer := out } true
      else ({ d with source := i, status := some x }, .error x)

/-- Lines 123-132: the header is read. -/
def readHeader (sd : SegmentDecrypter ν) (st : CInputStream ι) (fuel : Nat)
    (d : DecryptingStream ν ι) : Prog (DecryptingStream ν ι) :=
  (readFromStream st fuel d.source sd.headerSize).map fun
    | (i, _, .error x) =>
      if x.code = .outOfRange then
        { d with source := i, status := some ⟨.invalidArgument, false⟩ }
      else { d with source := i, status := some x }
    | (i, header, .ok _) =>
      match sd.init d.decrypter header with
      | (v, .error x) => { d with source := i, decrypter := v, status := some x }
      | (v, .ok _) => { d with source := i, decrypter := v }

/-- `Next`, lines 118-202. -/
def next (sd : SegmentDecrypter ν) (st : CInputStream ι) (fuel : Nat) (d : DecryptingStream ν ι) :
    Prog (DecryptingStream ν ι × StatusOr Bytes) :=
  match d.status with
  | some x => .ret (d, .error x)
  | none =>
    if !d.isInitialized then
      (readHeader sd st fuel d).bind fun d1 =>
        match d1.status with
        | some x => .ret (d1, .error x)
        | none => nextSegment sd st fuel { d1 with isInitialized := true, countBackedUp := 0 }
    else if 0 < d.countBackedUp then
      .ret ({ d with ptBufferOffset := d.ptBuffer.length - d.countBackedUp, countBackedUp := 0 },
        .ok (d.ptBuffer.drop (d.ptBuffer.length - d.countBackedUp)))
    else if d.readLastSegment then
      .ret ({ d with status := some ⟨.outOfRange, false⟩ }, .error ⟨.outOfRange, false⟩)
    else
      nextSegment sd st fuel { d with
        segmentNumber := d.segmentNumber + 1
        ctBuffer := resize d.ctBuffer sd.ciphertextSegmentSize.toNat }

/-- `BackUp`, lines 204-210. -/
def backUp (d : DecryptingStream ν ι) (count : Int) : DecryptingStream ν ι :=
  if !d.isInitialized || d.status.isSome || count < 1 then d
  else { d with
    countBackedUp := d.countBackedUp +
      min count.toNat (d.ptBuffer.length - d.ptBufferOffset - d.countBackedUp) }

/-- It is an input stream; `fuel` bounds the loops. -/
def stream (sd : SegmentDecrypter ν) (st : CInputStream ι) (fuel : Nat) :
    CInputStream (DecryptingStream ν ι) where
  next := next sd st fuel
  backUp := backUp

end DecryptingStream
end Tink
