/-
The protobuf wire format as used by voxblox for map files, and the stream helpers of
voxblox/src/utils/protobuf_utils.cc. The library itself (google::protobuf) is not part of /repo; its
encoding and parsing rules are modelled from the published wire format (proto2): varint tags,
`fixed64` doubles, unpacked `repeated uint32` (packed accepted when reading), unknown fields skipped.
Groups (wire types 3 and 4) are treated as parse errors.
-/
import Verif.Model.FloatBits

namespace Vox.Proto

open FloatBits

/-- A byte of a file. protobuf runtime behaviour, as used in voxblox/src/utils/protobuf_utils.cc:10-98. -/
abbrev Byte := Fin 256

/-- `CodedOutputStream::WriteVarint32/64`, called at voxblox/src/utils/protobuf_utils.cc:36, :86: seven
bits per byte, low bits first, high bit set on all but the last byte. `fuel` is the maximal number of
bytes. -/
def encVarintF : ℕ → ℕ → List Byte
  | 0, _ => []
  | k + 1, n => if n < 128 then [Fin.ofNat 256 n] else Fin.ofNat 256 (n % 128 + 128) :: encVarintF k (n / 128)

/-- A varint of at most ten bytes.
protobuf runtime behaviour, as used in voxblox/src/utils/protobuf_utils.cc:10-98. -/
def encVarint (n : ℕ) : List Byte := encVarintF 10 n

/-- `CodedInputStream::ReadVarint32/64` (voxblox/src/utils/protobuf_utils.cc:21, :55) before truncation
to the requested width: at most `fuel` bytes; fails at the end of the input. -/
def readVarintF : ℕ → List Byte → Option (ℕ × List Byte)
  | 0, _ => none
  | _ + 1, [] => none
  | k + 1, b :: bs =>
    if b.val < 128 then some (b.val, bs)
    else match readVarintF k bs with
      | some (v, rest) => some (b.val - 128 + 128 * v, rest)
      | none => none

/-- Reading a 64-bit varint (at most ten bytes, the value is truncated).
protobuf runtime behaviour, as used in voxblox/src/utils/protobuf_utils.cc:10-98. -/
def readVarint64 (bs : List Byte) : Option (ℕ × List Byte) :=
  (readVarintF 10 bs).map fun r => (r.1 % 2 ^ 64, r.2)

/-- Reading a 32-bit varint (at most ten bytes, upper bits are discarded).
protobuf runtime behaviour, as used in voxblox/src/utils/protobuf_utils.cc:10-98. -/
def readVarint32 (bs : List Byte) : Option (ℕ × List Byte) :=
  (readVarintF 10 bs).map fun r => (r.1 % 2 ^ 32, r.2)

/-- Little-endian encoding in `k` bytes (`fixed64` / `fixed32`).
protobuf runtime behaviour, as used in voxblox/src/utils/protobuf_utils.cc:10-98. -/
def encLE : ℕ → ℕ → List Byte
  | 0, _ => []
  | k + 1, n => Fin.ofNat 256 (n % 256) :: encLE k (n / 256)

/-- Little-endian decoding of `k` bytes.
protobuf runtime behaviour, as used in voxblox/src/utils/protobuf_utils.cc:10-98. -/
def readLE : ℕ → List Byte → Option (ℕ × List Byte)
  | 0, bs => some (0, bs)
  | _ + 1, [] => none
  | k + 1, b :: bs =>
    match readLE k bs with
    | some (v, rest) => some (b.val + 256 * v, rest)
    | none => none

/-- The value of a field on the wire.
protobuf runtime behaviour, as used in voxblox/src/utils/protobuf_utils.cc:10-98. -/
inductive Wire where
  | varint (n : ℕ)
  | fixed64 (n : ℕ)
  | bytes (l : List Byte)
  | fixed32 (n : ℕ)
deriving DecidableEq, Repr

/-- Wire type number. protobuf runtime behaviour, as used in voxblox/src/utils/protobuf_utils.cc:10-98. -/
def Wire.tag : Wire → ℕ
  | .varint _ => 0
  | .fixed64 _ => 1
  | .bytes _ => 2
  | .fixed32 _ => 5

/-- A field: number and value.
protobuf runtime behaviour, as used in voxblox/src/utils/protobuf_utils.cc:10-98. -/
abbrev Field := ℕ × Wire

/-- Payload of a field. protobuf runtime behaviour, as used in voxblox/src/utils/protobuf_utils.cc:10-98. -/
def Wire.enc : Wire → List Byte
  | .varint n => encVarint n
  | .fixed64 n => encLE 8 n
  | .bytes l => encVarint l.length ++ l
  | .fixed32 n => encLE 4 n

/-- A field on the wire: tag, then payload.
protobuf runtime behaviour, as used in voxblox/src/utils/protobuf_utils.cc:10-98. -/
def encField (f : Field) : List Byte := encVarint (f.1 * 8 + f.2.tag) ++ f.2.enc

/-- A message body. protobuf runtime behaviour, as used in voxblox/src/utils/protobuf_utils.cc:10-98. -/
def encFields (fs : List Field) : List Byte := fs.flatMap encField

/-- Reading `n` bytes. protobuf runtime behaviour, as used in voxblox/src/utils/protobuf_utils.cc:10-98. -/
def readBytes (n : ℕ) (bs : List Byte) : Option (List Byte × List Byte) :=
  if n ≤ bs.length then some (bs.take n, bs.drop n) else none

/-- Reading the payload of a field of the given wire type.
protobuf runtime behaviour, as used in voxblox/src/utils/protobuf_utils.cc:10-98. -/
def readPayload (t : ℕ) (bs : List Byte) : Option (Wire × List Byte) :=
  if t = 0 then (readVarint64 bs).map fun r => (.varint r.1, r.2)
  else if t = 1 then (readLE 8 bs).map fun r => (.fixed64 r.1, r.2)
  else if t = 2 then
    match readVarint32 bs with
    | some (n, rest) => (readBytes n rest).map fun r => (.bytes r.1, r.2)
    | none => none
  else if t = 5 then (readLE 4 bs).map fun r => (.fixed32 r.1, r.2)
  else none

/-- Reading one field; field number 0 is invalid.
protobuf runtime behaviour, as used in voxblox/src/utils/protobuf_utils.cc:10-98. -/
def readField (bs : List Byte) : Option (Field × List Byte) :=
  match readVarint32 bs with
  | some (t, rest) =>
    if t / 8 = 0 then none
    else (readPayload (t % 8) rest).map fun r => ((t / 8, r.1), r.2)
  | none => none

/-- Parsing all fields up to the end of the window.
protobuf runtime behaviour, as used in voxblox/src/utils/protobuf_utils.cc:10-98. -/
def parseFieldsF : ℕ → List Byte → Option (List Field)
  | _, [] => some []
  | 0, _ :: _ => none
  | k + 1, b :: bs =>
    match readField (b :: bs) with
    | some (f, rest) => (parseFieldsF k rest).map (f :: ·)
    | none => none

/-- Parsing a message body. Every field takes at least one byte, so the length is enough fuel.
protobuf runtime behaviour, as used in voxblox/src/utils/protobuf_utils.cc:10-98. -/
def parseFields (bs : List Byte) : Option (List Field) := parseFieldsF bs.length bs

/-! ### Messages -/

/-- voxblox/proto/voxblox/Block.proto:4-16. -/
structure BlockProto where
  vps : ℤ
  voxelSize : Word64
  originX : Word64
  originY : Word64
  originZ : Word64
  hasData : Bool
  voxelData : List Word
deriving DecidableEq, Repr

/-- All fields absent. protobuf runtime behaviour, as used in voxblox/src/utils/protobuf_utils.cc:10-98. -/
def BlockProto.empty : BlockProto := ⟨0, 0, 0, 0, 0, false, []⟩

/-- The fields written for a block message (all optional fields are set by
voxblox/include/voxblox/core/block_inl.h:90-109); `int32` is sign-extended to 64 bits. -/
def BlockProto.fields (p : BlockProto) : List Field :=
  [(1, .varint (p.vps % 2 ^ 64).toNat), (2, .fixed64 p.voxelSize.toNat), (3, .fixed64 p.originX.toNat),
   (4, .fixed64 p.originY.toNat), (5, .fixed64 p.originZ.toNat),
   (6, .varint (if p.hasData then 1 else 0))] ++ p.voxelData.map fun w => (7, .varint w.toNat)

/-- All varints of a packed field.
protobuf runtime behaviour, as used in voxblox/src/utils/protobuf_utils.cc:10-98. -/
def unpackF : ℕ → List Byte → Option (List Word)
  | _, [] => some []
  | 0, _ :: _ => none
  | k + 1, b :: bs =>
    match readVarint32 (b :: bs) with
    | some (v, rest) => (unpackF k rest).map (BitVec.ofNat 32 v :: ·)
    | none => none

/-- Merging one parsed field into a block message: last value wins for optional fields, repeated fields
are appended, anything else is skipped as unknown.
protobuf runtime behaviour, as used in voxblox/src/utils/protobuf_utils.cc:10-98. -/
def BlockProto.apply (p : BlockProto) : Field → Option BlockProto
  | (1, .varint n) => some { p with vps := wrap32 n }
  | (2, .fixed64 n) => some { p with voxelSize := .ofNat 64 n }
  | (3, .fixed64 n) => some { p with originX := .ofNat 64 n }
  | (4, .fixed64 n) => some { p with originY := .ofNat 64 n }
  | (5, .fixed64 n) => some { p with originZ := .ofNat 64 n }
  | (6, .varint n) => some { p with hasData := n != 0 }
  | (7, .varint n) => some { p with voxelData := p.voxelData ++ [.ofNat 32 n] }
  | (7, .bytes l) => (unpackF l.length l).map fun ws => { p with voxelData := p.voxelData ++ ws }
  | _ => some p

/-- Decoding of a block message from its fields.
protobuf runtime behaviour, as used in voxblox/src/utils/protobuf_utils.cc:10-98. -/
def BlockProto.decode (fs : List Field) : Option BlockProto := fs.foldlM BlockProto.apply BlockProto.empty

/-- voxblox/proto/voxblox/Layer.proto:4-11. -/
structure LayerProto where
  voxelSize : Word64
  vps : ℕ
  type : List Byte
deriving DecidableEq, Repr

/-- All fields absent. protobuf runtime behaviour, as used in voxblox/src/utils/protobuf_utils.cc:10-98. -/
def LayerProto.empty : LayerProto := ⟨0, 0, []⟩

/-- The fields written for a layer header (voxblox/include/voxblox/core/layer_inl.h:42-52). -/
def LayerProto.fields (p : LayerProto) : List Field :=
  [(1, .fixed64 p.voxelSize.toNat), (2, .varint p.vps), (3, .bytes p.type)]

/-- Merging one parsed field into a layer header.
protobuf runtime behaviour, as used in voxblox/src/utils/protobuf_utils.cc:10-98. -/
def LayerProto.apply (p : LayerProto) : Field → Option LayerProto
  | (1, .fixed64 n) => some { p with voxelSize := .ofNat 64 n }
  | (2, .varint n) => some { p with vps := n % 2 ^ 32 }
  | (3, .bytes l) => some { p with type := l }
  | _ => some p

/-- Decoding of a layer header from its fields.
protobuf runtime behaviour, as used in voxblox/src/utils/protobuf_utils.cc:10-98. -/
def LayerProto.decode (fs : List Field) : Option LayerProto := fs.foldlM LayerProto.apply LayerProto.empty

/-! ### Stream helpers -/

/-- voxblox/src/utils/protobuf_utils.cc:29-38 `writeProtoMsgCountToStream`. -/
def writeCount (n : ℕ) : List Byte := encVarint (n % 2 ^ 32)

/-- voxblox/src/utils/protobuf_utils.cc:10-27 `readProtoMsgCountFromStream`. The file is represented by
the bytes from the current offset on. -/
def readCount (file : List Byte) : Option (ℕ × List Byte) := readVarint32 file

/-- voxblox/src/utils/protobuf_utils.cc:79-98 `writeProtoMsgToStream` (a failing output stream is not
modelled). -/
def writeMsg (fs : List Field) : List Byte := encVarint ((encFields fs).length % 2 ^ 32) ++ encFields fs

/-- Block size of `IstreamInputStream` (protobuf's default for copying streams).
protobuf runtime behaviour, as used in voxblox/src/utils/protobuf_utils.cc:10-98. -/
def chunk : ℕ := 8192

/-- The stream's end-of-file flag after `consumed ≥ 1` of `available` bytes were parsed: the input stream
adaptor reads whole chunks, and `std::istream::read` sets `eofbit` when a chunk is not full.
protobuf runtime behaviour, as used in voxblox/src/utils/protobuf_utils.cc:10-98. -/
def eofAfter (available consumed : ℕ) : Bool := available < chunk * ((consumed + (chunk - 1)) / chunk)

/-- voxblox/src/utils/protobuf_utils.cc:40-77 `readProtoMsgFromStream`: returns the message, the bytes
after it and the stream's end-of-file flag. `PushLimit` restricts parsing to `size` bytes (a size that is
negative as `int` sets no limit); reaching the end of the *file* at a field boundary inside the limit is
accepted as the end of the message (`ParseFromCodedStream`, `ConsumedEntireMessage`). -/
def readMsg {M : Type} (decode : List Field → Option M) (file : List Byte) :
    Option (M × List Byte × Bool) :=
  match readVarint32 file with
  | none => none
  | some (size, rest) =>
    if size = 0 then none
    else
      let window := if size < 2 ^ 31 then rest.take size else rest
      match (parseFields window).bind decode with
      | none => none
      | some m =>
        let rest' := rest.drop window.length
        some (m, rest', eofAfter file.length (file.length - rest'.length))

end Vox.Proto
