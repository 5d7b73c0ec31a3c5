/-
Voxel types (voxblox/include/voxblox/core/voxel.h) and their integer serialization
(voxblox/src/core/block.cc).
-/
import Verif.Model.Basic

namespace Vox

/-- A 32-bit word of the serialized form; also the bit pattern of a `float`.
Serves the model of voxblox/src/core/block.cc:7-255. -/
abbrev Word := BitVec 32

/-- voxblox/include/voxblox/core/common.h:94-103: colour with four bytes; default
`Color() : r(0), g(0), b(0), a(0)` (common.h:95). -/
structure Color where
  r : BitVec 8
  g : BitVec 8
  b : BitVec 8
  a : BitVec 8
deriving DecidableEq, Repr

/-- Default colour, voxblox/include/voxblox/core/common.h:95. -/
def Color.default : Color := ⟨0, 0, 0, 0⟩

/-- voxblox/include/voxblox/core/voxel.h:12-16. `F` is the representation of `float`: bit patterns for
serialization, rational numbers for exact arithmetic. -/
structure TsdfVoxel (F : Type) where
  distance : F
  weight : F
  color : Color
deriving DecidableEq, Repr

/-- voxblox/include/voxblox/core/voxel.h:18-37. -/
structure EsdfVoxel (F : Type) where
  distance : F
  observed : Bool
  hallucinated : Bool
  inQueue : Bool
  fixed : Bool
  parent : Idx
deriving DecidableEq, Repr

/-- voxblox/include/voxblox/core/voxel.h:39-42. -/
structure OccVoxel (F : Type) where
  probabilityLog : F
  observed : Bool
deriving DecidableEq, Repr

/-- voxblox/include/voxblox/core/voxel.h:44-47. -/
structure IntensityVoxel (F : Type) where
  intensity : F
  weight : F
deriving DecidableEq, Repr

namespace Serial

/-- Reading `data[i]` from a `std::vector`; undefined outside.
Serves the model of voxblox/src/core/block.cc:7-255. -/
def readWord (data : List Word) (i : ℕ) : Outcome Word :=
  match data[i]? with
  | some w => .ok w
  | none => .ub

/-- Per-voxel serialization of a voxel type: number of words (`kNumDataPacketsPerVoxel`), the words
pushed for a voxel, and the loop body that reads the words at `data_idx + j` back.
Serves the model of voxblox/src/core/block.cc:7-255. -/
structure Codec (V : Type) where
  words : ℕ
  enc : V → List Word
  dec : (ℕ → Outcome Word) → Outcome V

/-- `static_cast<uint8_t>(x)` of an unsigned word. Serves the model of voxblox/src/core/block.cc:7-255. -/
def toU8 (w : Word) : BitVec 8 := w.setWidth 8

/-- voxblox/src/core/block.cc:169-180 (words of a TSDF voxel) and :74-88 (reading them). The float
fields are copied bit by bit (`reinterpret_cast` / `memcpy`). -/
def tsdfCodec : Codec (TsdfVoxel Word) where
  words := 3
  enc v :=
    [v.distance, v.weight,
     v.color.a.setWidth 32 ||| (v.color.b.setWidth 32 <<< 8) ||| (v.color.g.setWidth 32 <<< 16) |||
       (v.color.r.setWidth 32 <<< 24)]
  dec get := do
    let b1 ← get 0
    let b2 ← get 1
    let b3 ← get 2
    pure { distance := b1, weight := b2,
           color := { r := toU8 (b3 >>> 24), g := toU8 ((b3 &&& 0x00FF0000#32) >>> 16),
                      b := toU8 ((b3 &&& 0x0000FF00#32) >>> 8), a := toU8 (b3 &&& 0x000000FF#32) } }

/-- Clamping a component to `int8_t`, voxblox/src/core/block.cc:27-32. -/
def clampI8 (c : ℤ) : BitVec 8 := BitVec.ofInt 8 (min 127 (max c (-128)))

/-- voxblox/src/core/block.cc:8-40 `serializeDirection` on `*data = 0`. The `int8_t` operand of `<<` is
promoted to `int`, i.e. sign-extended (a left shift of a negative `int` is computed in two's complement,
as GCC and Clang do). The `DCHECK`s are inactive in release builds. -/
def serializeDirection (p : Idx) : Word :=
  ((0#32 ||| ((clampI8 p.x).signExtend 32 <<< 24)) ||| ((clampI8 p.y).signExtend 32 <<< 16)) |||
    ((clampI8 p.z).signExtend 32 <<< 8)

/-- voxblox/src/core/block.cc:42-62 `deserializeDirection`. -/
def deserializeDirection (data : Word) : Idx :=
  ⟨(toU8 ((data >>> 24) &&& 0x000000FF#32)).toInt, (toU8 ((data >>> 16) &&& 0x000000FF#32)).toInt,
   (toU8 ((data >>> 8) &&& 0x000000FF#32)).toInt⟩

/-- voxblox/src/core/block.cc:222-227 `flag_byte`. -/
def flagByte (v : EsdfVoxel Word) : BitVec 8 :=
  (((0#8 ||| (if v.observed then 1#8 else 0#8)) ||| (if v.hallucinated then 2#8 else 0#8)) |||
    (if v.inQueue then 4#8 else 0#8)) ||| (if v.fixed then 8#8 else 0#8)

/-- voxblox/src/core/block.cc:215-231 and :123-135. -/
def esdfCodec : Codec (EsdfVoxel Word) where
  words := 2
  enc v := [v.distance, serializeDirection v.parent ||| ((flagByte v).setWidth 32 &&& 0x000000FF#32)]
  dec get := do
    let b1 ← get 0
    let b2 ← get 1
    pure { distance := b1, observed := b2 &&& 1#32 != 0#32, hallucinated := b2 &&& 2#32 != 0#32,
           inQueue := b2 &&& 4#32 != 0#32, fixed := b2 &&& 8#32 != 0#32,
           parent := deserializeDirection b2 }

/-- voxblox/src/core/block.cc:193-198 and :101-107. -/
def occCodec : Codec (OccVoxel Word) where
  words := 2
  enc v := [v.probabilityLog, if v.observed then 1#32 else 0#32]
  dec get := do
    let b1 ← get 0
    let b2 ← get 1
    pure { probabilityLog := b1, observed := b2 &&& 0x000000FF#32 != 0#32 }

/-- voxblox/src/core/block.cc:244-252 and :148-154. -/
def intensityCodec : Codec (IntensityVoxel Word) where
  words := 2
  enc v := [v.intensity, v.weight]
  dec get := do
    let b1 ← get 0
    let b2 ← get 1
    pure { intensity := b1, weight := b2 }

/-- `serializeToIntegers`, voxblox/src/core/block.cc:159-183 (and :185-201, :203-234, :236-255). -/
def serialize {V : Type} (c : Codec V) (voxels : List V) : Outcome (List Word) := do
  let data := voxels.flatMap c.enc
  Outcome.check (voxels.length * c.words == data.length)
  pure data

/-- `deserializeFromIntegers` on a block with `numVoxels` voxels, voxblox/src/core/block.cc:65-90 (and
:92-109, :111-137, :139-156). After the size check the loop runs over all voxels. -/
def deserialize {V : Type} (c : Codec V) (numVoxels : ℕ) (data : List Word) : Outcome (List V) := do
  Outcome.check (numVoxels * c.words == data.length)
  (List.range numVoxels).mapM fun i => c.dec fun j => readWord data (i * c.words + j)

end Serial

end Vox
