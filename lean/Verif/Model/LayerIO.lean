/-
Saving and loading layers (voxblox/include/voxblox/core/block_inl.h, layer_inl.h, io/layer_io_inl.h).
Floats are bit patterns here; a file is its list of bytes.
-/
import Verif.Model.Proto
import Verif.Model.Layer

namespace Vox.IO

open FloatBits Proto Serial Layer

/-- What depends on the voxel type, plus float operations that are kept abstract:
`codec` (voxblox/src/core/block.cc), `typeName` (voxblox/include/voxblox/core/voxel.h:50-81), `mergeV`
(`mergeVoxelAIntoVoxelB`, voxblox/src/utils/voxel_utils.cc), and `idxOf voxel_size vps origin`, the block
index computed by `getGridIndexFromOriginPoint(origin, block_size_inv_)`
(voxblox/include/voxblox/core/layer_inl.h:199-200) with whatever rounding the float product has. -/
structure Env (V : Type) where
  codec : Codec V
  typeName : List Byte
  mergeV : V → V → V
  idxOf : Word → ℕ → Vec3 Word → Outcome Idx

/-- A layer with its configuration and block map (values instead of pointers: loading never shares
blocks). Serves the model of voxblox/include/voxblox/io/layer_io_inl.h:14-242. -/
structure FLayer (V : Type) where
  voxelSize : Word
  vps : ℕ
  blocks : List (Idx × Block Word V)
deriving DecidableEq, Repr

variable {V : Type}

/-- voxblox/include/voxblox/core/block_inl.h:90-109 `Block::getProto`. -/
def blockProto (env : Env V) (b : Block Word V) : Outcome BlockProto := do
  let data ← serialize env.codec b.voxels
  pure { vps := wrap32 b.vps, voxelSize := widen b.voxelSize, originX := widen b.origin.x,
         originY := widen b.origin.y, originZ := widen b.origin.z, hasData := b.hasData,
         voxelData := data }

/-- voxblox/include/voxblox/core/block_inl.h:73-88 `Block(const BlockProto&)`; a negative side becomes a
huge `size_t` and the array allocation fails (abort). -/
def blockFromProto (env : Env V) (p : BlockProto) : Outcome (Block Word V) := do
  Outcome.check (decide (0 ≤ p.vps))
  let voxels ← deserialize env.codec (numVoxels p.vps.toNat) p.voxelData
  pure { vps := p.vps.toNat, voxelSize := narrow p.voxelSize,
         origin := ⟨narrow p.originX, narrow p.originY, narrow p.originZ⟩, hasData := p.hasData,
         updated := Flags.ofBool false, voxels := voxels }

/-- voxblox/include/voxblox/core/layer_inl.h:42-52 `Layer::getProto`. -/
def layerProto (env : Env V) (l : FLayer V) : LayerProto :=
  { voxelSize := widen l.voxelSize, vps := l.vps % 2 ^ 32, type := env.typeName }

/-- voxblox/include/voxblox/core/layer_inl.h:24-40 `Layer(const LayerProto&)`. The product
`voxel_size_ * voxels_per_side_` is positive iff both factors are (a float product with an integer ≥ 1
cannot underflow). -/
def layerFromProto (env : Env V) (p : LayerProto) : Outcome (FLayer V) := do
  Outcome.check (decide (env.typeName = p.type))
  Outcome.check (Fl.lt (.fin 0) (fl64 p.voxelSize))
  Outcome.check (Fl.lt (.fin 0) (fl32 (narrow p.voxelSize)) && decide (0 < p.vps))
  Outcome.check (decide (0 < p.vps))
  pure { voxelSize := narrow p.voxelSize, vps := p.vps, blocks := [] }

/-- voxblox/include/voxblox/core/layer_inl.h:236-260 `isCompatible(LayerProto)`. -/
def isCompatibleLayer (env : Env V) (l : FLayer V) (p : LayerProto) : Bool :=
  closeVoxelSize p.voxelSize l.voxelSize && decide (p.vps = l.vps) && decide (env.typeName = p.type)

/-- voxblox/include/voxblox/core/layer_inl.h:262-270 `isCompatible(BlockProto)`. -/
def isCompatibleBlock (l : FLayer V) (p : BlockProto) : Bool :=
  closeVoxelSize p.voxelSize l.voxelSize && decide (p.vps = wrap32 l.vps)

/-- voxblox/include/voxblox/core/layer.h:54 `BlockMergingStrategy`. -/
inductive Strategy where
  | prohibit
  | replace
  | discard
  | merge
deriving DecidableEq, Repr

/-- `block_map_[i] = b`. Serves the model of voxblox/include/voxblox/io/layer_io_inl.h:14-242. -/
def assign {α : Type} (m : List (Idx × α)) (i : Idx) (b : α) : List (Idx × α) :=
  (i, b) :: m.filter fun e => e.1 ≠ i

/-- Mutation of the entry with key `i`.
Serves the model of voxblox/include/voxblox/io/layer_io_inl.h:14-242. -/
def modifyKey {α : Type} (m : List (Idx × α)) (i : Idx) (f : α → α) : List (Idx × α) :=
  m.map fun e => if e.1 = i then (e.1, f e.2) else e

/-- The `switch` over the strategy in `addBlockFromProto`, voxblox/include/voxblox/core/layer_inl.h:201-227:
the block map after placing the decoded block `b` at `i`. -/
def placeBlock (env : Env V) (m : List (Idx × Block Word V)) (i : Idx) (b : Block Word V) :
    Strategy → Outcome (List (Idx × Block Word V))
  | .prohibit => do
    Outcome.check (m.lookup i).isNone
    pure (assign m i b)
  | .replace => pure (assign m i b)
  | .discard =>
    match m.lookup i with
    | some _ => pure m
    | none => pure ((i, b) :: m)
  | .merge =>
    match m.lookup i with
    | none => pure (assign m i b)
    | some old => do
      let new ← old.merge env.mergeV b
      pure (modifyKey m i fun _ => new)

/-- voxblox/include/voxblox/core/layer_inl.h:191-234 `addBlockFromProto`. -/
def addBlockFromProto (env : Env V) (l : FLayer V) (p : BlockProto) (s : Strategy) :
    Outcome (Bool × FLayer V) :=
  if isCompatibleBlock l p then do
    let b ← blockFromProto env p
    let i ← env.idxOf l.voxelSize l.vps b.origin
    let m ← placeBlock env l.blocks i b s
    pure (true, { l with blocks := modifyKey m i fun b => { b with updated := Flags.setAll } })
  else pure (false, l)

/-! ### Saving -/

/-- Whether a block is written: voxblox/include/voxblox/core/layer_inl.h:169-176. -/
def selected (includeAll : Bool) (list : List Idx) (i : Idx) : Bool := includeAll || list.contains i

/-- voxblox/include/voxblox/core/layer_inl.h:164-189 `saveBlocksToStream`. -/
def saveBlocks (env : Env V) (includeAll : Bool) (list : List Idx) (l : FLayer V) : Outcome (List Byte) := do
  let msgs ← (l.blocks.filter fun e => selected includeAll list e.1).mapM fun e => do
    let p ← blockProto env e.2
    pure (writeMsg p.fields)
  pure msgs.flatten

/-- voxblox/include/voxblox/core/layer_inl.h:89-162 `saveSubsetToFile`: returns the bytes appended to the
(truncated or kept) file. Opening the file is assumed to succeed. -/
def saveSubset (env : Env V) (l : FLayer V) (list : List Idx) (includeAll : Bool) : Outcome (List Byte) := do
  let n := if (includeAll && !l.blocks.isEmpty) || !list.isEmpty then
      l.blocks.countP fun e => if !includeAll then list.contains e.1 else true
    else 0
  if includeAll then Outcome.check (decide (n = l.blocks.length))
  else do
    Outcome.check (decide (n ≤ l.blocks.length))
    Outcome.check (decide (n ≤ list.length))
  let blocks ← saveBlocks env includeAll list l
  pure (writeCount (1 + n) ++ writeMsg (layerProto env l).fields ++ blocks)

/-- voxblox/include/voxblox/core/layer_inl.h:81-87 `saveToFile`. -/
def saveLayer (env : Env V) (l : FLayer V) : Outcome (List Byte) := saveSubset env l [] true

/-- The file after saving (voxblox/include/voxblox/core/layer_inl.h:101-107): truncated first or
appended to. -/
def fileAfterSave (old : List Byte) (clearFile : Bool) (written : List Byte) : List Byte :=
  if clearFile then written else old ++ written

/-! ### Loading -/

/-- voxblox/include/voxblox/io/layer_io_inl.h:103-128 `LoadBlocksFromStream`. -/
def loadBlocks (env : Env V) (s : Strategy) : ℕ → List Byte → FLayer V → Outcome (Bool × FLayer V)
  | 0, _, l => .ok (true, l)
  | n + 1, file, l =>
    match readMsg BlockProto.decode file with
    | none => .ok (false, l)
    | some (p, rest, _) => do
      let (ok, l') ← addBlockFromProto env l p s
      if ok then loadBlocks env s n rest l' else .ok (false, l')

/-- Skipping the blocks of an incompatible layer, voxblox/include/voxblox/io/layer_io_inl.h:66-79,
:187-200. Carries the stream's end-of-file flag. -/
def skipBlocks : ℕ → List Byte → Bool → Option (List Byte × Bool)
  | 0, file, eof => some (file, eof)
  | n + 1, file, _ =>
    match readMsg BlockProto.decode file with
    | none => none
    | some (_, rest, eof) => skipBlocks n rest eof

/-- What a loader decides after reading a layer header.
Serves the model of voxblox/include/voxblox/io/layer_io_inl.h:14-242. -/
inductive Verdict (V : Type) where
  | reject
  | mismatch
  | load (l : FLayer V)

/-- The common loop of `LoadBlocksFromFile` (voxblox/include/voxblox/io/layer_io_inl.h:36-89) and
`LoadLayer` (:150-215). `decide` inspects the header; `cur` is the caller's layer; the result is the
returned flag and the caller's layer afterwards. The loop ends at the latest when the file is used up. -/
def loadLoop (env : Env V) (s : Strategy) (judge : LayerProto → Outcome (Verdict V)) (multi : Bool)
    (cur : Option (FLayer V)) : ℕ → List Byte → Outcome (Bool × Option (FLayer V))
  | 0, _ => .ok (false, cur)
  | k + 1, file =>
    match readCount file with
    | none => .ok (false, cur)
    | some (n, rest) =>
      if n = 0 then .ok (false, cur)
      else
        match readMsg LayerProto.decode rest with
        | none => .ok (false, cur)
        | some (h, rest, eof) => do
          match ← judge h with
          | .reject => .ok (false, cur)
          | .mismatch =>
            if !multi then .ok (false, cur)
            else
              match skipBlocks (n - 1) rest eof with
              | none => .ok (false, cur)
              | some (rest, eof) =>
                if eof then .ok (false, cur) else loadLoop env s judge multi cur k rest
          | .load l => do
            let (ok, l') ← loadBlocks env s (n - 1) rest l
            .ok (ok, some l')

/-- Header inspection in `LoadLayer`, voxblox/include/voxblox/io/layer_io_inl.h:164-202. -/
def judgeNew (env : Env V) (h : LayerProto) : Outcome (Verdict V) :=
  if Fl.le (fl64 h.voxelSize) (.fin 0) || decide (h.vps = 0) then .ok .reject
  else if env.typeName = h.type then do
    let l ← layerFromProto env h
    pure (.load l)
  else .ok .mismatch

/-- Header inspection in `LoadBlocksFromFile`, voxblox/include/voxblox/io/layer_io_inl.h:58-81. -/
def judgeInto (env : Env V) (l : FLayer V) (h : LayerProto) : Outcome (Verdict V) :=
  if isCompatibleLayer env l h then .ok (.load l) else .ok .mismatch

/-- voxblox/include/voxblox/io/layer_io_inl.h:130-216 `LoadLayer` (the file exists and can be opened). -/
def loadLayer (env : Env V) (multi : Bool) (file : List Byte) : Outcome (Bool × Option (FLayer V)) :=
  loadLoop env .prohibit (judgeNew env) multi none (file.length + 1) file

/-- voxblox/include/voxblox/io/layer_io_inl.h:14-91 `LoadBlocksFromFile` into the layer `l`. -/
def loadBlocksFromFile (env : Env V) (s : Strategy) (multi : Bool) (l : FLayer V) (file : List Byte) :
    Outcome (Bool × Option (FLayer V)) :=
  loadLoop env s (judgeInto env l) multi (some l) (file.length + 1) file

end Vox.IO
