/-
Layers as ROS messages (voxblox_ros/include/voxblox_ros/conversions_inl.h, voxblox_msgs/msg/Layer.msg, Block.msg).
-/
import Verif.Model.Merge
import Verif.Model.Voxel

namespace Vox.LayerMsg

open Layer Grid

/-- voxblox_msgs/msg/Layer.msg:1-19 and Block.msg:1-8. `voxelSize` is a `float64`, `action` a `uint8` (0 update, 1 merge, 2 reset). -/
structure Msg where
  voxelSize : Fl
  vps : ℕ
  layerType : String
  action : ℕ
  blocks : List (Idx × List Word)
deriving DecidableEq

/-- What the templates use of the voxel type: `getVoxelType` (voxblox/include/voxblox/core/voxel.h:49-81), the default-constructed
voxel, the integer serialization (voxblox/src/core/block.cc:65-255) and `mergeVoxelAIntoVoxelB`
(voxblox/src/utils/voxel_utils.cc:9-39). -/
structure VoxelType (V : Type) where
  name : String
  dflt : V
  codec : Serial.Codec V
  merge : V → V → Outcome V

variable {V : Type}

/-- The indices of the blocks sent, voxblox_ros/include/voxblox_ros/conversions_inl.h:18-23, in the order of the block map
(layer.h:184-203). -/
def blockList (A : VLayer V) (onlyUpdated : Bool) : List Idx :=
  ((A.blocks.filter fun e => !onlyUpdated || e.2.updated.get .map)).map (·.1)

/-- One block message, conversions_inl.h:29-38; `getBlockByIndex` aborts for an unknown index. -/
def blockMsg (T : VoxelType V) (A : VLayer V) (i : Idx) : Outcome (Idx × List Word) :=
  match block? A i with
  | none => .fatal
  | some b => do
    let ws ← Serial.serialize T.codec b.voxels
    pure (i, ws)

/-- conversions_inl.h:8-40 `serializeLayerAsMsg`. The side is assigned to a `uint32`. -/
def serializeLayer (T : VoxelType V) (A : VLayer V) (onlyUpdated : Bool) (action : ℕ) : Outcome Msg := do
  let bs ← (blockList A onlyUpdated).mapM (blockMsg T A)
  pure ⟨.fin A.cfg.voxelSize, A.cfg.vps % 2 ^ 32, T.name, action % 2 ^ 8, bs⟩

/-- `kVoxelSizeEpsilon`, conversions_inl.h:61: the `double` nearest to 1e-5. -/
def kVoxelSizeEpsilon : ℚ := 5902958103587057 / 2 ^ 69

/-- The size test, conversions_inl.h:62-63; `ar` is the `double` arithmetic. -/
def sizesDiffer (ar : Arith) (msg : Msg) (B : VLayer V) : Bool :=
  msg.vps ≠ B.cfg.vps || Fl.lt (.fin kVoxelSizeEpsilon) (Fl.abs (ar.sub msg.voxelSize (.fin B.cfg.voxelSize)))

/-- Overwriting the voxels of a block, conversions_inl.h:81-85 (flags and the has-data mark are not touched). -/
def putBlock (T : VoxelType V) (B : VLayer V) (i : Idx) (ws : List Word) : Outcome (VLayer V) :=
  let B := allocateBlock T.dflt B i
  match block? B i with
  | none => .ub
  | some b => do
    let xs ← Serial.deserialize T.codec (numVoxels b.vps) ws
    pure (modifyBlock B i fun _ => { b with voxels := xs })

/-- Merging into an existing block, conversions_inl.h:88-99. -/
def mergeInto (T : VoxelType V) (B : VLayer V) (i : Idx) (ws : List Word) : Outcome (VLayer V) :=
  match block? B i with
  | none => .fatal
  | some b => do
    let xs ← Serial.deserialize T.codec (numVoxels b.vps) ws
    let b' ← Merge.mergeBlock T.merge b { Block.new T.dflt b.vps b.voxelSize b.origin with voxels := xs }
    pure (modifyBlock B i fun _ => b')

/-- One block message, conversions_inl.h:74-100. -/
def applyBlock (T : VoxelType V) (action : ℕ) (B : VLayer V) (m : Idx × List Word) : Outcome (VLayer V) :=
  if action = 0 ∨ block? B m.1 = none then putBlock T B m.1 m.2
  else if action = 1 then mergeInto T B m.1 m.2
  else .ok B

/-- The final checks, conversions_inl.h:103-112. -/
def finalCheck (action : ℕ) (B : VLayer V) (n : ℕ) : Outcome Unit :=
  if action = 2 then Outcome.check (B.blocks.length == n)
  else if action ≤ 1 then Outcome.check (decide (n ≤ B.blocks.length))
  else .ok ()

/-- conversions_inl.h:50-115 `deserializeMsgToLayer` with an explicit action; returns the layer and the returned flag. -/
def deserializeLayer (T : VoxelType V) (ar : Arith) (msg : Msg) (action : ℕ) (B : VLayer V) : Outcome (VLayer V × Bool) :=
  if T.name ≠ msg.layerType then .ok (B, false)
  else if sizesDiffer ar msg B then .ok (B, false)
  else do
    let B' ← msg.blocks.foldlM (applyBlock T action) (if action = 2 then { B with blocks := [] } else B)
    finalCheck action B' msg.blocks.length
    pure (B', true)

/-- conversions_inl.h:42-48: with the action of the message. -/
def deserializeMsg (T : VoxelType V) (ar : Arith) (msg : Msg) (B : VLayer V) : Outcome (VLayer V × Bool) :=
  deserializeLayer T ar msg msg.action B

/-- TSDF layers, voxblox/include/voxblox/core/voxel.h:12-16, :52, :63-66. The merge of voxels works on the floats the words stand
for and is a parameter here. -/
def tsdfType (merge : TsdfVoxel Word → TsdfVoxel Word → Outcome (TsdfVoxel Word)) : VoxelType (TsdfVoxel Word) :=
  ⟨"tsdf", ⟨0#32, 0#32, Color.default⟩, Serial.tsdfCodec, merge⟩

/-- ESDF layers, voxblox/include/voxblox/core/voxel.h:18-37, :53, :68-71. -/
def esdfType (merge : EsdfVoxel Word → EsdfVoxel Word → Outcome (EsdfVoxel Word)) : VoxelType (EsdfVoxel Word) :=
  ⟨"esdf", ⟨0#32, false, false, false, false, 0⟩, Serial.esdfCodec, merge⟩

/-- Occupancy layers, voxblox/include/voxblox/core/voxel.h:39-42, :54, :73-76. -/
def occType (merge : OccVoxel Word → OccVoxel Word → Outcome (OccVoxel Word)) : VoxelType (OccVoxel Word) :=
  ⟨"occupancy", ⟨0#32, false⟩, Serial.occCodec, merge⟩

end Vox.LayerMsg
