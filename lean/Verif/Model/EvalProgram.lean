/-
The program voxblox_ros/src/voxblox_eval.cc around the evaluation of `Verif.Model.EvalCloud`: parameters, files, transformation, display. Exact arithmetic; logging and time
stamps are left out.
-/
import Verif.Model.EvalCloud
import Verif.Model.Merge
import Verif.Model.Visualizer

namespace Vox.EvalProgram

open Layer Grid MC MeshInt Vox.IO EvalCloud

/-- The parameters with their defaults, voxblox_ros/src/voxblox_eval.cc:84-97, :107-113 and :131-132. -/
structure Params where
  visualize : Bool := true
  recolorByError : Bool := false
  frame : String := "world"
  tVG : Option Merge.Rigid := none
  invert : Bool := false
  mapPath : Option String := none
  gtPath : Option String := none
  colorMode : String := "color"

/-- The colour mode, voxblox_ros/src/voxblox_eval.cc:133-143; without display it is not set, nor used. -/
def colorModeOf (s : String) : MeshMsg.ColorMode :=
  if s = "color" then .color
  else if s = "height" then .height
  else if s = "normals" then .normals
  else if s = "lambert" then .lambert
  else .gray

/-- The transformation of the cloud: `T_V_G_` (voxblox_ros/src/voxblox_eval.cc:93-103, the identity unless given) applied in :153-154. -/
def Params.toV (p : Params) (x : Pt) : Pt :=
  match p.tVG with
  | none => x
  | some T => if p.invert then T.unapply x else T.apply x

/-- A voxel of words, voxblox/src/core/block.cc:82-88, as numbers. -/
def voxelOf (v : TsdfVoxel Word) : TsdfVoxel ℚ := ⟨Visualizer.numberOf v.distance, Visualizer.numberOf v.weight, v.color⟩

/-- A loaded block in exact arithmetic, voxblox/include/voxblox/core/block_inl.h:73-88. -/
def blockOfFile (b : Block Word (TsdfVoxel Word)) : Block ℚ (TsdfVoxel ℚ) :=
  { vps := b.vps, voxelSize := Visualizer.numberOf b.voxelSize, origin := b.origin.map Visualizer.numberOf, hasData := b.hasData, updated := b.updated,
    voxels := b.voxels.map voxelOf }

/-- A loaded layer in exact arithmetic, voxblox/include/voxblox/core/layer_inl.h:24-40. -/
def layerOfFile (l : FLayer (TsdfVoxel Word)) : VLayer (TsdfVoxel ℚ) :=
  ⟨⟨Visualizer.numberOf l.voxelSize, l.vps⟩, l.blocks.map fun e => (e.1, blockOfFile e.2)⟩

/-- Sizes, positions, distances and weights are numbers; other layers are not covered here. voxblox/include/voxblox/core/block_inl.h:75-76, voxblox/src/core/block.cc:82-85. -/
def readable (l : FLayer (TsdfVoxel Word)) : Bool :=
  Visualizer.readable l &&
    l.blocks.all fun e => e.2.voxels.all fun v => (ServerMesh.number v.distance).isSome && (ServerMesh.number v.weight).isSome

/-- What the constructor has, voxblox_ros/src/voxblox_eval.cc:105-125: the map and the cloud. `clouds` are the files that `pcl::PLYReader` reads. A missing map after a
successful load would be dereferenced in :165. -/
def start (io : IO.Env (TsdfVoxel Word)) (d : ServerIO.Disk) (clouds : String → Option (List Pt)) (p : Params) : Outcome (VLayer (TsdfVoxel ℚ) × List Pt) :=
  match p.mapPath, p.gtPath with
  | some mp, some gp => do
    let r ← Visualizer.loadFile io d mp
    Outcome.check r.1
    match clouds gp, r.2 with
    | none, _ => .fatal
    | some _, none => .ub
    | some c, some l => do
      Outcome.require (readable l)
      pure (layerOfFile l, c)
  | _, _ => .fatal

/-- What is published, voxblox_ros/src/voxblox_eval.cc:239-246: the frame of both messages, the marker, the cloud. -/
structure Display where
  frame : String
  marker : MeshMsg.Marker
  cloud : List Pt

/-- voxblox_ros/src/voxblox_eval.cc:227-248 `visualize`; `cloud` is transformed already. -/
def visualize (E : Export.Env) (p : Params) (l : VLayer (TsdfVoxel ℚ)) (cloud : List Pt) : Outcome Display := do
  let s ← generateMesh E.sq true (tsdfFns Visualizer.meshMinWeight) true false true (l, [])
  let mk ← MeshMsg.fillMarker (colorModeOf p.colorMode) (E.iter s.2) ⟨[], []⟩
  pure ⟨p.frame, mk, cloud⟩

/-- What a run leaves: the numbers printed in voxblox_ros/src/voxblox_eval.cc:212-220, the messages, and whether the node stays (:263-265). -/
structure Report where
  stats : Stats
  meanSquare : Option ℚ
  sent : Option Display
  stays : Bool

/-- voxblox_ros/src/voxblox_eval.cc:150-225 `evaluate` with :222-224, and :263-265. -/
def run (E : Export.Env) (p : Params) (l : VLayer (TsdfVoxel ℚ)) (cloud : List Pt) : Outcome Report := do
  let r ← evaluate (p.visualize && p.recolorByError) p.toV l cloud
  if p.visualize then do
    let s ← visualize E p r.2.2 (cloud.map p.toV)
    pure ⟨r.1, r.2.1, some s, true⟩
  else pure ⟨r.1, r.2.1, none, false⟩

/-- voxblox_ros/src/voxblox_eval.cc:252-267 `main`. -/
def main (io : IO.Env (TsdfVoxel Word)) (d : ServerIO.Disk) (clouds : String → Option (List Pt)) (E : Export.Env) (p : Params) : Outcome Report := do
  let s ← start io d clouds p
  run E p s.1 s.2

end Vox.EvalProgram
