/-
Layers as point clouds: voxblox_ros/include/voxblox_ros/ptcloud_vis.h and the distance-coloured cloud of
voxblox/include/voxblox/io/sdf_ply.h, voxblox/src/io/sdf_ply.cc. Coordinates are exact; the numbers in the voxels are floats with NaN and
infinities.
-/
import Verif.Model.Slice
import Verif.Model.Ieee
import Verif.Model.ColorMap

namespace Vox.PtCloud

open Layer Grid Ieee

variable {V R : Type}

/-! ### The loops -/

/-- A visualization function with its output: `none` is `false`. voxblox_ros/include/voxblox_ros/ptcloud_vis.h:33-51. -/
abbrev Vis (V R : Type) := V → Pt → Outcome (Option R)

/-- One voxel, ptcloud_vis.h:77-88 (also :117-126, :160-170). -/
def cloudVoxel (vis : Vis V R) (b : Block ℚ V) (acc : List (Pt × R)) (k : ℕ) : Outcome (List (Pt × R)) := do
  let v ← voxelIndexFromLinear b.vps k
  let coord := centerOf b v
  let x ← voxelAt b k
  match ← vis x coord with
  | some r => pure (acc ++ [(coord, r)])
  | none => pure acc

/-- One block, ptcloud_vis.h:71-90. -/
def cloudBlock (vis : Vis V R) (l : VLayer V) (acc : List (Pt × R)) (i : Idx) : Outcome (List (Pt × R)) :=
  match block? l i with
  | none => .fatal
  | some b => (List.range (numVoxels l.cfg.vps)).foldlM (cloudVoxel vis b) acc

/-- voxblox_ros/include/voxblox_ros/ptcloud_vis.h:54-91, :94-129 `createColorPointcloudFromLayer` and :131-174
`createOccupancyBlocksFromLayer` (without the colours and the other fields of the marker): the points with what the function reports. -/
def cloud (vis : Vis V R) (l : VLayer V) : Outcome (List (Pt × R)) := (l.blocks.map (·.1)).foldlM (cloudBlock vis l) []

/-! ### What is shown -/

/-- `kMinWeight` where it is 1e-3, a `float`: ptcloud_vis.h:206, :218, :231, :257, :285. -/
def minWeight : Fl := float32.rnd (1 / 1000)

/-- `kFloatEpsilon`, voxblox/include/voxblox/core/common.h:143. -/
def kFloatEpsilon : ℚ := rnd32 (1 / 1000000)

/-- ptcloud_vis.h:177-189 `visualizeNearSurfaceTsdfVoxels`. -/
def nearSurface (dist : Fl) : Vis (TsdfVoxel Fl) Color := fun v _ =>
  .ok (if Fl.lt (.fin 0) v.weight && Fl.lt (Fl.abs v.distance) dist then some v.color else none)

/-- ptcloud_vis.h:191-200 `visualizeTsdfVoxels`. -/
def tsdfVoxels : Vis (TsdfVoxel Fl) Color := fun v _ => .ok (if Fl.lt (.fin 0) v.weight then some v.color else none)

/-- ptcloud_vis.h:202-212 `visualizeDistanceIntensityTsdfVoxels`. -/
def tsdfDistance : Vis (TsdfVoxel Fl) Fl := fun v _ => .ok (if Fl.lt minWeight v.weight then some v.distance else none)

/-- ptcloud_vis.h:214-225 `visualizeDistanceIntensityTsdfVoxelsNearSurface`. -/
def tsdfDistanceNear (dist : Fl) : Vis (TsdfVoxel Fl) Fl := fun v _ =>
  .ok (if Fl.lt minWeight v.weight && Fl.lt (Fl.abs v.distance) dist then some v.distance else none)

/-- ptcloud_vis.h:243-252 `visualizeDistanceIntensityEsdfVoxels`. -/
def esdfDistance : Vis (EsdfVoxel Fl) Fl := fun v _ => .ok (if v.observed then some v.distance else none)

/-- ptcloud_vis.h:254-265 `visualizeIntensityVoxels`. -/
def intensity : Vis (IntensityVoxel Fl) Fl := fun v _ => .ok (if Fl.lt minWeight v.weight then some v.intensity else none)

/-- ptcloud_vis.h:282-290 `visualizeOccupiedTsdfVoxels`. -/
def occupiedTsdf (minDistance : Fl) : Vis (TsdfVoxel Fl) Unit := fun v _ =>
  .ok (if Fl.lt minWeight v.weight && Fl.le v.distance minDistance then some () else none)

/-- ptcloud_vis.h:292-300 `visualizeFreeEsdfVoxels`. -/
def freeEsdf (minDistance : Fl) : Vis (EsdfVoxel Fl) Fl := fun v _ =>
  .ok (if v.observed && Fl.le minDistance v.distance then some v.distance else none)

/-- ptcloud_vis.h:302-309 `visualizeOccupiedOccupancyVoxels`; the log-odds of 0.7 are a parameter. The flag `observed` is not read. -/
def occupiedOcc (threshold : Fl) : Vis (OccVoxel Fl) Unit := fun v _ =>
  .ok (if Fl.lt threshold v.probabilityLog then some () else none)

/-- The condition on the position, ptcloud_vis.h:233-234 and :272-273. -/
def onPlane (a : ℕ) (val s : ℚ) (coord : Pt) : Outcome Bool := do
  let c ← Slice.axis a coord
  pure (decide (|c - val| ≤ s / 2 + kFloatEpsilon))

/-- ptcloud_vis.h:227-241 `visualizeDistanceIntensityTsdfVoxelsSlice`. -/
def tsdfSlice (a : ℕ) (val s : ℚ) : Vis (TsdfVoxel Fl) Fl := fun v coord => do
  let on ← onPlane a val s coord
  pure (if on && Fl.lt minWeight v.weight then some v.distance else none)

/-- ptcloud_vis.h:267-280 `visualizeDistanceIntensityEsdfVoxelsSlice`. -/
def esdfSlice (a : ℕ) (val s : ℚ) : Vis (EsdfVoxel Fl) Fl := fun v coord => do
  let on ← onPlane a val s coord
  pure (if on && v.observed then some v.distance else none)

/-- `std::remainder`: the quotient is rounded to the nearest integer, ties to even. ptcloud_vis.h:401, :420. -/
def remainder (x s : ℚ) : ℚ := x - roundEven (x / s) * s

/-- The plane actually used, ptcloud_vis.h:401-403, :420-422. -/
def slicePlane (s val : ℚ) : ℚ := if remainder val s < kFloatEpsilon then val + s / 2 else val

/-- ptcloud_vis.h:393-410 `createDistancePointcloudFromTsdfLayerSlice`. -/
def tsdfLayerSlice (a : ℕ) (val : ℚ) (l : VLayer (TsdfVoxel Fl)) : Outcome (List (Pt × Fl)) :=
  cloud (tsdfSlice a (slicePlane l.cfg.voxelSize val) l.cfg.voxelSize) l

/-- ptcloud_vis.h:412-429 `createDistancePointcloudFromEsdfLayerSlice`. -/
def esdfLayerSlice (a : ℕ) (val : ℚ) (l : VLayer (EsdfVoxel Fl)) : Outcome (List (Pt × Fl)) :=
  cloud (esdfSlice a (slicePlane l.cfg.voxelSize val) l.cfg.voxelSize) l

/-- ptcloud_vis.h:431-440 `createOccupancyBlocksFromTsdfLayer`: the least distance is the voxel size. -/
def occupancyBlocksTsdf (l : VLayer (TsdfVoxel Fl)) : Outcome (List (Pt × Unit)) := cloud (occupiedTsdf (.fin l.cfg.voxelSize)) l

/-! ### The cloud coloured by distance -/

/-- voxblox/src/io/sdf_ply.cc:19-35 (and :45-61), in `float` arithmetic: `none` where `false` is returned. -/
def distanceColor (range maxValue d : Fl) : Outcome (Option Color) :=
  if Fl.lt maxValue (Fl.abs d) && Fl.lt (.fin 0) maxValue then .ok none
  else
    let t := Fl.stdMin (Fl.stdMax d (Fl.neg range)) range
    let factor := float32.mul (.fin (1 / 2)) (float32.add (.fin 1) (float32.div t range))
    if Fl.le factor (.fin 1) && Fl.le (.fin 0) factor then
      match float32.sub (float32.rnd (66 / 100)) (float32.mul (float32.rnd (66 / 100)) factor) with
      | .fin h => do
        let c ← ColorMap.rainbow rnd64 h
        pure (some c)
      | _ => .ub
    else .fatal

/-- voxblox/src/io/sdf_ply.cc:9-35 `getColorFromVoxel` for TSDF voxels; `kTolerance` is a `float`. -/
def tsdfColor (range maxValue : Fl) (v : TsdfVoxel Fl) : Outcome (Option Color) :=
  if Fl.le v.weight (float32.rnd (1 / 1000000)) then .ok none else distanceColor range maxValue v.distance

/-- voxblox/src/io/sdf_ply.cc:37-61 `getColorFromVoxel` for ESDF voxels. -/
def esdfColor (range maxValue : Fl) (v : EsdfVoxel Fl) : Outcome (Option Color) :=
  if !v.observed then .ok none else distanceColor range maxValue v.distance

/-- The order of the three loops, voxblox/include/voxblox/io/sdf_ply.h:88-91. -/
def gridOrder (vps : ℕ) : List Idx :=
  (List.range vps).flatMap fun (x : ℕ) => (List.range vps).flatMap fun (y : ℕ) => (List.range vps).map fun (z : ℕ) => ⟨x, y, z⟩

/-- One voxel, voxblox/include/voxblox/io/sdf_ply.h:92-103. -/
def sdfVoxelPoint (color : V → Outcome (Option Color)) (b : Block ℚ V) (acc : List (Pt × Color)) (v : Idx) : Outcome (List (Pt × Color)) := do
  let x ← voxelByIndex b v
  match ← color x with
  | some c => pure (acc ++ [(centerOf b v, c)])
  | none => pure acc

/-- One block, voxblox/include/voxblox/io/sdf_ply.h:82-107. -/
def sdfBlockPoints (color : V → Outcome (Option Color)) (l : VLayer V) (acc : List (Pt × Color)) (i : Idx) : Outcome (List (Pt × Color)) :=
  match block? l i with
  | none => .fatal
  | some b => (gridOrder b.vps).foldlM (sdfVoxelPoint color b) acc

/-- voxblox/include/voxblox/io/sdf_ply.h:70-109 `convertVoxelGridToPointCloud`: the vertices and colours (in pairs) after the call and the
returned flag; `points` is what the mesh holds before. -/
def voxelGridToPointCloud (color : Fl → Fl → V → Outcome (Option Color)) (range maxValue : Fl) (l : VLayer V) (points : List (Pt × Color)) :
    Outcome (List (Pt × Color) × Bool) := do
  Outcome.check (Fl.lt (.fin 0) range)
  let ps ← (l.blocks.map (·.1)).foldlM (sdfBlockPoints (color range maxValue) l) points
  pure (ps, !ps.isEmpty)

end Vox.PtCloud
