/-
Intensity integration (voxblox/src/integrator/intensity_integrator.cc). The intensities and the positions of the neighbours are
computed exactly; `rnd` and `unit` belong to the search along the ray.
-/
import Verif.Model.RaySearch
import Verif.Model.GridWrite

namespace Vox.Intensity

open Layer Grid RaySearch

/-- voxblox/include/voxblox/integrator/intensity_integrator.h:48-51, with the values of
voxblox/src/integrator/intensity_integrator.cc:9-11. -/
structure Params where
  maxDistance : ℚ := 5
  maxWeight : ℚ := 100
  radius : ℕ := 2

/-- A default-constructed voxel, voxblox/include/voxblox/core/voxel.h:44-47. -/
def fresh : IntensityVoxel ℚ := ⟨0, 0⟩

/-- voxblox/src/integrator/intensity_integrator.cc:42-47: the running mean and the capped weight. Weight -1 (never stored) would divide
by zero. -/
def updateCenter (maxWeight x : ℚ) (v : IntensityVoxel ℚ) : IntensityVoxel ℚ :=
  ⟨(v.weight * v.intensity + x) / (v.weight + 1), if maxWeight < v.weight + 1 then maxWeight else v.weight + 1⟩

/-- voxblox/src/integrator/intensity_integrator.cc:59-62. -/
def fill (x : ℚ) (v : IntensityVoxel ℚ) : IntensityVoxel ℚ := if v.weight < 1 / 1000000 then ⟨x, v.weight + 1⟩ else v

/-- Changing the voxel behind `block_ptr->getVoxelByCoordinates(p)`, voxblox/src/integrator/intensity_integrator.cc:40-47 and :58-62, where
`block_ptr` points to block `i` (voxblox/include/voxblox/core/block.h:111-113: the index is truncated to the block). -/
def change (l : VLayer (IntensityVoxel ℚ)) (i : Idx) (p : Pt) (f : IntensityVoxel ℚ → IntensityVoxel ℚ) : Outcome (VLayer (IntensityVoxel ℚ)) :=
  match block? l i with
  | none => .ub
  | some b => do
    let v ← truncatedVoxelIndex b.vps b.origin b.voxelSize p
    let x ← readVoxel l i v
    writeVoxel l i v (f x)

/-- `surface_intersection + bearing_vectors[i] * voxel_offset * voxel_size`,
voxblox/src/integrator/intensity_integrator.cc:54-55. -/
def neighbour (hit bearing : Pt) (s : ℚ) (k : ℤ) : Pt := ⟨hit.x + bearing.x * k * s, hit.y + bearing.y * k * s, hit.z + bearing.z * k * s⟩

/-- One pass of the inner loop, voxblox/src/integrator/intensity_integrator.cc:54-62: the neighbour's block is allocated, but the voxel is
looked up in block `i` of the hit (:58 uses `block_ptr`, not `new_block_ptr`). -/
def fillStep (i : Idx) (hit bearing : Pt) (s x : ℚ) (l : VLayer (IntensityVoxel ℚ)) (k : ℤ) : Outcome (VLayer (IntensityVoxel ℚ)) := do
  let p := neighbour hit bearing s k
  let j ← blockIndexOf l p
  change (allocateBlock fresh l j) i p (fill x)

/-- The offsets of the inner loop, voxblox/src/integrator/intensity_integrator.cc:52-53. -/
def offsets (radius : ℕ) : List ℤ := (List.range (2 * radius + 1)).map fun (k : ℕ) => (k : ℤ) - radius

/-- voxblox/src/integrator/intensity_integrator.cc:38-63: the effect of one hit. -/
def addHit (P : Params) (s : ℚ) (bearing : Pt) (x : ℚ) (hit : Pt) (l : VLayer (IntensityVoxel ℚ)) : Outcome (VLayer (IntensityVoxel ℚ)) := do
  let i ← blockIndexOf l hit
  let l ← change (allocateBlock fresh l i) i hit (updateCenter P.maxWeight x)
  (offsets P.radius).foldlM (fillStep i hit bearing s x) l

/-- One pass of the outer loop, voxblox/src/integrator/intensity_integrator.cc:25-63; `none` if the search has not returned within
`fuel` tests of its condition. -/
def addRay (rnd : ℚ → ℚ) (unit : Pt → Pt) (P : Params) (tsdf : VLayer (TsdfVoxel ℚ)) (origin : Pt) (fuel : ℕ)
    (l : Option (VLayer (IntensityVoxel ℚ))) (r : Pt × ℚ) : Outcome (Option (VLayer (IntensityVoxel ℚ))) :=
  match l with
  | none => pure none
  | some l => do
    match ← surfaceAlongRay rnd unit tsdf origin r.1 P.maxDistance fuel with
    | none => pure none
    | some none => pure (some l)
    | some (some hit) => do
      let l ← addHit P tsdf.cfg.voxelSize r.1 r.2 hit l
      pure (some l)

/-- voxblox/src/integrator/intensity_integrator.cc:15-65 `addIntensityBearingVectors`. -/
def addIntensityBearingVectors (rnd : ℚ → ℚ) (unit : Pt → Pt) (P : Params) (tsdf : VLayer (TsdfVoxel ℚ)) (origin : Pt) (bearings : List Pt)
    (intensities : List ℚ) (fuel : ℕ) (l : VLayer (IntensityVoxel ℚ)) : Outcome (Option (VLayer (IntensityVoxel ℚ))) :=
  if bearings.length ≠ intensities.length then .fatal
  else (bearings.zip intensities).foldlM (addRay rnd unit P tsdf origin fuel) (some l)

end Vox.Intensity
