/-
Searching a TSDF along a ray for the surface (voxblox/include/voxblox/utils/distance_utils.h). `rnd` is the rounding of `float` and
`unit` the normalisation of a vector; the stored numbers are finite.
-/
import Verif.Model.Grid
import Verif.Model.Voxel

namespace Vox.RaySearch

open Layer Grid

/-- `ray_origin + t * ray_direction`, voxblox/include/voxblox/utils/distance_utils.h:36, :74. -/
def position (rnd : ℚ → ℚ) (origin dir : Pt) (t : ℚ) : Pt :=
  ⟨rnd (origin.x + rnd (t * dir.x)), rnd (origin.y + rnd (t * dir.y)), rnd (origin.z + rnd (t * dir.z))⟩

/-- What one pass through the loop does with `t`: carry on, or leave it with a surface,
voxblox/include/voxblox/utils/distance_utils.h:35-71. -/
inductive Pass where
  | on (t : ℚ)
  | found (t : ℚ)
deriving DecidableEq

/-- The part of a pass after the voxel has been looked up, voxblox/include/voxblox/utils/distance_utils.h:47-70. -/
def judge (rnd : ℚ → ℚ) (s t : ℚ) (v : TsdfVoxel ℚ) : Pass :=
  if v.weight < 1 / 1000000 then .on (rnd (t + s))
  else if s < v.distance then .on (rnd (t + v.distance))
  else if v.distance < 0 then .found t
  else if v.distance < s then .found (rnd (t + v.distance))
  else .on (rnd (t + s))

/-- One pass, voxblox/include/voxblox/utils/distance_utils.h:36-70. -/
def pass (rnd : ℚ → ℚ) (l : VLayer (TsdfVoxel ℚ)) (origin dir : Pt) (t : ℚ) : Outcome Pass := do
  let p := position rnd origin dir t
  match ← blockAtCoords l p with
  | none => pure (.on (rnd (t + l.cfg.voxelSize)))
  | some b => do
    let v ← voxelByCoords b p
    pure (judge rnd l.cfg.voxelSize t v)

/-- How the loop stands after some passes: left with a surface, left at the maximum distance, or still running.
voxblox/include/voxblox/utils/distance_utils.h:33-71. -/
inductive Search where
  | hit (t : ℚ)
  | miss
  | running (t : ℚ)
deriving DecidableEq

/-- The loop, voxblox/include/voxblox/utils/distance_utils.h:35-71, for at most `fuel` tests of its condition. -/
def loop (rnd : ℚ → ℚ) (l : VLayer (TsdfVoxel ℚ)) (origin dir : Pt) (max : ℚ) : ℕ → ℚ → Outcome Search
  | 0, t => .ok (.running t)
  | fuel + 1, t =>
    if t < max then do
      match ← pass rnd l origin dir t with
      | .on t' => loop rnd l origin dir max fuel t'
      | .found t' => pure (.hit t')
    else .ok .miss

/-- voxblox/include/voxblox/utils/distance_utils.h:16-78 `getSurfaceDistanceAlongRay`, run for at most `fuel` tests of the loop
condition: `none` if it has not returned by then, otherwise the returned flag with the point. -/
def surfaceAlongRay (rnd : ℚ → ℚ) (unit : Pt → Pt) (l : VLayer (TsdfVoxel ℚ)) (origin bearing : Pt) (max : ℚ) (fuel : ℕ) :
    Outcome (Option (Option Pt)) := do
  match ← loop rnd l origin (unit bearing) max fuel 0 with
  | .running _ => pure none
  | .miss => pure (some none)
  | .hit t => pure (some (some (position rnd origin (unit bearing) t)))

end Vox.RaySearch
