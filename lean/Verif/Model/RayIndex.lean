/-
The voxels along a ray, sorted by block (voxblox/include/voxblox/integrator/integrator_utils.h:145-192).
-/
import Verif.Model.TsdfScan
import Verif.Model.Sphere

namespace Vox.RayIndex

open Ray Grid Sphere TsdfScan

/-- `ray_start` and `ray_end`, voxblox/include/voxblox/integrator/integrator_utils.h:158-162. -/
def ends (A : Arith) (start stop : Vec3 Fl) (trunc : Fl) (carving : Bool) : Vec3 Fl × Vec3 Fl :=
  let unit := Occ.normalized A (A.vsub stop start)
  (if carving then start else A.vsub stop (A.vscale unit trunc), A.vadd stop (A.vscale unit trunc))

/-- The voxels of the ray, voxblox/include/voxblox/integrator/integrator_utils.h:156, 164-169 (the inverse of the voxel size is rounded
once; `fatal` stands for a ray that never ends, see `Ray.castAll`). -/
def voxels (A : Arith) (start stop : Vec3 Fl) (s : ℚ) (trunc : Fl) (carving : Bool) : Outcome (List Idx) :=
  castAll A (A.vscale (ends A start stop trunc carving).1 (sizeInv A s)) (A.vscale (ends A start stop trunc carving).2 (sizeInv A s))

/-- One coordinate of the correction of negative local indices, voxblox/include/voxblox/integrator/integrator_utils.h:179-187. -/
def lift1 (vps : ℕ) (c : ℤ) : ℤ := if c < 0 then c + vps else c

/-- One voxel, voxblox/include/voxblox/integrator/integrator_utils.h:173-189. -/
def sortVoxel (vps : ℕ) (m : VoxelMap) (g : Idx) : Outcome VoxelMap := do
  let e ← splitGlobal vps g
  pure (pushVoxel m (e.1, e.2.map (lift1 vps)))

/-- voxblox/include/voxblox/integrator/integrator_utils.h:149-192 `getHierarchicalIndexAlongRay`: the given map is cleared first. -/
def alongRay (A : Arith) (start stop : Vec3 Fl) (vps : ℕ) (s : ℚ) (trunc : Fl) (carving : Bool) (_old : VoxelMap) : Outcome VoxelMap := do
  let gs ← voxels A start stop s trunc carving
  gs.foldlM (sortVoxel vps) []

end Vox.RayIndex
