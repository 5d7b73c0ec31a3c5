/-
Quasi-Euclidean distances in an occupancy map.
-/
import Verif.Spec.Grid
import Verif.Spec.Index
import Verif.Model.Voxel

namespace Vox.Spec

open Layer Grid

/-- The voxel was observed. -/
def OccObserved (occ : VLayer (OccVoxel ℚ)) (g : Idx) : Prop := ∃ o, content occ g = some o ∧ o.observed = true

/-- The voxel was observed with a probability above one half. -/
def OccOccupied (occ : VLayer (OccVoxel ℚ)) (g : Idx) : Prop :=
  ∃ o, content occ g = some o ∧ o.observed = true ∧ 0 < o.probabilityLog

/-- The length of a step to a neighbour in voxels: the floats nearest to 1, √2 and √3. -/
def unitLength (d : Idx) : ℚ :=
  if sqLen d = 1 then 1 else if sqLen d = 2 then 11863283 / 8388608 else 14529495 / 8388608

/-- `x` is the length, summed up in rounded arithmetic, of a 26-connected path through observed voxels from an occupied
voxel to `g`; only voxels nearer than `max` are extended, and the path does not return to an occupied voxel. -/
inductive PathLength (rnd : ℚ → ℚ) (size max : ℚ) (occ : VLayer (OccVoxel ℚ)) : Idx → ℚ → Prop
  | start {g : Idx} : OccOccupied occ g → PathLength rnd size max occ g 0
  | step {g d : Idx} {x : ℚ} : PathLength rnd size max occ g x → x < max → IsNeighborOffset d → OccObserved occ (g + d) →
      ¬ OccOccupied occ (g + d) → PathLength rnd size max occ (g + d) (rnd (x + rnd (unitLength d * size)))

end Vox.Spec
