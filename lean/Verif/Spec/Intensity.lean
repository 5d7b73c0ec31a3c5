/-
What an intensity measurement should do, stated by voxel contents.
-/
import Verif.Spec.Merge
import Verif.Model.Voxel

namespace Vox.Spec

open Grid

/-- The position `k` voxel sizes behind the hit, along the bearing vector. -/
def beside (hit bearing : Pt) (s : ℚ) (k : ℤ) : Pt := ⟨hit.x + k * s * bearing.x, hit.y + k * s * bearing.y, hit.z + k * s * bearing.z⟩

/-- The voxel at `g`, a new one (zero intensity and weight) if its block is not there. -/
def voxelOrNew (l : VLayer (IntensityVoxel ℚ)) (g : Idx) : IntensityVoxel ℚ := (content l g).getD ⟨0, 0⟩

/-- A measurement `x` averaged into a voxel whose weight counts the earlier ones, up to `cap`. -/
def averaged (cap x : ℚ) (v : IntensityVoxel ℚ) : IntensityVoxel ℚ := ⟨v.intensity + (x - v.intensity) / (v.weight + 1), min (v.weight + 1) cap⟩

/-- A measurement `x` taken over by a voxel that has none yet. -/
def takenOver (x : ℚ) (v : IntensityVoxel ℚ) : IntensityVoxel ℚ := if v.weight < 1 / 1000000 then ⟨x, v.weight + 1⟩ else v

end Vox.Spec
