/-
Quasi-Euclidean distances to the surface band of a TSDF map.
-/
import Verif.Spec.EsdfOcc

namespace Vox.Spec

open Layer Grid

/-- How a TSDF map is read: voxels with at least `minWeight` are observed, those with a distance below `width` form the
band at the surface, and with a `crust` the unobserved voxels count as inside. -/
structure SurfaceView where
  minWeight : ℚ
  width : ℚ
  crust : Bool

/-- The signed distance belongs to the outside, or to the inside. -/
def OnSide (out : Bool) (t : ℚ) : Prop := if out then 0 < t else t ≤ 0

/-- An observed voxel of the band with signed distance `t`. -/
def InBand (V : SurfaceView) (tsdf : VLayer (TsdfVoxel ℚ)) (g : Idx) (t : ℚ) : Prop :=
  ∃ τ, content tsdf g = some τ ∧ V.minWeight ≤ τ.weight ∧ τ.distance = t ∧ |t| < V.width

/-- A voxel on one side that is not in the band. -/
def FreeOn (V : SurfaceView) (tsdf : VLayer (TsdfVoxel ℚ)) (out : Bool) (g : Idx) : Prop :=
  (∃ τ, content tsdf g = some τ ∧ V.minWeight ≤ τ.weight ∧ V.width ≤ |τ.distance| ∧ OnSide out τ.distance) ∨
  (out = false ∧ V.crust = true ∧ ∃ τ, content tsdf g = some τ ∧ τ.weight < V.minWeight)

/-- `x` is the length of a 26-connected path on one side from a band voxel to `g`, summed up in rounded arithmetic, starting with
the distance of the band voxel and adding `slack` with every step. Only voxels nearer than `max` are extended. -/
inductive SurfacePath (rnd : ℚ → ℚ) (size max slack : ℚ) (V : SurfaceView) (tsdf : VLayer (TsdfVoxel ℚ)) (out : Bool) : Idx → ℚ → Prop
  | start {g : Idx} {t : ℚ} : InBand V tsdf g t → OnSide out t → SurfacePath rnd size max slack V tsdf out g |t|
  | step {g d : Idx} {x : ℚ} : SurfacePath rnd size max slack V tsdf out g x → x < max → IsNeighborOffset d → FreeOn V tsdf out (g + d) →
      SurfacePath rnd size max slack V tsdf out (g + d) (rnd (rnd (x + rnd (unitLength d * size)) + slack))

/-- Voxels off the band have no neighbour on the other side. -/
def Separated (V : SurfaceView) (tsdf : VLayer (TsdfVoxel ℚ)) : Prop :=
  ∀ out g d, IsNeighborOffset d → FreeOn V tsdf out (g + d) → ¬ FreeOn V tsdf (!out) g ∧ ∀ t, InBand V tsdf g t → OnSide out t

end Vox.Spec
