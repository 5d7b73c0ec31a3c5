/-
Vocabulary for property C120: the limits within which the integrators leave voxels.
-/
import Verif.Model.Arith
import Verif.Model.Voxel

namespace Vox.Spec

/-- A TSDF weight within the limit of the configuration. -/
def WeightWithin (M : ℚ) (v : TsdfVoxel Fl) : Prop := ∃ w, v.weight = .fin w ∧ 0 ≤ w ∧ w ≤ M

/-- Log-odds within the limits of the configuration. -/
def OddsWithin (lo hi : ℚ) (v : OccVoxel Fl) : Prop := ∃ p, v.probabilityLog = .fin p ∧ lo ≤ p ∧ p ≤ hi

/-- The value of a finite number. -/
def finValue : Fl → ℚ
  | .fin q => q
  | _ => 0

end Vox.Spec
