/-
What is near a robot, and which voxels an integrator still has to process (C105).
-/
import Verif.Spec.Grid
import Verif.Model.EsdfServer

namespace Vox.Spec

open Layer Grid Esdf

/-- The origin of block `i` is at most `d` away from `p`. -/
def NearRobot (c : Cfg) (p : Pt) (d : ℚ) (i : Idx) : Prop :=
  (i.x * (c.voxelSize * c.vps) - p.x) ^ 2 + (i.y * (c.voxelSize * c.vps) - p.y) ^ 2 + (i.z * (c.voxelSize * c.vps) - p.z) ^ 2 ≤ d ^ 2

instance (c : Cfg) (p : Pt) (d : ℚ) (i : Idx) : Decidable (NearRobot c p d i) := inferInstanceAs (Decidable (_ ≤ _))

/-- Voxels that wait in one of the queues of the integrator. -/
def Waits (s : Esdf.State) (g : Idx) : Prop := g ∈ s.raise ∨ ∃ b ∈ s.open_.buckets, g ∈ b

end Vox.Spec
