/-
Ground-truth maps: which voxels are meant and what they should hold.
-/
import Verif.Spec.Grid
import Verif.Model.SimWorld

namespace Vox.Spec

open Layer Grid Sim

variable {V : Type}

/-- `p` lies in the box from `lo` to `hi`, borders included. -/
def InBox (lo hi p : Pt) : Prop := (lo.x ≤ p.x ∧ p.x ≤ hi.x) ∧ (lo.y ≤ p.y ∧ p.y ≤ hi.y) ∧ (lo.z ≤ p.z ∧ p.z ≤ hi.z)

/-- `d` is the distance from `p` to the nearest object, limited to `M` on both sides. -/
structure IsTruncatedDistance (world : List Thing) (M : ℚ) (p : Pt) (d : ℚ) : Prop where
  lower : -M ≤ d
  upper : d ≤ M
  least : ∀ o ∈ world, d ≤ o.dist p ∨ d = -M
  attained : d = M ∨ ∃ o ∈ world, d = o.dist p ∨ d = -M ∧ o.dist p < -M

/-- `c` is the colour of the first object nearest to `p` among those nearer than `M`, the default colour without one. -/
def IsNearestColor (world : List Thing) (M : ℚ) (p : Pt) (c : Color) : Prop :=
  (c = Color.default ∧ ∀ o ∈ world, M ≤ o.dist p) ∨
  ∃ before o after, world = before ++ o :: after ∧ c = o.color ∧ o.dist p < M ∧ (∀ q ∈ before, o.dist p < q.dist p) ∧
    ∀ q ∈ after, o.dist p ≤ q.dist p

/-- Some sample of the axis falls into block `i`: samples lie one block apart, the first half a block before the lower bound, the last not
more than half a block beyond the upper one; a sample within `kEpsilon` blocks of the next block counts for that. -/
def SampledAxis (B lo hi : ℚ) (i : ℤ) : Prop :=
  ∃ k : ℕ, lo - B / 2 + k * B ≤ hi + B / 2 ∧ (i : ℚ) ≤ (lo - B / 2 + k * B) / B + kEpsilon ∧ (lo - B / 2 + k * B) / B + kEpsilon < i + 1

/-- The block is sampled on each axis. -/
def Sampled (B : ℚ) (lo hi : Pt) (i : Idx) : Prop := SampledAxis B lo.x hi.x i.x ∧ SampledAxis B lo.y hi.y i.y ∧ SampledAxis B lo.z hi.z i.z

end Vox.Spec
