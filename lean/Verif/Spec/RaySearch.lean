/-
What a search along a ray may see, stated by voxel contents.
-/
import Verif.Spec.Grid
import Verif.Model.Voxel

namespace Vox.Spec

open Grid

/-- Along one axis, `q` lies in voxel `g` of a grid of size `s`, up to a tolerance of a millionth of a block (`n` voxels) at the
lower face. -/
def NearAxis (n : ℕ) (s : ℚ) (g : ℤ) (q : ℚ) : Prop := ((g : ℚ) - n / 1000000) * s ≤ q ∧ q < ((g : ℚ) + 1) * s

/-- The voxel of index `g` is the one at position `p`, up to the tolerance of the index computation. -/
def VoxelAt {V : Type} (l : VLayer V) (g : Idx) (p : Pt) : Prop := Vec3.All₂ (NearAxis l.cfg.vps l.cfg.voxelSize) g p

/-- An observed voxel. -/
def Seen (v : TsdfVoxel ℚ) : Prop := 1 / 1000000 ≤ v.weight

/-- From position `p` the map justifies a step of length `d`: one voxel size if there is no observed voxel, the stored distance, not
less than a voxel size, if there is one. -/
def FreeStep (l : VLayer (TsdfVoxel ℚ)) (p : Pt) (d : ℚ) : Prop :=
  ∃ g, VoxelAt l g p ∧ ((d = l.cfg.voxelSize ∧ ∀ v, content l g = some v → ¬ Seen v) ∨
    ∃ v, content l g = some v ∧ Seen v ∧ l.cfg.voxelSize ≤ v.distance ∧ d = v.distance)

/-- At position `p` the map has a surface less than a voxel size ahead: an observed voxel of distance `d`. -/
def SurfaceAt (l : VLayer (TsdfVoxel ℚ)) (p : Pt) (d : ℚ) : Prop :=
  ∃ g v, VoxelAt l g p ∧ content l g = some v ∧ Seen v ∧ v.distance < l.cfg.voxelSize ∧ d = v.distance

/-- The distances along the ray at which the map is looked at, up to `max`: each is reached by a step that the map justifies. -/
inductive Walk (l : VLayer (TsdfVoxel ℚ)) (rnd : ℚ → ℚ) (pos : ℚ → Pt) (max : ℚ) : ℚ → Prop
  | start : Walk l rnd pos max 0
  | step {t d : ℚ} : Walk l rnd pos max t → t < max → FreeStep l (pos t) d → Walk l rnd pos max (rnd (t + d))

/-- Along the ray the map knows, up to `e`, of a surface at `τ`: it is never too optimistic, looks unobserved only as long as the surface
is at least about a voxel ahead, and does not claim a surface close ahead where there is none. Distances may be truncated. -/
def KnowsSurface (l : VLayer (TsdfVoxel ℚ)) (pos : ℚ → Pt) (max τ e : ℚ) : Prop :=
  ∀ t, 0 ≤ t → t < max → ∀ g, VoxelAt l g (pos t) →
    (∀ v, content l g = some v → Seen v → v.distance ≤ τ - t + e ∧ (v.distance < l.cfg.voxelSize → τ - t - e ≤ v.distance)) ∧
    ((∀ v, content l g = some v → ¬ Seen v) → t + l.cfg.voxelSize ≤ τ + e)

end Vox.Spec
