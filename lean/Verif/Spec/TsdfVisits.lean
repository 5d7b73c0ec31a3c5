/-
Which voxels the ray of a measurement passes, and what is observed in them.
-/
import Verif.Model.TsdfScan

namespace Vox.Spec

open Tsdf TsdfScan

/-- The point at distance `t` from `o` on the ray towards `q`, where `L` is the distance of `q` from `o`. -/
def pointAt (o q : Pt) (L t : ℚ) : Pt := ⟨o.x + t / L * (q.x - o.x), o.y + t / L * (q.y - o.y), o.z + t / L * (q.z - o.z)⟩

/-- The part of the ray that is traversed, as distances from the sensor: a surface is observed up to the truncation distance
`T` behind it, from the sensor (carving) or from `T` in front of it; a clearing ray ends `T` in front of its point, at most at the
maximal ray length `R`, and without carving is only the end of it. -/
def span (clearing carving : Bool) (L T R : ℚ) : ℚ × ℚ :=
  match clearing, carving with
  | false, true => (0, L + T)
  | false, false => (L - T, L + T)
  | true, true => (0, min (max (L - T) 0) R)
  | true, false => (min (max (L - T) 0) R, min (max (L - T) 0) R)

/-- A point at distance `n` from the sensor is used, as a `clearing` one or as a surface, given the minimal and maximal ray length:
it must not be too close; points beyond the maximal length and free-space points clear, the former only if that is allowed. -/
def Accepted (lo hi : ℚ) (allowClear freespace : Bool) (n : ℚ) (clearing : Bool) : Prop :=
  lo ≤ n ∧ (hi < n → allowClear = true ∨ freespace = true) ∧ (clearing = true ↔ hi < n ∨ freespace = true)

/-- The closed cube of voxel `g` contains `p`. -/
def InCube (s : ℚ) (g : Idx) (p : Pt) : Prop :=
  (g.x * s ≤ p.x ∧ p.x ≤ (g.x + 1) * s) ∧ (g.y * s ≤ p.y ∧ p.y ≤ (g.y + 1) * s) ∧ (g.z * s ≤ p.z ∧ p.z ≤ (g.z + 1) * s)

/-- `p` lies inside voxel `g`, not in the last millionth before its upper faces. -/
def WellInside (s : ℚ) (g : Idx) (p : Pt) : Prop :=
  (g.x * s < p.x ∧ p.x + s / 1000000 < (g.x + 1) * s) ∧ (g.y * s < p.y ∧ p.y + s / 1000000 < (g.y + 1) * s) ∧
    (g.z * s < p.z ∧ p.z + s / 1000000 < (g.z + 1) * s)

/-- The indices of `g` are at most 2^29. -/
def SmallIndex (g : Idx) : Prop := g.All fun c => |c| ≤ 2 ^ 29

/-- `gs` are the voxels on the part `[a, b]` of the ray from `o` to `q`: each once, only voxels that the ray meets, and enough
of them to cover it. -/
structure Traverses (s : ℚ) (o q : Pt) (L a b : ℚ) (gs : List Idx) : Prop where
  nodup : gs.Nodup
  meets : ∀ g ∈ gs, ∃ t, a ≤ t ∧ t ≤ b ∧ InCube s g (pointAt o q L t)
  covers : ∀ t, a ≤ t → t ≤ b → ∃ g ∈ gs, InCube s g (pointAt o q L t)

/-- The observation of the point `q` from `o` in voxel `g`. -/
def Observes (s : ℚ) (o q : Pt) (color : Color) (weight : ℚ) (w : Visit) : Prop :=
  w.obs.origin = o.map .fin ∧ w.obs.pointG = q.map .fin ∧ w.obs.color = color ∧ w.obs.weight = .fin weight ∧
    w.obs.center = ⟨.fin ((w.g.x + 1 / 2) * s), .fin ((w.g.y + 1 / 2) * s), .fin ((w.g.z + 1 / 2) * s)⟩

end Vox.Spec
