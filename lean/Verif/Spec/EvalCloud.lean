/-
The error of a map at the points of a ground truth cloud.
-/
import Verif.Spec.Grid
import Verif.Spec.Interp
import Verif.Model.Voxel

namespace Vox.Spec

open Layer Grid

/-- `p` lies in voxel `g`, not in the last millionth of a block before its upper faces. -/
def LiesIn (l : VLayer (TsdfVoxel ℚ)) (g : Idx) (p : Pt) : Prop :=
  Vec3.All₂ (fun (c : ℤ) (q : ℚ) => (c : ℚ) * l.cfg.voxelSize ≤ q ∧ q < ((c : ℚ) + 1 - l.cfg.vps * (1 / 1000000)) * l.cfg.voxelSize) g p

/-- The distance that the map shows at a point of the true surface, and whether it counts as outside the truncation band; none where
the map has (almost) no weight. -/
inductive ErrorAt (l : VLayer (TsdfVoxel ℚ)) (p : Pt) : Option (Bool × ℚ) → Prop
  | unknown (g : Idx) : LiesIn l g p → (∀ v, content l g = some v → v.weight ≤ 10737418 / 2 ^ 30) → ErrorAt l p none
  | outside (g : Idx) (v : TsdfVoxel ℚ) : LiesIn l g p → content l g = some v → 10737418 / 2 ^ 30 < v.weight → 2 * l.cfg.voxelSize ≤ v.distance →
      ErrorAt l p (some (true, v.distance))
  | interpolated (g h : Idx) (v : TsdfVoxel ℚ) (f : Idx → TsdfVoxel ℚ) : LiesIn l g p → content l g = some v → 10737418 / 2 ^ 30 < v.weight →
      v.distance < 2 * l.cfg.voxelSize → InDualCell l.cfg.voxelSize h p →
      (∀ c, IsCorner c → content l (h + c) = some (f c) ∧ 1 / 1000000 < (f c).weight) →
      ErrorAt l p (some (false, trilinear (fun c => (f c).distance)
        ⟨(p.x - (h.x + 1 / 2) * l.cfg.voxelSize) / l.cfg.voxelSize, (p.y - (h.y + 1 / 2) * l.cfg.voxelSize) / l.cfg.voxelSize,
          (p.z - (h.z + 1 / 2) * l.cfg.voxelSize) / l.cfg.voxelSize⟩))
  | nearest (g h c : Idx) (v : TsdfVoxel ℚ) : LiesIn l g p → content l g = some v → 10737418 / 2 ^ 30 < v.weight →
      v.distance < 2 * l.cfg.voxelSize → InDualCell l.cfg.voxelSize h p → IsCorner c →
      (∀ x, content l (h + c) = some x → x.weight ≤ 1 / 1000000) → ErrorAt l p (some (false, v.distance))

/-- A cloud with the errors of its points. -/
def Judged (l : VLayer (TsdfVoxel ℚ)) (z : List (Pt × Option (Bool × ℚ))) : Prop := ∀ x ∈ z, Addressable l x.1 ∧ ErrorAt l x.1 x.2

/-- The squared error of a point: outside the band that of the band's edge at `t`. -/
def squared (t : ℚ) : Option (Bool × ℚ) → ℚ
  | none => 0
  | some (true, _) => t ^ 2
  | some (false, d) => d ^ 2

/-- The grey value of a distance relative to `t`, 0 for none and 255 for `t`. -/
def Shade (t d : ℚ) (c : Color) : Prop :=
  c.r = c.g ∧ c.g = c.b ∧ c.a = 255 ∧ |(c.r.toNat : ℚ) - 255 * |d| / t| ≤ 1 / 2

/-- Two maps differ in colours only. -/
def SameField (l l' : VLayer (TsdfVoxel ℚ)) : Prop :=
  l'.cfg = l.cfg ∧ (∀ i, status l' i = status l i) ∧
    ∀ g, (content l' g).map (fun v => (v.distance, v.weight)) = (content l g).map fun v => (v.distance, v.weight)

end Vox.Spec
