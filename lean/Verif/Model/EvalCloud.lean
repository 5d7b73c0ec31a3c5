/-
Evaluation of a map against a ground truth point cloud (voxblox_ros/src/voxblox_eval.cc), in exact arithmetic. Points are finite; how PCL applies the
transformation is left open.
-/
import Verif.Model.MapQuery
import Verif.Model.GridWrite
import Verif.Model.ColorMap

namespace Vox.EvalCloud

open Layer Grid Interp

/-- `min_weight`, the `float` nearest to 0.01, voxblox_ros/src/voxblox_eval.cc:178. -/
def minWeight : ℚ := 10737418 / 2 ^ 30

/-- `truncation_distance`, voxblox_ros/src/voxblox_eval.cc:165. -/
def truncation (l : VLayer (TsdfVoxel ℚ)) : ℚ := 2 * l.cfg.voxelSize

/-- What becomes of a point, with the variable `distance` at the end of voxblox_ros/src/voxblox_eval.cc:182-196. -/
inductive Verdict where
  | unknown
  | outside (distance : ℚ)
  | measured (distance : ℚ)
deriving DecidableEq

/-- voxblox_ros/src/voxblox_eval.cc:182-196, with voxblox/include/voxblox/interpolator/interpolator_inl.h:385-400 `getNearestDistanceAndWeight`. -/
def judge (l : VLayer (TsdfVoxel ℚ)) (pos : Pt) : Outcome Verdict := do
  match ← MapQuery.voxelAt l pos with
  | none => pure .unknown
  | some v =>
    if v.weight ≤ minWeight then pure .unknown
    else if v.distance ≥ truncation l then pure (.outside v.distance)
    else do
      let r ← MapQuery.distanceTo l obsTsdf (·.distance) true pos v.distance
      pure (.measured r.2)

/-- The counters, voxblox_ros/src/voxblox_eval.cc:160-167. -/
structure Stats where
  total : ℕ
  unknown : ℕ
  outside : ℕ
  mse : ℚ
deriving DecidableEq

/-- The counters after a point, voxblox_ros/src/voxblox_eval.cc:182-196 and :207. -/
def count (trunc : ℚ) (s : Stats) : Verdict → Stats
  | .unknown => { s with total := s.total + 1, unknown := s.unknown + 1 }
  | .outside _ => { s with total := s.total + 1, outside := s.outside + 1, mse := s.mse + trunc * trunc }
  | .measured d => { s with total := s.total + 1, mse := s.mse + d * d }

/-- `distance` if `valid`, voxblox_ros/src/voxblox_eval.cc:174-196. -/
def Verdict.distance? : Verdict → Option ℚ
  | .unknown => none
  | .outside d => some d
  | .measured d => some d

/-- The voxel at a position gets the colour of a distance, voxblox_ros/src/voxblox_eval.cc:199-204. -/
def paint (l : VLayer (TsdfVoxel ℚ)) (pos : Pt) (d : ℚ) : Outcome (VLayer (TsdfVoxel ℚ)) := do
  let i ← blockIndexOf l pos
  match block? l i with
  | none => pure l
  | some b => do
    let v ← truncatedVoxelIndex b.vps b.origin b.voxelSize pos
    let x ← readVoxel l i v
    let c ← ColorMap.gray id (|d| / truncation l)
    writeVoxel l i v { x with color := c }

/-- voxblox_ros/src/voxblox_eval.cc:198-205; `paints` is `visualize_ && recolor_by_error_`. -/
def recolor (paints : Bool) (l : VLayer (TsdfVoxel ℚ)) (pos : Pt) : Option ℚ → Outcome (VLayer (TsdfVoxel ℚ))
  | none => .ok l
  | some d => if paints then paint l pos d else .ok l

/-- The loop body, voxblox_ros/src/voxblox_eval.cc:169-208. -/
def evalPoint (paints : Bool) (st : Stats × VLayer (TsdfVoxel ℚ)) (pos : Pt) : Outcome (Stats × VLayer (TsdfVoxel ℚ)) := do
  let j ← judge st.2 pos
  let l ← recolor paints st.2 pos j.distance?
  pure (count (truncation st.2) st.1 j, l)

/-- voxblox_ros/src/voxblox_eval.cc:210: the square of `rms`; `none` is NaN (0 / 0). -/
def Stats.meanSquare (s : Stats) : Option ℚ :=
  if s.total - s.unknown = 0 then none else some (s.mse / ((s.total - s.unknown : ℕ) : ℚ))

/-- voxblox_ros/src/voxblox_eval.cc:150-225 `evaluate` on the points as read from the file: the counters, the mean square and the map that `visualize` meshes. `toV` is the
transformation of :153-154. -/
def evaluate (paints : Bool) (toV : Pt → Pt) (l : VLayer (TsdfVoxel ℚ)) (cloud : List Pt) : Outcome (Stats × Option ℚ × VLayer (TsdfVoxel ℚ)) := do
  let r ← (cloud.map toV).foldlM (evalPoint paints) ({ total := 0, unknown := 0, outside := 0, mse := 0 }, l)
  pure (r.1, r.1.meanSquare, r.2)

end Vox.EvalCloud
