/-
Alignment of a point cloud with a TSDF layer (voxblox/src/alignment/icp.cc, voxblox/include/voxblox/alignment/icp.h), in exact
arithmetic. Square roots, singular value decompositions and the logarithm of rotations come from libraries and are parameters.
-/
import Verif.Model.Geometry
import Verif.Model.SimCloud
import Verif.Model.Interp
import Mathlib.Data.Matrix.Mul
import Mathlib.LinearAlgebra.Matrix.Notation

namespace Vox.Icp

open Geo Layer Grid

variable {F : Type} [Field F] [LinearOrder F]

/-- `SquareMatrix<dim>`; voxblox/include/voxblox/core/common.h:85-86. -/
abbrev Mat (d : ℕ) (F : Type) := Matrix (Fin d) (Fin d) F

/-- voxblox/include/voxblox/alignment/icp.h:76-106 `ICP::Config`. Simplified: the batch size is an `int` and taken to be a natural
number. -/
structure Config where
  refineRollPitch : Bool
  batch : ℕ
  minMatchRatio : ℚ
  keepRatio : ℚ
  translationWeight : ℚ
  rotationWeight : ℚ
  threads : ℕ

/-- The default values, voxblox/include/voxblox/alignment/icp.h:78-105 (the number of threads depends on the machine). -/
def Config.default : Config := ⟨false, 20, 4 / 5, 1 / 2, 100, 100, 4⟩

/-- What the library provides: the square root, the matrices U and V of `Eigen::JacobiSVD`
(voxblox/include/voxblox/alignment/icp.h:153-156), `Rotation::isValidRotationMatrix` (:172), and the logarithm and exponential of
rotations (voxblox/src/alignment/icp.cc:210-211). -/
structure Lib (F : Type) where
  sqrt : F → F
  svd2 : Mat 2 F → Mat 2 F × Mat 2 F
  svd3 : Mat 3 F → Mat 3 F × Mat 3 F
  valid : Mat 3 F → Bool
  log : Mat 3 F → Vec3 F
  exp : Vec3 F → Mat 3 F

/-! ### The transform between matched points -/

/-- Sum of vectors; serves voxblox/src/alignment/icp.cc:56-57. -/
def vsum (ps : List (Vec3 F)) : Vec3 F := ⟨(ps.map (·.x)).sum, (ps.map (·.y)).sum, (ps.map (·.z)).sum⟩

/-- `rowwise().mean()`, voxblox/src/alignment/icp.cc:56-57. -/
def mean (ps : List (Vec3 F)) : Vec3 F := smul (1 / (ps.length : F)) (vsum ps)

/-- `colwise() - center`, voxblox/src/alignment/icp.cc:59-60. -/
def demean (ps : List (Vec3 F)) : List (Vec3 F) := ps.map fun p => p - mean ps

/-- Entry of a vector by row number; voxblox/include/voxblox/alignment/icp.h:150 `topRows`. -/
def entry (p : Vec3 F) : Fin 3 → F
  | 0 => p.x
  | 1 => p.y
  | 2 => p.z

/-- `src_demean.topRows<3>() * tgt_demean.topRows<3>().transpose()`, voxblox/include/voxblox/alignment/icp.h:149-150. -/
def correlation3 (src tgt : List (Vec3 F)) : Mat 3 F :=
  fun i j => (List.zipWith (fun s t => entry s i * entry t j) src tgt).sum

/-- The same for two rows, voxblox/include/voxblox/alignment/icp.h:149-150. -/
def correlation2 (src tgt : List (Vec3 F)) : Mat 2 F :=
  fun i j => correlation3 src tgt (i.castSucc) (j.castSucc)

/-- `determinant()` of a 2x2 matrix, voxblox/include/voxblox/alignment/icp.h:159. -/
def det2 (m : Mat 2 F) : F := m 0 0 * m 1 1 - m 0 1 * m 1 0

/-- `determinant()` of a 3x3 matrix, voxblox/include/voxblox/alignment/icp.h:159. -/
def det3 (m : Mat 3 F) : F :=
  m 0 0 * (m 1 1 * m 2 2 - m 1 2 * m 2 1) - m 0 1 * (m 1 0 * m 2 2 - m 1 2 * m 2 0) + m 0 2 * (m 1 0 * m 2 1 - m 1 1 * m 2 0)

/-- `v.col(dim - 1) *= -1.0`, voxblox/include/voxblox/alignment/icp.h:160. -/
def flipLast {d : ℕ} (v : Mat (d + 1) F) : Mat (d + 1) F := fun i j => if j = Fin.last d then v i j * -1 else v i j

/-- `v * u.transpose()` after the correction of the sign, voxblox/include/voxblox/alignment/icp.h:155-163, for `dim` 3. -/
def rotation3 (svd : Mat 3 F → Mat 3 F × Mat 3 F) (H : Mat 3 F) : Mat 3 F :=
  let u := (svd H).1
  let v := (svd H).2
  let v := if det3 u * det3 v < 0 then flipLast v else v
  v * u.transpose

/-- The same for `dim` 2, voxblox/include/voxblox/alignment/icp.h:155-163. -/
def rotation2 (svd : Mat 2 F → Mat 2 F × Mat 2 F) (H : Mat 2 F) : Mat 2 F :=
  let u := (svd H).1
  let v := (svd H).2
  let v := if det2 u * det2 v < 0 then flipLast v else v
  v * u.transpose

/-- The identity with the given `topLeftCorner<2, 2>`, voxblox/include/voxblox/alignment/icp.h:147, :163. -/
def embed2 (r : Mat 2 F) : Mat 3 F := !![r 0 0, r 0 1, 0; r 1 0, r 1 1, 0; 0, 0, 1]

/-- voxblox/include/voxblox/alignment/icp.h:140-173 `getRotationFromMatchedPoints`: the matrix and whether it is valid. Simplified: exact
numbers are finite, and a rotation is represented by its matrix. -/
def rotationFromMatched (L : Lib F) (refineRollPitch : Bool) (src tgt : List (Vec3 F)) : Mat 3 F × Bool :=
  let r := if refineRollPitch then rotation3 L.svd3 (correlation3 src tgt) else embed2 (rotation2 L.svd2 (correlation2 src tgt))
  (r, L.valid r)

/-- `Transformation(R, t)`, voxblox/src/alignment/icp.cc:74. -/
def poseOf (r : Mat 3 F) (t : Vec3 F) : Pose F := ⟨⟨r 0 0, r 0 1, r 0 2⟩, ⟨r 1 0, r 1 1, r 1 2⟩, ⟨r 2 0, r 2 1, r 2 2⟩, t⟩

/-- `getRotation` as a matrix; voxblox/src/alignment/icp.cc:211. -/
def rotOf (T : Pose F) : Mat 3 F :=
  !![T.r0.x, T.r0.y, T.r0.z; T.r1.x, T.r1.y, T.r1.z; T.r2.x, T.r2.y, T.r2.z]

/-- voxblox/src/alignment/icp.cc:48-76 `getTransformFromMatchedPoints`. -/
def transformFromMatched (L : Lib F) (refineRollPitch : Bool) (src tgt : List (Vec3 F)) : Outcome (Pose F × Bool) := do
  Outcome.check (src.length == tgt.length)
  let r := rotationFromMatched L refineRollPitch (demean src) (demean tgt)
  pure (poseOf r.1 (mean tgt - (poseOf r.1 0).rotate (mean src)), r.2)

/-! ### The information of a batch -/

/-- `Vector6`: a translational and a rotational part; voxblox/include/voxblox/alignment/icp.h:128. -/
@[ext] structure Vec6 (F : Type) where
  t : Vec3 F
  r : Vec3 F
deriving DecidableEq

/-- Component-wise sum; voxblox/src/alignment/icp.cc:209, :213. -/
def Vec6.add (a b : Vec6 F) : Vec6 F := ⟨a.t + b.t, a.r + b.r⟩

/-- `setConstant`; voxblox/src/alignment/icp.cc:117. -/
def Vec6.const (c : F) : Vec6 F := ⟨⟨c, c, c⟩, ⟨c, c, c⟩⟩

/-- voxblox/src/alignment/icp.cc:78-100 `addNormalizedPointInfo`. -/
def addPointInfo (p n : Vec3 F) (info : Vec6 F) : Vec6 F :=
  info.add ⟨⟨2 * (n.x * n.x), 2 * (n.y * n.y), 2 * (n.z * n.z)⟩,
    ⟨2 * (p.y * p.y * n.z * n.z + p.z * p.z * n.y * n.y), 2 * (p.x * p.x * n.z * n.z + p.z * p.z * n.x * n.x),
     2 * (p.x * p.x * n.y * n.y + p.y * p.y * n.x * n.x)⟩⟩

/-! ### Matching points with the layer -/

/-- `kMinGradMag`, voxblox/src/alignment/icp.cc:111: the float nearest to 0.1. -/
def kMinGradMag : ℚ := 13421773 / 134217728

/-- What one point contributes: its position in the layer's frame, its target and the normal there; voxblox/src/alignment/icp.cc:133-146. -/
structure Match where
  src : Pt
  tgt : Pt
  normal : Pt
deriving DecidableEq

/-- The distance corrected by the offset from the voxel's centre and the resulting match, voxblox/src/alignment/icp.cc:133-145. -/
def matchOf (sqrt : ℚ → ℚ) (voxelSize : ℚ) (voxel : Idx) (q : Pt) (d : ℚ) (g : Pt) : Match :=
  let n := Sim.normalized sqrt g
  let d := d + dot n (q - centerPoint voxel voxelSize)
  ⟨q, q - smul d n, n⟩

/-- One point, voxblox/src/alignment/icp.cc:122-147. -/
def matchPoint (sqrt : ℚ → ℚ) (l : VLayer (TsdfVoxel ℚ)) (T : Pose ℚ) (p : Pt) : Outcome (Option Match) := do
  let q := T.apply p
  let voxel ← gridIndex32 q (1 / l.cfg.voxelSize)
  match ← Interp.getDistance l Interp.obsTsdf (·.distance) false q with
  | none => pure none
  | some d => do
    match ← Interp.getGradient l Interp.obsTsdf (·.distance) false q with
    | none => pure none
    | some g => pure (if kMinGradMag < Geo.sqNorm g then some (matchOf sqrt l.cfg.voxelSize voxel q d g) else none)

/-- The points of the mini batch, voxblox/src/alignment/icp.cc:120-122. Simplified: the sum of the indices does not wrap. -/
def batchPoints (points : List Pt) (start batch : ℕ) : List Pt := (points.drop start).take batch

/-- voxblox/src/alignment/icp.cc:102-152 `matchPoints`: the matches and the information. -/
def matchPoints (sqrt : ℚ → ℚ) (batch : ℕ) (l : VLayer (TsdfVoxel ℚ)) (points : List Pt) (start : ℕ) (T : Pose ℚ) :
    Outcome (List Match × Vec6 ℚ) := do
  let ms ← (batchPoints points start batch).mapM (matchPoint sqrt l T)
  let ms := ms.filterMap id
  pure (ms, ms.foldl (fun info m => addPointInfo (m.src - T.t) m.normal info) (Vec6.const kEpsilon))

/-- `std::max(3, static_cast<int>(mini_batch_size * min_match_ratio))`, voxblox/src/alignment/icp.cc:165-166. Simplified: exact product
within the range of `int`; negative products are below 3 however they are rounded. -/
def neededMatches (c : Config) : ℤ := max 3 ⌊(c.batch : ℚ) * c.minMatchRatio⌋

/-- voxblox/src/alignment/icp.cc:154-176 `stepICP`: the transform and the information if it succeeds. -/
def stepICP (L : Lib ℚ) (c : Config) (l : VLayer (TsdfVoxel ℚ)) (points : List Pt) (start : ℕ) (T : Pose ℚ) :
    Outcome (Option (Pose ℚ × Vec6 ℚ)) := do
  let m ← matchPoints L.sqrt c.batch l points start T
  if (m.1.length : ℤ) < neededMatches c then pure none
  else do
    let r ← transformFromMatched L c.refineRollPitch (m.1.map (·.src)) (m.1.map (·.tgt))
    pure (if r.2 then some (r.1, m.2) else none)

/-! ### Fusing a batch into the estimate -/

/-- `est / (base + est)`, voxblox/src/alignment/icp.cc:208-209. A vanishing denominator gives an infinity or NaN in the code and 0 here;
see `C90_weights` for when there is none. -/
def weight (base est : F) : F := est / (base + est)

/-- `weight`, voxblox/src/alignment/icp.cc:208-209. -/
def weights (base est : Vec6 F) : Vec6 F :=
  ⟨⟨weight base.t.x est.t.x, weight base.t.y est.t.y, weight base.t.z est.t.z⟩,
   ⟨weight base.r.x est.r.x, weight base.r.y est.r.y, weight base.r.z est.r.z⟩⟩

/-- `Transformation::log()`: the translation and the logarithm of the rotation; voxblox/src/alignment/icp.cc:211. -/
def logPose (L : Lib F) (T : Pose F) : Vec6 F := ⟨T.t, L.log (rotOf T)⟩

/-- `Transformation::exp`; voxblox/src/alignment/icp.cc:210-211. -/
def expPose (L : Lib F) (v : Vec6 F) : Pose F := poseOf (L.exp v.r) v.t

/-- `cwiseProduct`; voxblox/src/alignment/icp.cc:211. -/
def Vec6.cwise (a b : Vec6 F) : Vec6 F :=
  ⟨⟨a.t.x * b.t.x, a.t.y * b.t.y, a.t.z * b.t.z⟩, ⟨a.r.x * b.r.x, a.r.y * b.r.y, a.r.z * b.r.z⟩⟩

/-- The update of the pose, voxblox/src/alignment/icp.cc:204-211, :215. -/
def fuse (L : Lib F) (base est : Vec6 F) (current delta : Pose F) : Pose F :=
  let temp := delta.mul current
  let d := current.inverse.mul temp
  current.mul (expPose L ((weights base est).cwise (logPose L d)))

/-! ### Threads -/

/-- What the threads share: `atomic_idx_`, the pose, the information and the number of updates, voxblox/src/alignment/icp.cc:239-249. The
first index of every batch taken is recorded as well (for the statements). -/
structure Shared where
  next : ℕ
  pose : Pose ℚ
  info : Vec6 ℚ
  updates : ℕ
  taken : List ℕ

/-- Where a thread is in `runThread`, voxblox/src/alignment/icp.cc:185-219: before reading the pose, before taking a batch, with a batch
taken, or finished; with its own copy of the pose. -/
inductive Phase
  | fresh
  | idle (pose : Pose ℚ)
  | busy (pose : Pose ℚ) (start : ℕ)
  | done

/-- Shared data and threads, voxblox/src/alignment/icp.cc:239-254. -/
structure State where
  shared : Shared
  threads : List Phase

/-- The end of the range, `start_idx > config_.subsample_keep_ratio * points.size()`, voxblox/src/alignment/icp.cc:193. -/
def beyond (c : Config) (points : List Pt) (start : ℕ) : Bool := decide (c.keepRatio * points.length < start)

/-- `fetch_add` and the test, voxblox/src/alignment/icp.cc:192-195. -/
def take (c : Config) (points : List Pt) (s : Shared) (pose : Pose ℚ) : Shared × Phase :=
  let start := s.next
  let s := { s with next := s.next + c.batch }
  if beyond c points start then (s, .done) else ({ s with taken := s.taken ++ [start] }, .busy pose start)

/-- The critical section after a batch, voxblox/src/alignment/icp.cc:200-218. -/
def finish (L : Lib ℚ) (s : Shared) (pose : Pose ℚ) : Option (Pose ℚ × Vec6 ℚ) → Shared × Phase
  | none => (s, .idle pose)
  | some (delta, est) =>
    let new := fuse L s.info est s.pose delta
    ({ s with pose := new, info := s.info.add est, updates := s.updates + 1 }, .idle new)

/-- The next action of one thread, voxblox/src/alignment/icp.cc:185-219. -/
def advance (L : Lib ℚ) (c : Config) (l : VLayer (TsdfVoxel ℚ)) (points : List Pt) (s : Shared) : Phase → Outcome (Shared × Phase)
  | .fresh => .ok (s, .idle s.pose)
  | .idle pose => .ok (take c points s pose)
  | .busy pose start => do
    let r ← stepICP L c l points start pose
    pure (finish L s pose r)
  | .done => .ok (s, .done)

/-- One thread acts, voxblox/src/alignment/icp.cc:247-254. -/
def act (L : Lib ℚ) (c : Config) (l : VLayer (TsdfVoxel ℚ)) (points : List Pt) (s : State) (k : ℕ) : Outcome State :=
  match s.threads[k]? with
  | none => .ok s
  | some ph => do
    let r ← advance L c l points s.shared ph
    pure ⟨r.1, s.threads.set k r.2⟩

/-- The threads act in the order of the schedule, voxblox/src/alignment/icp.cc:247-254. -/
def run (L : Lib ℚ) (c : Config) (l : VLayer (TsdfVoxel ℚ)) (points : List Pt) : List ℕ → State → Outcome State
  | [], s => .ok s
  | k :: ks, s => do
    let s' ← act L c l points s k
    run L c l points ks s'

/-- The beginning of `runICP`, voxblox/src/alignment/icp.cc:222-251; the points are already shuffled. -/
def start (c : Config) (initial : Pose ℚ) : State :=
  ⟨⟨0, initial, ⟨⟨c.translationWeight, c.translationWeight, c.translationWeight⟩,
      ⟨c.rotationWeight, c.rotationWeight, c.rotationWeight⟩⟩, 0, []⟩, List.replicate c.threads .fresh⟩

/-- All threads can be joined, voxblox/src/alignment/icp.cc:252-254. -/
def State.finished (s : State) : Prop := ∀ ph ∈ s.threads, ph = .done

/-! ### Use in the server -/

/-- `T_vec[3] = 0.0; T_vec[4] = 0.0`, voxblox_ros/src/tsdf_server.cc:272-275. -/
def yawOnly (L : Lib F) (T : Pose F) : Pose F :=
  let v := logPose L T
  expPose L ⟨v.t, ⟨0, 0, v.r.z⟩⟩

/-- The correction kept and published after a refinement, voxblox_ros/src/tsdf_server.cc:267-276. -/
def correction (L : Lib F) (refineRollPitch : Bool) (refined T_G_C : Pose F) : Pose F :=
  let T := refined.mul T_G_C.inverse
  if refineRollPitch then T else yawOnly L T

end Vox.Icp
