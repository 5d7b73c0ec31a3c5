/-
Comparison of a layer with ground truth (voxblox/include/voxblox/utils/evaluation_utils.h, voxblox/src/utils/evaluation_utils.cc).
-/
import Verif.Model.GridWrite
import Verif.Model.Voxel

namespace Vox.Eval

open Layer Grid

/-- voxblox/include/voxblox/utils/evaluation_utils.h:16-21 `VoxelEvaluationMode`. -/
inductive Mode where
  | all
  | behindTest
  | behindGt
  | behindAll
deriving DecidableEq, Repr

/-- evaluation_utils.h:14 `VoxelEvaluationResult`, with the error written through the pointer (zero unless evaluated). -/
inductive Result where
  | noOverlap
  | ignored
  | evaluated (error : ℚ)
deriving DecidableEq, Repr

/-- Rounding to `float` and to `double`, and the `double` square root. Values outside the finite range are not modelled. Serves the model of
voxblox/include/voxblox/utils/evaluation_utils.h:88-175. -/
structure Num where
  rnd : ℚ → ℚ
  rndD : ℚ → ℚ
  sqrt : ℚ → ℚ

/-- What the evaluation uses of a voxel type: `isObservedVoxel`, `getVoxelSdf`, `setVoxelSdf`, `setVoxelWeight(1.0, ·)`,
voxblox/src/utils/evaluation_utils.cc:70-117. -/
structure Sdf (V : Type) where
  dflt : V
  observed : V → Bool
  sdf : V → ℚ
  setSdf : ℚ → V → V
  setWeight : V → V

/-- The `double` nearest to 1e-6, voxblox/src/utils/evaluation_utils.cc:77. -/
def kObserved : ℚ := 4722366482869645 / 2 ^ 72

/-- TSDF voxels, voxblox/src/utils/evaluation_utils.cc:75-78, :85-88, :95-99, :107-111. -/
def tsdf : Sdf (TsdfVoxel ℚ) :=
  ⟨⟨0, 0, Color.default⟩, fun v => decide (kObserved < v.weight), fun v => v.distance, fun d v => { v with distance := d }, fun v => { v with weight := 1 }⟩

/-- ESDF voxels, voxblox/src/utils/evaluation_utils.cc:80-83, :90-93, :101-105, :113-117. -/
def esdf : Sdf (EsdfVoxel ℚ) :=
  ⟨⟨0, false, false, false, false, 0⟩, fun v => v.observed, fun v => v.distance, fun d v => { v with distance := d }, fun v => { v with observed := true }⟩

variable {V : Type}

/-- `ignore_behind_test_surface`, evaluation_utils.cc:22-24. -/
def Mode.ignoresTest (m : Mode) : Bool := m = .behindTest || m = .behindAll

/-- `ignore_behind_gt_surface`, evaluation_utils.cc:26-28. -/
def Mode.ignoresGt (m : Mode) : Bool := m = .behindGt || m = .behindAll

/-- voxblox/src/utils/evaluation_utils.cc:10-38 (TSDF), :40-68 (ESDF) and evaluation_utils.h:198-226 (general) `computeVoxelError`. -/
def computeVoxelError (N : Num) (S : Sdf V) (gt test : V) (m : Mode) : Result :=
  if !S.observed gt || !S.observed test then .noOverlap
  else if (m.ignoresTest && decide (S.sdf test < 0)) || (m.ignoresGt && decide (S.sdf gt < 0)) then .ignored
  else .evaluated (N.rnd (S.sdf test - S.sdf gt))

/-- evaluation_utils.h:23-31 `VoxelEvaluationDetails`, and `total_squared_error` (:88). Counters are unbounded. -/
structure Details where
  rmse : ℚ
  maxError : ℚ
  minError : ℚ
  numEvaluated : ℕ
  numIgnored : ℕ
  numOverlapping : ℕ
  numNonOverlapping : ℕ
  total : ℚ
deriving DecidableEq

/-- evaluation_utils.h:23-31, :88: initial values. -/
def Details.init : Details := ⟨0, 0, 0, 0, 0, 0, 0, 0⟩

/-- One voxel of a block present in the test layer only, or in the ground truth only, evaluation_utils.h:98-100, :162-164. -/
def countOne (S : Sdf V) (d : Details) (x : V) : Details :=
  if S.observed x then { d with numNonOverlapping := d.numNonOverlapping + 1 } else d

/-- All voxels of such a block, evaluation_utils.h:95-101, :159-165 (`n` voxels, the test layer's number). -/
def countBlock (S : Sdf V) (n : ℕ) (b : Block ℚ V) (d : Details) : Outcome Details :=
  (List.range n).foldlM (fun d k => do
    let x ← voxelAt b k
    pure (countOne S d x)) d

/-- The bookkeeping for one voxel present in both layers, evaluation_utils.h:119-147. -/
def account (N : Num) (d : Details) : Result → Details
  | .evaluated e => { d with total := N.rndD (d.total + N.rnd (e * e)), minError := min d.minError |e|, maxError := max d.maxError |e|,
                             numEvaluated := d.numEvaluated + 1, numOverlapping := d.numOverlapping + 1 }
  | .ignored => { d with numIgnored := d.numIgnored + 1, numOverlapping := d.numOverlapping + 1 }
  | .noOverlap => { d with numNonOverlapping := d.numNonOverlapping + 1 }

/-- The write to the error block, evaluation_utils.h:129-134; `none` is the null pointer. -/
def writeError (S : Sdf V) (k : ℕ) : Result → Option (List V) → Outcome (Option (List V))
  | .evaluated e, some xs =>
    match xs[k]? with
    | some x => .ok (some (xs.set k (S.setWeight (S.setSdf |e| x))))
    | none => .ub
  | _, xs => .ok xs

/-- The loop body for a block present in both layers, evaluation_utils.h:113-147; `xs` are the voxels of the error block. -/
def voxelStep (N : Num) (S : Sdf V) (m : Mode) (gt test : Block ℚ V) (st : Details × Option (List V)) (k : ℕ) : Outcome (Details × Option (List V)) := do
  let a ← voxelAt gt k
  let b ← voxelAt test k
  let r := computeVoxelError N S a b m
  let xs ← writeError S k r st.2
  pure (account N st.1 r, xs)

/-- A block present in both layers, evaluation_utils.h:104-148. The error block is allocated first and its voxels are put back after
the loop (the error layer is a different layer than the two inputs). -/
def blockStep (N : Num) (S : Sdf V) (m : Mode) (n : ℕ) (gt test : Block ℚ V) (i : Idx) (st : Details × Option (VLayer V)) :
    Outcome (Details × Option (VLayer V)) :=
  match st.2 with
  | none => do
    let r ← (List.range n).foldlM (voxelStep N S m gt test) (st.1, none)
    pure (r.1, none)
  | some l =>
    let l := allocateBlock S.dflt l i
    match block? l i with
    | none => .ub
    | some b => do
      let r ← (List.range n).foldlM (voxelStep N S m gt test) (st.1, some b.voxels)
      match r.2 with
      | none => .ub
      | some xs => pure (r.1, some (modifyBlock l i fun b => { b with voxels := xs }))

/-- One block of the test layer, evaluation_utils.h:90-149 (`getBlockByIndex` of a listed block). -/
def testStep (N : Num) (S : Sdf V) (m : Mode) (gt test : VLayer V) (st : Details × Option (VLayer V)) (i : Idx) : Outcome (Details × Option (VLayer V)) :=
  match block? test i with
  | none => .fatal
  | some b =>
    match block? gt i with
    | none => do
      let d ← countBlock S (numVoxels test.cfg.vps) b st.1
      pure (d, st.2)
    | some a => blockStep N S m (numVoxels test.cfg.vps) a b i st

/-- One block of the ground truth, evaluation_utils.h:156-167. -/
def gtStep (S : Sdf V) (gt test : VLayer V) (d : Details) (i : Idx) : Outcome Details :=
  match block? gt i with
  | none => .fatal
  | some a =>
    match block? test i with
    | none => countBlock S (numVoxels test.cfg.vps) a d
    | some _ => .ok d

/-- evaluation_utils.h:170-175. -/
def finish (N : Num) (d : Details) : Details :=
  { d with rmse := if d.numEvaluated = 0 then 0 else N.rnd (N.sqrt (N.rndD (d.total / d.numEvaluated))) }

/-- evaluation_utils.h:73-185 `evaluateLayersRmse`: the details (the returned value is `rmse`) and the error layer, if one is given. -/
def evaluateLayersRmse (N : Num) (S : Sdf V) (gt test : VLayer V) (m : Mode) (error : Option (VLayer V)) : Outcome (Details × Option (VLayer V)) := do
  let st ← (test.blocks.map (·.1)).foldlM (testStep N S m gt test) (Details.init, error)
  let d ← (gt.blocks.map (·.1)).foldlM (gtStep S gt test) st.1
  pure (finish N d, st.2)

end Vox.Eval
