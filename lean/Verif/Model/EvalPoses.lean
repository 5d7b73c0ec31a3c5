/-
Comparison of a layer with another one at several poses (voxblox/include/voxblox/integrator/merge_integration.h:222-307).
-/
import Verif.Model.Evaluation
import Verif.Model.Merge

namespace Vox.EvalPoses

open Layer Grid Eval Merge

variable {V : Type}

/-- An entry of the vector of layers: shared pointers to the aligned layer and the error layer, empty at first;
voxblox/include/voxblox/integrator/merge_integration.h:242-244. -/
abbrev Entry (V : Type) : Type := Option (VLayer V) × Option (VLayer V)

/-- The `double` margin 1e-8, here exact; voxblox/include/voxblox/integrator/merge_integration.h:248. -/
def kMargin : ℚ := 1 / 100000000

/-- The two CHECKs, voxblox/include/voxblox/integrator/merge_integration.h:248-249; `CHECK_NEAR` is a pair of comparisons. -/
def compatible (A B : VLayer V) : Bool :=
  decide (A.cfg.voxelSize ≤ B.cfg.voxelSize + kMargin) && decide (B.cfg.voxelSize - kMargin ≤ A.cfg.voxelSize) && decide (A.cfg.vps = B.cfg.vps)

/-- The vector of layers is given as many empty entries as there are poses unless it has that many,
voxblox/include/voxblox/integrator/merge_integration.h:262-265. -/
def prepare (n : ℕ) (v : List (Entry V)) : List (Entry V) := if v.length ≠ n then List.replicate n (none, none) else v

/-- One pose, voxblox/include/voxblox/integrator/merge_integration.h:253-284; `order` is the iteration order of the set of blocks in
`transformLayer`. -/
def poseStep (N : Num) (S : Sdf V) (ops : Ops V) (order : List Idx → List Idx) (m : Mode) (A B : VLayer V) (n : ℕ)
    (st : List Details × Option (List (Entry V))) (Ti : Rigid × ℕ) : Outcome (List Details × Option (List (Entry V))) := do
  let aligned ← transformLayer ops order B Ti.1 ⟨B.cfg, []⟩
  let r ← evaluateLayersRmse N S A aligned m (st.2.map fun _ => ⟨A.cfg, []⟩)
  pure (st.1 ++ [r.1], st.2.map fun v => (prepare n v).set Ti.2 (some aligned, r.2))

/-- voxblox/include/voxblox/integrator/merge_integration.h:236-286 `evaluateLayerRmseAtPoses`: the vector of details and, if one is given, the vector of
layers afterwards. -/
def evaluateAtPoses (N : Num) (S : Sdf V) (ops : Ops V) (order : List Idx → List Idx) (m : Mode) (A B : VLayer V) (Ts : List Rigid)
    (details : List Details) (layers : Option (List (Entry V))) : Outcome (List Details × Option (List (Entry V))) := do
  Outcome.check (compatible A B)
  Ts.zipIdx.foldlM (poseStep N S ops order m A B Ts.length) (details, layers)

end Vox.EvalPoses
