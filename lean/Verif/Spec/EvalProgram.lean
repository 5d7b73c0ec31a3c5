/-
What the evaluation program has to report and show.
-/
import Verif.Model.EvalProgram
import Verif.Spec.EvalCloud
import Verif.Spec.Rigid
import Verif.Spec.Export
import Verif.Spec.ServerMesh

namespace Vox.Spec

open Layer Grid MC EvalProgram Interp

/-- `q` is `x` in the frame of the map: moved by the given transformation, or back by it if it is given the other way round. -/
def InMap (p : Params) (x q : Pt) : Prop :=
  match p.tVG, p.invert with
  | none, _ => q = x
  | some T, false => q = T.apply x
  | some T, true => T.apply q = x

/-- The distance of a voxel that is heavy enough for the mesh. -/
def heavyDistance (minWeight : ℚ) (v : TsdfVoxel ℚ) : Option ℚ := if minWeight < v.weight then some v.distance else none

end Vox.Spec
