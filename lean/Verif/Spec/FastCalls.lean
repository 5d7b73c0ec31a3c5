/-
What is assumed about the points of a scan in property C132.
-/
import Verif.Model.TsdfScan

namespace Vox.Spec

open TsdfScan

/-- Points whose start voxels share a slot of the set share the hash. -/
def NoClash (js : List FastJob) : Prop := ∀ g ws g' ws', (.ok (some (g, ws)) : FastJob) ∈ js → (.ok (some (g', ws')) : FastJob) ∈ js →
  ApproxHash.longIndexHash g % 2 ^ 20 = ApproxHash.longIndexHash g' % 2 ^ 20 → ApproxHash.longIndexHash g = ApproxHash.longIndexHash g'

end Vox.Spec
