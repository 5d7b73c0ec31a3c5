/-
What loading a stored map into a running server is supposed to do.
-/
import Verif.Model.LayerIO

namespace Vox.Spec

open FloatBits Layer Vox.IO

/-- The two layers have the same configuration, and the running one has unique block indices. -/
def SameConfig {V : Type} (stored running : FLayer V) : Prop :=
  running.voxelSize = stored.voxelSize ∧ running.vps = stored.vps ∧ (running.blocks.map (·.1)).Nodup

/-- `after` is `running` with every block of `stored` put in place of whatever was there, flagged as updated
for all consumers; blocks that are not stored stay as they were. -/
def ReplacedBy {V : Type} (stored running after : FLayer V) : Prop :=
  after.voxelSize = running.voxelSize ∧ after.vps = running.vps ∧ (after.blocks.map (·.1)).Nodup ∧
    ∀ i, (∀ b, stored.blocks.lookup i = some b →
        after.blocks.lookup i = some { b with updated := ⟨true, true, true⟩ }) ∧
      (stored.blocks.lookup i = none → after.blocks.lookup i = running.blocks.lookup i)

end Vox.Spec
