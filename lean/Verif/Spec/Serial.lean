/-
Specification of which ESDF parent directions fit the serialized form.
-/
import Verif.Model.Basic

namespace Vox.Spec

/-- The parent directions that survive: a negative component must be accompanied by -1 in all higher
components. -/
def ParentSurvives (p : Idx) : Prop :=
  (p.z < 0 → p.y = -1) ∧ (p.y < 0 ∨ p.z < 0 → p.x = -1)

instance (p : Idx) : Decidable (ParentSurvives p) := inferInstanceAs (Decidable (_ ∧ _))

/-- The signed-byte range. -/
def InI8 (p : Idx) : Prop := p.All fun c => -128 ≤ c ∧ c ≤ 127

instance (p : Idx) : Decidable (InI8 p) := inferInstanceAs (Decidable (Vec3.All _ _))

end Vox.Spec
