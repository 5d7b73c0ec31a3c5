/-
What an evaluation of a map against ground truth should report.
-/
import Verif.Spec.Grid
import Verif.Model.Evaluation

namespace Vox.Spec

open Layer Grid Eval

variable {V : Type}

/-- Both layers have a voxel at `g`, and both voxels are observed. -/
def Overlaps (S : Sdf V) (gt test : VLayer V) (g : Idx) : Prop :=
  ∃ a b, content gt g = some a ∧ content test g = some b ∧ S.observed a = true ∧ S.observed b = true

/-- Behind a surface that the mode does not look behind. -/
def Behind (S : Sdf V) (m : Mode) (gt test : VLayer V) (g : Idx) : Prop :=
  (m = .behindTest ∨ m = .behindAll) ∧ (∃ b, content test g = some b ∧ S.sdf b < 0) ∨
  (m = .behindGt ∨ m = .behindAll) ∧ (∃ a, content gt g = some a ∧ S.sdf a < 0)

/-- The voxels whose error is evaluated, and the error. -/
def Evaluated (S : Sdf V) (rnd : ℚ → ℚ) (m : Mode) (gt test : VLayer V) (g : Idx) (e : ℚ) : Prop :=
  Overlaps S gt test g ∧ ¬ Behind S m gt test g ∧ ∃ a b, content gt g = some a ∧ content test g = some b ∧ e = rnd (S.sdf b - S.sdf a)

/-- Voxels that enter the comparison: stored in both layers, or stored in one of them and observed. -/
def Considered (S : Sdf V) (gt test : VLayer V) (g : Idx) : Prop :=
  (∃ a b, content gt g = some a ∧ content test g = some b) ∨
  (∃ a, content gt g = some a ∧ content test g = none ∧ S.observed a = true) ∨
  (∃ b, content test g = some b ∧ content gt g = none ∧ S.observed b = true)

/-- `L` lists the voxels stored in at least one of the layers, each once, in any order. -/
def Lists (gt test : VLayer V) (L : List Idx) : Prop :=
  L.Nodup ∧ ∀ g, g ∈ L ↔ (content gt g).isSome = true ∨ (content test g).isSome = true

end Vox.Spec
