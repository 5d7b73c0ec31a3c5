/-
Specification of a visiting order.
-/
import Verif.Model.Basic

namespace Vox.Spec

/-- A visiting order of `n` points: `impl` enumerates `0..n-1` without repetition. -/
def IsOrder (n : ℕ) (impl : ℕ → Outcome ℕ) : Prop :=
  ∃ l : List ℕ, (List.range n).map impl = l.map .ok ∧ l.Perm (List.range n)

end Vox.Spec
