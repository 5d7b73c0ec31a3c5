/-
Reading printed settings, independently of how they are written.
-/
import Verif.Spec.Ply

namespace Vox.PlySpec

/-- A line `- name: value`. -/
def settingOf : List Token → Option (Token × Fl)
  | [d, n, w] => if d = ['-'] ∧ n.getLast? = some ':' then (numberOf w).map fun x => (n.dropLast, x) else none
  | _ => none

/-- The settings in a text, in the order of the lines. -/
def settings (t : List Char) : List (Token × Fl) := (rows t).filterMap settingOf

end Vox.PlySpec
