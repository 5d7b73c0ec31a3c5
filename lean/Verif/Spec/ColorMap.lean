/-
The colour circle: channels of a fully saturated hue, as piecewise linear functions.
-/
import Verif.Model.Voxel

namespace Vox.Spec

/-- Restriction to the unit interval. -/
def clamp01 (x : ℚ) : ℚ := max 0 (min 1 x)

/-- Red at hue `x`, 0 ≤ x < 1: full in the outer sixths, none in the middle third. -/
def hueRed (x : ℚ) : ℚ := clamp01 (|6 * x - 3| - 1)

/-- Green at hue `x`: full around one third. -/
def hueGreen (x : ℚ) : ℚ := clamp01 (2 - |6 * x - 2|)

/-- Blue at hue `x`: full around two thirds. -/
def hueBlue (x : ℚ) : ℚ := clamp01 (2 - |6 * x - 4|)

/-- The channels of a colour as numbers. -/
def channels (c : Color) : List ℕ := [c.r.toNat, c.g.toNat, c.b.toNat, c.a.toNat]

end Vox.Spec
