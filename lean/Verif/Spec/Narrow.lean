/-
The nearest `float` to a number.
-/
import Verif.Model.FloatBits
import Verif.Model.Ieee

namespace Vox.NarrowSpec

open FloatBits Ieee

/-- `y` is a `float`, and no other `float` is nearer to `x`. -/
def Nearest (x y : ℚ) : Prop := (∃ w, fl32 w = .fin y) ∧ ∀ w z, fl32 w = .fin z → |y - x| ≤ |z - x|

/-- The least number that is rounded to infinity: halfway between the largest `float` and 2^128. -/
def tooLarge : ℚ := 2 ^ 128 - 2 ^ 103

/-- IEEE rounding to `float`: to nearest, ties to even; infinities and NaN are kept. -/
def rounded : Fl → Fl
  | .fin q => float32.rnd q
  | x => x

end Vox.NarrowSpec
