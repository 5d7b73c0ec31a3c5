/-
Specification for the TSDF update: limits, weighted means, colours between two colours, rounding with
bounded relative error.
-/
import Verif.Model.Arith
import Verif.Model.Voxel

namespace Vox.Spec

/-- `x` is a finite number in `[lo, hi]`. -/
def Within (lo hi : ℚ) (x : Fl) : Prop := ∃ q, x = .fin q ∧ lo ≤ q ∧ q ≤ hi

/-- Every finite result is computed with relative error at most `d` (so no overflow; single precision
has `d = 2^-24` outside the subnormal range). -/
def RelErr (A : Arith) (d : ℚ) : Prop := ∀ q, ∃ q', A.rnd q = .fin q' ∧ |q' - q| ≤ d * |q|

/-- A byte value between two others. -/
def ChannelBetween (c c1 c2 : BitVec 8) : Prop :=
  min c1.toNat c2.toNat ≤ c.toNat ∧ c.toNat ≤ max c1.toNat c2.toNat

/-- Every channel lies between the channels of the two colours. -/
def ColorBetween (c c1 c2 : Color) : Prop :=
  ChannelBetween c.r c1.r c2.r ∧ ChannelBetween c.g c1.g c2.g ∧ ChannelBetween c.b c1.b c2.b ∧
    ChannelBetween c.a c1.a c2.a

/-- Sum of a function over a list. -/
def total {α : Type} (f : α → ℚ) (l : List α) : ℚ := (l.map f).sum

/-- The weighted mean of `s` with weights `w`. -/
def weightedMean {α : Type} (w s : α → ℚ) (l : List α) : ℚ := total (fun a => w a * s a) l / total w l

end Vox.Spec
