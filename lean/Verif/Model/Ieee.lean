/-
IEEE 754 rounding to nearest, ties to even, as an executable function on rationals: what `float` and `double` operations do
to an exact result. `FloatingPoint` is `float`, voxblox/include/voxblox/core/common.h:41.
-/
import Verif.Model.Arith
import Mathlib.Data.Rat.Floor
import Mathlib.Data.Nat.Sqrt

namespace Vox.Ieee

/-- The integer nearest to a rational, ties to even. Rounding of `float` results as in
voxblox/src/integrator/tsdf_integrator.cc:150-228. -/
def roundEven (q : ℚ) : ℤ :=
  let f := ⌊q⌋
  if q - f < 1 / 2 then f else if 1 / 2 < q - f then f + 1 else if f % 2 = 0 then f else f + 1

/-- A power of two with an integer exponent. Rounding of `float` results as in voxblox/src/integrator/tsdf_integrator.cc:150-228. -/
def pow2 (e : ℤ) : ℚ := if 0 ≤ e then ((2 ^ e.toNat : ℕ) : ℚ) else 1 / ((2 ^ (-e).toNat : ℕ) : ℚ)

/-- The exponent of a number: `2 ^ ilog2 x ≤ |x| < 2 ^ (ilog2 x + 1)` for `x ≠ 0`. Rounding of `float` results as in
voxblox/src/integrator/tsdf_integrator.cc:150-228. -/
def ilog2 (x : ℚ) : ℤ :=
  let e : ℤ := (Nat.log2 x.num.natAbs : ℤ) - Nat.log2 x.den
  if pow2 e ≤ |x| then e else e - 1

/-- The exponent of the last digit kept: `p` digits, but none below `2 ^ qmin` (subnormal numbers). Rounding of `float` results
as in voxblox/src/integrator/tsdf_integrator.cc:150-228. -/
def lastDigit (p : ℕ) (qmin : ℤ) (x : ℚ) : ℤ := max (ilog2 x - ((p : ℤ) - 1)) qmin

/-- Rounding to nearest, ties to even, with `p` digits and least positive number `2 ^ qmin`; no overflow. Rounding of `float`
results as in voxblox/src/integrator/tsdf_integrator.cc:150-228. -/
def rne (p : ℕ) (qmin : ℤ) (x : ℚ) : ℚ := roundEven (x / pow2 (lastDigit p qmin x)) * pow2 (lastDigit p qmin x)

/-- `float` rounding of finite results, voxblox/include/voxblox/core/common.h:41. -/
def rnd32 (x : ℚ) : ℚ := rne 24 (-149) x

/-- `double` rounding of finite results, e.g. voxblox/src/integrator/tsdf_integrator.cc:77. -/
def rnd64 (x : ℚ) : ℚ := rne 53 (-1074) x

/-- Rounding with overflow to infinity, voxblox/include/voxblox/core/common.h:41. -/
def overflow (limit : ℚ) (x : ℚ) : Fl := if limit ≤ x then .pinf else if x ≤ -limit then .ninf else .fin x

/-- The square root, rounded: the root is bracketed by multiples of half of the smallest unit and, if it is not one of them, taken in
the middle of the bracket before rounding (`std::sqrt`, Eigen `norm()`, voxblox/src/integrator/tsdf_integrator.cc:222). -/
def sqrtRound (p : ℕ) (qmin : ℤ) (q : ℚ) : ℚ :=
  let t : ℚ := pow2 (1 - qmin)
  let n : ℕ := ⌊q * (t * t)⌋.toNat
  let s := Nat.sqrt n
  if ((s * s : ℕ) : ℚ) = q * (t * t) then rne p qmin ((s : ℚ) / t) else rne p qmin (((2 * s + 1 : ℕ) : ℚ) / (2 * t))

/-- `float` arithmetic, voxblox/include/voxblox/core/common.h:41. -/
def float32 : Arith := ⟨fun x => overflow (2 ^ 128) (rnd32 x), fun q => overflow (2 ^ 128) (sqrtRound 24 (-149) q)⟩

/-- `double` arithmetic, e.g. voxblox/src/utils/timing.cc:101-105. -/
def float64 : Arith := ⟨fun x => overflow (2 ^ 1024) (rnd64 x), fun q => overflow (2 ^ 1024) (sqrtRound 53 (-1074) q)⟩

end Vox.Ieee
