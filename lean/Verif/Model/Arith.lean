/-
Floating-point arithmetic with a parametric rounding function. The special values follow IEEE 754 except
that the sign of zero is not represented: a zero divisor counts as +0.
-/
import Verif.Model.Float
import Mathlib.Algebra.Order.Ring.Rat

namespace Vox

/-- A floating-point arithmetic: how exact results are rounded (the result may be infinite) and how the
square root of a non-negative number is computed. `FloatingPoint` is `float`,
voxblox/include/voxblox/core/common.h:41. -/
structure Arith where
  rnd : ℚ → Fl
  sqrt : ℚ → Fl

/-- Arithmetic without rounding (square roots as given).
Float operator or Eigen expression as used e.g. in voxblox/src/integrator/tsdf_integrator.cc:150-228. -/
def Arith.exact (sqrt : ℚ → Fl) : Arith := { rnd := .fin, sqrt := sqrt }

namespace Fl

/-- Sign change.
Float operator or Eigen expression as used e.g. in voxblox/src/integrator/tsdf_integrator.cc:150-228. -/
def neg : Fl → Fl
  | nan => nan
  | ninf => pinf
  | fin q => fin (-q)
  | pinf => ninf

/-- `std::abs`.
Float operator or Eigen expression as used e.g. in voxblox/src/integrator/tsdf_integrator.cc:150-228. -/
def abs : Fl → Fl
  | nan => nan
  | ninf => pinf
  | fin q => fin |q|
  | pinf => pinf

/-- The infinity with the sign of `q` (NaN for zero).
Float operator or Eigen expression as used e.g. in voxblox/src/integrator/tsdf_integrator.cc:150-228. -/
def infOfSign (q : ℚ) : Fl := if 0 < q then pinf else if q < 0 then ninf else nan

end Fl

namespace Arith

open Fl

/-- Floating-point addition.
Float operator or Eigen expression as used e.g. in voxblox/src/integrator/tsdf_integrator.cc:150-228. -/
def add (A : Arith) : Fl → Fl → Fl
  | nan, _ => nan
  | _, nan => nan
  | fin a, fin b => A.rnd (a + b)
  | pinf, ninf => nan
  | ninf, pinf => nan
  | pinf, _ => pinf
  | _, pinf => pinf
  | ninf, _ => ninf
  | _, ninf => ninf

/-- Floating-point subtraction.
Float operator or Eigen expression as used e.g. in voxblox/src/integrator/tsdf_integrator.cc:150-228. -/
def sub (A : Arith) (a b : Fl) : Fl := A.add a (Fl.neg b)

/-- Floating-point multiplication.
Float operator or Eigen expression as used e.g. in voxblox/src/integrator/tsdf_integrator.cc:150-228. -/
def mul (A : Arith) : Fl → Fl → Fl
  | nan, _ => nan
  | _, nan => nan
  | fin a, fin b => A.rnd (a * b)
  | pinf, fin b => infOfSign b
  | ninf, fin b => infOfSign (-b)
  | fin a, pinf => infOfSign a
  | fin a, ninf => infOfSign (-a)
  | pinf, pinf => pinf
  | ninf, ninf => pinf
  | pinf, ninf => ninf
  | ninf, pinf => ninf

/-- Floating-point division.
Float operator or Eigen expression as used e.g. in voxblox/src/integrator/tsdf_integrator.cc:150-228. -/
def div (A : Arith) : Fl → Fl → Fl
  | nan, _ => nan
  | _, nan => nan
  | fin a, fin b => if b = 0 then infOfSign a else A.rnd (a / b)
  | fin _, _ => fin 0
  | pinf, fin b => if 0 ≤ b then pinf else ninf
  | ninf, fin b => if 0 ≤ b then ninf else pinf
  | _, _ => nan

/-- Componentwise difference of vectors (Eigen).
Float operator or Eigen expression as used e.g. in voxblox/src/integrator/tsdf_integrator.cc:150-228. -/
def vsub (A : Arith) (a b : Vec3 Fl) : Vec3 Fl := Vec3.map₂ A.sub a b

/-- Componentwise sum of vectors (Eigen).
Float operator or Eigen expression as used e.g. in voxblox/src/integrator/tsdf_integrator.cc:150-228. -/
def vadd (A : Arith) (a b : Vec3 Fl) : Vec3 Fl := Vec3.map₂ A.add a b

/-- Scaling of a vector (Eigen `v * s`).
Float operator or Eigen expression as used e.g. in voxblox/src/integrator/tsdf_integrator.cc:150-228. -/
def vscale (A : Arith) (a : Vec3 Fl) (s : Fl) : Vec3 Fl := a.map fun c => A.mul c s

/-- Division of a vector by a scalar (Eigen `v / s`).
Float operator or Eigen expression as used e.g. in voxblox/src/integrator/tsdf_integrator.cc:150-228. -/
def vdiv (A : Arith) (a : Vec3 Fl) (s : Fl) : Vec3 Fl := a.map fun c => A.div c s

/-- Eigen `a.dot(b)`.
Float operator or Eigen expression as used e.g. in voxblox/src/integrator/tsdf_integrator.cc:150-228. -/
def dot (A : Arith) (a b : Vec3 Fl) : Fl :=
  A.add (A.add (A.mul a.x b.x) (A.mul a.y b.y)) (A.mul a.z b.z)

/-- Square root: NaN for negative arguments.
Float operator or Eigen expression as used e.g. in voxblox/src/integrator/tsdf_integrator.cc:150-228. -/
def sqrtFl (A : Arith) : Fl → Fl
  | fin q => if 0 ≤ q then A.sqrt q else nan
  | pinf => pinf
  | _ => nan

/-- Eigen `v.norm()`.
Float operator or Eigen expression as used e.g. in voxblox/src/integrator/tsdf_integrator.cc:150-228. -/
def norm (A : Arith) (a : Vec3 Fl) : Fl := A.sqrtFl (A.dot a a)

/-! What the theorems may assume about rounding. -/

/-- Rounding is monotone, idempotent and exact on zero; it never produces NaN. All IEEE rounding modes
satisfy this.
Float operator or Eigen expression as used e.g. in voxblox/src/integrator/tsdf_integrator.cc:150-228. -/
structure Faithful (A : Arith) : Prop where
  mono : ∀ a b, a ≤ b → Fl.le (A.rnd a) (A.rnd b) = true
  idem : ∀ a b, A.rnd a = .fin b → A.rnd b = .fin b
  zero : A.rnd 0 = .fin 0

theorem exact_faithful (s : ℚ → Fl) : Faithful (Arith.exact s) where
  mono a b h := by simp [Arith.exact, Fl.le, h]
  idem a b h := by simp [Arith.exact]
  zero := rfl

end Arith
end Vox
