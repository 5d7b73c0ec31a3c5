/-
Floating-point values with their special values. Only the *comparison* behaviour of IEEE numbers is
fixed here; arithmetic is supplied where it is needed.
-/
import Verif.Model.Basic

namespace Vox

/-- A floating-point datum: NaN, the infinities, or a finite number (its exact rational value; the sign
of zero is not represented).
C++ float semantics, as used e.g. in voxblox/src/integrator/tsdf_integrator.cc:150-228. -/
inductive Fl where
  | nan
  | ninf
  | fin (q : ℚ)
  | pinf
deriving DecidableEq, Repr

namespace Fl

/-- The IEEE comparison `a < b` (false if an operand is NaN).
C++ float semantics, as used e.g. in voxblox/src/integrator/tsdf_integrator.cc:150-228. -/
def lt : Fl → Fl → Bool
  | nan, _ => false
  | _, nan => false
  | ninf, ninf => false
  | ninf, _ => true
  | fin a, fin b => a < b
  | fin _, pinf => true
  | fin _, ninf => false
  | pinf, _ => false

/-- The IEEE comparison `a <= b`.
C++ float semantics, as used e.g. in voxblox/src/integrator/tsdf_integrator.cc:150-228. -/
def le : Fl → Fl → Bool
  | nan, _ => false
  | _, nan => false
  | ninf, _ => true
  | fin a, fin b => a ≤ b
  | fin _, pinf => true
  | fin _, ninf => false
  | pinf, pinf => true
  | pinf, _ => false

/-- `std::min(a, b)`: `(b < a) ? b : a`.
C++ float semantics, as used e.g. in voxblox/src/integrator/tsdf_integrator.cc:150-228. -/
def stdMin (a b : Fl) : Fl := if lt b a then b else a

/-- `std::max(a, b)`: `(a < b) ? b : a`.
C++ float semantics, as used e.g. in voxblox/src/integrator/tsdf_integrator.cc:150-228. -/
def stdMax (a b : Fl) : Fl := if lt a b then b else a

end Fl

end Vox
