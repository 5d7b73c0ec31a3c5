/-
Bit patterns of IEEE binary32 / binary64 numbers and the conversions between them that happen when a
`float` member is stored in a protobuf `double` field and read back
(voxblox/include/voxblox/core/block_inl.h:75-76, :94-99, layer_inl.h:26, :49).
-/
import Verif.Model.Voxel
import Verif.Model.Float

namespace Vox.FloatBits

/-- Bit pattern of a `double`. C++ float/double representation, as used in voxblox/src/core/block.cc:7-255. -/
abbrev Word64 := BitVec 64

/-- Division by `2^d` rounded to nearest, ties to even (IEEE default rounding).
C++ float/double representation, as used in voxblox/src/core/block.cc:7-255. -/
def roundShift (m d : ℕ) : ℕ :=
  if 2 ^ d < 2 * (m % 2 ^ d) ∨ (2 * (m % 2 ^ d) = 2 ^ d ∧ m / 2 ^ d % 2 = 1) then m / 2 ^ d + 1
  else m / 2 ^ d

/-- Sign bit, exponent field and mantissa field of a binary32 pattern.
C++ float/double representation, as used in voxblox/src/core/block.cc:7-255. -/
def fields32 (w : Word) : ℕ × ℕ × ℕ := (w.toNat / 2 ^ 31, w.toNat / 2 ^ 23 % 2 ^ 8, w.toNat % 2 ^ 23)

/-- Sign bit, exponent field and mantissa field of a binary64 pattern.
C++ float/double representation, as used in voxblox/src/core/block.cc:7-255. -/
def fields64 (w : Word64) : ℕ × ℕ × ℕ := (w.toNat / 2 ^ 63, w.toNat / 2 ^ 52 % 2 ^ 11, w.toNat % 2 ^ 52)

/-- Conversion `float` to `double` (exact; implicit in the calls `set_voxel_size(voxel_size_)`,
`set_origin_x(origin_.x())`, voxblox/include/voxblox/core/block_inl.h:95-99 and layer_inl.h:49).
A NaN is quieted. -/
def widen (w : Word) : Word64 :=
  let s := (fields32 w).1
  let e := (fields32 w).2.1
  let m := (fields32 w).2.2
  if e = 255 then
    .ofNat 64 (s * 2 ^ 63 + 2047 * 2 ^ 52 + (if m = 0 then 0 else (m ||| 2 ^ 22) * 2 ^ 29))
  else if e = 0 then
    if m = 0 then .ofNat 64 (s * 2 ^ 63)
    else .ofNat 64 (s * 2 ^ 63 + (Nat.log2 m + 874) * 2 ^ 52 +
      (m - 2 ^ Nat.log2 m) * 2 ^ (52 - Nat.log2 m))
  else .ofNat 64 (s * 2 ^ 63 + (e + 896) * 2 ^ 52 + m * 2 ^ 29)

/-- Conversion `double` to `float` with rounding to nearest even (implicit in the constructor calls of
voxblox/include/voxblox/core/block_inl.h:75-76 and layer_inl.h:26). -/
def narrow (d : Word64) : Word :=
  let s := (fields64 d).1
  let e := (fields64 d).2.1
  let m := (fields64 d).2.2
  if e = 2047 then
    .ofNat 32 (s * 2 ^ 31 + 255 * 2 ^ 23 + (if m = 0 then 0 else (m / 2 ^ 29) ||| 2 ^ 22))
  else if 1151 ≤ e then .ofNat 32 (s * 2 ^ 31 + 255 * 2 ^ 23)
  else if 897 ≤ e then .ofNat 32 (s * 2 ^ 31 + (e - 897) * 2 ^ 23 + roundShift (2 ^ 52 + m) 29)
  else if e = 0 then .ofNat 32 (s * 2 ^ 31)
  else .ofNat 32 (s * 2 ^ 31 + roundShift (2 ^ 52 + m) (926 - e))

/-- The number denoted by a binary32 pattern.
C++ float/double representation, as used in voxblox/src/core/block.cc:7-255. -/
def fl32 (w : Word) : Fl :=
  let s : ℚ := if (fields32 w).1 = 0 then 1 else -1
  let e := (fields32 w).2.1
  let m := (fields32 w).2.2
  if e = 255 then (if m = 0 then (if (fields32 w).1 = 0 then .pinf else .ninf) else .nan)
  else if e = 0 then .fin (s * m / 2 ^ 149)
  else .fin (s * (2 ^ 23 + m : ℕ) * 2 ^ e / 2 ^ 150)

/-- The number denoted by a binary64 pattern.
C++ float/double representation, as used in voxblox/src/core/block.cc:7-255. -/
def fl64 (w : Word64) : Fl :=
  let s : ℚ := if (fields64 w).1 = 0 then 1 else -1
  let e := (fields64 w).2.1
  let m := (fields64 w).2.2
  if e = 2047 then (if m = 0 then (if (fields64 w).1 = 0 then .pinf else .ninf) else .nan)
  else if e = 0 then .fin (s * m / 2 ^ 1074)
  else .fin (s * (2 ^ 52 + m : ℕ) * 2 ^ e / 2 ^ 1075)

/-- The pattern is a NaN. C++ float/double representation, as used in voxblox/src/core/block.cc:7-255. -/
def IsNaN32 (w : Word) : Prop := (fields32 w).2.1 = 255 ∧ (fields32 w).2.2 ≠ 0

instance (w : Word) : Decidable (IsNaN32 w) := inferInstanceAs (Decidable (_ ∧ _))

/-- `std::fabs(a - b) < std::numeric_limits<float>::epsilon()` for a `double` and a `float`
(voxblox/include/voxblox/core/layer_inl.h:239-240, :265-266); the subtraction is taken as exact. -/
def closeVoxelSize (a : Word64) (b : Word) : Bool :=
  match fl64 a, fl32 b with
  | .fin x, .fin y => |x - y| < 1 / 2 ^ 23
  | _, _ => false

end Vox.FloatBits
