/-
Basic types shared by the model of voxblox.
-/
import Mathlib.Algebra.Order.Floor.Ring
import Mathlib.Data.Rat.Floor
import Mathlib.Algebra.Order.Field.Rat

namespace Vox

/-- Result of running a piece of modelled C++ code.
`fatal` is a glog `CHECK` / `LOG(FATAL)` abort, `ub` is undefined behaviour.
No counterpart of its own; serves e.g. voxblox/include/voxblox/core/common.h:153-255. -/
inductive Outcome (α : Type) where
  | ok (a : α)
  | fatal
  | ub
deriving DecidableEq, Repr

namespace Outcome

/-- No counterpart of its own; serves e.g. voxblox/include/voxblox/core/common.h:153-255. -/
def bind {α β : Type} : Outcome α → (α → Outcome β) → Outcome β
  | ok a, f => f a
  | fatal, _ => fatal
  | ub, _ => ub

instance : Monad Outcome where
  pure := ok
  bind := bind

@[simp] theorem pure_eq {α : Type} (a : α) : (pure a : Outcome α) = ok a := rfl
@[simp] theorem bind_ok {α β : Type} (a : α) (f : α → Outcome β) : (ok a >>= f) = f a := rfl
@[simp] theorem bind_fatal {α β : Type} (f : α → Outcome β) :
    ((fatal : Outcome α) >>= f) = fatal := rfl
theorem bind_eq_ok {α β : Type} {x : Outcome α} {f : α → Outcome β} {b : β} :
    (x >>= f) = ok b ↔ ∃ a, x = ok a ∧ f a = ok b := by
  cases x with
  | ok a => simp [show (ok a >>= f) = f a from rfl]
  | fatal => simp [show ((fatal : Outcome α) >>= f) = fatal from rfl]
  | ub => simp [show ((ub : Outcome α) >>= f) = ub from rfl]
@[simp] theorem bind_ub {α β : Type} (f : α → Outcome β) :
    ((ub : Outcome α) >>= f) = ub := rfl

instance : LawfulMonad Outcome := LawfulMonad.mk'
  (id_map := by intro α x; cases x <;> rfl)
  (pure_bind := by intros; rfl)
  (bind_assoc := by intro α β γ x f g; cases x <;> rfl)

/-- `CHECK(c)`: abort unless `c`.
No counterpart of its own; serves e.g. voxblox/include/voxblox/core/common.h:153-255. -/
def check (c : Bool) : Outcome Unit := if c then ok () else fatal

/-- A precondition whose violation is undefined behaviour.
No counterpart of its own; serves e.g. voxblox/include/voxblox/core/common.h:153-255. -/
def require (c : Bool) : Outcome Unit := if c then ok () else ub

end Outcome

/-- A triple; stands for the Eigen 3-vectors of voxblox/core/common.h:45-54
(`Point`, `AnyIndex`, `VoxelIndex`, `BlockIndex`, `GlobalIndex`). -/
@[ext] structure Vec3 (α : Type) where
  x : α
  y : α
  z : α
deriving DecidableEq, Repr

/-- Integer index triple (`BlockIndex`, `VoxelIndex`, `GlobalIndex`), voxblox/core/common.h:48-54.
Range restrictions (32/64 bit) are stated where they matter. -/
abbrev Idx := Vec3 ℤ

/-- Point with exact rational coordinates (voxblox/core/common.h:45: `Point`; float rounding is not
modelled by this type). -/
abbrev Pt := Vec3 ℚ

namespace Vec3

variable {α β γ : Type}

/-- No counterpart of its own; serves e.g. voxblox/include/voxblox/core/common.h:153-255. -/
def map (f : α → β) (v : Vec3 α) : Vec3 β := ⟨f v.x, f v.y, f v.z⟩
/-- No counterpart of its own; serves e.g. voxblox/include/voxblox/core/common.h:153-255. -/
def map₂ (f : α → β → γ) (v : Vec3 α) (w : Vec3 β) : Vec3 γ :=
  ⟨f v.x w.x, f v.y w.y, f v.z w.z⟩
/-- A property of all three components.
No counterpart of its own; serves e.g. voxblox/include/voxblox/core/common.h:153-255. -/
def All (p : α → Prop) (v : Vec3 α) : Prop := p v.x ∧ p v.y ∧ p v.z
/-- A relation holding component-wise.
No counterpart of its own; serves e.g. voxblox/include/voxblox/core/common.h:153-255. -/
def All₂ (p : α → β → Prop) (v : Vec3 α) (w : Vec3 β) : Prop := p v.x w.x ∧ p v.y w.y ∧ p v.z w.z

instance {p : α → Prop} [DecidablePred p] (v : Vec3 α) : Decidable (v.All p) :=
  inferInstanceAs (Decidable (_ ∧ _ ∧ _))

instance [Add α] : Add (Vec3 α) := ⟨map₂ (· + ·)⟩
instance [Sub α] : Sub (Vec3 α) := ⟨map₂ (· - ·)⟩
instance [Neg α] : Neg (Vec3 α) := ⟨map (- ·)⟩
instance [Zero α] : Zero (Vec3 α) := ⟨⟨0, 0, 0⟩⟩

@[simp] theorem add_x [Add α] (a b : Vec3 α) : (a + b).x = a.x + b.x := rfl
@[simp] theorem add_y [Add α] (a b : Vec3 α) : (a + b).y = a.y + b.y := rfl
@[simp] theorem add_z [Add α] (a b : Vec3 α) : (a + b).z = a.z + b.z := rfl
@[simp] theorem sub_x [Sub α] (a b : Vec3 α) : (a - b).x = a.x - b.x := rfl
@[simp] theorem sub_y [Sub α] (a b : Vec3 α) : (a - b).y = a.y - b.y := rfl
@[simp] theorem sub_z [Sub α] (a b : Vec3 α) : (a - b).z = a.z - b.z := rfl
@[simp] theorem neg_x [Neg α] (a : Vec3 α) : (-a).x = -a.x := rfl
@[simp] theorem neg_y [Neg α] (a : Vec3 α) : (-a).y = -a.y := rfl
@[simp] theorem neg_z [Neg α] (a : Vec3 α) : (-a).z = -a.z := rfl
@[simp] theorem zero_x [Zero α] : (0 : Vec3 α).x = 0 := rfl
@[simp] theorem zero_y [Zero α] : (0 : Vec3 α).y = 0 := rfl
@[simp] theorem zero_z [Zero α] : (0 : Vec3 α).z = 0 := rfl
@[simp] theorem map_x (f : α → β) (v : Vec3 α) : (v.map f).x = f v.x := rfl
@[simp] theorem map_y (f : α → β) (v : Vec3 α) : (v.map f).y = f v.y := rfl
@[simp] theorem map_z (f : α → β) (v : Vec3 α) : (v.map f).z = f v.z := rfl
@[simp] theorem map₂_x (f : α → β → γ) (v : Vec3 α) (w : Vec3 β) :
    (map₂ f v w).x = f v.x w.x := rfl
@[simp] theorem map₂_y (f : α → β → γ) (v : Vec3 α) (w : Vec3 β) :
    (map₂ f v w).y = f v.y w.y := rfl
@[simp] theorem map₂_z (f : α → β → γ) (v : Vec3 α) (w : Vec3 β) :
    (map₂ f v w).z = f v.z w.z := rfl

end Vec3

/-- The value range of a C++ `int` (32 bit).
No counterpart of its own; serves e.g. voxblox/include/voxblox/core/common.h:153-255. -/
def IsI32 (n : ℤ) : Prop := -2 ^ 31 ≤ n ∧ n < 2 ^ 31
/-- The value range of `int64_t`.
No counterpart of its own; serves e.g. voxblox/include/voxblox/core/common.h:153-255. -/
def IsI64 (n : ℤ) : Prop := -2 ^ 63 ≤ n ∧ n < 2 ^ 63

instance (n : ℤ) : Decidable (IsI32 n) := inferInstanceAs (Decidable (_ ∧ _))
instance (n : ℤ) : Decidable (IsI64 n) := inferInstanceAs (Decidable (_ ∧ _))

/-- Conversion of an integer to a 32-bit `int` (two's complement wrap-around).
No counterpart of its own; serves e.g. voxblox/include/voxblox/core/common.h:153-255. -/
def wrap32 (n : ℤ) : ℤ := (n + 2 ^ 31) % 2 ^ 32 - 2 ^ 31

/-- Conversion of an integer to `size_t` (64-bit wrap-around).
No counterpart of its own; serves e.g. voxblox/include/voxblox/core/common.h:153-255. -/
def wrapU64 (n : ℤ) : ℕ := (n % 2 ^ 64).toNat

theorem wrap32_of_range {n : ℤ} (h : IsI32 n) : wrap32 n = n := by
  unfold wrap32; unfold IsI32 at h; omega

theorem wrapU64_of_range {n : ℤ} (h0 : 0 ≤ n) (h1 : n < 2 ^ 64) : wrapU64 n = n.toNat := by
  unfold wrapU64; omega

end Vox
