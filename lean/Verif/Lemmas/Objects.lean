/-
Helper lemmas for the simulated objects.
-/
import Verif.Spec.Objects
import Mathlib.Algebra.Order.Ring.Abs
import Mathlib.Algebra.Order.Group.Unbundled.Abs
import Mathlib.Tactic.LinearCombination
import Mathlib.Tactic.Positivity
import Mathlib.Tactic.FieldSimp

namespace Vox.Sim

open Geo Spec

variable {F : Type} [Field F] [LinearOrder F] [IsStrictOrderedRing F]

theorem sqNorm_nonneg (a : Vec3 F) : 0 ≤ sqNorm a := by
  have := mul_self_nonneg a.x; have := mul_self_nonneg a.y; have := mul_self_nonneg a.z
  simp only [sqNorm, dot]; linarith

theorem sqDist_nonneg (a b : Vec3 F) : 0 ≤ sqDist a b := by unfold sqDist; positivity

section
variable {sqrt : F → F} (hs : IsSqrt sqrt)
include hs

omit [IsStrictOrderedRing F] in
theorem sqrt_pow {x : F} (hx : 0 ≤ x) : sqrt x ^ 2 = x := by rw [pow_two, (hs x hx).2]

theorem sqrt_lt {x r : F} (hx : 0 ≤ x) (hr : 0 ≤ r) : sqrt x < r ↔ x < r ^ 2 := by
  conv_rhs => rw [← sqrt_pow hs hx]
  exact (pow_lt_pow_iff_left₀ (hs x hx).1 hr two_ne_zero).symm

theorem sqrt_le {x r : F} (hx : 0 ≤ x) (hr : 0 ≤ r) : sqrt x ≤ r ↔ x ≤ r ^ 2 := by
  conv_rhs => rw [← sqrt_pow hs hx]
  exact (pow_le_pow_iff_left₀ (hs x hx).1 hr two_ne_zero).symm

theorem lt_sqrt {x r : F} (hx : 0 ≤ x) (hr : 0 ≤ r) : r < sqrt x ↔ r ^ 2 < x := by
  rw [← not_le, sqrt_le hs hx hr, not_le]

theorem sqrt_eq {x r : F} (hr : 0 ≤ r) (h : r ^ 2 = x) : sqrt x = r := by
  have hx : 0 ≤ x := by rw [← h]; positivity
  exact (pow_left_inj₀ (hs x hx).1 hr two_ne_zero).mp (by rw [sqrt_pow hs hx, h])

end

/-! Sphere -/

theorem sphere_sign {sqrt : F → F} (hs : IsSqrt sqrt) {c : Vec3 F} {r : F} (hr : 0 < r) (p : Vec3 F) :
    HasSign (.sphere c r) p (sphereDistance sqrt c r p) := by
  have e : sqNorm (c - p) = sqDist p c := by simp only [sqNorm, dot, sqDist, Vec3.sub_x, Vec3.sub_y, Vec3.sub_z]; ring
  have h0 := sqDist_nonneg p c
  constructor <;> simp only [OnSurface, Solid, Inner, sphereDistance, norm, e]
  · intro h; exact sub_neg.mpr ((sqrt_lt hs h0 hr.le).mpr h)
  · rintro ⟨h1, h2⟩
    rw [sqrt_eq hs hr.le (le_antisymm (not_lt.mp h2) h1), sub_self]
  · intro h; exact sub_pos.mpr ((lt_sqrt hs h0 hr.le).mpr (not_le.mp h))

/-- The reverse triangle inequality, squared. -/
theorem sub_sq_le_sqDist {p s c : Vec3 F} {m r : F} (hm : 0 ≤ m) (hr : 0 ≤ r) (em : sqDist p c = m ^ 2) (er : sqDist s c = r ^ 2) :
    (m - r) ^ 2 ≤ sqDist p s := by
  have cs : (p.x - c.x) * (s.x - c.x) + (p.y - c.y) * (s.y - c.y) + (p.z - c.z) * (s.z - c.z) ≤ m * r := by
    refine le_of_abs_le (abs_le_of_sq_le_sq ?_ (mul_nonneg hm hr))
    rw [mul_pow, ← em, ← er]
    unfold sqDist
    have h1 := sq_nonneg ((p.x - c.x) * (s.y - c.y) - (p.y - c.y) * (s.x - c.x))
    have h2 := sq_nonneg ((p.x - c.x) * (s.z - c.z) - (p.z - c.z) * (s.x - c.x))
    have h3 := sq_nonneg ((p.y - c.y) * (s.z - c.z) - (p.z - c.z) * (s.y - c.y))
    linarith
  have : sqDist p s = m ^ 2 + r ^ 2 - 2 * ((p.x - c.x) * (s.x - c.x) + (p.y - c.y) * (s.y - c.y) + (p.z - c.z) * (s.z - c.z)) := by
    rw [← em, ← er]; unfold sqDist; ring
  rw [this]
  linarith

theorem sphere_euclid {sqrt : F → F} (hs : IsSqrt sqrt) {c : Vec3 F} {r : F} (hr : 0 < r) (p : Vec3 F) :
    IsDistance (OnSurface (.sphere c r)) p |sphereDistance sqrt c r p| := by
  have e : sqNorm (c - p) = sqDist p c := by simp only [sqNorm, dot, sqDist, Vec3.sub_x, Vec3.sub_y, Vec3.sub_z]; ring
  have h0 := sqDist_nonneg p c
  obtain ⟨m, hm⟩ : ∃ m, m = sqrt (sqDist p c) := ⟨_, rfl⟩
  have m0 : 0 ≤ m := hm ▸ (hs _ h0).1
  have m2 : sqDist p c = m ^ 2 := by rw [hm, sqrt_pow hs h0]
  have ed : sphereDistance sqrt c r p = m - r := by rw [sphereDistance, norm, e, hm]
  rw [ed]
  have surf : ∀ s, OnSurface (.sphere c r) s ↔ sqDist s c = r ^ 2 := fun s =>
    ⟨fun h => le_antisymm h.1 (not_lt.mp h.2), fun h => ⟨h.le, not_lt.mpr h.ge⟩⟩
  refine ⟨abs_nonneg _, ?_, ?_⟩
  · rw [sq_abs]
    by_cases hm0 : m = 0
    · refine ⟨⟨c.x + r, c.y, c.z⟩, (surf _).mpr (by simp [sqDist]), ?_⟩
      rw [hm0] at m2 ⊢
      have hx : (p.x - c.x) ^ 2 = 0 := by
        have := sq_nonneg (p.x - c.x); have := sq_nonneg (p.y - c.y); have := sq_nonneg (p.z - c.z)
        unfold sqDist at m2; linarith
      have hx' : p.x - c.x = 0 := pow_eq_zero_iff two_ne_zero |>.mp hx
      unfold sqDist at m2 ⊢
      dsimp only
      linear_combination m2 - 2 * r * hx'
    · have hne : m ≠ 0 := hm0
      refine ⟨⟨c.x + r / m * (p.x - c.x), c.y + r / m * (p.y - c.y), c.z + r / m * (p.z - c.z)⟩, (surf _).mpr ?_, ?_⟩
      · have : sqDist ⟨c.x + r / m * (p.x - c.x), c.y + r / m * (p.y - c.y), c.z + r / m * (p.z - c.z)⟩ c = (r / m) ^ 2 * sqDist p c := by
          unfold sqDist; ring
        rw [this, m2]; field_simp
      · have : sqDist p ⟨c.x + r / m * (p.x - c.x), c.y + r / m * (p.y - c.y), c.z + r / m * (p.z - c.z)⟩ =
            (1 - r / m) ^ 2 * sqDist p c := by unfold sqDist; ring
        rw [this, m2]; field_simp
  · intro s h
    rw [sq_abs]
    exact sub_sq_le_sqDist m0 hr.le m2 ((surf s).mp h)

/-- The square of the distance from the centre along a ray of unit direction. -/
theorem sqDist_rayPoint (o d c : Vec3 F) (hd : sqNorm d = 1) (t : F) :
    sqDist (rayPoint o d t) c = (t + dot d (o - c)) ^ 2 - (dot d (o - c) ^ 2 - sqNorm (o - c)) := by
  have : t ^ 2 * sqNorm d = t ^ 2 := by rw [hd, mul_one]
  simp only [sqDist, rayPoint, dot, sqNorm, Vec3.sub_x, Vec3.sub_y, Vec3.sub_z] at *
  linear_combination this

omit [LinearOrder F] [IsStrictOrderedRing F] in
theorem add_smul_eq (o d : Vec3 F) (t : F) : o + smul t d = rayPoint o d t := rfl

theorem sphere_ray_sound {sqrt : F → F} (hs : IsSqrt sqrt) (c : Vec3 F) (r : F) (o d : Vec3 F) (hd : sqNorm d = 1) (M : F) :
    SoundHit (.sphere c r) o d M (sphereRay sqrt c r o d M) := by
  unfold sphereRay
  simp only
  split_ifs with h1 h2 h3
  · trivial
  · trivial
  · trivial
  · refine ⟨rfl, not_lt.mp h2, not_lt.mp h3, ?_⟩
    have hu := sqrt_pow hs (not_lt.mp h1)
    have e := sqDist_rayPoint o d c hd (-(dot d (o - c)) - sqrt (dot d (o - c) ^ 2 - sqNorm (o - c) + r ^ 2))
    have : sqDist (rayPoint o d (-(dot d (o - c)) - sqrt (dot d (o - c) ^ 2 - sqNorm (o - c) + r ^ 2))) c = r ^ 2 := by
      rw [e]; linear_combination hu
    exact ⟨this.le, not_lt.mpr this.ge⟩

theorem sphere_ray_first {sqrt : F → F} (hs : IsSqrt sqrt) (c : Vec3 F) (r : F) (o d : Vec3 F) (hd : sqNorm d = 1) (M : F)
    (ho : ¬ Solid (.sphere c r) o) : FirstHit (.sphere c r) o d M false (sphereRay sqrt c r o d M) := by
  have sound := sphere_ray_sound hs c r o d hd M
  have surf : ∀ s, OnSurface (.sphere c r) (rayPoint o d s) → (s + dot d (o - c)) ^ 2 = dot d (o - c) ^ 2 - sqNorm (o - c) + r ^ 2 := by
    intro s h
    have := le_antisymm h.1 (not_lt.mp h.2)
    rw [sqDist_rayPoint o d c hd] at this
    linear_combination this
  have e : sqNorm (o - c) = sqDist o c := by simp only [sqNorm, dot, sqDist, Vec3.sub_x, Vec3.sub_y, Vec3.sub_z]; ring
  have hout : dot d (o - c) ^ 2 - sqNorm (o - c) + r ^ 2 < dot d (o - c) ^ 2 := by
    have := not_le.mp ho
    rw [e]; linarith
  unfold sphereRay at sound ⊢
  simp only at sound ⊢
  set b := dot d (o - c)
  set u := b ^ 2 - sqNorm (o - c) + r ^ 2
  -- every surface point on the ray is at or beyond the reported root
  have key : 0 ≤ u → ∀ s, 0 ≤ s → (s + b) ^ 2 = u → 0 ≤ -b - sqrt u ∧ -b - sqrt u ≤ s := by
    intro hu s h0 h
    have q0 := (hs u hu).1
    have q2 := sqrt_pow hs hu
    have habs : sqrt u < |b| := (sqrt_lt hs hu (abs_nonneg _)).mpr (by rw [sq_abs]; exact hout)
    have hb : b < 0 := by
      by_contra hb
      rw [abs_of_nonneg (not_lt.mp hb)] at habs
      have : sqrt u = s + b := sqrt_eq hs (by linarith [not_lt.mp hb]) h
      linarith
    rw [abs_of_neg hb] at habs
    refine ⟨by linarith, ?_⟩
    have : |s + b| = sqrt u := (sqrt_eq hs (abs_nonneg _) (by rw [sq_abs]; exact h)).symm
    have := neg_abs_le (s + b)
    linarith
  split_ifs at sound ⊢ with h1 h2 h3
  · intro s h0 _ h
    have := surf s h
    have := sq_nonneg (s + b)
    linarith
  · intro s h0 _ h
    exact absurd (key (not_lt.mp h1) s h0 (surf s h)).1 (not_le.mpr h2)
  · intro s h0 h4 h
    have := (key (not_lt.mp h1) s h0 (surf s h)).2
    simp only [Bool.false_eq_true, if_false] at h4
    exact absurd (this.trans h4) (not_le.mpr h3)
  · refine ⟨sound.1, sound.2.1, by simpa using sound.2.2.1, sound.2.2.2, ?_⟩
    intro s h0 h4 h
    exact absurd (key (not_lt.mp h1) s h0 (surf s h)).2 (not_le.mpr h4)

end Vox.Sim
