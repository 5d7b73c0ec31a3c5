/-
C60: distances and ray hits of simulated objects.
-/
import Verif.Lemmas.Cylinder
import Mathlib.Analysis.Real.Sqrt
import Mathlib.Tactic.NormNum

namespace Vox.C60

open Sim Geo Spec

variable {F : Type} [Field F] [LinearOrder F] [IsStrictOrderedRing F]

theorem real_sqrt : IsSqrt Real.sqrt := fun x hx => ⟨Real.sqrt_nonneg x, Real.mul_self_sqrt hx⟩

/-- The sphere reports the signed Euclidean distance to its surface, inside and outside. -/
theorem C60_sphere_distance {sqrt : F → F} (hs : IsSqrt sqrt) (c : Vec3 F) (r : F) (hp : Proper (.sphere c r)) (p : Vec3 F) :
    HasSign (.sphere c r) p (distance sqrt (.sphere c r) p) ∧
      IsDistance (OnSurface (.sphere c r)) p |distance sqrt (.sphere c r) p| :=
  ⟨sphere_sign hs hp p, sphere_euclid hs hp p⟩

example : IsSqrt Real.sqrt ∧ Proper (.sphere ⟨1, 2, 3⟩ 2 : Shape ℝ) ∧ Inner (.sphere ⟨1, 2, 3⟩ 2 : Shape ℝ) ⟨1, 2, 2⟩ ∧
    ¬ Solid (.sphere ⟨1, 2, 3⟩ 2 : Shape ℝ) ⟨1, 2, 0⟩ := by
  refine ⟨real_sqrt, ?_, ?_, ?_⟩ <;> norm_num [Proper, Inner, Solid, sqDist]

/-- The sign reported by the cube is right for every point; so is the size, except in a shell of thickness `eps` around the cube, where
too small a value is reported. -/
theorem C60_cube_distance {sqrt : F → F} (hs : IsSqrt sqrt) (c s : Vec3 F) (hp : Proper (.cube c s)) (p : Vec3 F) :
    let δ := distance sqrt (.cube c s) p
    HasSign (.cube c s) p δ ∧ (δ ≤ 0 ∨ eps ≤ δ → IsDistance (OnSurface (.cube c s)) p |δ|) ∧
      (0 < δ → ∃ δ', IsDistance (OnSurface (.cube c s)) p δ' ∧ δ ≤ δ' ∧ (δ' = δ ∨ δ' < eps)) := by
  intro δ
  have sign := cube_sign hs c s p
  have hδ : δ = cubeDistance sqrt c s p := rfl
  have out : 0 < δ → ¬ Solid (.cube c s) p := fun h hsol => by
    by_cases hi : Inner (.cube c s) p
    · exact absurd (sign.inner hi) (not_lt.mpr h.le)
    · exact absurd (sign.surface ⟨hsol, hi⟩) h.ne'
  refine ⟨sign, ?_, ?_⟩
  · rintro (h | h)
    · exact cube_euclid_solid hs hp (by_contra fun h' => absurd (sign.outer h') (not_lt.mpr h))
    · have hpos := eps_pos.trans_le h
      have := cube_euclid_outer hs hp (out hpos)
      have e : δ = excess sqrt c s p := by
        rw [hδ, cube_eq] at h ⊢
        split_ifs at h ⊢ with h1
        · exact absurd ((face_le_excess hs c s p).trans_lt h1) (not_lt.mpr h)
        · rfl
      rw [abs_of_pos hpos, e]
      exact this
  · intro h
    refine ⟨_, cube_euclid_outer hs hp (out h), ?_, ?_⟩
    · rw [hδ, cube_eq]
      split_ifs
      · exact face_le_excess hs c s p
      · exact le_rfl
    · by_cases h1 : excess sqrt c s p < eps
      · exact .inr h1
      · left; rw [hδ, cube_eq, if_neg h1]

example : Proper (.cube ⟨0, 0, 0⟩ ⟨2, 4, 6⟩ : Shape ℝ) ∧ Inner (.cube ⟨0, 0, 0⟩ ⟨2, 4, 6⟩ : Shape ℝ) ⟨1 / 2, 1, -2⟩ ∧
    ¬ Solid (.cube ⟨0, 0, 0⟩ ⟨2, 4, 6⟩ : Shape ℝ) ⟨4, 6, 0⟩ := by
  refine ⟨?_, ?_, ?_⟩ <;> norm_num [Proper, Inner, Solid, abs_of_pos]

/-- The plane with unit normal reports the signed Euclidean distance. -/
theorem C60_plane_distance {sqrt : F → F} (hs : IsSqrt sqrt) (c n : Vec3 F) (hp : Proper (.plane c n)) (p : Vec3 F) :
    HasSign (.plane c n) p (distance sqrt (.plane c n) p) ∧
      IsDistance (OnSurface (.plane c n)) p |distance sqrt (.plane c n) p| :=
  ⟨plane_sign hs hp p, plane_euclid hs hp p⟩

example : Proper (.plane ⟨1, 2, 3⟩ ⟨3 / 5, 0, 4 / 5⟩ : Shape ℝ) ∧ Inner (.plane ⟨1, 2, 3⟩ ⟨3 / 5, 0, 4 / 5⟩ : Shape ℝ) ⟨0, 0, 0⟩ := by
  constructor <;> norm_num [Proper, Inner]

/-- What the cylinder gets right: the sign outside, inside and on its side; the distance beside it and right above or below it, and
inside where the side is nearer than the caps. What is reported outside is never less than the distance.
The full statement, as for the sphere, is refuted by `C60_cylinder_cap`, `C60_cylinder_edge`, `C60_cylinder_inside`. -/
theorem C60_cylinder_distance_partial {sqrt : F → F} (hs : IsSqrt sqrt) (c : Vec3 F) (r h : F) (hp : Proper (.cylinder c r h)) (p : Vec3 F) :
    let δ := distance sqrt (.cylinder c r h) p
    (Inner (.cylinder c r h) p → δ < 0) ∧ (¬ Solid (.cylinder c r h) p → 0 < δ) ∧
    (sqAxial c p = r ^ 2 ∧ |p.z - c.z| ≤ h / 2 → δ = 0) ∧
    (|p.z - c.z| ≤ h / 2 ∧ r ^ 2 ≤ sqAxial c p ∨ h / 2 < |p.z - c.z| ∧ sqAxial c p ≤ r ^ 2 ∨
      Inner (.cylinder c r h) p ∧ r - sqrt (sqAxial c p) ≤ h / 2 - |p.z - c.z| → IsDistance (OnSurface (.cylinder c r h)) p |δ|) ∧
    (¬ Solid (.cylinder c r h) p → ∃ δ', IsDistance (OnSurface (.cylinder c r h)) p δ' ∧ δ' ≤ δ) := by
  obtain ⟨hr, hh⟩ := hp
  intro δ
  have h0 := sqAxial_nonneg c p
  have eδ : δ = _ := cylinder_eq (sqrt := sqrt) (c := c) (r := r) hh p
  have nz : |p.z - c.z| ≤ h / 2 → 0 ≤ h / 2 - |p.z - c.z| := fun h => by linarith
  have outer : ¬ Solid (.cylinder c r h) p → ¬ Inner (.cylinder c r h) p := fun h1 h2 => h1 ⟨h2.1.le, h2.2.le⟩
  have hle : ¬ Solid (.cylinder c r h) p →
      sqrt (max (sqrt (sqAxial c p) - r) 0 ^ 2 + max (|p.z - c.z| - h / 2) 0 ^ 2) ≤ δ := by
    intro ho
    have q2 := sqrt_pow hs h0
    have q0 := (hs _ h0).1
    have hx : 0 ≤ max (sqrt (sqAxial c p) - r) 0 ^ 2 + max (|p.z - c.z| - h / 2) 0 ^ 2 := by positivity
    rw [eδ]
    split_ifs with h1
    · have : r ^ 2 < sqAxial c p := not_le.mp fun h' => ho ⟨h', h1⟩
      have : r < sqrt (sqAxial c p) := (lt_sqrt hs h0 hr.le).mpr this
      rw [sqrt_le hs hx (by linarith), max_eq_left (by linarith : (0 : F) ≤ sqrt (sqAxial c p) - r), max_eq_right (by linarith)]
      simp
    · have h2 := not_le.mp h1
      have hy : 0 ≤ max (sqAxial c p - r ^ 2) 0 + (|p.z - c.z| - h / 2) ^ 2 := by positivity
      rw [sqrt_le hs hx (hs _ hy).1, sqrt_pow hs hy, max_eq_left (by linarith : (0 : F) ≤ |p.z - c.z| - h / 2)]
      have : max (sqrt (sqAxial c p) - r) 0 ^ 2 ≤ max (sqAxial c p - r ^ 2) 0 := by
        rcases le_total (sqrt (sqAxial c p) - r) 0 with h3 | h3
        · rw [max_eq_right h3, zero_pow two_ne_zero]; exact le_max_right _ _
        · rw [max_eq_left h3]
          refine le_trans ?_ (le_max_left _ _)
          have : 0 ≤ 2 * r * (sqrt (sqAxial c p) - r) := by positivity
          linarith
      linarith
  refine ⟨fun hi => ?_, fun ho => ?_, fun ⟨h1, h2⟩ => ?_, ?_, fun ho => ⟨_, cylinder_true_outer hs hr hh (outer ho), hle ho⟩⟩
  · rw [eδ, if_pos hi.2.le]
    exact sub_neg.mpr ((sqrt_lt hs h0 hr.le).mpr hi.1)
  · rw [eδ]
    split_ifs with h1
    · exact sub_pos.mpr ((lt_sqrt hs h0 hr.le).mpr (not_le.mp fun h' => ho ⟨h', h1⟩))
    · have : 0 < (|p.z - c.z| - h / 2) ^ 2 := by have := not_le.mp h1; have : 0 < |p.z - c.z| - h / 2 := (by linarith); positivity
      have h3 : 0 < max (sqAxial c p - r ^ 2) 0 + (|p.z - c.z| - h / 2) ^ 2 := by
        have := le_max_right (sqAxial c p - r ^ 2) 0; linarith
      exact (lt_sqrt hs h3.le le_rfl).mpr (by rw [zero_pow two_ne_zero]; exact h3)
  · rw [eδ, if_pos h2, sqrt_eq hs hr.le h1.symm, sub_self]
  · rintro (⟨h1, h2⟩ | ⟨h1, h2⟩ | ⟨hi, h1⟩)
    · have h3 : r ≤ sqrt (sqAxial c p) := not_lt.mp fun h' => absurd ((sqrt_lt hs h0 hr.le).mp h') (not_lt.mpr h2)
      have := cylinder_true_outer hs (c := c) hr hh (p := p) fun hi => absurd hi.1 (not_lt.mpr h2)
      rw [max_eq_left (by linarith : (0 : F) ≤ sqrt (sqAxial c p) - r), max_eq_right (by linarith), zero_pow two_ne_zero, add_zero,
        sqrt_eq hs (by linarith) rfl] at this
      rw [eδ, if_pos h1, abs_of_nonneg (by linarith)]
      exact this
    · have h3 : sqrt (sqAxial c p) ≤ r := (sqrt_le hs h0 hr.le).mpr h2
      have := cylinder_true_outer hs (c := c) hr hh (p := p) fun hi => absurd hi.2 (not_lt.mpr h1.le)
      rw [max_eq_right (by linarith : sqrt (sqAxial c p) - r ≤ 0), max_eq_left (by linarith), zero_pow two_ne_zero, zero_add,
        sqrt_eq hs (by linarith) rfl] at this
      rw [eδ, if_neg (not_le.mpr h1), max_eq_right (by linarith), zero_add, sqrt_eq hs (by linarith) rfl, abs_of_nonneg (by linarith)]
      exact this
    · have h3 : sqrt (sqAxial c p) < r := (sqrt_lt hs h0 hr.le).mpr hi.1
      rw [eδ, if_pos hi.2.le, abs_of_neg (by linarith), neg_sub]
      exact cylinder_true_inner hs hr hi h1

example : Proper (.cylinder ⟨0, 0, 0⟩ 1 4 : Shape ℝ) ∧ |(0 : ℝ) - 0| ≤ 4 / 2 ∧ (1 : ℝ) ^ 2 ≤ sqAxial ⟨0, 0, 0⟩ ⟨3, 4, 0⟩ := by
  refine ⟨?_, ?_, ?_⟩ <;> norm_num [Proper, sqAxial]

omit [IsStrictOrderedRing F] in
theorem not_least {S : Vec3 F → Prop} {p s : Vec3 F} {δ : F} (hs : S s) (h : sqDist p s < δ ^ 2) : ¬ IsDistance S p δ :=
  fun hd => absurd (hd.least s hs) (not_le.mpr h)

/-- The middle of a cap lies on the surface, but is reported as inside by the radius. -/
theorem C60_cylinder_cap : OnSurface (.cylinder ⟨0, 0, 0⟩ 1 2 : Shape ℝ) ⟨0, 0, 1⟩ ∧
    distance Real.sqrt (.cylinder ⟨0, 0, 0⟩ 1 2) ⟨0, 0, 1⟩ = -1 := by
  constructor
  · norm_num [OnSurface, Solid, Inner, sqAxial]
  · rw [distance, cylinder_eq (by norm_num)]
    norm_num [sqAxial]

/-- Beyond the rim of a cap the reported distance (2) exceeds the distance (√2). -/
theorem C60_cylinder_edge : distance Real.sqrt (.cylinder ⟨0, 0, 0⟩ 1 2) ⟨2, 0, 2⟩ = 2 ∧
    ¬ Solid (.cylinder ⟨0, 0, 0⟩ 1 2 : Shape ℝ) ⟨2, 0, 2⟩ ∧ ¬ IsDistance (OnSurface (.cylinder ⟨0, 0, 0⟩ 1 2 : Shape ℝ)) ⟨2, 0, 2⟩ 2 := by
  refine ⟨?_, ?_, not_least (s := ⟨1, 0, 1⟩) ?_ ?_⟩
  · rw [distance, cylinder_eq (by norm_num)]
    norm_num [sqAxial, abs_of_pos]
    rw [show (4 : ℝ) = 2 ^ 2 by norm_num, Real.sqrt_sq (by norm_num)]
  · norm_num [Solid, sqAxial]
  · norm_num [OnSurface, Solid, Inner, sqAxial]
  · norm_num [sqDist]

/-- Inside, near a cap, the reported distance ignores the cap. -/
theorem C60_cylinder_inside : distance Real.sqrt (.cylinder ⟨0, 0, 0⟩ 1 2) ⟨0, 0, 9 / 10⟩ = -1 ∧
    Inner (.cylinder ⟨0, 0, 0⟩ 1 2 : Shape ℝ) ⟨0, 0, 9 / 10⟩ ∧
    ¬ IsDistance (OnSurface (.cylinder ⟨0, 0, 0⟩ 1 2 : Shape ℝ)) ⟨0, 0, 9 / 10⟩ 1 := by
  refine ⟨?_, ?_, not_least (s := ⟨0, 0, 1⟩) ?_ ?_⟩
  · rw [distance, cylinder_eq (by norm_num)]
    norm_num [sqAxial, abs_of_pos]
  · norm_num [Inner, sqAxial, abs_of_pos]
  · norm_num [OnSurface, Solid, Inner, sqAxial]
  · norm_num [sqDist]

/-! Rays -/

/-- A hit of the sphere lies on it and in range; seen from outside, it is the first one, and a miss means there is none. -/
theorem C60_sphere_ray {sqrt : F → F} (hs : IsSqrt sqrt) (c : Vec3 F) (r : F) (o d : Vec3 F) (hd : d.x ^ 2 + d.y ^ 2 + d.z ^ 2 = 1) (M : F) :
    SoundHit (.sphere c r) o d M (ray sqrt (.sphere c r) o d M) ∧
      (¬ Solid (.sphere c r) o → FirstHit (.sphere c r) o d M false (ray sqrt (.sphere c r) o d M)) := by
  have hd' : sqNorm d = 1 := by rw [← hd, sqNorm, dot]; ring
  exact ⟨sphere_ray_sound hs c r o d hd' M, sphere_ray_first hs c r o d hd' M⟩

example : (3 / 5 : ℝ) ^ 2 + 0 ^ 2 + (4 / 5) ^ 2 = 1 ∧ ¬ Solid (.sphere ⟨6, 0, 8⟩ 1 : Shape ℝ) ⟨0, 0, 0⟩ := by
  constructor <;> norm_num [Solid, sqDist]

/-- From inside, the sphere is never hit, although every ray leaves it. -/
theorem C60_sphere_inside {sqrt : F → F} (hs : IsSqrt sqrt) (c : Vec3 F) (r : F) (o d : Vec3 F)
    (hd : d.x ^ 2 + d.y ^ 2 + d.z ^ 2 = 1) (M : F) (hi : Inner (.sphere c r) o) :
    ray sqrt (.sphere c r) o d M = .miss ∧ ∃ t, 0 < t ∧ OnSurface (.sphere c r) (rayPoint o d t) := by
  have hd' : sqNorm d = 1 := by rw [← hd, sqNorm, dot]; ring
  have e : sqNorm (o - c) = sqDist o c := by simp only [sqNorm, dot, sqDist, Vec3.sub_x, Vec3.sub_y, Vec3.sub_z]; ring
  have hi' : sqDist o c < r ^ 2 := hi
  have hu : dot d (o - c) ^ 2 < dot d (o - c) ^ 2 - sqNorm (o - c) + r ^ 2 := by rw [e]; linarith
  have h0 : 0 ≤ dot d (o - c) ^ 2 - sqNorm (o - c) + r ^ 2 := (sq_nonneg _).trans hu.le
  have hlt : |dot d (o - c)| < sqrt (dot d (o - c) ^ 2 - sqNorm (o - c) + r ^ 2) :=
    (lt_sqrt hs h0 (abs_nonneg _)).mpr (by rw [sq_abs]; exact hu)
  have h1 := neg_abs_le (dot d (o - c))
  have h2 := le_abs_self (dot d (o - c))
  constructor
  · simp only [ray, sphereRay]
    rw [if_neg (not_lt.mpr h0), if_pos (by linarith)]
  · refine ⟨-(dot d (o - c)) + sqrt (dot d (o - c) ^ 2 - sqNorm (o - c) + r ^ 2), by linarith, ?_⟩
    have q := sqrt_pow hs h0
    have : sqDist (rayPoint o d (-(dot d (o - c)) + sqrt (dot d (o - c) ^ 2 - sqNorm (o - c) + r ^ 2))) c = r ^ 2 := by
      rw [sqDist_rayPoint o d c hd']; linear_combination q
    exact ⟨this.le, not_lt.mpr this.ge⟩

example : Inner (.sphere ⟨0, 0, 0⟩ 2 : Shape ℝ) ⟨1, 0, 0⟩ := by norm_num [Inner, sqDist]

/-- A ray that is not parallel to a face through its origin hits the cube at its first point of the surface, and misses only if there is
none in range. -/
theorem C60_cube_ray_partial (sqrt : F → F) (c s o d : Vec3 F) (M : F) (hp : Proper (.cube c s))
    (hx : d.x = 0 → |o.x - c.x| ≠ s.x / 2) (hy : d.y = 0 → |o.y - c.y| ≠ s.y / 2) (hz : d.z = 0 → |o.z - c.z| ≠ s.z / 2) :
    FirstHit (.cube c s) o d M false (ray sqrt (.cube c s) o d M) := by
  have ax : ∀ O C S : F, 0 < S → |O - C| ≠ S / 2 → O ≠ C - S / 2 ∧ O ≠ C + S / 2 := by
    intro O C S hS h
    constructor
    · rintro rfl; apply h; rw [sub_sub_cancel_left, abs_neg, abs_of_pos (by positivity)]
    · rintro rfl; apply h; rw [add_sub_cancel_left, abs_of_pos (by positivity)]
  exact cube_ray_first hp M (fun h => ax _ _ _ hp.1 (hx h)) (fun h => ax _ _ _ hp.2.1 (hy h)) fun h => ax _ _ _ hp.2.2 (hz h)

example : Proper (.cube ⟨5, 0, 0⟩ ⟨2, 2, 2⟩ : Shape ℚ) ∧ ((0 : ℚ) = 0 → |(0 : ℚ) - 0| ≠ 2 / 2) ∧
    ray (fun x => x) (.cube ⟨5, 0, 0⟩ ⟨2, 2, 2⟩ : Shape ℚ) ⟨0, 0, 0⟩ ⟨1, 0, 0⟩ 10 = .hit ⟨4, 0, 0⟩ 4 := by
  refine ⟨by norm_num [Proper], by norm_num, by decide +kernel⟩

/-- A ray along a face plane of the cube gets a hit that is not a number, although it misses the cube. -/
theorem C60_cube_nan :
    ray (fun x => x) (.cube ⟨0, 0, 0⟩ ⟨2, 2, 2⟩ : Shape ℚ) ⟨-1, -5, 0⟩ ⟨0, 1, 0⟩ 100 = .nan ∧
    ray (fun x => x) (.cube ⟨0, 0, 0⟩ ⟨2, 2, 2⟩ : Shape ℚ) ⟨-1, 5, 5⟩ ⟨0, 3 / 5, 4 / 5⟩ 100 = .nan ∧
    ∀ t, 0 ≤ t → ¬ OnSurface (.cube ⟨0, 0, 0⟩ ⟨2, 2, 2⟩ : Shape ℚ) (rayPoint ⟨-1, 5, 5⟩ ⟨0, 3 / 5, 4 / 5⟩ t) := by
  refine ⟨by decide +kernel, by decide +kernel, ?_⟩
  rintro t ht ⟨⟨_, h, _⟩, _⟩
  have := (abs_le.mp h).2
  norm_num [rayPoint] at this
  linarith

/-- A ray in the plane of the opposite face is reported to hit the cube at a point that is not on it. -/
theorem C60_cube_false_hit : ray (fun x => x) (.cube ⟨0, 0, 0⟩ ⟨2, 2, 2⟩ : Shape ℚ) ⟨1, -2, -10⟩ ⟨0, 3 / 5, 4 / 5⟩ 100 =
      .hit ⟨1, 19 / 4, -1⟩ (45 / 4) ∧
    ¬ OnSurface (.cube ⟨0, 0, 0⟩ ⟨2, 2, 2⟩ : Shape ℚ) ⟨1, 19 / 4, -1⟩ := by
  refine ⟨by decide +kernel, ?_⟩
  rintro ⟨⟨_, h, _⟩, _⟩
  norm_num [abs_of_pos] at h

/-- A ray neither nearly parallel to the plane, nor inside it, hits the plane at the point where it meets it. -/
theorem C60_plane_ray (sqrt : F → F) (c n o d : Vec3 F) (M : F)
    (h : eps ≤ |d.x * n.x + d.y * n.y + d.z * n.z| ∨ d.x * n.x + d.y * n.y + d.z * n.z = 0 ∧ ¬ OnSurface (.plane c n) o) :
    FirstHit (.plane c n) o d M false (ray sqrt (.plane c n) o d M) :=
  plane_ray_first M h

example : (eps : ℚ) ≤ |1 * 1 + 0 * 0 + 0 * 0| := by norm_num [eps]

omit [IsStrictOrderedRing F] in
/-- A ray nearly parallel to the plane is reported to miss it. -/
theorem C60_plane_parallel (sqrt : F → F) (c n o d : Vec3 F) (M : F) (h : |d.x * n.x + d.y * n.y + d.z * n.z| < eps) :
    ray sqrt (.plane c n) o d M = .miss := if_pos h

example : |(1 : ℚ) * 0 + 0 * 0 + 1 / 10000000 * 1| < eps := by norm_num [eps, abs_of_pos]

/-- A ray that is not nearly vertical, not nearly tangent and not nearly horizontal (exactly tangent or horizontal ones are fine, unless
in the plane of a cap) hits the cylinder at its first point of the surface; the end of the range is excluded. -/
theorem C60_cylinder_ray_partial {sqrt : F → F} (hs : IsSqrt sqrt) (c : Vec3 F) (r h : F) (hp : Proper (.cylinder c r h)) (o d : Vec3 F) (M : F)
    (ha : eps ≤ d.x * d.x + d.y * d.y)
    (hu : let a := d.x * d.x + d.y * d.y
      let b := 2 * (o.x - c.x) * d.x + 2 * (o.y - c.y) * d.y
      let k := (o.x - c.x) * (o.x - c.x) + (o.y - c.y) * (o.y - c.y) - r * r
      b * b - 4 * a * k ≤ 0 ∨ eps < b * b - 4 * a * k)
    (hz : eps < |d.z| ∨ d.z = 0 ∧ |o.z - c.z| ≠ h / 2) :
    FirstHit (.cylinder c r h) o d M true (ray sqrt (.cylinder c r h) o d M) :=
  cylinder_ray_first hs hp.1 hp.2 M ha hu hz

example : Proper (.cylinder ⟨5, 0, 0⟩ 1 4 : Shape ℝ) ∧ eps ≤ (3 / 5 : ℝ) * (3 / 5) + 0 * 0 ∧
    eps < (2 * (0 - 5) * (3 / 5) + 2 * (0 - 0) * 0) * (2 * (0 - 5) * (3 / 5) + 2 * (0 - 0) * 0) -
      4 * ((3 / 5) * (3 / 5) + 0 * 0 : ℝ) * ((0 - 5) * (0 - 5) + (0 - 0) * (0 - 0) - 1 * 1) ∧ eps < |(4 / 5 : ℝ)| := by
  refine ⟨?_, ?_, ?_, ?_⟩ <;> norm_num [Proper, eps, abs_of_pos]

/-- A nearly vertical ray is reported to miss every cylinder, even straight through both caps. -/
theorem C60_cylinder_vertical (sqrt : F → F) (c : Vec3 F) (r h : F) (o d : Vec3 F) (M : F) (ha : d.x * d.x + d.y * d.y < eps) :
    ray sqrt (.cylinder c r h) o d M = .miss := by
  have h0 : 0 ≤ d.x * d.x + d.y * d.y := add_nonneg (mul_self_nonneg _) (mul_self_nonneg _)
  simp only [ray, cylinderRay, cylinderRoots]
  rw [if_pos (by rwa [abs_of_nonneg h0])]

example : (0 : ℚ) * 0 + 0 * 0 < eps ∧ OnSurface (.cylinder ⟨0, 0, 0⟩ 1 2 : Shape ℚ) (rayPoint ⟨0, 0, 10⟩ ⟨0, 0, -1⟩ 9) := by
  constructor <;> norm_num [eps, OnSurface, Solid, Inner, sqAxial, rayPoint]

/-- A steep ray that starts on the axis of a thin cylinder is reported to hit it at its origin, half a unit away from the surface: two
different roots are taken for one. -/
theorem C60_cylinder_steep :
    ray Real.sqrt (.cylinder ⟨0, 0, 0⟩ (1 / 2) 10 : Shape ℝ) ⟨0, 0, 0⟩ ⟨1 / 1000, 0, 1⟩ 100 = .hit ⟨0, 0, 0⟩ 0 ∧
    Inner (.cylinder ⟨0, 0, 0⟩ (1 / 2) 10 : Shape ℝ) ⟨0, 0, 0⟩ := by
  constructor
  · have roots : cylinderRoots Real.sqrt (1 / 1000 * (1 / 1000) + 0 * 0) (2 * (0 - 0) * (1 / 1000) + 2 * (0 - 0) * 0)
        ((0 - 0) * (0 - 0) + (0 - 0) * (0 - 0) - 1 / 2 * (1 / 2)) = some (0, -1) := by
      unfold cylinderRoots
      norm_num [eps, abs_of_pos]
    simp only [ray, cylinderRay, Vec3.sub_x, Vec3.sub_y, Vec3.sub_z, roots]
    norm_num [lower, eps, smul]
    exact Vec3.ext (add_zero _) (add_zero _) (add_zero _)
  · norm_num [Inner, sqAxial]

/-! World -/

omit [IsStrictOrderedRing F] in
/-- The distance reported by the world is the least of the distances of its objects and the given maximum. -/
theorem C60_world_distance (sqrt : F → F) (w : List (Obj F)) (p : Vec3 F) (M : F) :
    worldDistance sqrt w p M ≤ M ∧ (∀ o ∈ w, worldDistance sqrt w p M ≤ distance sqrt o.shape p) ∧
      (worldDistance sqrt w p M = M ∨ ∃ o ∈ w, worldDistance sqrt w p M = distance sqrt o.shape p) := by
  unfold worldDistance
  induction w generalizing M with
  | nil => simp
  | cons x xs ih =>
    simp only [List.foldl_cons]
    by_cases h : distance sqrt x.shape p < M
    · rw [if_pos h]
      obtain ⟨h1, h2, h3⟩ := ih (distance sqrt x.shape p)
      refine ⟨h1.trans h.le, ?_, ?_⟩
      · rintro o ho
        rcases List.mem_cons.mp ho with rfl | ho
        · exact h1
        · exact h2 o ho
      · rcases h3 with h3 | ⟨o, ho, h3⟩
        · exact .inr ⟨x, List.mem_cons_self .., h3⟩
        · exact .inr ⟨o, List.mem_cons_of_mem _ ho, h3⟩
    · rw [if_neg h]
      obtain ⟨h1, h2, h3⟩ := ih M
      refine ⟨h1, ?_, ?_⟩
      · rintro o ho
        rcases List.mem_cons.mp ho with rfl | ho
        · exact h1.trans (not_lt.mp h)
        · exact h2 o ho
      · rcases h3 with h3 | ⟨o, ho, h3⟩
        · exact .inl h3
        · exact .inr ⟨o, List.mem_cons_of_mem _ ho, h3⟩

/-- Ground and walls: the distance is the height above the ground, capped by the distances to the four walls. -/
theorem C60_room {sqrt : F → F} (hs : IsSqrt sqrt) (height xMin xMax yMin yMax M : F) (p : Vec3 F) :
    worldDistance sqrt (addPlaneBoundaries xMin xMax yMin yMax (addGroundLevel height [])) p M =
      min (min (min (min (min M (p.z - height)) (p.x - xMin)) (xMax - p.x)) (p.y - yMin)) (yMax - p.y) := by
  have one : ∀ c n : Vec3 F, n.x ^ 2 + n.y ^ 2 + n.z ^ 2 = 1 → distance sqrt (.plane c n) p = _ := fun c n hn => plane_eq hs hn p
  have m : ∀ a b : F, (if b < a then b else a) = min a b := fun a b => by
    split_ifs with h
    · rw [min_eq_right h.le]
    · rw [min_eq_left (not_lt.mp h)]
  simp only [worldDistance, addPlaneBoundaries, addGroundLevel, List.nil_append, List.cons_append, List.foldl_cons, List.foldl_nil]
  rw [one _ _ (by simp), one _ _ (by simp), one _ _ (by simp), one _ _ (by simp), one _ _ (by simp)]
  simp only [m]
  congr 1
  · congr 1
    · congr 1
      · congr 1
        · congr 1; simp
        · simp
      · simp
    · simp
  · simp

end Vox.C60
