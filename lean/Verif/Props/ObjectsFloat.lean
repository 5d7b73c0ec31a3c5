/-
Property C124: distances to simulated objects in single precision.
-/
import Verif.Lemmas.ObjectsFloatCube
import Verif.Props.Objects

namespace Vox.C124

open Ieee Sim Spec ObjSpec SimF

/-! ### Signed distances -/

/-- A point has at most one signed distance. -/
theorem signed_unique {o : Shape ℝ} {p : Vec3 ℝ} {δ δ' : ℝ} (h : SignedDistance o p δ) (h' : SignedDistance o p δ') : δ = δ' := by
  have habs : |δ| = |δ'| := by
    obtain ⟨s, hs, es⟩ := h.euclid.attained
    obtain ⟨s', hs', es'⟩ := h'.euclid.attained
    have a := h.euclid.least s' hs'
    have b := h'.euclid.least s hs
    rw [es'] at a
    rw [es] at b
    exact le_antisymm (pow_le_pow_left_iff₀' a) (pow_le_pow_left_iff₀' b)
  by_cases hS : Solid o p
  · by_cases hI : Inner o p
    · have a := h.sign.inner hI
      have b := h'.sign.inner hI
      rw [abs_of_neg a, abs_of_neg b] at habs
      linarith
    · rw [h.sign.surface ⟨hS, hI⟩, h'.sign.surface ⟨hS, hI⟩]
  · have a := h.sign.outer hS
    have b := h'.sign.outer hS
    rwa [abs_of_pos a, abs_of_pos b] at habs
where
  pow_le_pow_left_iff₀' {a b : ℝ} (h : |a| ^ 2 ≤ |b| ^ 2) : |a| ≤ |b| := by
    rwa [sq_abs, sq_abs, sq_le_sq] at h

theorem sphere_signed {c p : Vec3 ℚ} {r : ℚ} (hr : 0 < r) : SignedDistance (.sphere (realPoint c) r) (realPoint p) (segLength c p - r) := by
  have hr' : (0 : ℝ) < r := by exact_mod_cast hr
  have e : sphereDistance Real.sqrt (realPoint c) r (realPoint p) = segLength c p - r := by
    simp only [sphereDistance, Sim.norm, Geo.sqNorm, Geo.dot, realPoint, Vec3.sub_x, Vec3.sub_y, Vec3.sub_z]
    unfold segLength
    congr 2
    push_cast
    ring
  rw [← e]
  exact ⟨sphere_sign isSqrt_real hr' _, sphere_euclid isSqrt_real hr' _⟩

theorem plane_signed {c n p : Vec3 ℚ} (hn : 0 < length n) : SignedDistance (.plane (realPoint c) (direction n)) (realPoint p)
    (((n.x : ℝ) * (p.x - c.x) + n.y * (p.y - c.y) + n.z * (p.z - c.z)) / length n) := by
  have hsq := length_sq n
  have hunit : (direction n).x ^ 2 + (direction n).y ^ 2 + (direction n).z ^ 2 = 1 := by
    simp only [direction, div_pow, ← add_div, ← hsq]
    rw [pow_two, div_self (mul_pos hn hn).ne']
  have hnorm : Sim.norm Real.sqrt (direction n) = 1 := by
    simp only [Sim.norm, Geo.sqNorm, Geo.dot, ← pow_two, hunit, Real.sqrt_one]
  have e : planeDistance Real.sqrt (realPoint c) (direction n) (realPoint p) =
      ((n.x : ℝ) * (p.x - c.x) + n.y * (p.y - c.y) + n.z * (p.z - c.z)) / length n := by
    unfold planeDistance
    rw [hnorm]
    simp only [div_one, Geo.dot, direction, realPoint]
    ring
  rw [← e]
  exact ⟨plane_sign isSqrt_real hunit _, plane_euclid isSqrt_real hunit _⟩

/-! ### The objects -/

/-- **C124.** The distance a sphere reports differs from the signed Euclidean distance to its surface by at most 6 rounding units of the
distance to its centre and its radius, for all coordinates up to 2^30 — wherever in the world the sphere is. -/
theorem C124_sphere (c p : Vec3 ℚ) (r : ℚ) (hc : CoordsWithin (2 ^ 30) c) (hp : CoordsWithin (2 ^ 30) p) (hr0 : 0 < r) (hr : r ≤ 2 ^ 30) :
    ∃ (q : ℚ) (δ : ℝ), SimF.distance (floatShape (.sphere c r)) (p.map .fin) = .fin q ∧
      SignedDistance (realShape (.sphere c r)) (realPoint p) δ ∧
      |(q : ℝ) - δ| ≤ 6 * (1 / 2 ^ 24) * (segLength c p + r) + 1 / 2 ^ 51 := by
  obtain ⟨q, hq, e⟩ := sphere_near c p r hc hp hr0.le hr
  exact ⟨q, _, hq, sphere_signed hr0, e⟩

example : CoordsWithin (2 ^ 30) (⟨6, 0, 2⟩ : Vec3 ℚ) ∧ CoordsWithin (2 ^ 30) (⟨-3, 1 / 2, 1⟩ : Vec3 ℚ) ∧ (0 : ℚ) < 2 ∧ (2 : ℚ) ≤ 2 ^ 30 := by
  norm_num [CoordsWithin, abs_of_pos]

/-- **C124.** The distance a box reports differs from the signed Euclidean distance to its surface by at most `kEpsilon` plus 64 rounding
units of the largest coordinate involved, inside, outside and on the surface; whichever of the two branches rounding selects. -/
theorem C124_cube (c s p : Vec3 ℚ) {M : ℚ} (hM : 1 ≤ M) (hM' : M ≤ 2 ^ 30) (hc : CoordsWithin M c) (hs : CoordsWithin M s)
    (hp : CoordsWithin M p) (hs0 : 0 < s.x ∧ 0 < s.y ∧ 0 < s.z) :
    ∃ (q : ℚ) (δ : ℝ), SimF.distance (floatShape (.cube c s)) (p.map .fin) = .fin q ∧
      SignedDistance (realShape (.cube c s)) (realPoint p) δ ∧ |(q : ℝ) - δ| ≤ 1 / 1000000 + 1 / 2 ^ 18 * M := by
  obtain ⟨q, hq, e⟩ := cube_near c s p hM hM' hc hs hp hs0
  refine ⟨q, _, hq, box_signed ?_, e⟩
  simpa only [realPoint, Rat.cast_pos] using hs0

example : (1 : ℚ) ≤ 10 ∧ (10 : ℚ) ≤ 2 ^ 30 ∧ CoordsWithin 10 (⟨-4, 4, 1⟩ : Vec3 ℚ) ∧ CoordsWithin 10 (⟨4, 4, 2⟩ : Vec3 ℚ) ∧
    CoordsWithin 10 (⟨-3, 9, 1⟩ : Vec3 ℚ) := by
  norm_num [CoordsWithin, abs_of_pos]

/-- **C124.** The distance a plane reports differs from the signed Euclidean distance by at most 13 rounding units of the distances of
the plane's centre and of the point from the origin of the world — plus the relative error of the length of the normal times the distance
of the point from the origin. -/
theorem C124_plane (c n p : Vec3 ℚ) (hc : CoordsWithin (2 ^ 30) c) (hp : CoordsWithin (2 ^ 30) p) (hn : |length n - 1| ≤ 1 / 500) :
    ∃ (q : ℚ) (δ : ℝ), SimF.distance (floatShape (.plane c n)) (p.map .fin) = .fin q ∧
      SignedDistance (realShape (.plane c n)) (realPoint p) δ ∧
      |(q : ℝ) - δ| ≤ 13 * (1 / 2 ^ 24) * (length p + length c) + |length n - 1| * length p + 1 / 2 ^ 104 := by
  obtain ⟨q, hq, e⟩ := plane_near c n p hc hp hn
  have h0 : 0 < length n := by
    have := (abs_le.1 hn).1
    linarith
  exact ⟨q, _, hq, plane_signed h0, e⟩

theorem length_axis (a : ℚ) (h : 0 ≤ a) : length ⟨a, 0, 0⟩ = a := by
  have h' : (0 : ℝ) ≤ a := by exact_mod_cast h
  unfold ObjSpec.length
  rw [show ((a : ℝ) ^ 2 + ((0 : ℚ) : ℝ) ^ 2 + ((0 : ℚ) : ℝ) ^ 2) = (a : ℝ) ^ 2 by push_cast; ring, Real.sqrt_sq h']

example : |length ⟨1 + 1 / 1024, 0, 0⟩ - 1| ≤ 1 / 500 := by
  rw [length_axis _ (by norm_num)]
  push_cast
  norm_num [abs_of_pos]

/-- **C124, the check on normals.** The constructor accepts normals whose length is off by almost 1e-3. For such a plane the reported
distance is wrong in proportion to the distance from the origin: here the plane's own centre, 1024 m away, is reported to be more than
90 cm in front of the plane. -/
theorem C124_normal_violated : ∃ c n : Vec3 ℚ, acceptsNormal (n.map .fin) = true ∧ CoordsWithin 1024 c ∧
    SignedDistance (realShape (.plane c n)) (realPoint c) 0 ∧
    ∃ q : ℚ, SimF.distance (floatShape (.plane c n)) (c.map .fin) = .fin q ∧ 9 / 10 < q := by
  refine ⟨⟨1024, 0, 0⟩, ⟨1 + 15 / 2 ^ 14, 0, 0⟩, by decide +kernel, by norm_num [CoordsWithin], ?_, 15 / 16, by decide +kernel, by norm_num⟩
  have h : 0 < length ⟨1 + 15 / 2 ^ 14, 0, 0⟩ := by
    rw [length_axis _ (by norm_num)]
    push_cast
    norm_num
  have := plane_signed (c := ⟨1024, 0, 0⟩) (n := ⟨1 + 15 / 2 ^ 14, 0, 0⟩) (p := ⟨1024, 0, 0⟩) h
  simp only [sub_self, mul_zero, add_zero, zero_div] at this
  exact this

/-- **C124, partial.** Beside a cylinder, and inside it where the side is nearer than the caps, the reported distance differs from the
signed Euclidean distance by at most 6 rounding units of the distance to the axis and the radius — for points at least 2^-22 `M` away from
the planes of the caps, where rounding may select another branch. The full statement, as for the sphere, fails above and
below the cylinder and near the caps already in exact arithmetic (`C60_cylinder_cap`, `C60_cylinder_edge`, `C60_cylinder_inside`). -/
theorem C124_cylinder_partial (c p : Vec3 ℚ) (r h : ℚ) {M : ℚ} (hM : 1 ≤ M) (hM' : M ≤ 2 ^ 30) (hc : CoordsWithin M c) (hp : CoordsWithin M p)
    (hr0 : 0 < r) (hr : r ≤ M) (hh0 : 0 < h) (hh : h ≤ M) (hz : |p.z - c.z| < h / 2 - 1 / 2 ^ 22 * M)
    (side : r ^ 2 ≤ sqAxial c p ∨ (r : ℝ) - Real.sqrt (sqAxial (realPoint c) (realPoint p)) ≤ (h / 2 - |p.z - c.z| : ℚ)) :
    ∃ (q : ℚ) (δ : ℝ), SimF.distance (floatShape (.cylinder c r h)) (p.map .fin) = .fin q ∧
      SignedDistance (realShape (.cylinder c r h)) (realPoint p) δ ∧
      |(q : ℝ) - δ| ≤ 6 * (1 / 2 ^ 24) * (Real.sqrt (sqAxial (realPoint c) (realPoint p)) + r) + 1 / 2 ^ 51 := by
  have up : ∀ {v : Vec3 ℚ}, CoordsWithin M v → CoordsWithin (2 ^ 30) v := fun h => ⟨h.1.trans hM', h.2.1.trans hM', h.2.2.trans hM'⟩
  obtain ⟨q, hq, e⟩ := radial_near c p r (up hc) (up hp) hr0.le (hr.trans hM')
  obtain ⟨a, b, ha, hb, ea, eb⟩ := limits_near (h := h) hM hM' hc.2.2 (by rwa [abs_of_pos hh0])
  rw [RoundErr.u_eq] at ea eb
  obtain ⟨a1, a2⟩ := abs_le.1 ea
  obtain ⟨b1, b2⟩ := abs_le.1 eb
  obtain ⟨z1, z2⟩ := abs_lt.1 hz
  refine ⟨q, _, ?_, ?_, e⟩
  · have l1 : a ≤ p.z := by linarith
    have l2 : p.z ≤ b := by linarith
    have ha' : MeshMsg.toFloat (float64.sub (c.map Fl.fin).z (half (.fin h))) = .fin a := ha
    have hb' : MeshMsg.toFloat (float64.add (c.map Fl.fin).z (half (.fin h))) = .fin b := hb
    have hpz : (p.map Fl.fin).z = .fin p.z := rfl
    simp only [SimF.distance, floatShape, SimF.cylinder, ha', hb', hpz, Fl.le, l1, l2, decide_true, Bool.and_self, if_true]
    exact hq
  · have hr' : (0 : ℝ) < r := by exact_mod_cast hr0
    have hh' : (0 : ℝ) < h := by exact_mod_cast hh0
    have hzR : |(realPoint p).z - (realPoint c).z| < (h : ℝ) / 2 := by
      have : |p.z - c.z| < h / 2 := by
        have : (0 : ℚ) ≤ 1 / 2 ^ 22 * M := by positivity
        linarith
      have h2 : ((|p.z - c.z| : ℚ) : ℝ) < ((h / 2 : ℚ) : ℝ) := Rat.cast_lt.2 this
      push_cast at h2
      exact h2
    have key := C60.C60_cylinder_distance_partial C60.real_sqrt (realPoint c) (r : ℝ) (h : ℝ) ⟨hr', hh'⟩ (realPoint p)
    have eδ : Sim.distance Real.sqrt (.cylinder (realPoint c) (r : ℝ) (h : ℝ)) (realPoint p) = Real.sqrt (sqAxial (realPoint c) (realPoint p)) - r := by
      show cylinderDistance Real.sqrt _ _ _ _ = _
      rw [cylinder_eq hh', if_pos hzR.le]
    simp only [eδ] at key
    obtain ⟨k1, k2, k3, k4, -⟩ := key
    refine ⟨⟨k1, fun hs => k3 ?_, k2⟩, ?_⟩
    · rcases (cylinder_surface_iff _ _ _ _).1 hs with h1 | h1
      · exact h1
      · exact absurd h1.1 hzR.ne
    · rcases side with h1 | h1
      · refine k4 (.inl ⟨hzR.le, ?_⟩)
        have h2 : ((r ^ 2 : ℚ) : ℝ) ≤ ((sqAxial c p : ℚ) : ℝ) := Rat.cast_le.2 h1
        simp only [sqAxial, realPoint] at h2 ⊢
        push_cast at h2
        exact h2
      · by_cases hi : Inner (.cylinder (realPoint c) (r : ℝ) (h : ℝ)) (realPoint p)
        · refine k4 (.inr (.inr ⟨hi, ?_⟩))
          push_cast at h1
          exact h1
        · refine k4 (.inl ⟨hzR.le, ?_⟩)
          by_contra hcon
          push Not at hcon
          exact hi ⟨hcon, hzR⟩

example : (1 : ℚ) ≤ 10 ∧ CoordsWithin 10 (⟨0, 0, 2⟩ : Vec3 ℚ) ∧ CoordsWithin 10 (⟨3, 4, 3⟩ : Vec3 ℚ) ∧ |(3 : ℚ) - 2| < 4 / 2 - 1 / 2 ^ 22 * 10 ∧
    (2 : ℚ) ^ 2 ≤ sqAxial ⟨0, 0, 2⟩ ⟨3, 4, 3⟩ := by
  norm_num [CoordsWithin, abs_of_pos, sqAxial]

/-- **C124, partial.** Above and below a cylinder, within its radius up to a millionth, the reported distance differs from the Euclidean
distance to the cap by at most 5 rounding units of the distance and the largest coordinate. The full statement, without the bound on the
distance to the axis, fails beyond the rim of the cap (`C60_cylinder_edge`). -/
theorem C124_cylinder_cap_partial (c p : Vec3 ℚ) (r h : ℚ) {M : ℚ} (hM : 1 ≤ M) (hM' : M ≤ 2 ^ 30) (hc : CoordsWithin M c) (hp : CoordsWithin M p)
    (hr0 : 1 / 2 ^ 40 ≤ r) (hr : r ≤ M) (hh0 : 0 < h) (hh : h ≤ M) (hz : h / 2 + 1 / 2 ^ 22 * M < |p.z - c.z|)
    (hin : sqAxial c p ≤ (1 - 1 / 2 ^ 20) * r ^ 2) :
    ∃ (q : ℚ) (δ : ℝ), SimF.distance (floatShape (.cylinder c r h)) (p.map .fin) = .fin q ∧
      SignedDistance (realShape (.cylinder c r h)) (realPoint p) δ ∧ δ = |(p.z : ℝ) - c.z| - h / 2 ∧
      |(q : ℝ) - δ| ≤ 5 * (1 / 2 ^ 24) * (δ + M) := by
  have up : ∀ {v : Vec3 ℚ}, CoordsWithin M v → CoordsWithin (2 ^ 30) v := fun h => ⟨h.1.trans hM', h.2.1.trans hM', h.2.2.trans hM'⟩
  obtain ⟨a, b, ha, hb, ea, eb⟩ := limits_near (h := h) hM hM' hc.2.2 (by rwa [abs_of_pos hh0])
  rw [RoundErr.u_eq] at ea eb
  obtain ⟨a1, a2⟩ := abs_le.1 ea
  obtain ⟨b1, b2⟩ := abs_le.1 eb
  have ha' : MeshMsg.toFloat (float64.sub (c.map Fl.fin).z (half (.fin h))) = .fin a := ha
  have hb' : MeshMsg.toFloat (float64.add (c.map Fl.fin).z (half (.fin h))) = .fin b := hb
  have hpz : (p.map Fl.fin).z = .fin p.z := rfl
  obtain ⟨z1, z2⟩ := abs_le.1 hp.2.2
  obtain ⟨w1, w2⟩ := abs_le.1 hc.2.2
  have hMR : (1 : ℝ) ≤ M := by exact_mod_cast hM
  have hhR : (0 : ℝ) < h := by exact_mod_cast hh0
  have hr0' : 0 < r := lt_of_lt_of_le (by norm_num) hr0
  have hrR : (0 : ℝ) < r := by exact_mod_cast hr0'
  have hzR : (h : ℝ) / 2 + 1 / 2 ^ 22 * M < |(p.z : ℝ) - c.z| := by
    have h2 : ((h / 2 + 1 / 2 ^ 22 * M : ℚ) : ℝ) < ((|p.z - c.z| : ℚ) : ℝ) := Rat.cast_lt.2 hz
    push_cast at h2
    exact h2
  have hzR' : (h : ℝ) / 2 < |(realPoint p).z - (realPoint c).z| := by
    have h1 : (h : ℝ) / 2 < |(p.z : ℝ) - c.z| := by linarith
    exact h1
  have signed : SignedDistance (realShape (.cylinder c r h)) (realPoint p) (|(p.z : ℝ) - c.z| - h / 2) := by
    have hinR : sqAxial (realPoint c) (realPoint p) ≤ (r : ℝ) ^ 2 := by
      have h1 : sqAxial c p ≤ r ^ 2 := hin.trans (by nlinarith [sq_nonneg r])
      have h2 : ((sqAxial c p : ℚ) : ℝ) ≤ ((r ^ 2 : ℚ) : ℝ) := Rat.cast_le.2 h1
      simp only [sqAxial, realPoint] at h2 ⊢
      push_cast at h2
      exact h2
    have key := C60.C60_cylinder_distance_partial C60.real_sqrt (realPoint c) (r : ℝ) (h : ℝ) ⟨hrR, hhR⟩ (realPoint p)
    have eδ : Sim.distance Real.sqrt (.cylinder (realPoint c) (r : ℝ) (h : ℝ)) (realPoint p) = |(p.z : ℝ) - c.z| - h / 2 := by
      show cylinderDistance Real.sqrt _ _ _ _ = _
      rw [cylinder_eq hhR, if_neg (not_le.2 hzR'), max_eq_right (by linarith), zero_add, Real.sqrt_sq]
      · rfl
      · linarith
    simp only [eδ] at key
    obtain ⟨k1, k2, -, k4, -⟩ := key
    exact ⟨⟨k1, fun hs => absurd hs.1.2 (not_le.2 hzR'), k2⟩, k4 (.inr (.inl ⟨hzR', hinR⟩))⟩
  have finish : ∀ L : ℚ, |L - (c.z + h / 2)| ≤ 4 * (1 / 2 ^ 24) * M ∧ c.z ≤ p.z ∨ |L - (c.z - h / 2)| ≤ 4 * (1 / 2 ^ 24) * M ∧ p.z ≤ c.z →
      ∃ q : ℚ, beyond (c.map .fin) (.fin r) (.fin L) (p.map .fin) = .fin q ∧
        |(q : ℝ) - (|(p.z : ℝ) - c.z| - h / 2)| ≤ 5 * (1 / 2 ^ 24) * (|(p.z : ℝ) - c.z| - h / 2 + M) := by
    intro L hL
    have hLM : |p.z - L| ≤ 2 ^ 32 := by
      rcases hL with ⟨h1, -⟩ | ⟨h1, -⟩ <;> obtain ⟨l1, l2⟩ := abs_le.1 h1 <;> rw [abs_le] <;> constructor <;> linarith
    obtain ⟨q, hq, eq⟩ := beyond_near c p r L (up hc) (up hp) hr0 (hr.trans hM') hLM hin
    refine ⟨q, hq, ?_⟩
    have near : |(p.z : ℝ) - L| ≤ |(p.z : ℝ) - c.z| - h / 2 + 4 * (1 / 2 ^ 24) * M ∧
        |(p.z : ℝ) - c.z| - h / 2 - 4 * (1 / 2 ^ 24) * M ≤ |(p.z : ℝ) - L| := by
      rcases hL with ⟨h1, h2⟩ | ⟨h1, h2⟩
      · have h1R : ((|L - (c.z + h / 2)| : ℚ) : ℝ) ≤ ((4 * (1 / 2 ^ 24) * M : ℚ) : ℝ) := Rat.cast_le.2 h1
        have h2R : (c.z : ℝ) ≤ p.z := Rat.cast_le.2 h2
        push_cast at h1R
        rw [abs_of_nonneg (sub_nonneg.2 h2R)] at hzR ⊢
        obtain ⟨l1, l2⟩ := abs_le.1 h1R
        constructor
        · rw [abs_le]; constructor <;> linarith
        · exact le_trans (by linarith) (le_abs_self _)
      · have h1R : ((|L - (c.z - h / 2)| : ℚ) : ℝ) ≤ ((4 * (1 / 2 ^ 24) * M : ℚ) : ℝ) := Rat.cast_le.2 h1
        have h2R : (p.z : ℝ) ≤ c.z := Rat.cast_le.2 h2
        push_cast at h1R
        rw [abs_of_nonpos (sub_nonpos.2 h2R)] at hzR ⊢
        obtain ⟨l1, l2⟩ := abs_le.1 h1R
        constructor
        · rw [abs_le]; constructor <;> linarith
        · exact le_trans (by linarith) (neg_le_abs _)
    obtain ⟨n1, n2⟩ := near
    obtain ⟨q1, q2⟩ := abs_le.1 eq
    generalize |(p.z : ℝ) - L| = x at *
    generalize |(p.z : ℝ) - c.z| = y at *
    rw [abs_le]
    constructor <;> linarith
  rcases le_total c.z p.z with hcp | hcp
  · rw [abs_of_nonneg (sub_nonneg.2 hcp)] at hz
    obtain ⟨q, hq, e⟩ := finish b (.inl ⟨eb, hcp⟩)
    refine ⟨q, _, ?_, signed, rfl, e⟩
    have l2 : ¬ p.z ≤ b := by rw [not_le]; linarith
    have l3 : b < p.z := not_le.1 l2
    simp only [SimF.distance, floatShape, SimF.cylinder, ha', hb', hpz, Fl.le, l2, decide_false, Bool.and_false, Bool.false_eq_true, if_false,
      Fl.lt, l3, decide_true, if_true]
    exact hq
  · rw [abs_of_nonpos (sub_nonpos.2 hcp)] at hz
    obtain ⟨q, hq, e⟩ := finish a (.inr ⟨ea, hcp⟩)
    refine ⟨q, _, ?_, signed, rfl, e⟩
    have l1 : ¬ a ≤ p.z := by rw [not_le]; linarith
    have l3 : ¬ b < p.z := by rw [not_lt]; linarith
    simp only [SimF.distance, floatShape, SimF.cylinder, ha', hb', hpz, Fl.le, l1, decide_false, Bool.false_and, Bool.false_eq_true, if_false,
      Fl.lt, l3]
    exact hq

example : (1 : ℚ) ≤ 10 ∧ CoordsWithin 10 (⟨0, 0, 2⟩ : Vec3 ℚ) ∧ CoordsWithin 10 (⟨1, 1, 7⟩ : Vec3 ℚ) ∧ (4 : ℚ) / 2 + 1 / 2 ^ 22 * 10 < |(7 : ℚ) - 2| ∧
    sqAxial ⟨0, 0, 2⟩ ⟨1, 1, 7⟩ ≤ (1 - 1 / 2 ^ 20 : ℚ) * 2 ^ 2 := by
  norm_num [CoordsWithin, abs_of_pos, sqAxial]

/-! ### The world -/

theorem near_of_wellFormed {M τ : ℚ} (hM : 1 ≤ M) (hM' : M ≤ 2 ^ 30) (hτ0 : 0 ≤ τ) (hτ : τ ≤ 1 / 500) {p : Vec3 ℚ} (hp : CoordsWithin M p)
    {o : Shape ℚ} (ho : WellFormed M τ o) :
    ∃ (q : ℚ) (δ : ℝ), SimF.distance (floatShape o) (p.map .fin) = .fin q ∧ SignedDistance (realShape o) (realPoint p) δ ∧
      |(q : ℝ) - δ| ≤ 1 / 1000000 + 1 / 2 ^ 18 * M + 2 * τ * M := by
  have hMR : (1 : ℝ) ≤ M := by exact_mod_cast hM
  have hτR : (0 : ℝ) ≤ τ := by exact_mod_cast hτ0
  have hτM : (0 : ℝ) ≤ 2 * τ * M := by positivity
  have up : ∀ {v : Vec3 ℚ}, CoordsWithin M v → CoordsWithin (2 ^ 30) v := fun h => ⟨h.1.trans hM', h.2.1.trans hM', h.2.2.trans hM'⟩
  cases o with
  | sphere c r =>
    obtain ⟨hc, hr0, hr⟩ := ho
    obtain ⟨q, δ, h1, h2, h3⟩ := C124_sphere c p r (up hc) (up hp) hr0 (hr.trans hM')
    refine ⟨q, δ, h1, h2, h3.trans ?_⟩
    have hL : segLength c p ≤ 2 * (2 * M) := by
      have e : segLength c p = Real.sqrt (((p.x - c.x : ℚ) : ℝ) ^ 2 + ((p.y - c.y : ℚ) : ℝ) ^ 2 + ((p.z - c.z : ℚ) : ℝ) ^ 2) := by
        unfold segLength
        congr 1
        push_cast
        ring
      rw [e]
      have t : ∀ {a b : ℚ}, |a| ≤ M → |b| ≤ M → |((a - b : ℚ) : ℝ)| ≤ 2 * M := by
        intro a b ha hb
        exact_mod_cast RoundErr.abs_sub_le_of ha hb
      exact norm_le_sum (t hp.1 hc.1) (t hp.2.1 hc.2.1) (t hp.2.2 hc.2.2)
    have hrR : (r : ℝ) ≤ M := by exact_mod_cast hr
    linarith
  | cube c s =>
    obtain ⟨hc, hs, hs0⟩ := ho
    obtain ⟨q, δ, h1, h2, h3⟩ := C124_cube c s p hM hM' hc hs hp hs0
    exact ⟨q, δ, h1, h2, by linarith⟩
  | plane c n =>
    obtain ⟨hc, hn⟩ := ho
    have hτR' : (τ : ℝ) ≤ 1 / 500 := by
      have h : (τ : ℝ) ≤ ((1 / 500 : ℚ) : ℝ) := Rat.cast_le.2 hτ
      push_cast at h
      exact h
    obtain ⟨q, δ, h1, h2, h3⟩ := C124_plane c n p (up hc) (up hp) (hn.trans hτR')
    refine ⟨q, δ, h1, h2, h3.trans ?_⟩
    have l1 := length_le hp
    have l2 := length_le hc
    have l0 := length_nonneg p
    have : |length n - 1| * length p ≤ τ * (2 * M) := mul_le_mul hn l1 l0 hτR
    linarith
  | cylinder c r h => exact ho.elim

theorem fold_near {e : ℝ} {p : Vec3 ℚ} : ∀ {w : List (Shape ℚ)} {q0 : ℚ} {m0 : ℝ}, |(q0 : ℝ) - m0| ≤ e →
    (∀ o ∈ w, ∃ (q : ℚ) (δ : ℝ), SimF.distance (floatShape o) (p.map .fin) = .fin q ∧ SignedDistance (realShape o) (realPoint p) δ ∧
      |(q : ℝ) - δ| ≤ e) →
    ∃ (q : ℚ) (m : ℝ), SimF.worldDistance (w.map floatShape) (p.map .fin) (.fin q0) = .fin q ∧
      LeastOf (fun o δ => SignedDistance (realShape o) (realPoint p) δ) w m0 m ∧ |(q : ℝ) - m| ≤ e
  | [], q0, m0, h0, _ => ⟨q0, m0, rfl, ⟨.inl rfl, le_rfl, by simp⟩, h0⟩
  | o :: w, q0, m0, h0, hw => by
    obtain ⟨q1, δ1, hq, hδ, h1⟩ := hw o (List.mem_cons_self ..)
    have hmin : |((min q1 q0 : ℚ) : ℝ) - min δ1 m0| ≤ e := by
      push_cast
      exact (abs_min_sub_min_le_max _ _ _ _).trans (max_le h1 h0)
    obtain ⟨q, m, a, ⟨b1, b2, b3⟩, c⟩ := fold_near hmin (fun o' ho' => hw o' (List.mem_cons_of_mem _ ho'))
    refine ⟨q, m, ?_, ⟨?_, b2.trans (min_le_right _ _), ?_⟩, c⟩
    · rw [← a]
      simp only [SimF.worldDistance, List.map_cons, List.foldl_cons, hq, Fl.lt, decide_eq_true_eq]
      congr 1
      split_ifs with h
      · rw [min_eq_left h.le]
      · rw [min_eq_right (not_lt.mp h)]
    · rcases b1 with b1 | ⟨a, ha, hm⟩
      · rcases min_choice δ1 m0 with h | h
        · rw [h] at b1
          exact .inr ⟨o, List.mem_cons_self .., b1 ▸ hδ⟩
        · rw [h] at b1
          exact .inl b1
      · exact .inr ⟨a, List.mem_cons_of_mem _ ha, hm⟩
    · intro o' ho' δ hδ'
      rcases List.mem_cons.1 ho' with rfl | ho'
      · rw [signed_unique hδ' hδ]
        exact b2.trans (min_le_left _ _)
      · exact b3 o' ho' δ hδ'

/-- **C124.** In a world of spheres, boxes and planes within `M`, the distance reported for a point differs from the least signed
Euclidean distance to the objects, cut off at the maximum, by at most `kEpsilon`, 64 rounding units of `M` and `2 τ M` for normals of
length 1 up to `τ`: less than a tenth of a millimetre for worlds up to 20 m with exact normals. The order of the objects does not
matter. -/
theorem C124_world (w : List (Shape ℚ)) (p : Vec3 ℚ) {M τ : ℚ} (maxDist : ℚ) (hM : 1 ≤ M) (hM' : M ≤ 2 ^ 30) (hτ0 : 0 ≤ τ) (hτ : τ ≤ 1 / 500)
    (hp : CoordsWithin M p) (hw : ∀ o ∈ w, WellFormed M τ o) :
    ∃ (q : ℚ) (m : ℝ), SimF.worldDistance (w.map floatShape) (p.map .fin) (.fin maxDist) = .fin q ∧
      LeastOf (fun o δ => SignedDistance (realShape o) (realPoint p) δ) w maxDist m ∧
      |(q : ℝ) - m| ≤ 1 / 1000000 + 1 / 2 ^ 18 * M + 2 * τ * M := by
  have hMR : (1 : ℝ) ≤ M := by exact_mod_cast hM
  have hτR : (0 : ℝ) ≤ τ := by exact_mod_cast hτ0
  refine fold_near ?_ (fun o ho => near_of_wellFormed hM hM' hτ0 hτ hp (hw o ho))
  rw [sub_self, abs_zero]
  positivity

/- A ball, a box and a wall. -/
example : (1 : ℚ) ≤ 10 ∧ (0 : ℚ) ≤ 0 ∧ CoordsWithin 10 (⟨1, 2, 3⟩ : Vec3 ℚ) ∧
    ∀ o ∈ [Shape.sphere ⟨0, 0, 2⟩ 2, .cube ⟨-4, 4, 2⟩ ⟨4, 4, 4⟩, .plane ⟨0, 0, 0⟩ ⟨1, 0, 0⟩], WellFormed 10 0 o := by
  refine ⟨by norm_num, le_rfl, by norm_num [CoordsWithin], ?_⟩
  intro o ho
  simp only [List.mem_cons, List.not_mem_nil, or_false] at ho
  rcases ho with rfl | rfl | rfl
  · norm_num [WellFormed, CoordsWithin]
  · norm_num [WellFormed, CoordsWithin, abs_of_pos]
  · refine ⟨by norm_num [CoordsWithin], ?_⟩
    rw [length_axis 1 (by norm_num)]
    norm_num

end Vox.C124
