/-
Helper lemmas for the simulated plane and cylinder.
-/
import Verif.Lemmas.Cube

namespace Vox.Sim

open Geo Spec

variable {F : Type} [Field F] [LinearOrder F] [IsStrictOrderedRing F]

/-! Plane -/

theorem plane_eq {sqrt : F → F} (hs : IsSqrt sqrt) {c n : Vec3 F} (hn : n.x ^ 2 + n.y ^ 2 + n.z ^ 2 = 1) (p : Vec3 F) :
    planeDistance sqrt c n p = n.x * (p.x - c.x) + n.y * (p.y - c.y) + n.z * (p.z - c.z) := by
  have e : norm sqrt n = 1 := by
    rw [norm]
    refine sqrt_eq hs zero_le_one ?_
    simp only [sqNorm, dot]
    linear_combination -hn
  simp only [planeDistance, e, dot]
  ring

theorem plane_sign {sqrt : F → F} (hs : IsSqrt sqrt) {c n : Vec3 F} (hn : n.x ^ 2 + n.y ^ 2 + n.z ^ 2 = 1) (p : Vec3 F) :
    HasSign (.plane c n) p (planeDistance sqrt c n p) := by
  rw [plane_eq hs hn]
  exact ⟨id, fun h => le_antisymm h.1 (not_lt.mp h.2), not_le.mp⟩

theorem plane_euclid {sqrt : F → F} (hs : IsSqrt sqrt) {c n : Vec3 F} (hn : n.x ^ 2 + n.y ^ 2 + n.z ^ 2 = 1) (p : Vec3 F) :
    IsDistance (OnSurface (.plane c n)) p |planeDistance sqrt c n p| := by
  rw [plane_eq hs hn]
  obtain ⟨δ, hδ⟩ : ∃ δ, δ = n.x * (p.x - c.x) + n.y * (p.y - c.y) + n.z * (p.z - c.z) := ⟨_, rfl⟩
  rw [← hδ]
  refine ⟨abs_nonneg _, ⟨⟨p.x - δ * n.x, p.y - δ * n.y, p.z - δ * n.z⟩, ?_, ?_⟩, ?_⟩
  · have : n.x * (p.x - δ * n.x - c.x) + n.y * (p.y - δ * n.y - c.y) + n.z * (p.z - δ * n.z - c.z) = 0 := by
      linear_combination -hδ - δ * hn
    exact ⟨this.le, not_lt.mpr this.ge⟩
  · rw [sq_abs]
    simp only [sqDist]
    linear_combination δ ^ 2 * hn
  · intro s h
    rw [sq_abs]
    have h0 : n.x * (s.x - c.x) + n.y * (s.y - c.y) + n.z * (s.z - c.z) = 0 := le_antisymm h.1 (not_lt.mp h.2)
    have e : δ = n.x * (p.x - s.x) + n.y * (p.y - s.y) + n.z * (p.z - s.z) := by linear_combination hδ + h0
    have h1 := sq_nonneg (n.x * (p.y - s.y) - n.y * (p.x - s.x))
    have h2 := sq_nonneg (n.x * (p.z - s.z) - n.z * (p.x - s.x))
    have h3 := sq_nonneg (n.y * (p.z - s.z) - n.z * (p.y - s.y))
    have e2 : sqDist p s = (n.x ^ 2 + n.y ^ 2 + n.z ^ 2) * sqDist p s := by rw [hn, one_mul]
    rw [e, e2]
    unfold sqDist
    linarith

theorem plane_surface_iff (c n o d : Vec3 F) (t : F) :
    OnSurface (.plane c n) (rayPoint o d t) ↔ t * dot d n = dot (c - o) n := by
  have : OnSurface (.plane c n) (rayPoint o d t) ↔
      n.x * (o.x + t * d.x - c.x) + n.y * (o.y + t * d.y - c.y) + n.z * (o.z + t * d.z - c.z) = 0 :=
    ⟨fun h => le_antisymm h.1 (not_lt.mp h.2), fun h => ⟨h.le, not_lt.mpr h.ge⟩⟩
  rw [this]
  simp only [dot, Vec3.sub_x, Vec3.sub_y, Vec3.sub_z]
  constructor <;> intro h <;> linear_combination h

theorem plane_ray_first {c n o d : Vec3 F} (M : F) (h : eps ≤ |dot d n| ∨ dot d n = 0 ∧ ¬ OnSurface (.plane c n) o) :
    FirstHit (.plane c n) o d M false (planeRay c n o d M) := by
  unfold planeRay
  simp only
  rcases h with h | ⟨h, ho⟩
  · rw [if_neg (not_lt.mpr h)]
    have hne : dot d n ≠ 0 := fun e => by rw [e, abs_zero] at h; exact absurd eps_pos (not_lt.mpr h)
    have iff : ∀ t, OnSurface (.plane c n) (rayPoint o d t) ↔ t = dot (c - o) n / dot d n := fun t => by
      rw [plane_surface_iff, eq_div_iff hne]
    split_ifs with h1 h2
    · intro s s0 _ hs
      rw [(iff s).mp hs] at s0
      exact absurd s0 (not_le.mpr h1)
    · intro s _ sM hs
      simp only [Bool.false_eq_true, if_false] at sM
      rw [(iff s).mp hs] at sM
      exact absurd sM (not_le.mpr h2)
    · refine ⟨rfl, not_lt.mp h1, by simpa using h2, (iff _).mpr rfl, fun s _ hst hs => ?_⟩
      rw [(iff s).mp hs] at hst
      exact absurd hst (lt_irrefl _)
  · rw [if_pos (by rw [h, abs_zero]; exact eps_pos)]
    intro s _ _ hs
    rw [plane_surface_iff, h, mul_zero] at hs
    apply ho
    have e : rayPoint o d 0 = o := by ext <;> simp [rayPoint]
    rw [← e, plane_surface_iff, zero_mul]
    exact hs

/-! Cylinder: distances -/

theorem sqAxial_nonneg (c p : Vec3 F) : 0 ≤ sqAxial c p := by unfold sqAxial; positivity

theorem cylinder_eq {sqrt : F → F} {c : Vec3 F} {r h : F} (hh : 0 < h) (p : Vec3 F) :
    cylinderDistance sqrt c r h p = if |p.z - c.z| ≤ h / 2 then sqrt (sqAxial c p) - r
      else sqrt (max (sqAxial c p - r ^ 2) 0 + (|p.z - c.z| - h / 2) ^ 2) := by
  have e : sqRadial c p = sqAxial c p := by unfold sqRadial sqAxial; ring
  unfold cylinderDistance
  simp only [e, ← pow_two]
  have iff : (c.z - h / 2 ≤ p.z ∧ p.z ≤ c.z + h / 2) ↔ |p.z - c.z| ≤ h / 2 := by
    rw [abs_le]; constructor <;> rintro ⟨a, b⟩ <;> constructor <;> linarith
  by_cases h1 : |p.z - c.z| ≤ h / 2
  · rw [if_pos h1, if_pos (iff.mpr h1)]
  · rw [if_neg h1, if_neg (fun h => h1 (iff.mp h))]
    rcases le_total 0 (p.z - c.z) with h2 | h2
    · rw [abs_of_nonneg h2] at h1 ⊢
      rw [if_pos (by linarith)]
      congr 2; ring
    · rw [abs_of_nonpos h2] at h1 ⊢
      by_cases h3 : c.z + h / 2 < p.z
      · linarith
      · rw [if_neg h3]
        congr 2; ring

/-- The reverse triangle inequality in the plane, squared. -/
theorem sub_sq_le_sqAxial {p s c : Vec3 F} {m r : F} (hm : 0 ≤ m) (hr : 0 ≤ r) (em : sqAxial c p = m ^ 2) (er : sqAxial c s = r ^ 2) :
    (m - r) ^ 2 ≤ (p.x - s.x) ^ 2 + (p.y - s.y) ^ 2 := by
  have := sub_sq_le_sqDist (p := ⟨p.x, p.y, 0⟩) (s := ⟨s.x, s.y, 0⟩) (c := ⟨c.x, c.y, 0⟩) hm hr
    (by rw [← em]; simp [sqDist, sqAxial]) (by rw [← er]; simp [sqDist, sqAxial])
  simpa [sqDist] using this

/-- A point of the plane at a given distance from the axis, in the direction of `p`. -/
theorem exists_radial {c p : Vec3 F} {m r : F} (hm : 0 ≤ m) (em : sqAxial c p = m ^ 2) :
    ∃ x y, (x - c.x) ^ 2 + (y - c.y) ^ 2 = r ^ 2 ∧ (p.x - x) ^ 2 + (p.y - y) ^ 2 = (m - r) ^ 2 := by
  by_cases h : m = 0
  · subst h
    have hx : (p.x - c.x) ^ 2 = 0 := by
      have := sq_nonneg (p.x - c.x); have := sq_nonneg (p.y - c.y); unfold sqAxial at em; linarith
    have hy : (p.y - c.y) ^ 2 = 0 := by
      have := sq_nonneg (p.x - c.x); have := sq_nonneg (p.y - c.y); unfold sqAxial at em; linarith
    have hx' := pow_eq_zero_iff two_ne_zero |>.mp hx
    refine ⟨c.x + r, c.y, by ring, ?_⟩
    linear_combination hx + hy - 2 * r * hx'
  · refine ⟨c.x + r / m * (p.x - c.x), c.y + r / m * (p.y - c.y), ?_, ?_⟩
    · have : (c.x + r / m * (p.x - c.x) - c.x) ^ 2 + (c.y + r / m * (p.y - c.y) - c.y) ^ 2 = (r / m) ^ 2 * sqAxial c p := by
        unfold sqAxial; ring
      rw [this, em]; field_simp
    · have : (p.x - (c.x + r / m * (p.x - c.x))) ^ 2 + (p.y - (c.y + r / m * (p.y - c.y))) ^ 2 = (1 - r / m) ^ 2 * sqAxial c p := by
        unfold sqAxial; ring
      rw [this, em]; field_simp

section
variable {sqrt : F → F} (hs : IsSqrt sqrt)
include hs

/-- The distance of a point that is not inside. -/
theorem cylinder_true_outer {c : Vec3 F} {r h : F} (hr : 0 < r) (hh : 0 < h) {p : Vec3 F} (ho : ¬ Inner (.cylinder c r h) p) :
    IsDistance (OnSurface (.cylinder c r h)) p
      (sqrt (max (sqrt (sqAxial c p) - r) 0 ^ 2 + max (|p.z - c.z| - h / 2) 0 ^ 2)) := by
  have h0 := sqAxial_nonneg c p
  obtain ⟨m, hm⟩ : ∃ m, m = sqrt (sqAxial c p) := ⟨_, rfl⟩
  have m0 : 0 ≤ m := hm ▸ (hs _ h0).1
  have m2 : sqAxial c p = m ^ 2 := by rw [hm, sqrt_pow hs h0]
  rw [← hm]
  have hx : 0 ≤ max (m - r) 0 ^ 2 + max (|p.z - c.z| - h / 2) 0 ^ 2 := by positivity
  refine ⟨(hs _ hx).1, ?_, ?_⟩ <;> rw [sqrt_pow hs hx]
  · obtain ⟨z, z1, z2, z3⟩ := exists_clamp (c := c.z) (s := h) (p := p.z) hh
    rw [outside_eq] at z2 z3
    simp only [Inner, not_and_or, not_lt] at ho
    by_cases hmr : r ≤ m
    · obtain ⟨x, y, e1, e2⟩ := exists_radial (r := r) m0 m2
      refine ⟨⟨x, y, z⟩, ⟨⟨e1.le, z1⟩, fun hi => absurd hi.1 (not_lt.mpr e1.ge)⟩, ?_⟩
      simp only [sqDist]
      rw [e2, z2, max_eq_left (by linarith : (0 : F) ≤ m - r)]
    · have hlt := not_le.mp hmr
      have hz : h / 2 ≤ |p.z - c.z| := by
        rcases ho with ho | ho
        · rw [m2] at ho
          exact absurd ((pow_le_pow_iff_left₀ hr.le m0 two_ne_zero).mp ho) hmr
        · exact ho
      have hz' : |z - c.z| = h / 2 := by
        rcases hz.lt_or_eq with hz | hz
        · exact z3 (by rw [max_eq_left (by linarith)]; linarith)
        · rw [hz, sub_self, max_self, zero_pow two_ne_zero] at z2
          have : p.z - z = 0 := pow_eq_zero_iff two_ne_zero |>.mp z2
          rw [show z = p.z by linarith, hz]
      refine ⟨⟨p.x, p.y, z⟩, ⟨⟨?_, z1⟩, fun hi => absurd hi.2 (not_lt.mpr hz'.ge)⟩, ?_⟩
      · show sqAxial c ⟨p.x, p.y, z⟩ ≤ r ^ 2
        have : sqAxial c ⟨p.x, p.y, z⟩ = sqAxial c p := rfl
        rw [this, m2]
        exact pow_le_pow_left₀ m0 hlt.le 2
      · simp only [sqDist]
        rw [z2, max_eq_right (by linarith : m - r ≤ 0)]; ring
  · rintro s ⟨⟨s1, s2⟩, -⟩
    have := outside_sq_le (p := p.z) s2
    rw [outside_eq] at this
    have hsx := sqAxial_nonneg c s
    have key : max (m - r) 0 ^ 2 ≤ (p.x - s.x) ^ 2 + (p.y - s.y) ^ 2 := by
      rcases le_total (m - r) 0 with h | h
      · rw [max_eq_right h, zero_pow two_ne_zero]; positivity
      · rw [max_eq_left h]
        have h1 := sub_sq_le_sqAxial m0 (hs _ hsx).1 m2 (sqrt_pow hs hsx).symm
        have h2 : sqrt (sqAxial c s) ≤ r := (sqrt_le hs hsx hr.le).mpr s1
        exact le_trans (pow_le_pow_left₀ h (by linarith) 2) h1
    unfold sqDist
    linarith

/-- The distance of an inner point nearer to the side than to the caps. -/
theorem cylinder_true_inner {c : Vec3 F} {r h : F} (hr : 0 < r) {p : Vec3 F} (hi : Inner (.cylinder c r h) p)
    (hn : r - sqrt (sqAxial c p) ≤ h / 2 - |p.z - c.z|) :
    IsDistance (OnSurface (.cylinder c r h)) p (r - sqrt (sqAxial c p)) := by
  have h0 := sqAxial_nonneg c p
  obtain ⟨m, hm⟩ : ∃ m, m = sqrt (sqAxial c p) := ⟨_, rfl⟩
  have m0 : 0 ≤ m := hm ▸ (hs _ h0).1
  have m2 : sqAxial c p = m ^ 2 := by rw [hm, sqrt_pow hs h0]
  rw [← hm] at hn ⊢
  have hmr : m < r := by rw [hm]; exact (sqrt_lt hs h0 hr.le).mpr hi.1
  refine ⟨by linarith, ?_, ?_⟩
  · obtain ⟨x, y, e1, e2⟩ := exists_radial (r := r) m0 m2
    refine ⟨⟨x, y, p.z⟩, ⟨⟨e1.le, hi.2.le⟩, fun hi => absurd hi.1 (not_lt.mpr e1.ge)⟩, ?_⟩
    simp only [sqDist]
    rw [e2]; ring
  · rintro s ⟨-, s1⟩
    simp only [Inner, not_and_or, not_lt] at s1
    have hsx := sqAxial_nonneg c s
    have x0 := sq_nonneg (p.x - s.x)
    have y0 := sq_nonneg (p.y - s.y)
    have z0 := sq_nonneg (p.z - s.z)
    unfold sqDist
    rcases s1 with s1 | s1
    · have h1 := sub_sq_le_sqAxial m0 (hs _ hsx).1 m2 (sqrt_pow hs hsx).symm
      have h2 : r ≤ sqrt (sqAxial c s) := by
        rw [← not_lt]; rw [sqrt_lt hs hsx hr.le]; exact not_lt.mpr s1
      have : (r - m) ^ 2 ≤ (m - sqrt (sqAxial c s)) ^ 2 := by
        rw [← neg_sub (sqrt (sqAxial c s)), neg_sq]
        exact pow_le_pow_left₀ (by linarith) (by linarith) 2
      linarith
    · have : (r - m) ^ 2 ≤ (p.z - s.z) ^ 2 := by
        rw [← sq_abs (p.z - s.z)]
        refine pow_le_pow_left₀ (by linarith) ?_ 2
        have := abs_sub_abs_le_abs_sub (s.z - c.z) (p.z - c.z)
        rw [sub_sub_sub_cancel_right, abs_sub_comm s.z p.z] at this
        linarith
      linarith

end

/-! Cylinder: rays -/

omit [Field F] [IsStrictOrderedRing F] in
theorem lower_le (t : F) (v : Bool) (s : F) : lower t v s ≤ t := by
  unfold lower; split_ifs
  · exact min_le_left _ _
  · exact le_rfl

omit [Field F] [IsStrictOrderedRing F] in
theorem lower_le_of (t : F) {v : Bool} (hv : v = true) (s : F) : lower t v s ≤ s := by
  unfold lower; rw [if_pos hv]; exact min_le_right _ _

omit [Field F] [IsStrictOrderedRing F] in
theorem lower_choice (t : F) (v : Bool) (s : F) : lower t v s = t ∨ v = true ∧ lower t v s = s := by
  unfold lower; split_ifs with h
  · rcases min_choice t s with e | e
    · exact .inl e
    · exact .inr ⟨h, e⟩
  · exact .inl rfl

omit [Field F] [IsStrictOrderedRing F] in
theorem lower4 (M t1 t2 t3 t4 : F) (v1 v2 v3 v4 : Bool) :
    let L := lower (lower (lower (lower M v1 t1) v2 t2) v3 t3) v4 t4
    (v1 = true → L ≤ t1) ∧ (v2 = true → L ≤ t2) ∧ (v3 = true → L ≤ t3) ∧ (v4 = true → L ≤ t4) ∧
      (L = M ∨ v1 = true ∧ L = t1 ∨ v2 = true ∧ L = t2 ∨ v3 = true ∧ L = t3 ∨ v4 = true ∧ L = t4) := by
  intro L
  have a4 := lower_le (lower (lower (lower M v1 t1) v2 t2) v3 t3) v4 t4
  have a3 := lower_le (lower (lower M v1 t1) v2 t2) v3 t3
  have a2 := lower_le (lower M v1 t1) v2 t2
  refine ⟨fun h => ?_, fun h => ?_, fun h => ?_, fun h => ?_, ?_⟩
  · exact a4.trans (a3.trans (a2.trans (lower_le_of _ h _)))
  · exact a4.trans (a3.trans (lower_le_of _ h _))
  · exact a4.trans (lower_le_of _ h _)
  · exact lower_le_of _ h _
  · rcases lower_choice (lower (lower (lower M v1 t1) v2 t2) v3 t3) v4 t4 with e4 | e4
    · rcases lower_choice (lower (lower M v1 t1) v2 t2) v3 t3 with e3 | e3
      · rcases lower_choice (lower M v1 t1) v2 t2 with e2 | e2
        · rcases lower_choice M v1 t1 with e1 | e1
          · exact .inl (e4.trans (e3.trans (e2.trans e1)))
          · exact .inr (.inl ⟨e1.1, e4.trans (e3.trans (e2.trans e1.2))⟩)
        · exact .inr (.inr (.inl ⟨e2.1, e4.trans (e3.trans e2.2)⟩))
      · exact .inr (.inr (.inr (.inl ⟨e3.1, e4.trans e3.2⟩)))
    · exact .inr (.inr (.inr (.inr e4)))

omit [IsStrictOrderedRing F] in
/-- The surface of the cylinder: side or cap. -/
theorem cylinder_surface_iff (c : Vec3 F) (r h : F) (p : Vec3 F) : OnSurface (.cylinder c r h) p ↔
    (sqAxial c p = r ^ 2 ∧ |p.z - c.z| ≤ h / 2) ∨ (|p.z - c.z| = h / 2 ∧ sqAxial c p < r ^ 2) := by
  simp only [OnSurface, Solid, Inner, not_and, not_lt]
  constructor
  · rintro ⟨⟨h1, h2⟩, h3⟩
    rcases h1.lt_or_eq with h4 | h4
    · exact .inr ⟨le_antisymm h2 (h3 h4), h4⟩
    · exact .inl ⟨h4, h2⟩
  · rintro (⟨h1, h2⟩ | ⟨h1, h2⟩)
    · exact ⟨⟨h1.le, h2⟩, fun h3 => absurd h3 (not_lt.mpr h1.ge)⟩
    · exact ⟨⟨h2.le, h1.le⟩, fun _ => h1.ge⟩

/-- The roots of the quadratic. -/
theorem roots_spec {sqrt : F → F} (hs : IsSqrt sqrt) {a b c : F} (ha : eps ≤ a)
    (hu : b * b - 4 * a * c ≤ 0 ∨ eps < b * b - 4 * a * c) :
    match cylinderRoots sqrt a b c with
    | none => ∀ t, 0 < a * t ^ 2 + b * t + c
    | some (t1, t2) => ∀ t, 0 ≤ t → (a * t ^ 2 + b * t + c = 0 ↔ t = t1 ∨ t = t2) := by
  have a0 : 0 < a := eps_pos.trans_le ha
  have sq : ∀ t, 4 * a * (a * t ^ 2 + b * t + c) = (2 * a * t + b) ^ 2 - (b * b - 4 * a * c) := fun t => by ring
  have z : ∀ t, a * t ^ 2 + b * t + c = 0 ↔ (2 * a * t + b) ^ 2 = b * b - 4 * a * c := fun t => by
    have h4 : (4 * a) ≠ 0 := by positivity
    rw [← sub_eq_zero (a := (2 * a * t + b) ^ 2), ← sq t, mul_eq_zero, or_iff_right h4]
  unfold cylinderRoots
  rw [abs_of_pos a0, if_neg (not_lt.mpr ha)]
  simp only
  by_cases h1 : b * b - 4 * a * c < 0
  · rw [if_pos h1]
    intro t
    have := sq t
    have h2 := sq_nonneg (2 * a * t + b)
    have : 0 < 4 * a * (a * t ^ 2 + b * t + c) := by linarith
    exact (mul_pos_iff_of_pos_left (by positivity)).mp this
  · rw [if_neg h1]
    by_cases h2 : b * b - 4 * a * c ≤ eps
    · rw [if_pos h2]
      have h3 : b * b - 4 * a * c = 0 := by
        rcases hu with h | h
        · exact le_antisymm h (not_lt.mp h1)
        · exact absurd h2 (not_le.mpr h)
      intro t t0
      rw [z, h3, pow_eq_zero_iff two_ne_zero, eq_div_iff (by positivity)]
      constructor
      · intro h; left; linear_combination h
      · rintro (h | h)
        · linear_combination h
        · rw [h] at t0; exact absurd t0 (by norm_num)
    · rw [if_neg h2]
      intro t t0
      have q2 := sqrt_pow hs (not_lt.mp h1)
      obtain ⟨q, hq⟩ : ∃ q, q = sqrt (b * b - 4 * a * c) := ⟨_, rfl⟩
      rw [← hq] at q2 ⊢
      rw [z, ← q2, sq_eq_sq_iff_eq_or_eq_neg, eq_div_iff (by positivity), eq_div_iff (by positivity)]
      constructor
      · rintro (h | h)
        · left; linear_combination h
        · right; linear_combination h
      · rintro (h | h)
        · left; linear_combination h
        · right; linear_combination h

theorem cylinder_ray_first {sqrt : F → F} (hs : IsSqrt sqrt) {c : Vec3 F} {r h : F} (hr : 0 < r) (hh : 0 < h) {o d : Vec3 F} (M : F)
    (ha : eps ≤ d.x * d.x + d.y * d.y)
    (hu : let a := d.x * d.x + d.y * d.y
      let b := 2 * (o.x - c.x) * d.x + 2 * (o.y - c.y) * d.y
      let k := (o.x - c.x) * (o.x - c.x) + (o.y - c.y) * (o.y - c.y) - r * r
      b * b - 4 * a * k ≤ 0 ∨ eps < b * b - 4 * a * k)
    (hz : eps < |d.z| ∨ d.z = 0 ∧ |o.z - c.z| ≠ h / 2) :
    FirstHit (.cylinder c r h) o d M true (cylinderRay sqrt c r h o d M) := by
  have spec : match cylinderRoots sqrt (d.x * d.x + d.y * d.y) (2 * (o - c).x * d.x + 2 * (o - c).y * d.y)
      ((o - c).x * (o - c).x + (o - c).y * (o - c).y - r * r) with
    | none => ∀ t, 0 < (d.x * d.x + d.y * d.y) * t ^ 2 + (2 * (o.x - c.x) * d.x + 2 * (o.y - c.y) * d.y) * t +
        ((o.x - c.x) * (o.x - c.x) + (o.y - c.y) * (o.y - c.y) - r * r)
    | some (t1, t2) => ∀ t, 0 ≤ t → ((d.x * d.x + d.y * d.y) * t ^ 2 + (2 * (o.x - c.x) * d.x + 2 * (o.y - c.y) * d.y) * t +
        ((o.x - c.x) * (o.x - c.x) + (o.y - c.y) * (o.y - c.y) - r * r) = 0 ↔ t = t1 ∨ t = t2) := roots_spec hs ha hu
  have quad : ∀ t, sqAxial c (rayPoint o d t) - r ^ 2 = (d.x * d.x + d.y * d.y) * t ^ 2 +
      (2 * (o.x - c.x) * d.x + 2 * (o.y - c.y) * d.y) * t + ((o.x - c.x) * (o.x - c.x) + (o.y - c.y) * (o.y - c.y) - r * r) := by
    intro t; simp only [sqAxial, rayPoint]; ring
  unfold cylinderRay
  dsimp only
  generalize cylinderRoots sqrt (d.x * d.x + d.y * d.y) (2 * (o - c).x * d.x + 2 * (o - c).y * d.y)
    ((o - c).x * (o - c).x + (o - c).y * (o - c).y - r * r) = roots at spec ⊢
  match roots, spec with
  | none, spec =>
    intro t t0 _
    rw [cylinder_surface_iff]
    have := spec t
    have q := quad t
    rintro (⟨h1, _⟩ | ⟨_, h1⟩) <;> linarith
  | some (t1, t2), spec =>
    dsimp only
    obtain ⟨v1, e1⟩ : ∃ v, v = decide (0 ≤ t1 ∧ -h / 2 ≤ (o - c).z + t1 * d.z ∧ (o - c).z + t1 * d.z ≤ h / 2) := ⟨_, rfl⟩
    obtain ⟨v2, e2⟩ : ∃ v, v = decide (0 ≤ t2 ∧ -h / 2 ≤ (o - c).z + t2 * d.z ∧ (o - c).z + t2 * d.z ≤ h / 2) := ⟨_, rfl⟩
    obtain ⟨t3, f3⟩ : ∃ t, t = (-h / 2 - (o - c).z) / d.z := ⟨_, rfl⟩
    obtain ⟨t4, f4⟩ : ∃ t, t = (h / 2 - (o - c).z) / d.z := ⟨_, rfl⟩
    rw [← e1, ← e2, ← f3, ← f4]
    have ax : ∀ t, (o - c + smul t d).x * (o - c + smul t d).x + (o - c + smul t d).y * (o - c + smul t d).y =
        sqAxial c (rayPoint o d t) := fun t => by simp only [sqAxial, rayPoint, smul, Vec3.add_x, Vec3.add_y, Vec3.sub_x, Vec3.sub_y]; ring
    obtain ⟨v3, e3⟩ : ∃ v, v = (decide (eps < |d.z|) && decide (0 ≤ t3 ∧ sqrt ((o - c + smul t3 d).x * (o - c + smul t3 d).x +
      (o - c + smul t3 d).y * (o - c + smul t3 d).y) < r)) := ⟨_, rfl⟩
    obtain ⟨v4, e4⟩ : ∃ v, v = (decide (eps < |d.z|) && decide (0 ≤ t4 ∧ sqrt ((o - c + smul t4 d).x * (o - c + smul t4 d).x +
      (o - c + smul t4 d).y * (o - c + smul t4 d).y) < r)) := ⟨_, rfl⟩
    rw [← e3, ← e4]
    have w1 : v1 = true ↔ 0 ≤ t1 ∧ -h / 2 ≤ o.z - c.z + t1 * d.z ∧ o.z - c.z + t1 * d.z ≤ h / 2 := by rw [e1]; exact decide_eq_true_iff
    have w2 : v2 = true ↔ 0 ≤ t2 ∧ -h / 2 ≤ o.z - c.z + t2 * d.z ∧ o.z - c.z + t2 * d.z ≤ h / 2 := by rw [e2]; exact decide_eq_true_iff
    have w3 : v3 = true ↔ eps < |d.z| ∧ 0 ≤ t3 ∧ sqrt (sqAxial c (rayPoint o d t3)) < r := by
      rw [e3, Bool.and_eq_true, decide_eq_true_iff, decide_eq_true_iff, ax]
    have w4 : v4 = true ↔ eps < |d.z| ∧ 0 ≤ t4 ∧ sqrt (sqAxial c (rayPoint o d t4)) < r := by
      rw [e4, Bool.and_eq_true, decide_eq_true_iff, decide_eq_true_iff, ax]
    clear e1 e2 e3 e4
    simp only [Vec3.sub_z] at f3 f4
    have key : ∀ t, (0 ≤ t ∧ OnSurface (.cylinder c r h) (rayPoint o d t)) ↔
        v1 = true ∧ t = t1 ∨ v2 = true ∧ t = t2 ∨ v3 = true ∧ t = t3 ∨ v4 = true ∧ t = t4 := by
      intro t
      have zz : (rayPoint o d t).z - c.z = o.z - c.z + t * d.z := by simp only [rayPoint]; ring
      have side : 0 ≤ t → (sqAxial c (rayPoint o d t) = r ^ 2 ↔ t = t1 ∨ t = t2) := fun t0 => by
        rw [← spec t t0, ← quad t, sub_eq_zero]
      rw [cylinder_surface_iff, zz, w1, w2, w3, w4]
      have absz : ∀ z : F, |z| ≤ h / 2 ↔ -h / 2 ≤ z ∧ z ≤ h / 2 := fun z => by rw [abs_le, neg_div]
      constructor
      · rintro ⟨t0, ⟨h1, h2⟩ | ⟨h1, h2⟩⟩
        · rcases (side t0).mp h1 with rfl | rfl
          · exact .inl ⟨⟨t0, (absz _).mp h2⟩, rfl⟩
          · exact .inr (.inl ⟨⟨t0, (absz _).mp h2⟩, rfl⟩)
        · have hd : eps < |d.z| := by
            rcases hz with hz | ⟨hz, hz'⟩
            · exact hz
            · rw [hz, mul_zero, add_zero] at h1; exact absurd h1 hz'
          have hne : d.z ≠ 0 := fun e => by rw [e, abs_zero] at hd; exact absurd hd (not_lt.mpr eps_pos.le)
          have hq : sqrt (sqAxial c (rayPoint o d t)) < r := (sqrt_lt hs (sqAxial_nonneg _ _) hr.le).mpr h2
          rcases abs_eq (by positivity : (0 : F) ≤ h / 2) |>.mp h1 with h3 | h3
          · have : t = t4 := by rw [f4, eq_div_iff hne]; linear_combination h3
            subst this
            exact .inr (.inr (.inr ⟨⟨hd, t0, hq⟩, rfl⟩))
          · have : t = t3 := by rw [f3, eq_div_iff hne]; linear_combination h3
            subst this
            exact .inr (.inr (.inl ⟨⟨hd, t0, hq⟩, rfl⟩))
      · rintro (⟨⟨t0, h1⟩, rfl⟩ | ⟨⟨t0, h1⟩, rfl⟩ | ⟨⟨hd, t0, h1⟩, rfl⟩ | ⟨⟨hd, t0, h1⟩, rfl⟩)
        · exact ⟨t0, .inl ⟨(side t0).mpr (.inl rfl), (absz _).mpr h1⟩⟩
        · exact ⟨t0, .inl ⟨(side t0).mpr (.inr rfl), (absz _).mpr h1⟩⟩
        · have hne : d.z ≠ 0 := fun e => by rw [e, abs_zero] at hd; exact absurd hd (not_lt.mpr eps_pos.le)
          refine ⟨t0, .inr ⟨?_, (sqrt_lt hs (sqAxial_nonneg _ _) hr.le).mp h1⟩⟩
          have : o.z - c.z + t * d.z = -(h / 2) := by rw [f3]; field_simp; ring
          rw [this, abs_neg, abs_of_pos (by positivity)]
        · have hne : d.z ≠ 0 := fun e => by rw [e, abs_zero] at hd; exact absurd hd (not_lt.mpr eps_pos.le)
          refine ⟨t0, .inr ⟨?_, (sqrt_lt hs (sqAxial_nonneg _ _) hr.le).mp h1⟩⟩
          have : o.z - c.z + t * d.z = h / 2 := by rw [f4]; field_simp; ring
          rw [this, abs_of_pos (by positivity)]
    have low := lower4 M t1 t2 t3 t4 v1 v2 v3 v4
    simp only at low
    generalize lower (lower (lower (lower M v1 t1) v2 t2) v3 t3) v4 t4 = L at low ⊢
    have below : ∀ t, 0 ≤ t → OnSurface (.cylinder c r h) (rayPoint o d t) → L ≤ t := by
      intro t t0 ht
      rcases (key t).mp ⟨t0, ht⟩ with ⟨v, rfl⟩ | ⟨v, rfl⟩ | ⟨v, rfl⟩ | ⟨v, rfl⟩
      · exact low.1 v
      · exact low.2.1 v
      · exact low.2.2.1 v
      · exact low.2.2.2.1 v
    split_ifs with h1 h2
    · intro t t0 _ ht
      simp only [Bool.not_eq_true', Bool.or_eq_false_iff] at h1
      obtain ⟨⟨⟨n1, n2⟩, n3⟩, n4⟩ := h1
      rcases (key t).mp ⟨t0, ht⟩ with ⟨v, _⟩ | ⟨v, _⟩ | ⟨v, _⟩ | ⟨v, _⟩ <;> simp_all
    · intro t t0 tM ht
      simp only [if_true] at tM
      exact absurd (below t t0 ht) (not_le.mpr (tM.trans_le h2))
    · have hL := (key L).mpr (low.2.2.2.2.resolve_left fun e => h2 e.ge)
      refine ⟨rfl, hL.1, by simpa using h2, hL.2, fun t t0 tL ht => ?_⟩
      exact absurd (below t t0 ht) (not_le.mpr tL)

end Vox.Sim
