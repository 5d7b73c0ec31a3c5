/-
Helper lemmas for the simulated cube.
-/
import Verif.Lemmas.Objects

namespace Vox.Sim

open Geo Spec

variable {F : Type} [Field F] [LinearOrder F] [IsStrictOrderedRing F]

theorem eps_pos : (0 : F) < eps := by unfold eps; positivity

theorem face_eq (c s p : F) : faceDistance c s p = |p - c| - s / 2 := by
  unfold faceDistance
  rcases le_total 0 (p - c) with h | h
  · rw [abs_of_nonneg h]
    refine (max_eq_right ?_).trans (by ring)
    linarith
  · rw [abs_of_nonpos h]
    refine (max_eq_left ?_).trans (by ring)
    linarith

theorem outside_eq (c s p : F) : outsideBy c s p = max (|p - c| - s / 2) 0 := by
  rw [← face_eq]; unfold outsideBy faceDistance
  rw [max_right_comm]

theorem outside_nonneg (c s p : F) : 0 ≤ outsideBy c s p := by rw [outside_eq]; exact le_max_right _ _

/-- A nearest point on the two faces of an axis. -/
theorem exists_face {c s p : F} (hs : 0 < s) : ∃ y, |y - c| = s / 2 ∧ (p - y) ^ 2 = (|p - c| - s / 2) ^ 2 := by
  have h2 : 0 ≤ s / 2 := by positivity
  rcases le_total 0 (p - c) with h | h
  · exact ⟨c + s / 2, by rw [add_sub_cancel_left, abs_of_nonneg h2], by rw [abs_of_nonneg h]; ring⟩
  · exact ⟨c - s / 2, by rw [sub_sub_cancel_left, abs_neg, abs_of_nonneg h2], by rw [abs_of_nonpos h]; ring⟩

/-- A nearest point of the slab of an axis. -/
theorem exists_clamp {c s p : F} (hs : 0 < s) :
    ∃ y, |y - c| ≤ s / 2 ∧ (p - y) ^ 2 = outsideBy c s p ^ 2 ∧ (0 < outsideBy c s p → |y - c| = s / 2) := by
  rw [outside_eq]
  rcases le_total (|p - c| - s / 2) 0 with h | h
  · refine ⟨p, by linarith, by rw [max_eq_right h, sub_self], fun h' => ?_⟩
    rw [max_eq_right h] at h'
    exact absurd h' (lt_irrefl _)
  · obtain ⟨y, h1, h2⟩ := exists_face (c := c) (p := p) hs
    exact ⟨y, h1.le, by rw [h2, max_eq_left h], fun _ => h1⟩

theorem outside_sq_le {c s p y : F} (hy : |y - c| ≤ s / 2) : outsideBy c s p ^ 2 ≤ (p - y) ^ 2 := by
  rw [outside_eq]
  rcases le_total (|p - c| - s / 2) 0 with h | h
  · rw [max_eq_right h]; simpa using sq_nonneg (p - y)
  · rw [max_eq_left h, ← sq_abs (p - y)]
    refine pow_le_pow_left₀ h ?_ 2
    have := abs_sub_abs_le_abs_sub (p - c) (y - c)
    rw [sub_sub_sub_cancel_right] at this
    linarith

theorem cube_inner_iff (c s p : Vec3 F) : Inner (.cube c s) p ↔
    max (max (faceDistance c.x s.x p.x) (faceDistance c.y s.y p.y)) (faceDistance c.z s.z p.z) < 0 := by
  simp only [Inner, face_eq, max_lt_iff, sub_neg, and_assoc]

theorem cube_solid_iff (c s p : Vec3 F) : Solid (.cube c s) p ↔
    max (max (faceDistance c.x s.x p.x) (faceDistance c.y s.y p.y)) (faceDistance c.z s.z p.z) ≤ 0 := by
  simp only [Solid, face_eq, max_le_iff, sub_nonpos, and_assoc]

/-- The length of the vector of excesses. -/
def excess (sqrt : F → F) (c s p : Vec3 F) : F :=
  norm sqrt ⟨outsideBy c.x s.x p.x, outsideBy c.y s.y p.y, outsideBy c.z s.z p.z⟩

theorem excess_sq {sqrt : F → F} (hs : IsSqrt sqrt) (c s p : Vec3 F) :
    excess sqrt c s p ^ 2 = outsideBy c.x s.x p.x ^ 2 + outsideBy c.y s.y p.y ^ 2 + outsideBy c.z s.z p.z ^ 2 := by
  rw [excess, norm, sqrt_pow hs (sqNorm_nonneg _), sqNorm, dot]; ring

theorem excess_nonneg {sqrt : F → F} (hs : IsSqrt sqrt) (c s p : Vec3 F) : 0 ≤ excess sqrt c s p :=
  (hs _ (sqNorm_nonneg _)).1

omit [IsStrictOrderedRing F] in
theorem cube_eq (sqrt : F → F) (c s p : Vec3 F) : cubeDistance sqrt c s p = if excess sqrt c s p < eps then
    max (max (faceDistance c.x s.x p.x) (faceDistance c.y s.y p.y)) (faceDistance c.z s.z p.z) else excess sqrt c s p := rfl

theorem excess_zero {sqrt : F → F} (hs : IsSqrt sqrt) {c s p : Vec3 F} (h : Solid (.cube c s) p) : excess sqrt c s p = 0 := by
  have e := excess_sq hs c s p
  simp only [Solid] at h
  rw [outside_eq, outside_eq, outside_eq, max_eq_right (by linarith [h.1]), max_eq_right (by linarith [h.2.1]),
    max_eq_right (by linarith [h.2.2])] at e
  refine pow_eq_zero_iff two_ne_zero |>.mp ?_
  rw [e]; ring

theorem face_le_excess {sqrt : F → F} (hs : IsSqrt sqrt) (c s p : Vec3 F) :
    max (max (faceDistance c.x s.x p.x) (faceDistance c.y s.y p.y)) (faceDistance c.z s.z p.z) ≤ excess sqrt c s p := by
  have e := excess_sq hs c s p
  have h0 := excess_nonneg hs c s p
  have x0 := sq_nonneg (outsideBy c.x s.x p.x)
  have y0 := sq_nonneg (outsideBy c.y s.y p.y)
  have z0 := sq_nonneg (outsideBy c.z s.z p.z)
  have l : ∀ c s p : F, faceDistance c s p ≤ outsideBy c s p := fun c s p => by rw [face_eq, outside_eq]; exact le_max_left _ _
  refine max_le (max_le ?_ ?_) ?_
  · exact (l _ _ _).trans ((pow_le_pow_iff_left₀ (outside_nonneg _ _ _) h0 two_ne_zero).mp (by linarith))
  · exact (l _ _ _).trans ((pow_le_pow_iff_left₀ (outside_nonneg _ _ _) h0 two_ne_zero).mp (by linarith))
  · exact (l _ _ _).trans ((pow_le_pow_iff_left₀ (outside_nonneg _ _ _) h0 two_ne_zero).mp (by linarith))

theorem cube_sign {sqrt : F → F} (hs : IsSqrt sqrt) (c s p : Vec3 F) : HasSign (.cube c s) p (cubeDistance sqrt c s p) := by
  rw [cube_eq]
  have solid : Solid (.cube c s) p → excess sqrt c s p < eps := fun h => by rw [excess_zero hs h]; exact eps_pos
  have in_solid : Inner (.cube c s) p → Solid (.cube c s) p := fun h => (cube_solid_iff ..).mpr ((cube_inner_iff ..).mp h).le
  refine ⟨fun h => ?_, fun h => ?_, fun h => ?_⟩
  · rw [if_pos (solid (in_solid h))]; exact (cube_inner_iff ..).mp h
  · rw [if_pos (solid h.1)]
    exact le_antisymm ((cube_solid_iff ..).mp h.1) (not_lt.mp fun h' => h.2 ((cube_inner_iff ..).mpr h'))
  · split_ifs with h1
    · exact not_le.mp fun h' => h ((cube_solid_iff ..).mpr h')
    · exact eps_pos.trans_le (not_lt.mp h1)

theorem cube_euclid_solid {sqrt : F → F} (hs : IsSqrt sqrt) {c s p : Vec3 F} (hp : 0 < s.x ∧ 0 < s.y ∧ 0 < s.z)
    (h : Solid (.cube c s) p) : IsDistance (OnSurface (.cube c s)) p |cubeDistance sqrt c s p| := by
  rw [cube_eq, if_pos (by rw [excess_zero hs h]; exact eps_pos)]
  have hm := (cube_solid_iff ..).mp h
  simp only [Solid] at h
  have fx := face_eq c.x s.x p.x
  have fy := face_eq c.y s.y p.y
  have fz := face_eq c.z s.z p.z
  set m := max (max (faceDistance c.x s.x p.x) (faceDistance c.y s.y p.y)) (faceDistance c.z s.z p.z) with hmd
  have mx : faceDistance c.x s.x p.x ≤ m := (le_max_left _ _).trans (le_max_left _ _)
  have my : faceDistance c.y s.y p.y ≤ m := (le_max_right _ _).trans (le_max_left _ _)
  have mz : faceDistance c.z s.z p.z ≤ m := le_max_right _ _
  refine ⟨abs_nonneg _, ?_, ?_⟩
  · rw [sq_abs]
    have : m = faceDistance c.x s.x p.x ∨ m = faceDistance c.y s.y p.y ∨ m = faceDistance c.z s.z p.z := by
      rcases max_choice (max (faceDistance c.x s.x p.x) (faceDistance c.y s.y p.y)) (faceDistance c.z s.z p.z) with e | e
      · rcases max_choice (faceDistance c.x s.x p.x) (faceDistance c.y s.y p.y) with e' | e'
        · exact .inl (by rw [hmd, e, e'])
        · exact .inr (.inl (by rw [hmd, e, e']))
      · exact .inr (.inr (by rw [hmd, e]))
    rcases this with e | e | e
    · obtain ⟨y, h1, h2⟩ := exists_face (c := c.x) (p := p.x) hp.1
      refine ⟨⟨y, p.y, p.z⟩, ⟨⟨h1.le, h.2.1, h.2.2⟩, fun hi => absurd hi.1 (not_lt.mpr h1.ge)⟩, ?_⟩
      rw [e, fx, ← h2]; simp [sqDist]
    · obtain ⟨y, h1, h2⟩ := exists_face (c := c.y) (p := p.y) hp.2.1
      refine ⟨⟨p.x, y, p.z⟩, ⟨⟨h.1, h1.le, h.2.2⟩, fun hi => absurd hi.2.1 (not_lt.mpr h1.ge)⟩, ?_⟩
      rw [e, fy, ← h2]; simp [sqDist]
    · obtain ⟨y, h1, h2⟩ := exists_face (c := c.z) (p := p.z) hp.2.2
      refine ⟨⟨p.x, p.y, y⟩, ⟨⟨h.1, h.2.1, h1.le⟩, fun hi => absurd hi.2.2 (not_lt.mpr h1.ge)⟩, ?_⟩
      rw [e, fz, ← h2]; simp [sqDist]
  · rintro q ⟨_, hq⟩
    rw [sq_abs]
    have ax : ∀ (C S P Q : F), S / 2 ≤ |Q - C| → |P - C| - S / 2 ≤ m → m ^ 2 ≤ (P - Q) ^ 2 := by
      intro C S P Q h1 h2
      rw [← sq_abs (P - Q), ← neg_sq]
      refine pow_le_pow_left₀ (by linarith) ?_ 2
      have := abs_sub_abs_le_abs_sub (Q - C) (P - C)
      rw [sub_sub_sub_cancel_right, abs_sub_comm Q P] at this
      linarith
    have x0 := sq_nonneg (p.x - q.x)
    have y0 := sq_nonneg (p.y - q.y)
    have z0 := sq_nonneg (p.z - q.z)
    simp only [Inner, not_and_or, not_lt] at hq
    unfold sqDist
    rcases hq with hq | hq | hq
    · have := ax c.x s.x p.x q.x hq (by rw [← fx]; exact mx); linarith
    · have := ax c.y s.y p.y q.y hq (by rw [← fy]; exact my); linarith
    · have := ax c.z s.z p.z q.z hq (by rw [← fz]; exact mz); linarith

theorem cube_euclid_outer {sqrt : F → F} (hs : IsSqrt sqrt) {c s p : Vec3 F} (hp : 0 < s.x ∧ 0 < s.y ∧ 0 < s.z)
    (h : ¬ Solid (.cube c s) p) : IsDistance (OnSurface (.cube c s)) p (excess sqrt c s p) := by
  refine ⟨excess_nonneg hs c s p, ?_, ?_⟩
  · obtain ⟨x, x1, x2, x3⟩ := exists_clamp (c := c.x) (p := p.x) hp.1
    obtain ⟨y, y1, y2, y3⟩ := exists_clamp (c := c.y) (p := p.y) hp.2.1
    obtain ⟨z, z1, z2, z3⟩ := exists_clamp (c := c.z) (p := p.z) hp.2.2
    refine ⟨⟨x, y, z⟩, ⟨⟨x1, y1, z1⟩, fun hi => h ?_⟩, ?_⟩
    · have ax : ∀ C S P : F, ¬ 0 < outsideBy C S P → |P - C| ≤ S / 2 := fun C S P h => by
        rw [outside_eq, not_lt] at h
        linarith [le_max_left (|P - C| - S / 2) 0]
      exact ⟨ax _ _ _ fun h' => absurd (x3 h') hi.1.ne, ax _ _ _ fun h' => absurd (y3 h') hi.2.1.ne,
        ax _ _ _ fun h' => absurd (z3 h') hi.2.2.ne⟩
    · rw [excess_sq hs, ← x2, ← y2, ← z2]; rfl
  · rintro q ⟨hq, _⟩
    rw [excess_sq hs]
    have := outside_sq_le (p := p.x) hq.1
    have := outside_sq_le (p := p.y) hq.2.1
    have := outside_sq_le (p := p.z) hq.2.2
    unfold sqDist
    linarith

/-! Rays -/

/-- Embedding of the finite parameters. -/
abbrev W (x : F) : WithBot (WithTop F) := ((x : WithTop F) : WithBot (WithTop F))

omit [Field F] [IsStrictOrderedRing F] in
theorem W_lt {a b : F} : W a < W b ↔ a < b := by simp [W]

omit [Field F] [IsStrictOrderedRing F] in
theorem W_le {a b : F} : W a ≤ W b ↔ a ≤ b := by simp [W]

/-- The slab of an axis as a set of parameters. -/
theorem slab_spec {c s o d : F} (hs : 0 < s) (h : d = 0 → o ≠ c - s / 2 ∧ o ≠ c + s / 2) :
    ∃ a b, slab c s o d = (some a, some b) ∧ a ≤ b ∧ (∀ t, |o + t * d - c| ≤ s / 2 ↔ a ≤ W t ∧ W t ≤ b) ∧
      ∀ t, |o + t * d - c| < s / 2 ↔ a < W t ∧ W t < b := by
  by_cases hd : d = 0
  · obtain ⟨h1, h2⟩ := h hd
    subst hd
    have sg : Ext.lt (inverse (0 : F)) (.fin 0) = false := by simp [Ext.lt, inverse, Ext.fin]
    unfold slab
    simp only [sg, timesInverse, if_true, Bool.false_eq_true, if_false, mul_zero, add_zero]
    rcases lt_or_gt_of_ne h1 with h1 | h1
    · refine ⟨⊤, ⊤, by rw [if_pos (by linarith), if_pos (by linarith)], le_rfl, fun t => ?_, fun t => ?_⟩
      · rw [abs_le]; constructor
        · rintro ⟨a, b⟩; linarith
        · rintro ⟨a, b⟩; exact absurd a (by simp [W, WithBot.coe_top.symm, -WithBot.coe_top])
      · rw [abs_lt]; constructor
        · rintro ⟨a, b⟩; linarith
        · rintro ⟨a, b⟩; exact absurd a (by simp)
    · rcases lt_or_gt_of_ne h2 with h2 | h2
      · refine ⟨⊥, ⊤, by rw [if_neg (by linarith), if_pos (by linarith), if_pos (by linarith)], bot_le, fun t => ?_, fun t => ?_⟩
        · rw [abs_le]
          exact ⟨fun _ => ⟨bot_le, le_top⟩, fun _ => ⟨by linarith, by linarith⟩⟩
        · rw [abs_lt]
          exact ⟨fun _ => ⟨WithBot.bot_lt_coe _, by simp [W, WithBot.coe_top.symm, -WithBot.coe_top]⟩,
            fun _ => ⟨by linarith, by linarith⟩⟩
      · refine ⟨⊥, ⊥, by rw [if_neg (by linarith), if_pos (by linarith), if_neg (by linarith), if_pos (by linarith)], le_rfl,
          fun t => ?_, fun t => ?_⟩
        · rw [abs_le]; constructor
          · rintro ⟨a, b⟩; linarith
          · rintro ⟨a, b⟩; exact absurd b (by simp [W])
        · rw [abs_lt]; constructor
          · rintro ⟨a, b⟩; linarith
          · rintro ⟨a, b⟩; exact absurd b (by simp [W])
  · have sg : Ext.lt (inverse d) (.fin 0) = decide (d < 0) := by
      simp only [Ext.lt, inverse, if_neg hd, Ext.fin, decide_eq_decide]
      rw [W_lt]; simp
    have hne : d ≠ 0 := hd
    unfold slab
    simp only [sg, timesInverse, if_neg hd]
    rcases lt_or_gt_of_ne hd with hd | hd
    · refine ⟨W ((c + s / 2 - o) * (1 / d)), W ((c - s / 2 - o) * (1 / d)), by simp [hd, Ext.fin], ?_, fun t => ?_, fun t => ?_⟩
      · rw [W_le, mul_one_div, mul_one_div, div_le_div_right_of_neg hd]; linarith
      · rw [W_le, W_le, mul_one_div, mul_one_div, div_le_iff_of_neg hd, le_div_iff_of_neg hd, abs_le]
        constructor <;> rintro ⟨a, b⟩ <;> constructor <;> linarith
      · rw [W_lt, W_lt, mul_one_div, mul_one_div, div_lt_iff_of_neg hd, lt_div_iff_of_neg hd, abs_lt]
        constructor <;> rintro ⟨a, b⟩ <;> constructor <;> linarith
    · refine ⟨W ((c - s / 2 - o) * (1 / d)), W ((c + s / 2 - o) * (1 / d)), by simp [not_lt.mpr hd.le, Ext.fin], ?_, fun t => ?_, fun t => ?_⟩
      · rw [W_le, mul_one_div, mul_one_div, div_le_div_iff_of_pos_right hd]; linarith
      · rw [W_le, W_le, mul_one_div, mul_one_div, div_le_iff₀ hd, le_div_iff₀ hd, abs_le]
        constructor <;> rintro ⟨a, b⟩ <;> constructor <;> linarith
      · rw [W_lt, W_lt, mul_one_div, mul_one_div, div_lt_iff₀ hd, lt_div_iff₀ hd, abs_lt]
        constructor <;> rintro ⟨a, b⟩ <;> constructor <;> linarith

omit [Field F] [IsStrictOrderedRing F] in
theorem narrow_eq (a b a' b' : WithBot (WithTop F)) : narrow (some a, some b) (some a', some b') =
    if b' < a ∨ b < a' then none else some (some (max a a'), some (min b b')) := by
  simp only [narrow, Ext.lt, Bool.or_eq_true, decide_eq_true_eq]
  congr 2
  ext1
  · dsimp only
    split_ifs with h
    · rw [max_eq_right h.le]
    · rw [max_eq_left (not_lt.mp h)]
  · dsimp only
    split_ifs with h
    · rw [min_eq_right h.le]
    · rw [min_eq_left (not_lt.mp h)]

omit [IsStrictOrderedRing F] in
/-- The result for an interval of parameters. -/
theorem cubeResult_first {c s o d : Vec3 F} {M : F} {A B : WithBot (WithTop F)} (hAB : A ≤ B)
    (closed : ∀ t, Solid (.cube c s) (rayPoint o d t) ↔ A ≤ W t ∧ W t ≤ B)
    (opened : ∀ t, Inner (.cube c s) (rayPoint o d t) ↔ A < W t ∧ W t < B) :
    FirstHit (.cube c s) o d M false (cubeResult o d M (some A, some B)) := by
  have surf : ∀ t, OnSurface (.cube c s) (rayPoint o d t) ↔ W t = A ∨ W t = B := by
    intro t
    rw [OnSurface, closed, opened]
    constructor
    · rintro ⟨⟨h1, h2⟩, h3⟩
      by_contra hc
      rw [not_or] at hc
      exact h3 ⟨lt_of_le_of_ne h1 (Ne.symm hc.1), lt_of_le_of_ne h2 hc.2⟩
    · rintro (h | h)
      · exact ⟨⟨h.ge, h ▸ hAB⟩, fun h3 => absurd h3.1 (by rw [h]; exact lt_irrefl _)⟩
      · exact ⟨⟨h ▸ hAB, h.le⟩, fun h3 => absurd h3.2 (by rw [h]; exact lt_irrefl _)⟩
  have res : ∀ u : WithBot (WithTop F), W 0 ≤ u → (u = A ∨ u = B) → (∀ t, 0 ≤ t → W t < u → W t ≠ A ∧ W t ≠ B) →
      FirstHit (.cube c s) o d M false
        (if Ext.lt (.fin M) (some u) then Ray.miss
          else match (some u : Ext F) with
            | none => .nan
            | some u => match u with
              | some (some u) => .hit (o + smul u d) u
              | _ => .miss) := by
    intro u h0 hu hfirst
    split_ifs with hM
    · intro t t0 tM
      simp only [Bool.false_eq_true, if_false] at tM
      simp only [Ext.lt, Ext.fin, decide_eq_true_eq] at hM
      rw [surf, not_or]
      exact hfirst t t0 ((W_le.mpr tM).trans_lt hM)
    · simp only [Ext.lt, Ext.fin, decide_eq_true_eq, not_lt] at hM
      match u, h0, hu, hfirst, hM with
      | some (some x), h0, hu, hfirst, hM =>
        have hx : (0 : F) ≤ x := W_le.mp h0
        refine ⟨rfl, hx, by simpa using W_le.mp hM, (surf x).mpr hu, fun t t0 tx => ?_⟩
        rw [surf, not_or]
        exact hfirst t t0 (W_lt.mpr tx)
      | some ⊤, h0, hu, hfirst, hM => exact absurd hM (not_le.mpr (WithBot.coe_lt_coe.mpr (WithTop.coe_lt_top M)))
      | ⊥, h0, hu, hfirst, hM => exact absurd h0 (not_le.mpr (WithBot.bot_lt_coe _))
  unfold cubeResult
  simp only
  have l0 : ∀ u : WithBot (WithTop F), Ext.lt (some u) (.fin 0) = decide (u < W 0) := fun u => rfl
  rw [l0, l0]
  by_cases hA : A < W 0
  · rw [if_pos (decide_eq_true hA)]
    by_cases hB : B < W 0
    · rw [if_pos (decide_eq_true hB)]
      intro t t0 _
      rw [surf]
      rintro (h | h)
      · exact absurd (h ▸ hA) (not_lt.mpr (W_le.mpr t0))
      · exact absurd (h ▸ hB) (not_lt.mpr (W_le.mpr t0))
    · rw [if_neg (by simpa using hB)]
      refine res B (not_lt.mp hB) (.inr rfl) fun t t0 tB => ⟨fun h => ?_, tB.ne⟩
      exact absurd (h ▸ hA) (not_lt.mpr (W_le.mpr t0))
  · rw [if_neg (by simpa using hA)]
    refine res A (not_lt.mp hA) (.inl rfl) fun t t0 tA => ⟨tA.ne, (tA.trans_le hAB).ne⟩

theorem cube_ray_first {c s o d : Vec3 F} (hs : 0 < s.x ∧ 0 < s.y ∧ 0 < s.z) (M : F)
    (hx : d.x = 0 → o.x ≠ c.x - s.x / 2 ∧ o.x ≠ c.x + s.x / 2) (hy : d.y = 0 → o.y ≠ c.y - s.y / 2 ∧ o.y ≠ c.y + s.y / 2)
    (hz : d.z = 0 → o.z ≠ c.z - s.z / 2 ∧ o.z ≠ c.z + s.z / 2) :
    FirstHit (.cube c s) o d M false (cubeRay c s o d M) := by
  obtain ⟨ax, bx, ex, lx, cx, ox⟩ := slab_spec hs.1 hx
  obtain ⟨ay, by', ey, ly, cy, oy⟩ := slab_spec hs.2.1 hy
  obtain ⟨az, bz, ez, lz, cz, oz⟩ := slab_spec hs.2.2 hz
  have none_hit : (∀ t, ¬ Solid (.cube c s) (rayPoint o d t)) → FirstHit (.cube c s) o d M false .miss :=
    fun h t _ _ ht => h t ht.1
  unfold cubeRay
  rw [ex, ey, ez, narrow_eq]
  split_ifs with h1
  · refine none_hit fun t ht => ?_
    have hx' := (cx t).mp ht.1
    have hy' := (cy t).mp ht.2.1
    rcases h1 with h | h
    · exact absurd (hx'.1.trans hy'.2) (not_le.mpr h)
    · exact absurd (hy'.1.trans hx'.2) (not_le.mpr h)
  · simp only [narrow_eq]
    rw [not_or, not_lt, not_lt] at h1
    split_ifs with h2
    · refine none_hit fun t ht => ?_
      have hx' := (cx t).mp ht.1
      have hy' := (cy t).mp ht.2.1
      have hz' := (cz t).mp ht.2.2
      rcases h2 with h | h
      · exact absurd ((max_le hx'.1 hy'.1).trans hz'.2) (not_le.mpr h)
      · exact absurd (hz'.1.trans (le_min hx'.2 hy'.2)) (not_le.mpr h)
    · rw [not_or, not_lt, not_lt] at h2
      refine cubeResult_first ?_ (fun t => ?_) fun t => ?_
      · exact max_le (max_le (le_min (le_min lx h1.1) ((le_max_left _ _).trans h2.1)) (le_min (le_min h1.2 ly) ((le_max_right _ _).trans h2.1)))
          (le_min h2.2 lz)
      · simp only [Solid, rayPoint, cx, cy, cz, max_le_iff, le_min_iff]
        exact ⟨fun ⟨⟨a, b⟩, ⟨c, d⟩, e, f⟩ => ⟨⟨⟨a, c⟩, e⟩, ⟨b, d⟩, f⟩, fun ⟨⟨⟨a, c⟩, e⟩, ⟨b, d⟩, f⟩ => ⟨⟨a, b⟩, ⟨c, d⟩, e, f⟩⟩
      · simp only [Inner, rayPoint, ox, oy, oz, max_lt_iff, lt_min_iff]
        exact ⟨fun ⟨⟨a, b⟩, ⟨c, d⟩, e, f⟩ => ⟨⟨⟨a, c⟩, e⟩, ⟨b, d⟩, f⟩, fun ⟨⟨⟨a, c⟩, e⟩, ⟨b, d⟩, f⟩ => ⟨⟨a, b⟩, ⟨c, d⟩, e, f⟩⟩

end Vox.Sim
