/-
Facts behind C119: difference quotients of a plane and the extrapolation from the centre of a voxel.
-/
import Verif.Model.InterpAdaptive
import Verif.Lemmas.InterpGrad

namespace Vox.InterpF

open Layer Grid Ieee Spec IndexF

open RoundErr (u_eq eta_eq rnd_fin rnd32_le)

variable {V : Type}

/-- Division by a positive number that is not too small. -/
theorem quotient {z t D T : ℚ} (hz : 1 / 2 ^ 90 ≤ z) (ht : |t| ≤ D) (hD : D ≤ 2 ^ 30) :
    ∃ g, float32.div (.fin t) (.fin z) = .fin g ∧ |g| ≤ (D + D / 2 ^ 24) / z + 1 / 2 ^ 150 ∧ |g - T / z| ≤ (|t - T| + D / 2 ^ 24) / z + 1 / 2 ^ 150 := by
  have h0 : 0 < z := lt_of_lt_of_le (by positivity) hz
  have hq : |t / z| ≤ D / z := by
    rw [abs_div, abs_of_pos h0]
    exact div_le_div_of_nonneg_right ht h0.le
  have hbig : |t / z| ≤ 2 ^ 127 := by
    refine hq.trans ?_
    rw [div_le_iff₀ h0]
    refine hD.trans ?_
    have m := mul_le_mul_of_nonneg_left hz (show (0 : ℚ) ≤ 2 ^ 127 by positivity)
    refine le_trans ?_ m
    norm_num
  have h1 := rnd32_err (t / z)
  rw [u_eq, eta_eq] at h1
  have h5 := mul_le_mul_of_nonneg_left hq (show (0 : ℚ) ≤ 1 / 2 ^ 24 by positivity)
  refine ⟨rnd32 (t / z), ?_, ?_, ?_⟩
  · show (if z = 0 then _ else float32.rnd (t / z)) = _
    rw [if_neg h0.ne']
    exact rnd_fin hbig
  · have h2 := abs_sub_le (rnd32 (t / z)) (t / z) 0
    rw [sub_zero, sub_zero] at h2
    have h4 : (D + D / 2 ^ 24) / z = D / z + 1 / 2 ^ 24 * (D / z) := by ring
    rw [h4]
    linarith
  · have h2 := abs_sub_le (rnd32 (t / z)) (t / z) (T / z)
    have h3 : |t / z - T / z| = |t - T| / z := by rw [← sub_div, abs_div, abs_of_pos h0]
    have h4 : (|t - T| + D / 2 ^ 24) / z = |t - T| / z + 1 / 2 ^ 24 * (D / z) := by ring
    rw [h4]
    linarith

/-- The rounded difference of two values. -/
theorem difference_of {x y D : ℚ} (hx : |x| ≤ D) (hy : |y| ≤ D) (hD : D ≤ 2 ^ 27) :
    ∃ t, float32.sub (.fin y) (.fin x) = .fin t ∧ |t| ≤ 3 * D + 1 / 2 ^ 150 ∧ |t - (y - x)| ≤ D / 2 ^ 23 + 1 / 2 ^ 150 := by
  have hD0 : 0 ≤ D := le_trans (abs_nonneg _) hx
  have hxy : |y + -x| ≤ 2 * D := (abs_add_le _ _).trans (by rw [abs_neg]; linarith)
  have h := rnd32_err (y + -x)
  rw [u_eq, eta_eq] at h
  have h2 : |rnd32 (y + -x) - (y + -x)| ≤ D / 2 ^ 23 + 1 / 2 ^ 150 := by
    have := mul_le_mul_of_nonneg_left hxy (show (0 : ℚ) ≤ 1 / 2 ^ 24 by positivity)
    refine h.trans (le_trans (add_le_add this le_rfl) (le_of_eq ?_))
    ring
  refine ⟨rnd32 (y + -x), rnd_fin (hxy.trans (by norm_num at *; linarith)), ?_, by rw [sub_eq_add_neg y x]; exact h2⟩
  have t := abs_sub_le (rnd32 (y + -x)) (y + -x) 0
  rw [sub_zero, sub_zero] at t
  have : D / 2 ^ 23 ≤ D := div_le_self hD0 (by norm_num)
  linarith

/-- The difference quotients of a line with slope `m` per voxel. -/
theorem side_quotient {s D e m c y : ℚ} (hs : Size s) (hD : D ≤ 2 ^ 27) (he : 0 ≤ e) (hy : |y| ≤ D) (hyc : |y - c| ≤ e) {L R : Option Fl}
    (hL : ∀ a, L = some a → ∃ x, a = .fin x ∧ |x| ≤ D ∧ |x - (c - m)| ≤ e) (hR : ∀ a, R = some a → ∃ x, a = .fin x ∧ |x| ≤ D ∧ |x - (c + m)| ≤ e) :
    (L = none ∧ R = none ∧ sideQuotient s (.fin y) L R = none) ∨ ∃ g, sideQuotient s (.fin y) L R = some (.fin g) ∧
      |g| ≤ (3 * D + D / 2 ^ 20 + 1 / 2 ^ 140) / s + 1 / 2 ^ 150 ∧ |g - m / s| ≤ (D / 2 ^ 20 + 2 * e + 1 / 2 ^ 140) / s + 1 / 2 ^ 150 := by
  have h0 := hs.pos
  have hD0 : 0 ≤ D := le_trans (abs_nonneg _) hy
  have low1 : (1 : ℚ) / 2 ^ 90 ≤ s := hs.low
  have e2 : rnd32 (2 * s) = 2 * s := by
    have := blockSize_eq hs (k := 1) (by norm_num)
    unfold blockSize at this
    have r2 : rnd32 (((2 ^ 1 : ℕ) : ℚ)) = 2 := by decide +kernel
    rw [r2] at this
    rw [mul_comm 2 s, this]
    ring
  have oneSide : ∀ p q : ℚ, |p| ≤ D → |q| ≤ D → |q - p - m| ≤ 2 * e → ∃ g, float32.div (float32.sub (.fin q) (.fin p)) (.fin s) = .fin g ∧
      |g| ≤ (3 * D + D / 2 ^ 20 + 1 / 2 ^ 140) / s + 1 / 2 ^ 150 ∧ |g - m / s| ≤ (D / 2 ^ 20 + 2 * e + 1 / 2 ^ 140) / s + 1 / 2 ^ 150 := by
    intro p q hp hq hpq
    obtain ⟨t, t1, t2, t3⟩ := difference_of hp hq hD
    obtain ⟨g, g1, g2, g3⟩ := quotient (T := m) low1 t2 (by norm_num at *; linarith)
    refine ⟨g, by rw [t1, g1], g2.trans (add_le_add (div_le_div_of_nonneg_right ?_ h0.le) le_rfl),
      g3.trans (add_le_add (div_le_div_of_nonneg_right ?_ h0.le) le_rfl)⟩
    · clear g3 g2 t3 hpq low1
      norm_num at *
      linarith
    · have := abs_sub_le t (q - p) m
      generalize |t - m| = w1 at *
      generalize |t - (q - p)| = w2 at *
      generalize |q - p - m| = w3 at *
      clear g3 g2 low1 t2
      norm_num at *
      linarith
  have split : ∀ p q r v : ℚ, |p - r| ≤ e → |q - v| ≤ e → v - r = m → |q - p - m| ≤ 2 * e := by
    intro p q r v hp hq hm
    rw [abs_le] at *
    constructor <;> linarith [hp.1, hp.2, hq.1, hq.2]
  cases L with
  | none =>
    cases R with
    | none => exact Or.inl ⟨rfl, rfl, rfl⟩
    | some b =>
      obtain ⟨x, rfl, x1, x2⟩ := hR _ rfl
      right
      obtain ⟨g, g1, g2⟩ := oneSide y x hy x1 (split _ _ _ _ hyc x2 (by ring))
      exact ⟨g, congrArg some g1, g2⟩
  | some a =>
    obtain ⟨p, rfl, p1, p2⟩ := hL _ rfl
    right
    cases R with
    | none =>
      obtain ⟨g, g1, g2⟩ := oneSide p y p1 hy (split _ _ _ _ p2 hyc (by ring))
      exact ⟨g, congrArg some g1, g2⟩
    | some b =>
      obtain ⟨x, rfl, x1, x2⟩ := hR _ rfl
      obtain ⟨t, t1, t2, t3⟩ := difference_of p1 x1 hD
      obtain ⟨g, g1, g2, g3⟩ := quotient (z := 2 * s) (T := 2 * m) (by linarith) t2 (by norm_num at *; linarith)
      rw [mul_div_mul_left _ _ (two_ne_zero)] at g3
      rw [show ∀ w : ℚ, w / (2 * s) = w / 2 / s from fun w => (div_div _ _ _).symm] at g2 g3
      refine ⟨g, ?_, g2.trans (add_le_add (div_le_div_of_nonneg_right ?_ h0.le) le_rfl),
        g3.trans (add_le_add (div_le_div_of_nonneg_right ?_ h0.le) le_rfl)⟩
      · show some (float32.div (float32.sub (.fin x) (.fin p)) (.fin (rnd32 (2 * s)))) = _
        rw [e2, t1, g1]
      · clear g3 g2 t3 low1
        norm_num at *
        linarith
      · have h4 : |t - 2 * m| ≤ D / 2 ^ 23 + 1 / 2 ^ 150 + 2 * e := by
          rw [abs_le] at *
          constructor <;> linarith [t3.1, t3.2, p2.1, p2.2, x2.1, x2.2]
        generalize |t - 2 * m| = w1 at *
        clear g3 g2 low1 t2 t3
        norm_num at *
        linarith

/-- The rounded sum of a value and a scalar product. -/
theorem dot_err {y a b c a' b' c' M : ℚ} (hy : |y| ≤ M) (ha : |a * a'| ≤ M) (hb : |b * b'| ≤ M) (hc : |c * c'| ≤ M) (hM : M ≤ 2 ^ 100) :
    ∃ q, float32.add (.fin y) (float32.dot ⟨.fin a, .fin b, .fin c⟩ ⟨.fin a', .fin b', .fin c'⟩) = .fin q ∧
      |q - (y + (a * a' + b * b' + c * c'))| ≤ M / 2 ^ 19 + 1 / 2 ^ 140 := by
  have hM0 : 0 ≤ M := le_trans (abs_nonneg _) hy
  have big : ∀ x : ℚ, |x| ≤ 16 * M + 1 → float32.rnd x = .fin (rnd32 x) := fun x hx => rnd_fin (by
    refine hx.trans ?_
    norm_num at *
    linarith)
  have err : ∀ x N : ℚ, |x| ≤ N → N ≤ 16 * M + 1 → float32.rnd x = .fin (rnd32 x) ∧ |rnd32 x - x| ≤ N / 2 ^ 24 + 1 / 2 ^ 150 := by
    intro x N hx hN
    refine ⟨big x (hx.trans hN), ?_⟩
    have h := rnd32_err x
    rw [u_eq, eta_eq] at h
    have := mul_le_mul_of_nonneg_left hx (show (0 : ℚ) ≤ 1 / 2 ^ 24 by positivity)
    refine h.trans (le_trans (add_le_add this le_rfl) (le_of_eq ?_))
    ring
  have tri : ∀ x z E : ℚ, |x - z| ≤ E → |x| ≤ |z| + E := by
    intro x z E h
    have := abs_sub_le x z 0
    rw [sub_zero, sub_zero] at this
    linarith
  obtain ⟨r1, E1⟩ := err _ _ ha (by linarith)
  obtain ⟨r2, E2⟩ := err _ _ hb (by linarith)
  obtain ⟨r3, E3⟩ := err _ _ hc (by linarith)
  have small : M / 2 ^ 24 ≤ M / 16 := div_le_div_of_nonneg_left hM0 (by norm_num) (by norm_num)
  have tiny : (1 : ℚ) / 2 ^ 150 ≤ 1 / 64 * (1 / 2 ^ 142) := by norm_num
  have tiny2 : (1 : ℚ) / 2 ^ 142 ≤ 1 / 16 := by norm_num
  have n1 := tri _ _ _ E1
  have n2 := tri _ _ _ E2
  have n3 := tri _ _ _ E3
  obtain ⟨r4, E4⟩ := err (rnd32 (a * a') + rnd32 (b * b')) (4 * M + 1 / 2 ^ 142) ((abs_add_le _ _).trans (by linarith)) (by linarith)
  have n4 := tri _ _ _ E4
  have m4 := abs_add_le (rnd32 (a * a')) (rnd32 (b * b'))
  obtain ⟨r5, E5⟩ := err (rnd32 (rnd32 (a * a') + rnd32 (b * b')) + rnd32 (c * c')) (7 * M + 1 / 2 ^ 142) ((abs_add_le _ _).trans (by linarith))
    (by linarith)
  have n5 := tri _ _ _ E5
  have m5 := abs_add_le (rnd32 (rnd32 (a * a') + rnd32 (b * b'))) (rnd32 (c * c'))
  obtain ⟨r6, E6⟩ := err (y + rnd32 (rnd32 (rnd32 (a * a') + rnd32 (b * b')) + rnd32 (c * c'))) (9 * M + 1 / 2 ^ 142)
    ((abs_add_le _ _).trans (by linarith)) (by linarith)
  refine ⟨rnd32 (y + rnd32 (rnd32 (rnd32 (a * a') + rnd32 (b * b')) + rnd32 (c * c'))), ?_, ?_⟩
  · show float32.add (.fin y) (float32.add (float32.add (float32.rnd (a * a')) (float32.rnd (b * b'))) (float32.rnd (c * c'))) = _
    rw [r1, r2, r3]
    show float32.add (.fin y) (float32.add (float32.rnd (rnd32 (a * a') + rnd32 (b * b'))) (.fin (rnd32 (c * c')))) = _
    rw [r4]
    show float32.add (.fin y) (float32.rnd (rnd32 (rnd32 (a * a') + rnd32 (b * b')) + rnd32 (c * c'))) = _
    rw [r5]
    exact r6
  · generalize rnd32 (y + rnd32 (rnd32 (rnd32 (a * a') + rnd32 (b * b')) + rnd32 (c * c'))) = q6 at *
    generalize rnd32 (rnd32 (rnd32 (a * a') + rnd32 (b * b')) + rnd32 (c * c')) = q5 at *
    generalize rnd32 (rnd32 (a * a') + rnd32 (b * b')) = q4 at *
    generalize rnd32 (a * a') = q1 at *
    generalize rnd32 (b * b') = q2 at *
    generalize rnd32 (c * c') = q3 at *
    clear n1 n2 n3 n4 m4 n5 m5 r1 r2 r3 r4 r5 r6 hy ha hb hc err tri big
    rw [abs_le] at *
    obtain ⟨a1, b1⟩ := E1
    obtain ⟨a2, b2⟩ := E2
    obtain ⟨a3, b3⟩ := E3
    obtain ⟨a4, b4⟩ := E4
    obtain ⟨a5, b5⟩ := E5
    obtain ⟨a6, b6⟩ := E6
    norm_num at *
    constructor <;> linarith

/-! ### Where the samples come from -/

/-- `pos - offset`. -/
theorem shifted_back {s : ℚ} (hs : Size s) (pos : Pt) (i : Fin 3) :
    Vec3.map₂ (fun p o => rnd32 (p - o)) pos (Interp.axisOffset i s) = shifted pos i (rnd32 (-1 * s)) := by
  rw [rnd_sign hs (Or.inr rfl)]
  unfold shifted
  fin_cases i <;> simp [Vec3.map₂, Interp.axisOffset, sub_eq_add_neg]

/-- The block and the voxel of a position well inside voxel `g`. -/
theorem inside_full {l : VLayer V} (sh : Shaped l) (hs : Size l.cfg.voxelSize) (hS : l.cfg.voxelSize ≤ 2 ^ 80) {k : ℕ} (hk : k ≤ 10)
    (hn : l.cfg.vps = 2 ^ k) {pos : Pt} {X T : ℚ} (hX : WithinVoxels l.cfg.voxelSize X pos) (hX2 : X ≤ 2 ^ 19) {g : Idx}
    (hT : lookupTol X (2 ^ k) < T) (hg : NearVoxel l.cfg.voxelSize (-T) g pos) :
    ∃ b v : Idx, InBlock l.cfg.vps v ∧ blockIndex l.cfg.voxelSize l.cfg.vps pos = .ok b ∧
      IndexF.truncatedVoxelIndex (IndexF.originPoint b (blockSize l.cfg.voxelSize l.cfg.vps)) l.cfg.voxelSize l.cfg.vps pos = .ok v ∧
      globalIndex l.cfg.vps b v = g ∧ voxelAtCoords l pos = .ok (content l g) := by
  obtain ⟨b, v, h1, h2, h3, h4, h5⟩ := nearest_full sh hs hS hk hn hX hX2
  have one : ∀ (c c' : ℤ) (q : ℚ), ((c : ℚ) - -T ≤ q ∧ q ≤ c + 1 + -T) → ((c' : ℚ) - lookupTol X (2 ^ k) ≤ q ∧ q ≤ c' + 1 + lookupTol X (2 ^ k)) → c' = c := by
    rintro c c' q ⟨a1, a2⟩ ⟨b1, b2⟩
    have e1 : (c' : ℚ) < c + 1 := by linarith
    have e2 : (c : ℚ) < c' + 1 := by linarith
    have f1 : c' < c + 1 := by exact_mod_cast e1
    have f2 : c < c' + 1 := by exact_mod_cast e2
    omega
  have : globalIndex l.cfg.vps b v = g := Vec3.ext (one _ _ _ hg.1 h4.1) (one _ _ _ hg.2.1 h4.2.1) (one _ _ _ hg.2.2 h4.2.2)
  exact ⟨b, v, h1, h2, h3, this, by rw [h5, this]⟩

theorem side_distance {A : Access V} {l : VLayer V} {p : Pt} {g : Idx} (h : voxelAtCoords l p = .ok (content l g)) :
    sideDistance A l p = .ok (reading l A.obs A.sdf g) := by
  unfold sideDistance getNearestDistance reading
  rw [h]
  cases content l g with
  | none => rfl
  | some x => cases ho : A.obs x <;> simp [Outcome.bind_ok, ho, Outcome.pure_eq]

/-- One axis of the fall-back gradient, well inside a voxel. -/
theorem fallback_axis {l : VLayer V} (sh : Shaped l) (hs : Size l.cfg.voxelSize) (hS : l.cfg.voxelSize ≤ 2 ^ 80) {k : ℕ} (hk : k ≤ 10)
    (hn : l.cfg.vps = 2 ^ k) (A : Access V) {pos : Pt} {X T : ℚ} (hX : WithinVoxels l.cfg.voxelSize X pos) (hX2 : X ≤ 2 ^ 18) {g : Idx}
    (hT : lookupTol (X + 2) (2 ^ k) + (X + 2) / 2 ^ 24 < T) (hg : NearVoxel l.cfg.voxelSize (-T) g pos) (nn : Fl) (i : Fin 3) :
    fallbackAxis A l pos nn i =
      .ok (sideQuotient l.cfg.voxelSize nn (reading l A.obs A.sdf (g - axisStep i)) (reading l A.obs A.sdf (g + axisStep i))) := by
  have up := inside_sample sh hs hS hk hn hX hX2 hT hg i (n := 1) (Or.inl rfl)
  have dn := inside_sample sh hs hS hk hn hX hX2 hT hg i (n := -1) (Or.inr rfl)
  have e : (g + ⟨1 * (axisStep i).x, 1 * (axisStep i).y, 1 * (axisStep i).z⟩ : Idx) = g + axisStep i := by
    simp only [one_mul]
  have e' : (g + ⟨-1 * (axisStep i).x, -1 * (axisStep i).y, -1 * (axisStep i).z⟩ : Idx) = g - axisStep i := by
    ext <;> simp only [Vec3.add_x, Vec3.add_y, Vec3.add_z, Vec3.sub_x, Vec3.sub_y, Vec3.sub_z] <;> ring
  rw [e] at up
  rw [e'] at dn
  have s1 : rnd32 (((1 : ℤ) : ℚ) * l.cfg.voxelSize) = l.cfg.voxelSize := by
    have := rnd_sign hs (Or.inl rfl : (1 : ℚ) = 1 ∨ (1 : ℚ) = -1)
    push_cast
    rw [this, one_mul]
  rw [s1] at up
  have s2 : (((-1 : ℤ) : ℚ)) = -1 := by norm_num
  rw [s2] at dn
  unfold fallbackAxis
  rw [shifted_back hs, side_distance dn, Outcome.bind_ok, side_distance up, Outcome.bind_ok]
  rfl

theorem fallback_none {A : Access V} {l : VLayer V} {pos : Pt} {nn : Fl} {q : Fin 3 → Option Fl} (h : ∀ i, fallbackAxis A l pos nn i = .ok (q i))
    (hn : ∃ i, q i = none) : fallbackGradient A l pos nn = .ok none := by
  unfold fallbackGradient
  rw [h 0, Outcome.bind_ok]
  cases h0 : q 0 with
  | none => rfl
  | some x =>
    show (fallbackAxis A l pos nn 1 >>= _) = _
    rw [h 1, Outcome.bind_ok]
    cases h1 : q 1 with
    | none => rfl
    | some y =>
      show (fallbackAxis A l pos nn 2 >>= _) = _
      rw [h 2, Outcome.bind_ok]
      have : q 2 = none := by
        obtain ⟨i, hi⟩ := hn
        fin_cases i
        · exact absurd (h0.symm.trans hi) (by simp)
        · exact absurd (h1.symm.trans hi) (by simp)
        · exact hi
      rw [this]
      rfl

theorem fallback_some {A : Access V} {l : VLayer V} {pos : Pt} {nn : Fl} {q : Fin 3 → Fl} (h : ∀ i, fallbackAxis A l pos nn i = .ok (some (q i))) :
    fallbackGradient A l pos nn = .ok (some ⟨q 0, q 1, q 2⟩) := by
  unfold fallbackGradient
  rw [h 0, Outcome.bind_ok]
  show (fallbackAxis A l pos nn 1 >>= _) = _
  rw [h 1, Outcome.bind_ok]
  show (fallbackAxis A l pos nn 2 >>= _) = _
  rw [h 2, Outcome.bind_ok]
  rfl

/-- Where a position can be interpolated, its voxel has a neighbour along each axis. -/
theorem interp_neighbours {l : VLayer V} (sh : Shaped l) (hs : Size l.cfg.voxelSize) (hS : l.cfg.voxelSize ≤ 2 ^ 80) {k : ℕ} (hk : k ≤ 10)
    (hn : l.cfg.vps = 2 ^ k) (A : Access V) {pos : Pt} {X T : ℚ} (hX : WithinVoxels l.cfg.voxelSize X pos) (hX2 : X ≤ 2 ^ 17) {g : Idx}
    (hT : 0 < T) (hg : NearVoxel l.cfg.voxelSize (-T) g pos) (rows : ℕ → Order) (last : Order) (out : Fl) :
    getInterpDistance rows last A l pos out = .ok (false, out) ∨ (∃ v, getInterpDistance rows last A l pos out = .ok (true, v)) ∧
      ∀ i, reading l A.obs A.sdf (g - axisStep i) ≠ none ∨ reading l A.obs A.sdf (g + axisStep i) ≠ none := by
  obtain ⟨-, hN1, hN2⟩ := size_block hs hS hk
  have hX0 : 0 ≤ X := le_trans (abs_nonneg _) hX.1
  obtain ⟨g', o, h1, -, -, h4⟩ := query sh hs hS hk hn A.obs hX (hX2.trans (by norm_num))
  have small : u * (2 * X + 2 * 2 ^ k + 8) ≤ 1 / 8 := by
    rw [u_eq]
    clear h1 hg
    generalize (2 : ℚ) ^ k = N at *
    norm_num at *
    linarith
  generalize u * (2 * X + 2 * 2 ^ k + 8) = W at *
  unfold getInterpDistance
  rw [h4]
  cases hgath : Interp.gather l A.obs g' Interp.corners with
  | none => exact Or.inl rfl
  | some xs =>
    right
    refine ⟨⟨_, rfl⟩, ?_⟩
    have one : ∀ (c c' : ℤ) (q : ℚ), ((c : ℚ) - -T ≤ q ∧ q ≤ c + 1 + -T) → (-W ≤ q - ((c' : ℚ) + 1 / 2) ∧ q - ((c' : ℚ) + 1 / 2) ≤ 1 + W) →
        c - c' = 0 ∨ c - c' = 1 := by
      rintro c c' q ⟨a1, a2⟩ ⟨b1, b2⟩
      have e1 : (c' : ℚ) < c + 1 := by linarith
      have e2 : (c : ℚ) < c' + 2 := by linarith
      have f1 : c' < c + 1 := by exact_mod_cast e1
      have f2 : c < c' + 2 := by exact_mod_cast e2
      omega
    have ox := one _ _ _ hg.1 h1.1
    have oy := one _ _ _ hg.2.1 h1.2.1
    have oz := one _ _ _ hg.2.2 h1.2.2
    have seen : ∀ c : Idx, IsCorner c → reading l A.obs A.sdf (g' + c) ≠ none := by
      intro c hc
      obtain ⟨x, x1, x2⟩ := Interp.gather_inv _ _ hgath c (Interp.corner_mem hc)
      unfold reading
      rw [x1]
      simp [x2]
    intro i
    have at' : ∀ h : Idx, IsCorner (h - g') → reading l A.obs A.sdf h ≠ none := by
      intro h hc
      have := seen _ hc
      have e : g' + (h - g') = h := by ext <;> simp
      rwa [e] at this
    fin_cases i
    · rcases ox with h | h
      · refine Or.inr (at' _ ⟨?_, ?_, ?_⟩) <;> simp [axisStep] <;> omega
      · refine Or.inl (at' _ ⟨?_, ?_, ?_⟩) <;> simp [axisStep] <;> omega
    · rcases oy with h | h
      · refine Or.inr (at' _ ⟨?_, ?_, ?_⟩) <;> simp [axisStep] <;> omega
      · refine Or.inl (at' _ ⟨?_, ?_, ?_⟩) <;> simp [axisStep] <;> omega
    · rcases oz with h | h
      · refine Or.inr (at' _ ⟨?_, ?_, ?_⟩) <;> simp [axisStep] <;> omega
      · refine Or.inl (at' _ ⟨?_, ?_, ?_⟩) <;> simp [axisStep] <;> omega

/-- The interpolated gradient of a plane, where there is one. -/
theorem data_gradient {l : VLayer V} (sh : Shaped l) (hs : Size l.cfg.voxelSize) (hS : l.cfg.voxelSize ≤ 2 ^ 80) {k : ℕ} (hk : k ≤ 10)
    (hn : l.cfg.vps = 2 ^ k) (A : Access V) {pos : Pt} {X : ℚ} (hX : WithinVoxels l.cfg.voxelSize X pos) (hX2 : X ≤ 2 ^ 17)
    {rows : ℕ → Order} {last : Order} (hrows : ∀ i < 8, Complete (rows i)) (hlast : Complete last) {a : Pt} {k0 e D : ℚ} (hD : D ≤ 2 ^ 27)
    (hp : PlaneData l A.obs A.sdf a k0 e D (9 / 4) pos) (out : Vec3 Fl) {bi : Idx} {b : Block ℚ V}
    (hbi : IndexF.blockIndex l.cfg.voxelSize l.cfg.vps pos = .ok bi) (hb : block? l bi = some b) :
    (∃ v, getGradient rows last A l true pos out = .ok (false, v)) ∨
    ∃ v : Pt, getGradient rows last A l true pos out = .ok (true, v.map .fin) ∧
      ∀ i, |component v i - component a i| ≤ (D / 2 ^ 13 + (sumAbs a * l.cfg.voxelSize + 2 * e) * ((9 * X + 8 * 2 ^ k + 70) / 2 ^ 24) + 3 / 2 * e +
        1 / 2 ^ 130) / l.cfg.voxelSize + 1 / 2 ^ 140 := by
  have H := data_axis sh hs hS hk hn A hX hX2 hrows hlast hD hp
  by_cases hf : ∃ i t, gradAxis rows last A l true pos i = .ok (false, t)
  · left
    obtain ⟨i, t, ht⟩ := hf
    have : ∀ i, ∃ r, gradAxis rows last A l true pos i = .ok r := by
      intro i
      rcases H i with ⟨t, h⟩ | ⟨t, _, h, _⟩ <;> exact ⟨_, h⟩
    choose r hr using this
    refine gradient_false out hbi hr ⟨i, ?_⟩
    rw [hr] at ht
    rw [Outcome.ok.inj ht]
  · right
    have H' := fun i => (H i).resolve_left (fun ⟨t, h⟩ => hf ⟨i, t, h⟩)
    choose t g h1 h2 h3 using H'
    refine ⟨⟨g 0, g 1, g 2⟩, ?_, ?_⟩
    · rw [gradient_ok hbi hb (t := fun i => .fin (t i)) h1, h2, h2, h2]
      rfl
    · intro i
      have := h3 i
      fin_cases i <;> simpa [affine, Interp.axisOffset, component] using this

/-! ### Extrapolation -/

/-- The offset of a position from the centre of its voxel, in voxels. -/
theorem offset_units {s : ℚ} (hs : Size s) (hS : s ≤ 2 ^ 80) {k : ℕ} (hk : k ≤ 10) {b v : ℤ} (hv0 : 0 ≤ v) (hv1 : v < 2 ^ k) {p X : ℚ}
    (hX : |p / s| ≤ X) (hX2 : X ≤ 2 ^ 17) (hp : |p / s - ((b : ℚ) * 2 ^ k + v + 1 / 2)| ≤ 1 / 2) :
    |rnd32 (p - rnd32 (origin1 b (2 ^ k * s) + center1 v s)) / s - (p / s - ((b : ℚ) * 2 ^ k + v + 1 / 2))| ≤ (2 * X + 2 * 2 ^ k + 8) / 2 ^ 24 ∧
      |rnd32 (p - rnd32 (origin1 b (2 ^ k * s) + center1 v s)) / s| ≤ 5 / 8 := by
  obtain ⟨-, hN1, hN2⟩ := size_block hs hS hk
  have h0 := hs.pos
  have hX0 : 0 ≤ X := le_trans (abs_nonneg _) hX
  have hY : |(b : ℚ) * 2 ^ k + v| ≤ X + 1 := by
    rw [abs_le] at *
    constructor <;> linarith [hX.1, hX.2, hp.1, hp.2]
  have hc := center_units hs hS hk hv0 hv1 hY (by norm_num at *; linarith)
  generalize rnd32 (origin1 b (2 ^ k * s) + center1 v s) = C at *
  have e : p - C = (p / s - C / s) * s := by field_simp
  have hr := rnd_units hs (p / s - C / s)
  rw [← e] at hr
  rw [u_eq] at hc hr
  have hw : |p / s - C / s| ≤ 1 := by
    rw [abs_le] at *
    generalize (2 : ℚ) ^ k = N at *
    norm_num at *
    constructor <;> linarith [hc.1, hc.2, hp.1, hp.2]
  generalize rnd32 (p - C) / s = d at *
  generalize |p / s - C / s| = w at *
  generalize C / s = c at *
  have main : |d - (p / s - ((b : ℚ) * 2 ^ k + v + 1 / 2))| ≤ (2 * X + 2 * 2 ^ k + 8) / 2 ^ 24 := by
    generalize (b : ℚ) * 2 ^ k + v + 1 / 2 = m at *
    generalize (2 : ℚ) ^ k = N at *
    clear hp hX hY e
    rw [abs_le] at *
    norm_num at *
    constructor <;> linarith [hc.1, hc.2, hr.1, hr.2]
  refine ⟨main, ?_⟩
  generalize p / s - ((b : ℚ) * 2 ^ k + v + 1 / 2) = m at *
  generalize (2 : ℚ) ^ k = N at *
  clear hc hr hX hY e
  rw [abs_le] at *
  norm_num at *
  constructor <;> linarith [main.1, main.2, hp.1, hp.2]

/-- One term of the extrapolation. -/
theorem extrapolated_term {s W G F a g d o : ℚ} (h0 : 0 < s) (hd : |d / s - o| ≤ W) (hd2 : |d / s| ≤ 5 / 8) (hg : |g| ≤ G) (hga : |g - a| ≤ F) :
    |d * g| ≤ 5 / 8 * (s * G) ∧ |d * g - a * (o * s)| ≤ 5 / 8 * (s * F) + |a| * s * W := by
  obtain ⟨t, rfl⟩ : ∃ t, d = t * s := ⟨d / s, by field_simp⟩
  rw [mul_div_assoc, div_self h0.ne', mul_one] at hd hd2
  have e1 : t * s * g = t * (s * g) := by ring
  have hG : 0 ≤ G := le_trans (abs_nonneg _) hg
  have hF : 0 ≤ F := le_trans (abs_nonneg _) hga
  constructor
  · rw [e1, abs_mul, abs_mul, abs_of_pos h0]
    exact mul_le_mul hd2 (mul_le_mul_of_nonneg_left hg h0.le) (by positivity) (by norm_num)
  · have e2 : t * s * g - a * (o * s) = t * (s * (g - a)) + a * s * (t - o) := by ring
    rw [e2]
    refine (abs_add_le _ _).trans (add_le_add ?_ ?_)
    · rw [abs_mul, abs_mul, abs_of_pos h0]
      exact mul_le_mul hd2 (mul_le_mul_of_nonneg_left hga h0.le) (by positivity) (by norm_num)
    · rw [abs_mul, abs_mul, abs_of_pos h0]
      exact mul_le_mul_of_nonneg_left hd (by positivity)

/-- The extrapolated distance. -/
theorem extrapolated_err {l : VLayer V} (hs : Size l.cfg.voxelSize) (hS : l.cfg.voxelSize ≤ 2 ^ 80) {k : ℕ} (hk : k ≤ 10)
    (hn : l.cfg.vps = 2 ^ k) {pos : Pt} {X : ℚ} (hX : WithinVoxels l.cfg.voxelSize X pos) (hX2 : X ≤ 2 ^ 17) {b v : Idx} (hin : InBlock l.cfg.vps v)
    (htr : IndexF.truncatedVoxelIndex (IndexF.originPoint b (blockSize l.cfg.voxelSize l.cfg.vps)) l.cfg.voxelSize l.cfg.vps pos = .ok v)
    (hg : Around l.cfg.voxelSize (1 / 2) pos (globalIndex l.cfg.vps b v)) {y e k0 G F M : ℚ} {a w : Pt} (hy : |y| ≤ M)
    (hye : |y - affine a k0 (voxelCenter l.cfg.voxelSize (globalIndex l.cfg.vps b v))| ≤ e) (hG : ∀ i, |component w i| ≤ G)
    (hF : ∀ i, |component w i - component a i| ≤ F) (hM : 5 / 8 * (l.cfg.voxelSize * G) ≤ M) (hM2 : M ≤ 2 ^ 100) :
    ∃ q, extrapolated l b l.cfg.vps pos (.fin y) (w.map .fin) = .ok (.fin q) ∧
      |q - affine a k0 pos| ≤ M / 2 ^ 19 + 1 / 2 ^ 140 + e + 15 / 8 * (l.cfg.voxelSize * F) +
        sumAbs a * l.cfg.voxelSize * ((2 * X + 2 * 2 ^ k + 8) / 2 ^ 24) := by
  have h0 := hs.pos
  have hbs := blockSize_eq hs (k := k) (by omega)
  have hgi : globalIndex l.cfg.vps b v = ⟨b.x * 2 ^ k + v.x, b.y * 2 ^ k + v.y, b.z * 2 ^ k + v.z⟩ := by
    rw [hn]
    unfold globalIndex
    ext <;> simp
  rw [hgi] at hg hye
  rw [hn] at hin
  obtain ⟨gx, gy, gz⟩ := hg
  simp only at gx gy gz
  push_cast at gx gy gz
  obtain ⟨x1, x2⟩ := offset_units hs hS hk hin.1.1 (by exact_mod_cast hin.1.2) hX.1 hX2 gx
  obtain ⟨y1, y2⟩ := offset_units hs hS hk hin.2.1.1 (by exact_mod_cast hin.2.1.2) hX.2.1 hX2 gy
  obtain ⟨z1, z2⟩ := offset_units hs hS hk hin.2.2.1 (by exact_mod_cast hin.2.2.2) hX.2.2 hX2 gz
  obtain ⟨p1, p2⟩ := extrapolated_term h0 x1 x2 (hG 0) (hF 0)
  obtain ⟨q1, q2⟩ := extrapolated_term h0 y1 y2 (hG 1) (hF 1)
  obtain ⟨r1, r2⟩ := extrapolated_term h0 z1 z2 (hG 2) (hF 2)
  obtain ⟨q, hq1, hq2⟩ := dot_err hy (p1.trans hM) (q1.trans hM) (r1.trans hM) hM2
  refine ⟨q, ?_, ?_⟩
  · unfold extrapolated
    simp only
    rw [htr, Outcome.bind_ok, hn, hbs, ← hq1]
    rfl
  · simp only [component] at *
    have ec : affine a k0 pos = affine a k0 (voxelCenter l.cfg.voxelSize ⟨b.x * 2 ^ k + v.x, b.y * 2 ^ k + v.y, b.z * 2 ^ k + v.z⟩) +
        (a.x * ((pos.x / l.cfg.voxelSize - ((b.x : ℚ) * 2 ^ k + v.x + 1 / 2)) * l.cfg.voxelSize) +
        a.y * ((pos.y / l.cfg.voxelSize - ((b.y : ℚ) * 2 ^ k + v.y + 1 / 2)) * l.cfg.voxelSize) +
        a.z * ((pos.z / l.cfg.voxelSize - ((b.z : ℚ) * 2 ^ k + v.z + 1 / 2)) * l.cfg.voxelSize)) := by
      simp only [affine, voxelCenter]
      push_cast
      field_simp
      ring
    rw [ec]
    have es : sumAbs a * l.cfg.voxelSize * ((2 * X + 2 * 2 ^ k + 8) / 2 ^ 24) = |a.x| * l.cfg.voxelSize * ((2 * X + 2 * 2 ^ k + 8) / 2 ^ 24) +
        |a.y| * l.cfg.voxelSize * ((2 * X + 2 * 2 ^ k + 8) / 2 ^ 24) + |a.z| * l.cfg.voxelSize * ((2 * X + 2 * 2 ^ k + 8) / 2 ^ 24) := by
      unfold sumAbs
      ring
    rw [es]
    generalize affine a k0 (voxelCenter l.cfg.voxelSize ⟨b.x * 2 ^ k + v.x, b.y * 2 ^ k + v.y, b.z * 2 ^ k + v.z⟩) = c at *
    generalize |a.x| * l.cfg.voxelSize * ((2 * X + 2 * 2 ^ k + 8) / 2 ^ 24) = t1 at *
    generalize |a.y| * l.cfg.voxelSize * ((2 * X + 2 * 2 ^ k + 8) / 2 ^ 24) = t2 at *
    generalize |a.z| * l.cfg.voxelSize * ((2 * X + 2 * 2 ^ k + 8) / 2 ^ 24) = t3 at *
    generalize a.x * ((pos.x / l.cfg.voxelSize - ((b.x : ℚ) * 2 ^ k + v.x + 1 / 2)) * l.cfg.voxelSize) = m1 at *
    generalize a.y * ((pos.y / l.cfg.voxelSize - ((b.y : ℚ) * 2 ^ k + v.y + 1 / 2)) * l.cfg.voxelSize) = m2 at *
    generalize a.z * ((pos.z / l.cfg.voxelSize - ((b.z : ℚ) * 2 ^ k + v.z + 1 / 2)) * l.cfg.voxelSize) = m3 at *
    rw [abs_le] at *
    constructor <;> linarith [hq2.1, hq2.2, p2.1, p2.2, q2.1, q2.2, r2.1, r2.2, hye.1, hye.2]

end Vox.InterpF
