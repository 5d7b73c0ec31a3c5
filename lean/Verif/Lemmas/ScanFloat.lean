/-
A scan in `float`: the voxel of a measured point receives its weight.
-/
import Verif.Lemmas.RayMeasured
import Verif.Lemmas.TsdfRay

namespace Vox.RayEnds

open Fl Spec Ieee Ray Tsdf
open IndexF (u eta rnd32_err rnd32_int)
open RoundErr (u_eq eta_eq rnd_fin)

/-- The weight of a measurement is a `float`. -/
theorem voxelWeight_rnd {cfg : Config} {z : Fl} {w : ℚ} (h : voxelWeight float32 cfg z = .fin w) : float32.rnd w = .fin w := by
  have h1 : float32.rnd 1 = .fin 1 := by decide +kernel
  have hdiv : ∀ a b : ℚ, ∀ w, float32.div (.fin a) (.fin b) = .fin w → float32.rnd w = .fin w := by
    intro a b w h
    by_cases hb : b = 0
    · subst hb
      simp only [Arith.div, if_true] at h
      unfold infOfSign at h
      split_ifs at h
    · simp only [Arith.div, if_neg hb] at h
      exact float32_faithful.idem _ _ h
  unfold voxelWeight at h
  split_ifs at h with h2
  · rw [← Fl.fin.inj h]
    exact h1
  · simp only at h
    split_ifs at h with h4
    · cases hm : float32.mul (Fl.abs z) (Fl.abs z) with
      | fin q =>
        rw [hm] at h
        exact hdiv _ _ _ h
      | nan => rw [hm] at h; simp [Arith.div] at h
      | pinf => rw [hm] at h; simp [Arith.div] at h; rw [← h]; exact float32_faithful.zero
      | ninf => rw [hm] at h; simp [Arith.div] at h; rw [← h]; exact float32_faithful.zero
    · rw [← Fl.fin.inj h]
      exact float32_faithful.zero

/-- One observation of weight 1e-6 or more among others suffices for the voxel to count as observed, whatever the rounding. -/
theorem observed_round {A : Arith} (hA : A.Faithful) {cfg : Config} {M x : ℚ} {vs : Fl} (hM : cfg.maxWeight = .fin M) (hrM : A.rnd M = .fin M) (hM0 : 1 / 1000000 ≤ M)
    (hF : Fl.le (.fin 0) cfg.sparsityFactor = true) {os : List Obs} (hos : ∀ o ∈ os, Fl.le (.fin 0) o.weight = true) {o : Obs} (ho : o ∈ os)
    (hu : updatedWeight A cfg vs (computeDistance A o.origin o.pointG o.center) o.weight = .fin x) (hrx : A.rnd x = .fin x)
    (hx0 : 1 / 1000000 ≤ x) {v v' : TsdfVoxel Fl} {W : ℚ} (hW : v.weight = .fin W) (hrW : A.rnd W = .fin W) (hW0 : 0 ≤ W) (hWM : W ≤ M)
    (h : integrate A cfg vs os v = .ok v') : ∃ W', v'.weight = .fin W' ∧ 1 / 1000000 ≤ W' := by
  obtain ⟨os1, os2, rfl⟩ := List.append_of_mem ho
  rw [TsdfScan.integrate_append, Outcome.bind_eq_ok] at h
  obtain ⟨v1, h1, h2⟩ := h
  obtain ⟨v2, h3, h4⟩ := Outcome.bind_eq_ok.1 (show (updateVoxel A cfg vs o v1 >>= integrate A cfg vs os2) = _ from h2)
  obtain ⟨W1, e1, e2, e3⟩ := C24_weight_monotone A hA cfg M hM hrM hF vs os1 (fun o ho => hos o (by simp [ho])) v v1 W hW hrW hWM h1
  have hge : Fl.le (.fin x) (A.rnd (W1 + x)) = true := by
    have := hA.mono x (W1 + x) (by linarith)
    rwa [hrx] at this
  have hw2 : ∃ W2, v2.weight = .fin W2 ∧ 1 / 1000000 ≤ W2 ∧ W2 ≤ M ∧ A.rnd W2 = .fin W2 := by
    unfold updateVoxel at h3
    simp only [hu] at h3
    unfold applyUpdate at h3
    simp only [e1, Arith.add] at h3
    cases hr : A.rnd (W1 + x) with
    | nan => rw [hr] at hge; simp [Fl.le] at hge
    | ninf => rw [hr] at hge; simp [Fl.le] at hge
    | pinf =>
      rw [hr] at h3
      rw [if_neg (by simp [Fl.lt, kFloatEpsilon])] at h3
      obtain ⟨c, -, h3⟩ := Outcome.bind_eq_ok.1 h3
      refine ⟨M, ?_, hM0, le_rfl, hrM⟩
      rw [← Outcome.ok.inj h3]
      show Fl.stdMin cfg.maxWeight _ = _
      rw [hM]
      simp [Fl.stdMin, Fl.lt]
    | fin y =>
      rw [hr] at h3 hge
      simp only [Fl.le, decide_eq_true_eq] at hge
      rw [if_neg (by simp only [Fl.lt, kFloatEpsilon, decide_eq_true_eq, not_lt]; linarith)] at h3
      obtain ⟨c, -, h3⟩ := Outcome.bind_eq_ok.1 h3
      have hy := hA.idem _ _ hr
      have e : v2.weight = Fl.stdMin cfg.maxWeight (.fin y) := by rw [← Outcome.ok.inj h3]
      rw [hM] at e
      simp only [Fl.stdMin, Fl.lt, decide_eq_true_eq] at e
      split_ifs at e with hc
      · exact ⟨y, e, by linarith, hc.le, hy⟩
      · exact ⟨M, e, hM0, le_rfl, hrM⟩
  obtain ⟨W2, f1, f2, f3, f4⟩ := hw2
  obtain ⟨W', e4, e5, -⟩ := C24_weight_monotone A hA cfg M hM hrM hF vs os2 (fun o ho => hos o (by simp [ho])) v2 v' W2 f1 f4 f3 h4
  exact ⟨W', e4, by linarith⟩

/-! ### The distance at the voxel of the measured point -/

/-- The computed centre of a voxel, one component. -/
theorem center_axis {g : ℤ} {s X : ℚ} (hs : 1 / 2 ^ 20 ≤ s) (hs2 : s ≤ 2 ^ 10) (hX : X ≤ 2 ^ 13) (hg : |(g : ℚ)| ≤ X) :
    ∃ c, float32.mul (float32.add (float32.rnd g) (.fin (1 / 2))) (.fin s) = .fin c ∧ |c - (g + 1 / 2) * s| ≤ 1 / 500 * s := by
  have hs0 : 0 < s := lt_of_lt_of_le (by norm_num) hs
  have hg' : |g| ≤ 2 ^ 24 := by
    have : ((|g| : ℤ) : ℚ) ≤ ((2 ^ 24 : ℤ) : ℚ) := by
      push_cast
      exact hg.trans (hX.trans (by norm_num))
    exact_mod_cast this
  rw [rnd_fin (hg.trans (hX.trans (by norm_num))), rnd32_int hg']
  have h1 : |(g : ℚ) + 1 / 2| ≤ X + 1 / 2 := (abs_add_le _ _).trans (by norm_num; exact hg)
  rw [fin_add (h1.trans (by norm_num at *; linarith))]
  have e1 := rnd32_err ((g : ℚ) + 1 / 2)
  have d1 : |rnd32 ((g : ℚ) + 1 / 2) - (g + 1 / 2)| ≤ 1 / 1900 := by
    rw [u_eq, eta_eq] at e1
    norm_num at *
    linarith
  generalize rnd32 ((g : ℚ) + 1 / 2) = y at *
  have d2 : |y * s - (g + 1 / 2) * s| ≤ 1 / 1900 * s := by
    rw [← sub_mul, abs_mul, abs_of_pos hs0]
    exact mul_le_mul_of_nonneg_right d1 hs0.le
  have d3 : |y * s| ≤ 2 ^ 14 * s := by
    rw [abs_mul, abs_of_pos hs0]
    refine mul_le_mul_of_nonneg_right ?_ hs0.le
    have := abs_add_le (y - (g + 1 / 2)) ((g : ℚ) + 1 / 2)
    rw [sub_add_cancel] at this
    norm_num at *
    linarith
  have d4 : (2 : ℚ) ^ 14 * s ≤ 2 ^ 127 := by
    norm_num at *
    linarith
  refine ⟨_, fin_mul (d3.trans d4), ?_⟩
  have e2 := rnd32_err (y * s)
  have e3 := abs_sub_le (rnd32 (y * s)) (y * s) ((g + 1 / 2) * s)
  rw [u_eq, eta_eq] at e2
  generalize |rnd32 (y * s) - (g + 1 / 2) * s| = k1 at *
  generalize |rnd32 (y * s) - y * s| = k2 at *
  generalize |y * s - (g + 1 / 2) * s| = k3 at *
  generalize |y * s| = k4 at *
  norm_num at *
  linarith

theorem segLength_le_l1 (a b : Pt) : segLength a b ≤ ((l1length a b : ℚ) : ℝ) := by
  unfold segLength l1length
  rw [Real.sqrt_le_left (by positivity)]
  have : (b.x - a.x) * (b.x - a.x) + (b.y - a.y) * (b.y - a.y) + (b.z - a.z) * (b.z - a.z) ≤ (|b.x - a.x| + |b.y - a.y| + |b.z - a.z|) ^ 2 := by
    have h1 := abs_nonneg (b.x - a.x)
    have h2 := abs_nonneg (b.y - a.y)
    have h3 := abs_nonneg (b.z - a.z)
    rw [← abs_mul_abs_self (b.x - a.x), ← abs_mul_abs_self (b.y - a.y), ← abs_mul_abs_self (b.z - a.z)]
    nlinarith [mul_nonneg h1 h2, mul_nonneg h1 h3, mul_nonneg h2 h3]
  exact_mod_cast this

/-- The signed distance at a point within 0.51 voxels of the measured point along every axis. -/
theorem rayDistance_ge {o p c : Pt} {s : ℚ} (hs : 0 < s) (hL : 0 < segLength o p) (h1 : |p.x - c.x| ≤ 51 / 100 * s) (h2 : |p.y - c.y| ≤ 51 / 100 * s)
    (h3 : |p.z - c.z| ≤ 51 / 100 * s) : -(9 / 10 : ℝ) * s ≤ rayDistance o p c := by
  have hcs := RoundErr.cauchy3 ((p.x - c.x : ℚ) : ℝ) ((p.y - c.y : ℚ) : ℝ) ((p.z - c.z : ℚ) : ℝ) ((p.x - o.x : ℚ) : ℝ) ((p.y - o.y : ℚ) : ℝ) ((p.z - o.z : ℚ) : ℝ)
  have hsR : (0 : ℝ) < s := by exact_mod_cast hs
  have hA : Real.sqrt (((p.x - c.x : ℚ) : ℝ) * ((p.x - c.x : ℚ) : ℝ) + ((p.y - c.y : ℚ) : ℝ) * ((p.y - c.y : ℚ) : ℝ) + ((p.z - c.z : ℚ) : ℝ) * ((p.z - c.z : ℚ) : ℝ)) ≤ 9 / 10 * s := by
    rw [Real.sqrt_le_left (by positivity)]
    have key : ∀ x : ℚ, |x| ≤ 51 / 100 * s → x * x ≤ 2601 / 10000 * (s * s) := by
      intro x hx
      rw [← abs_mul_abs_self x]
      refine (mul_le_mul hx hx (abs_nonneg _) (by positivity)).trans (le_of_eq (by ring))
    have := key _ h1
    have := key _ h2
    have := key _ h3
    have h4 : (p.x - c.x) * (p.x - c.x) + (p.y - c.y) * (p.y - c.y) + (p.z - c.z) * (p.z - c.z) ≤ (9 / 10 * s) ^ 2 := by
      have : 0 < s * s := by positivity
      nlinarith
    have h5 : (((p.x - c.x) * (p.x - c.x) + (p.y - c.y) * (p.y - c.y) + (p.z - c.z) * (p.z - c.z) : ℚ) : ℝ) ≤ (((9 / 10 * s) ^ 2 : ℚ) : ℝ) := by exact_mod_cast h4
    push_cast at h5 ⊢
    exact h5
  have hB : Real.sqrt (((p.x - o.x : ℚ) : ℝ) * ((p.x - o.x : ℚ) : ℝ) + ((p.y - o.y : ℚ) : ℝ) * ((p.y - o.y : ℚ) : ℝ) + ((p.z - o.z : ℚ) : ℝ) * ((p.z - o.z : ℚ) : ℝ)) = segLength o p := by
    unfold segLength
    push_cast
    rfl
  rw [hB] at hcs
  unfold rayDistance
  rw [le_div_iff₀ hL]
  have h5 := mul_le_mul_of_nonneg_right hA hL.le
  generalize Real.sqrt (((p.x - c.x : ℚ) : ℝ) * ((p.x - c.x : ℚ) : ℝ) + ((p.y - c.y : ℚ) : ℝ) * ((p.y - c.y : ℚ) : ℝ) + ((p.z - c.z : ℚ) : ℝ) * ((p.z - c.z : ℚ) : ℝ)) = q at *
  have n1 := neg_abs_le (((p.x - c.x : ℚ) : ℝ) * ((p.x - o.x : ℚ) : ℝ))
  have n2 := neg_abs_le (((p.y - c.y : ℚ) : ℝ) * ((p.y - o.y : ℚ) : ℝ))
  have n3 := neg_abs_le (((p.z - c.z : ℚ) : ℝ) * ((p.z - o.z : ℚ) : ℝ))
  push_cast at *
  linarith

/-- In `float`, the signed distance computed for the voxel of the measured point is above minus one voxel. -/
theorem measured_distance_float {o p : Pt} {s X : ℚ} {g : Idx} (hs : 1 / 2 ^ 20 ≤ s) (hs2 : s ≤ 2 ^ 10) (hX : X ≤ 2 ^ 13)
    (ho : CoordsWithin ((X - 1) * s) o) (hp : CoordsWithin ((X - 1) * s) p) (hL : 1 / 2 ^ 10 ≤ segLength o p) (hg : InsideBy 0 g (p.map (· / s))) :
    ∃ d, computeDistance float32 (o.map .fin) (p.map .fin) (TsdfScan.centerFl float32 s g) = .fin d ∧ -s < d := by
  have hs0 : 0 < s := lt_of_lt_of_le (by norm_num) hs
  have key : ∀ (c : ℤ) (x : ℚ), |x| ≤ (X - 1) * s → (c : ℚ) + 0 < x / s → x / s < c + 1 - 0 → |(c : ℚ)| ≤ X ∧ |x - (c + 1 / 2) * s| ≤ 1 / 2 * s := by
    intro c x hx h1 h2
    have hxs : |x / s| ≤ X - 1 := by
      rw [abs_div, abs_of_pos hs0, div_le_iff₀ hs0]
      exact hx
    obtain ⟨h3, h4⟩ := abs_le.1 hxs
    refine ⟨abs_le.2 ⟨by linarith, by linarith⟩, ?_⟩
    have e : x - (c + 1 / 2) * s = (x / s - (c + 1 / 2)) * s := by
      field_simp
    rw [e, abs_mul, abs_of_pos hs0]
    exact mul_le_mul_of_nonneg_right (abs_le.2 ⟨by linarith, by linarith⟩) hs0.le
  obtain ⟨⟨x1, x2⟩, ⟨y1, y2⟩, ⟨z1, z2⟩⟩ := hg
  obtain ⟨gx, px⟩ := key _ _ hp.1 x1 x2
  obtain ⟨gy, py⟩ := key _ _ hp.2.1 y1 y2
  obtain ⟨gz, pz⟩ := key _ _ hp.2.2 z1 z2
  obtain ⟨cx, ex, dx⟩ := center_axis hs hs2 hX gx
  obtain ⟨cy, ey, dy⟩ := center_axis hs hs2 hX gy
  obtain ⟨cz, ez, dz⟩ := center_axis hs hs2 hX gz
  have hcen : TsdfScan.centerFl float32 s g = (⟨cx, cy, cz⟩ : Pt).map .fin := Vec3.ext ex ey ez
  have near : ∀ (x c m : ℚ), |x - m| ≤ 1 / 2 * s → |c - m| ≤ 1 / 500 * s → |x - c| ≤ 51 / 100 * s := by
    intro x c m h1 h2
    have := abs_sub_le x m c
    rw [abs_sub_comm m c] at this
    linarith
  have nx := near _ _ _ px dx
  have ny := near _ _ _ py dy
  have nz := near _ _ _ pz dz
  have hXs : (X - 1) * s ≤ 2 ^ 24 := by
    have : (X - 1) * s ≤ 2 ^ 13 * 2 ^ 10 := mul_le_mul (by linarith) hs2 hs0.le (by norm_num)
    norm_num at this ⊢
    linarith
  have w30 : ∀ x : ℚ, |x| ≤ (X - 1) * s → |x| ≤ 2 ^ 30 := fun x hx => hx.trans (hXs.trans (by norm_num))
  have cw : ∀ x c : ℚ, |x| ≤ (X - 1) * s → |x - c| ≤ 51 / 100 * s → |c| ≤ X * s := by
    intro x c h1 h2
    have := abs_sub_abs_le_abs_sub c x
    rw [abs_sub_comm c x] at this
    linarith
  have c30 : ∀ c : ℚ, |c| ≤ X * s → |c| ≤ 2 ^ 30 := fun c hc => hc.trans (by
    have : X * s ≤ 2 ^ 13 * 2 ^ 10 := mul_le_mul hX hs2 hs0.le (by norm_num)
    norm_num at this ⊢
    linarith)
  have cx' := cw _ _ hp.1 nx
  have cy' := cw _ _ hp.2.1 ny
  have cz' := cw _ _ hp.2.2 nz
  obtain ⟨d, hd, herr⟩ := RoundErr.C110_distance o p ⟨cx, cy, cz⟩ ⟨w30 _ ho.1, w30 _ ho.2.1, w30 _ ho.2.2⟩ ⟨w30 _ hp.1, w30 _ hp.2.1, w30 _ hp.2.2⟩
    ⟨c30 _ cx', c30 _ cy', c30 _ cz'⟩ hL
  refine ⟨d, hcen ▸ hd, ?_⟩
  have hL0 : 0 < segLength o p := lt_of_lt_of_le (by positivity) hL
  have hge := rayDistance_ge (o := o) (p := p) (c := ⟨cx, cy, cz⟩) hs0 hL0 nx ny nz
  have l1a : l1length o p ≤ 6 * (X * s) := by
    unfold l1length
    have a1 := abs_sub p.x o.x
    have a2 := abs_sub p.y o.y
    have a3 := abs_sub p.z o.z
    have b1 := hp.1
    have b2 := hp.2.1
    have b3 := hp.2.2
    have b4 := ho.1
    have b5 := ho.2.1
    have b6 := ho.2.2
    linarith
  have l1b : l1length o ⟨cx, cy, cz⟩ ≤ 6 * (X * s) := by
    unfold l1length
    have a1 := abs_sub cx o.x
    have a2 := abs_sub cy o.y
    have a3 := abs_sub cz o.z
    have b4 := ho.1
    have b5 := ho.2.1
    have b6 := ho.2.2
    simp only
    linarith
  have l1s : X * s ≤ 2 ^ 13 * s := mul_le_mul_of_nonneg_right hX hs0.le
  have e1 := (segLength_le_l1 o p).trans (by exact_mod_cast l1a.trans (mul_le_mul_of_nonneg_left l1s (by norm_num)) : ((l1length o p : ℚ) : ℝ) ≤ ((6 * (2 ^ 13 * s) : ℚ) : ℝ))
  have e2 := (segLength_le_l1 o ⟨cx, cy, cz⟩).trans
    (by exact_mod_cast l1b.trans (mul_le_mul_of_nonneg_left l1s (by norm_num)) : ((l1length o ⟨cx, cy, cz⟩ : ℚ) : ℝ) ≤ ((6 * (2 ^ 13 * s) : ℚ) : ℝ))
  have hsR : (0 : ℝ) < s := by exact_mod_cast hs0
  obtain ⟨k1, -⟩ := abs_le.1 herr
  have : (-(s : ℝ)) < d := by
    push_cast at *
    norm_num at *
    linarith
  exact_mod_cast this

end Vox.RayEnds
