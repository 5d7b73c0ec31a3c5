/-
Properties C21 and C24-C27: TSDF voxel updates, colour blending, point filtering and voxel merging.
-/
import Verif.Lemmas.Tsdf
import Mathlib.Algebra.BigOperators.Group.List.Basic
import Mathlib.Algebra.Order.BigOperators.Group.List

namespace Vox.Tsdf

open Fl Spec

/-! Concrete data for the examples. -/

/-- A square root that is right on 0, 1 and 4. -/
def sq4 : ℚ → Fl := fun q => if q = 4 then .fin 2 else .fin q

/-- A rounding arithmetic: everything is rounded down to a multiple of 1/1024, and to infinity beyond
2^20. -/
def coarse : Arith :=
  { rnd := fun q => if 2 ^ 20 < q then .pinf else if q < -2 ^ 20 then .ninf else .fin (⌊q * 1024⌋ / 1024),
    sqrt := sq4 }

theorem coarse_faithful : coarse.Faithful where
  mono a b h := by
    simp only [coarse]
    by_cases ha : 2 ^ 20 < a
    · rw [if_pos ha, if_pos (lt_of_lt_of_le ha h)]; rfl
    · rw [if_neg ha]
      by_cases ha' : a < -2 ^ 20
      · rw [if_pos ha']
        split
        · rfl
        · split <;> rfl
      · rw [if_neg ha']
        split
        · rfl
        · rw [if_neg (by linarith)]
          simp only [Fl.le, decide_eq_true_eq]
          have : ⌊a * 1024⌋ ≤ ⌊b * 1024⌋ := Int.floor_le_floor (by linarith)
          have : (⌊a * 1024⌋ : ℚ) ≤ ⌊b * 1024⌋ := by exact_mod_cast this
          linarith
  idem a b h := by
    simp only [coarse] at h ⊢
    split at h
    · cases h
    · split at h
      · cases h
      · rename_i h1 h2
        simp only [Fl.fin.injEq] at h
        have hb : b * 1024 = ⌊a * 1024⌋ := by rw [← h]; ring
        have hle : b ≤ a := by
          have := Int.floor_le (a * 1024)
          linarith
        have hge : -2 ^ 20 ≤ b := by
          have : (-2 ^ 30 : ℤ) ≤ ⌊a * 1024⌋ := Int.le_floor.2 (by push_cast; linarith)
          have : (-2 ^ 30 : ℚ) ≤ ⌊a * 1024⌋ := by exact_mod_cast this
          linarith
        rw [if_neg (by linarith), if_neg (by linarith), hb, Int.floor_intCast, ← hb]
        congr 1
        ring
  zero := by norm_num [coarse]

def exCfg : Config :=
  { truncation := .fin (1 / 2), maxWeight := .fin 100, useConstWeight := false, useWeightDropoff := true,
    useSparsity := false, sparsityFactor := .fin 1, minRay := .fin (1 / 10), maxRay := .fin 5,
    allowClear := true }

/-- Ray along x from the origin to (2, 0, 0). -/
def exObs (x : ℚ) (w : ℚ) : Obs :=
  { origin := ⟨.fin 0, .fin 0, .fin 0⟩, pointG := ⟨.fin 2, .fin 0, .fin 0⟩,
    center := ⟨.fin x, .fin 0, .fin 0⟩, color := Color.default, weight := .fin w }

/-! ### C24: limits -/

/-- **C24.** Whatever the observations and whatever the rounding (even a nonsensical one producing NaN),
the distance of a voxel stays within the truncation band and the weight within `[0, max]`. -/
theorem C24_bounds (A : Arith) (cfg : Config) (T M : ℚ) (hT : 0 ≤ T) (hM : 0 ≤ M)
    (hcT : cfg.truncation = .fin T) (hcM : cfg.maxWeight = .fin M) (vs : Fl) (os : List Obs) :
    ∀ (v v' : TsdfVoxel Fl), Within (-T) T v.distance → Within 0 M v.weight →
      integrate A cfg vs os v = .ok v' → Within (-T) T v'.distance ∧ Within 0 M v'.weight := by
  induction os with
  | nil =>
    intro v v' h1 h2 h
    simp only [integrate, Outcome.ok.injEq] at h
    rw [← h]; exact ⟨h1, h2⟩
  | cons o os ih =>
    intro v v' h1 h2 h
    obtain ⟨w, hw, h⟩ := Outcome.bind_eq_ok.1 (show (updateVoxel A cfg vs o v >>= integrate A cfg vs os) = _ from h)
    have hb := applyUpdate_bounded hT hM hcT hcM ⟨h1, h2⟩ hw
    exact ih w v' hb.1 hb.2 h

/-- A freshly allocated voxel is within the limits, so the invariant holds for every voxel of a map. -/
theorem C24_bounds_fresh (A : Arith) (cfg : Config) (T M : ℚ) (hT : 0 ≤ T) (hM : 0 ≤ M)
    (hcT : cfg.truncation = .fin T) (hcM : cfg.maxWeight = .fin M) (vs : Fl) (os : List Obs)
    (v' : TsdfVoxel Fl) (h : integrate A cfg vs os freshVoxel = .ok v') :
    Within (-T) T v'.distance ∧ Within 0 M v'.weight :=
  C24_bounds A cfg T M hT hM hcT hcM vs os freshVoxel v' ⟨0, rfl, by linarith, hT⟩ ⟨0, rfl, le_rfl, hM⟩ h

example : integrate coarse exCfg (.fin (1 / 10)) [exObs (3 / 2) 1, exObs 3 1] freshVoxel =
    .ok { distance := .fin (1 / 2), weight := .fin 1, color := Color.default } := by
  decide +kernel

/-- **C24.** With any monotone idempotent rounding, an observation of non-negative weight (all
integrators supply such weights, `C27_weight_nonneg`) never lowers the weight. -/
theorem C24_weight_monotone (A : Arith) (hA : A.Faithful) (cfg : Config) (M : ℚ)
    (hcM : cfg.maxWeight = .fin M) (hM : A.rnd M = .fin M) (hF : Fl.le (.fin 0) cfg.sparsityFactor = true)
    (vs : Fl) (os : List Obs) (hos : ∀ o ∈ os, Fl.le (.fin 0) o.weight = true) :
    ∀ (v v' : TsdfVoxel Fl) (w : ℚ), v.weight = .fin w → A.rnd w = .fin w → w ≤ M →
      integrate A cfg vs os v = .ok v' → ∃ w', v'.weight = .fin w' ∧ w ≤ w' ∧ w' ≤ M := by
  induction os with
  | nil =>
    intro v v' w hw _ hwM h
    simp only [integrate, Outcome.ok.injEq] at h
    rw [← h]; exact ⟨w, hw, le_rfl, hwM⟩
  | cons o os ih =>
    intro v v' w hw hr hwM h
    obtain ⟨v1, h1, h⟩ := Outcome.bind_eq_ok.1 (show (updateVoxel A cfg vs o v >>= integrate A cfg vs os) = _ from h)
    obtain ⟨w1, hw1, hle, hle', hr1⟩ := applyUpdate_weight_mono hA hcM hM hw hr hwM
      (updatedWeight_nonneg hA (hos o (by simp)) hF) h1
    obtain ⟨w2, hw2, h2, h2'⟩ := ih (fun o ho => hos o (by simp [ho])) v1 v' w1 hw1 hr1 hle' h
    exact ⟨w2, hw2, le_trans hle h2, h2'⟩

example : coarse.Faithful ∧ coarse.rnd 100 = .fin 100 ∧ exCfg.maxWeight = .fin 100 ∧
    Fl.le (.fin 0) exCfg.sparsityFactor = true ∧ Fl.le (.fin 0) (exObs 1 (1 / 3)).weight = true ∧
    integrate coarse exCfg (.fin (1 / 10)) [exObs (3 / 2) (1 / 3)] freshVoxel =
      .ok { distance := .fin (255 / 512), weight := .fin (341 / 1024), color := Color.default } :=
  ⟨coarse_faithful, by decide +kernel⟩

/-- **C24.** If the total weight stays below the float epsilon the observation has no effect at all. -/
theorem C24_negligible_total (A : Arith) (cfg : Config) (vs : Fl) (o : Obs) (v : TsdfVoxel Fl)
    (h : Fl.lt (A.add v.weight (updatedWeight A cfg vs (computeDistance A o.origin o.pointG o.center) o.weight))
      (.fin (1 / 1000000)) = true) : updateVoxel A cfg vs o v = .ok v := by
  unfold updateVoxel applyUpdate
  exact if_pos h

example : Fl.lt ((Arith.exact sq4).add freshVoxel.weight (updatedWeight (Arith.exact sq4) exCfg (.fin (1 / 10))
    (computeDistance (Arith.exact sq4) (exObs 1 (1 / 10000000)).origin (exObs 1 (1 / 10000000)).pointG
      (exObs 1 (1 / 10000000)).center) (exObs 1 (1 / 10000000)).weight)) (.fin (1 / 1000000)) = true := by
  decide +kernel

/-- **C24.** In exact arithmetic an observation of zero weight with a defined distance leaves an already
observed voxel untouched (distance, weight and colour). -/
theorem C24_zero_weight_exact_partial (sq : ℚ → Fl) (cfg : Config) (T M D W s : ℚ) (vs : Fl) (o : Obs)
    (v : TsdfVoxel Fl) (hcT : cfg.truncation = .fin T) (hcM : cfg.maxWeight = .fin M)
    (hvd : v.distance = .fin D) (hvw : v.weight = .fin W) (hD : |D| ≤ T) (hW : 1 / 1000000 ≤ W) (hWM : W ≤ M)
    (hsdf : computeDistance (Arith.exact sq) o.origin o.pointG o.center = .fin s)
    (hu : updatedWeight (Arith.exact sq) cfg vs (.fin s) o.weight = .fin 0) :
    updateVoxel (Arith.exact sq) cfg vs o v = .ok v := by
  have hW0 : 0 < W := by linarith
  have hcol : updatedColor (Arith.exact sq) cfg (.fin s) (.fin 0) o.color v = .ok v.color := by
    unfold updatedColor
    split
    · rw [hvw]; exact blend_zero_right hW0 _ _
    · rfl
  unfold updateVoxel applyUpdate
  simp only [hsdf, hu, hcol, hvw, hvd, exact_add, exact_mul, kFloatEpsilon, lt_fin, decide_eq_true_eq, add_zero,
    mul_zero, zero_add, if_neg (not_lt.2 hW), exact_div sq hW0.ne', mul_div_assoc, div_self hW0.ne', mul_one,
    hcT, hcM, neg_fin, Fl.stdMin, Fl.stdMax, Outcome.bind_ok, Outcome.pure_eq, Outcome.ok.injEq]
  have hD' := abs_le.1 hD
  obtain ⟨vd, vw, vc⟩ := v
  simp only at hvd hvw
  simp only [TsdfVoxel.mk.injEq, and_true, hvd, hvw]
  constructor
  · by_cases h0 : 0 < D
    · rw [if_pos h0]
      by_cases h1 : D < T
      · rw [if_pos h1]
      · rw [if_neg h1]; congr 1; linarith
    · rw [if_neg h0]
      by_cases h1 : -T < D
      · rw [if_pos h1]
      · rw [if_neg h1]; congr 1; linarith
  · by_cases h1 : W < M
    · rw [if_pos h1]
    · rw [if_neg h1]; congr 1; linarith

example : computeDistance (Arith.exact sq4) (exObs (3 / 2) 0).origin (exObs (3 / 2) 0).pointG
      (exObs (3 / 2) 0).center = .fin (1 / 2) ∧
    updatedWeight (Arith.exact sq4) exCfg (.fin (1 / 10)) (.fin (1 / 2)) (exObs (3 / 2) 0).weight = .fin 0 := by
  decide +kernel

/-- **C24 is violated by the merged integrator for points of negligible weight**: a bundle that only
consists of such a point (here a lidar return with z = 0, which has weight 0) leaves the merged point at
the sensor origin; the update then has an undefined (NaN) distance and weight 0, and overwrites the
distance of an already observed voxel (here +3/10) by minus the truncation distance. -/
theorem C24_zero_weight_violated :
    mergeBundle (Arith.exact sq4) exCfg false [(⟨.fin 2, .fin 0, .fin 0⟩, Color.default)] Bundle.init =
      .ok Bundle.init ∧
    updateVoxel (Arith.exact sq4) exCfg (.fin (1 / 10))
      { origin := ⟨.fin 0, .fin 0, .fin 0⟩, pointG := Bundle.init.pointC,
        center := ⟨.fin (1 / 20), .fin (1 / 20), .fin (1 / 20)⟩, color := Bundle.init.color,
        weight := Bundle.init.weight }
      { distance := .fin (3 / 10), weight := .fin 5, color := Color.default } =
      .ok { distance := .fin (-1 / 2), weight := .fin 5, color := Color.default } := by
  decide +kernel

/-! ### C25: weighted mean -/

theorem integrate_exact (sq : ℚ → Fl) (cfg : Config) (T M : ℚ) (vs : Fl)
    (hcT : cfg.truncation = .fin T) (hcM : cfg.maxWeight = .fin M) (s u : Obs → ℚ) (os : List Obs)
    (hos : ∀ o ∈ os, computeDistance (Arith.exact sq) o.origin o.pointG o.center = .fin (s o) ∧
      updatedWeight (Arith.exact sq) cfg vs (.fin (s o)) o.weight = .fin (u o) ∧ |s o| ≤ T ∧ 1 / 1000000 ≤ u o) :
    ∀ (v : TsdfVoxel Fl) (D W : ℚ), v.distance = .fin D → v.weight = .fin W → |D| ≤ T → 0 ≤ W →
      W + total u os ≤ M →
      ∃ v' D', integrate (Arith.exact sq) cfg vs os v = .ok v' ∧ v'.weight = .fin (W + total u os) ∧
        v'.distance = .fin D' ∧ D' * (W + total u os) = D * W + total (fun o => u o * s o) os := by
  induction os with
  | nil =>
    intro v D W hD hW _ _ _
    exact ⟨v, D, rfl, by simp [total, hW], hD, by simp [total]⟩
  | cons o os ih =>
    intro v D W hD hW hDT hW0 hM
    obtain ⟨h1, h2, h3, h4⟩ := hos o (by simp)
    have hrest : 0 ≤ total u os := by
      unfold total
      apply List.sum_nonneg
      intro x hx
      obtain ⟨o', ho', rfl⟩ := List.mem_map.1 hx
      have := (hos o' (by simp [ho'])).2.2.2
      linarith
    have ht : total u (o :: os) = u o + total u os := by simp [total]
    have ht' : total (fun o => u o * s o) (o :: os) = u o * s o + total (fun o => u o * s o) os := by simp [total]
    rw [ht] at hM ⊢
    rw [ht']
    have hpos : 0 < W + u o := by linarith
    obtain ⟨c, hc, -⟩ := applyUpdate_exact (sq := sq) (col := o.color) hcT hcM hD hW hW0
      (by linarith : 0 ≤ u o) (by linarith) (by linarith) hDT h3
    have hD2 : |(s o * u o + D * W) / (W + u o)| ≤ T := by
      have hs' := abs_le.1 h3
      have hD' := abs_le.1 hDT
      rw [abs_le]
      constructor
      · rw [le_div_iff₀ hpos]
        nlinarith [mul_le_mul_of_nonneg_right hs'.1 (by linarith : 0 ≤ u o), mul_le_mul_of_nonneg_right hD'.1 hW0]
      · rw [div_le_iff₀ hpos]
        nlinarith [mul_le_mul_of_nonneg_right hs'.2 (by linarith : 0 ≤ u o), mul_le_mul_of_nonneg_right hD'.2 hW0]
    obtain ⟨v', D', hv', hw', hd', heq⟩ := ih (fun o ho => hos o (by simp [ho]))
      { distance := .fin ((s o * u o + D * W) / (W + u o)), weight := .fin (W + u o), color := c } _ _ rfl rfl hD2
      hpos.le
      (by linarith)
    refine ⟨v', D', ?_, ?_, hd', ?_⟩
    · simp only [integrate, updateVoxel, h1, h2, hc, Outcome.bind_ok]
      exact hv'
    · rw [hw']; congr 1; ring
    · rw [show W + (u o + total u os) = W + u o + total u os by ring, heq]
      field_simp
      ring

/-- **C25.** In exact arithmetic, while no limit is reached, the distance of a fresh voxel after a
non-empty list of observations is the weighted mean of the observed distances, and its weight is the sum
of the weights. `s` and `u` name the signed distance and the weight of each observation. -/
theorem C25_weighted_mean (sq : ℚ → Fl) (cfg : Config) (T M : ℚ) (vs : Fl)
    (hcT : cfg.truncation = .fin T) (hT : 0 ≤ T) (hcM : cfg.maxWeight = .fin M) (s u : Obs → ℚ) (os : List Obs)
    (hne : os ≠ [])
    (hos : ∀ o ∈ os, computeDistance (Arith.exact sq) o.origin o.pointG o.center = .fin (s o) ∧
      updatedWeight (Arith.exact sq) cfg vs (.fin (s o)) o.weight = .fin (u o) ∧ |s o| ≤ T ∧ 1 / 1000000 ≤ u o)
    (hM : total u os ≤ M) :
    ∃ v', integrate (Arith.exact sq) cfg vs os freshVoxel = .ok v' ∧
      v'.distance = .fin (weightedMean u s os) ∧ v'.weight = .fin (total u os) := by
  obtain ⟨v', D', h1, h2, h3, h4⟩ := integrate_exact sq cfg T M vs hcT hcM s u os hos freshVoxel 0 0 rfl rfl
    (by simpa using hT) le_rfl (by simpa using hM)
  rw [zero_add] at h2 h4
  have hpos : 0 < total u os := by
    cases os with
    | nil => exact absurd rfl hne
    | cons o os =>
      have h0 : 0 < u o := by linarith [(hos o (by simp)).2.2.2]
      have hrest : 0 ≤ total u os := by
        unfold total
        apply List.sum_nonneg
        intro x hx
        obtain ⟨o', ho', rfl⟩ := List.mem_map.1 hx
        have := (hos o' (by simp [ho'])).2.2.2
        linarith
      have : total u (o :: os) = u o + total u os := by simp [total]
      linarith
  refine ⟨v', h1, ?_, h2⟩
  rw [h3]
  congr 1
  unfold weightedMean
  rw [eq_div_iff hpos.ne', h4]
  simp

/-- **C25.** The order of the observations does not matter for distance and weight. -/
theorem C25_order_independent (sq : ℚ → Fl) (cfg : Config) (T M : ℚ) (vs : Fl)
    (hcT : cfg.truncation = .fin T) (hT : 0 ≤ T) (hcM : cfg.maxWeight = .fin M) (s u : Obs → ℚ) (os os' : List Obs)
    (hne : os ≠ []) (hperm : os.Perm os')
    (hos : ∀ o ∈ os, computeDistance (Arith.exact sq) o.origin o.pointG o.center = .fin (s o) ∧
      updatedWeight (Arith.exact sq) cfg vs (.fin (s o)) o.weight = .fin (u o) ∧ |s o| ≤ T ∧ 1 / 1000000 ≤ u o)
    (hM : total u os ≤ M) :
    ∃ v v', integrate (Arith.exact sq) cfg vs os freshVoxel = .ok v ∧
      integrate (Arith.exact sq) cfg vs os' freshVoxel = .ok v' ∧
      v.distance = v'.distance ∧ v.weight = v'.weight := by
  obtain ⟨v, h1, h2, h3⟩ := C25_weighted_mean sq cfg T M vs hcT hT hcM s u os hne hos hM
  have hp : ∀ f : Obs → ℚ, total f os' = total f os := fun f => ((hperm.map f).sum_eq).symm
  obtain ⟨v', h1', h2', h3'⟩ := C25_weighted_mean sq cfg T M vs hcT hT hcM s u os'
    (by intro h; rw [h] at hperm; exact hne hperm.eq_nil)
    (fun o ho => hos o (hperm.mem_iff.2 ho)) (by rw [hp]; exact hM)
  refine ⟨v, v', h1, h1', ?_, ?_⟩
  · rw [h2, h2']; unfold weightedMean; rw [hp, hp]
  · rw [h3, h3', hp]

/-- The hypotheses of the two theorems hold for a list of three different observations. -/
example : ∀ o ∈ [exObs (3 / 2) 1, exObs (7 / 4) (1 / 2), exObs (41 / 20) 3],
    computeDistance (Arith.exact sq4) o.origin o.pointG o.center =
      .fin (match o.center.x with | .fin x => 2 - x | _ => 0) ∧
    updatedWeight (Arith.exact sq4) exCfg (.fin (1 / 10))
      (.fin (match o.center.x with | .fin x => 2 - x | _ => 0)) o.weight =
      .fin (match o.weight with | .fin w => w | _ => 0) ∧
    |(match o.center.x with | .fin x => 2 - x | _ => (0 : ℚ))| ≤ 1 / 2 ∧
    1 / 1000000 ≤ (match o.weight with | .fin w => w | _ => (0 : ℚ)) := by
  decide +kernel

/-- **C25.** What is fused: with an exact square root `L` of the squared ray length, the observed
distance is the length from the voxel centre's projection on the ray to the measured point (positive in
front of the surface, negative behind it). -/
theorem C25_distance_is_projection (sq : ℚ → Fl) (o p c : Vec3 ℚ) (L : ℚ) (hL : 0 < L)
    (hLL : L * L = (p.x - o.x) * (p.x - o.x) + (p.y - o.y) * (p.y - o.y) + (p.z - o.z) * (p.z - o.z))
    (hsq : sq (L * L) = .fin L) :
    ∃ s, computeDistance (Arith.exact sq) (o.map .fin) (p.map .fin) (c.map .fin) = .fin s ∧
      s * L = (p.x - c.x) * (p.x - o.x) + (p.y - c.y) * (p.y - o.y) + (p.z - c.z) * (p.z - o.z) := by
  have hpos : 0 ≤ L * L := by positivity
  refine ⟨L - ((c.x - o.x) * (p.x - o.x) + (c.y - o.y) * (p.y - o.y) + (c.z - o.z) * (p.z - o.z)) / L, ?_, ?_⟩
  · simp only [computeDistance, Arith.norm, Arith.vsub, Arith.dot, Vec3.map₂_x, Vec3.map₂_y, Vec3.map₂_z,
      Vec3.map_x, Vec3.map_y, Vec3.map_z, exact_sub, exact_mul, exact_add, Arith.sqrtFl, ← hLL, if_pos hpos]
    simp only [Arith.exact, hsq]
    rw [show ({ rnd := Fl.fin, sqrt := sq } : Arith) = Arith.exact sq from rfl, exact_div sq hL.ne', exact_sub]
  · field_simp
    linarith

example : (2 : ℚ) * 2 = (2 - 0) * (2 - 0) + (0 - 0) * (0 - 0) + (0 - 0) * (0 - 0) ∧ sq4 (2 * 2) = .fin 2 := by
  constructor
  · norm_num
  · decide +kernel

/-! ### C26: colour blending -/

/-- **C26.** Blending with non-negative weights of positive total is defined and every channel of the
result lies between the channels of the inputs — in any arithmetic with relative error at most 1/4096
(single precision has 2^-24; exact arithmetic has 0). -/
theorem C26_blend_between (A : Arith) (d w1 w2 : ℚ) (hA : RelErr A d) (hd0 : 0 ≤ d) (hd : d ≤ 1 / 4096)
    (hw1 : 0 ≤ w1) (hw2 : 0 ≤ w2) (hpos : 0 < w1 + w2) (c1 c2 : Color) :
    ∃ c, blend A c1 (.fin w1) c2 (.fin w2) = .ok c ∧ ColorBetween c c1 c2 :=
  blend_between hA hd0 hd hw1 hw2 hpos c1 c2

example : RelErr (Arith.exact sq4) 0 ∧
    blend (Arith.exact sq4) ⟨10#8, 200#8, 0#8, 255#8⟩ (.fin (1 / 3)) ⟨20#8, 100#8, 255#8, 255#8⟩ (.fin (2 / 3)) =
      .ok ⟨17#8, 133#8, 170#8, 255#8⟩ := ⟨relErr_exact _, by decide +kernel⟩

/-- A rounding with a genuine relative error (everything is scaled by 1 + 2^-24). -/
example : RelErr { rnd := fun q => .fin (q * (1 + 1 / 2 ^ 24)), sqrt := sq4 } (1 / 2 ^ 24) := by
  intro q
  refine ⟨_, rfl, ?_⟩
  rw [show q * (1 + 1 / 2 ^ 24) - q = 1 / 2 ^ 24 * q by ring, abs_mul, abs_of_nonneg (by positivity : (0 : ℚ) ≤ 1 / 2 ^ 24)]

/-- **C26.** Blending with zero total weight is undefined behaviour (conversion of NaN to a byte),
whatever the colours. -/
theorem C26_zero_total_undefined (A : Arith) (h0 : A.rnd 0 = .fin 0) (c1 c2 : Color) :
    blend A c1 (.fin 0) c2 (.fin 0) = .ub := by
  simp [blend, Arith.add, h0, Arith.div, Fl.infOfSign, blendChannel, Arith.mul, toByte]

example : (Arith.exact sq4).rnd 0 = .fin 0 := rfl

/-- **C26.** The TSDF update never runs into undefined behaviour, and the new colour lies between the
old colour and the observed one — for every observation, even with NaN or infinite coordinates. -/
theorem C26_update_defined (A : Arith) (d T M vs F : ℚ) (cfg : Config) (hA : RelErr A d) (hd0 : 0 ≤ d)
    (hd : d ≤ 1 / 4096) (hcT : cfg.truncation = .fin T) (hcM : cfg.maxWeight = .fin M) (hM : 0 ≤ M)
    (hcF : cfg.sparsityFactor = .fin F) (hF : 0 ≤ F) (o : Obs) (w : ℚ) (how : o.weight = .fin w) (hw : 0 ≤ w)
    (v : TsdfVoxel Fl) (W : ℚ) (hvw : v.weight = .fin W) (hW : 0 ≤ W) :
    ∃ v', updateVoxel A cfg (.fin vs) o v = .ok v' ∧ ColorBetween v'.color v.color o.color := by
  obtain ⟨v', h, -, hc⟩ := updateVoxel_defined (vs := vs) hA hd0 hd hcT hcM hM hcF hF how hw hvw hW
  exact ⟨v', h, hc⟩

/-- **C26.** Hence no sequence of observations ever reaches undefined behaviour. -/
theorem C26_sequence_defined (A : Arith) (d T M vs F : ℚ) (cfg : Config) (hA : RelErr A d) (hd0 : 0 ≤ d)
    (hd : d ≤ 1 / 4096) (hcT : cfg.truncation = .fin T) (hcM : cfg.maxWeight = .fin M) (hM : 0 ≤ M)
    (hcF : cfg.sparsityFactor = .fin F) (hF : 0 ≤ F) (os : List Obs)
    (hos : ∀ o ∈ os, ∃ w, o.weight = .fin w ∧ 0 ≤ w) :
    ∀ (v : TsdfVoxel Fl), (∃ W, v.weight = .fin W ∧ 0 ≤ W) → ∃ v', integrate A cfg (.fin vs) os v = .ok v' := by
  induction os with
  | nil => intro v _; exact ⟨v, rfl⟩
  | cons o os ih =>
    intro v ⟨W, hW, hW0⟩
    obtain ⟨w, how, hw⟩ := hos o (by simp)
    obtain ⟨v1, h1, hw1, -⟩ := updateVoxel_defined (vs := vs) hA hd0 hd hcT hcM hM hcF hF how hw hW hW0
    obtain ⟨v', h'⟩ := ih (fun o ho => hos o (by simp [ho])) v1 hw1
    exact ⟨v', by simp only [integrate, h1, Outcome.bind_ok]; exact h'⟩

example : integrate (Arith.exact sq4) exCfg (.fin (1 / 10))
    [exObs (3 / 2) 1, { exObs 1 1 with pointG := ⟨.nan, .fin 0, .pinf⟩ }, exObs 2 0] freshVoxel ≠ .ub := by
  decide +kernel

/-- **C26.** The merge of a bundle's points never runs into undefined behaviour either. -/
theorem C26_bundle_defined (A : Arith) (d : ℚ) (hA : RelErr A d) (hd0 : 0 ≤ d) (hd : d ≤ 1 / 4096) (cfg : Config)
    (clearing : Bool) (ps : List (Vec3 Fl × Color)) : ∃ b, mergeBundle A cfg clearing ps Bundle.init = .ok b := by
  obtain ⟨b, h, -⟩ := mergeBundle_defined hA hd0 hd cfg clearing ps Bundle.init ⟨0, rfl, le_rfl⟩
  exact ⟨b, h⟩

example : RelErr (Arith.exact sq4) 0 ∧
    mergeBundle (Arith.exact sq4) exCfg false [(⟨.fin 1, .fin 0, .fin 2⟩, ⟨10#8, 0#8, 0#8, 255#8⟩),
      (⟨.fin 0, .fin 0, .nan⟩, ⟨90#8, 0#8, 0#8, 255#8⟩)] Bundle.init ≠ .ub := ⟨relErr_exact _, by decide +kernel⟩

/-- **C26.** Nor does the merge of two voxels with non-negative weights. -/
theorem C26_merge_defined (A : Arith) (d : ℚ) (hA : RelErr A d) (hd0 : 0 ≤ d) (hd : d ≤ 1 / 4096)
    (a b : TsdfVoxel Fl) (wa wb : ℚ) (ha : a.weight = .fin wa) (hb : b.weight = .fin wb) (hwa : 0 ≤ wa)
    (hwb : 0 ≤ wb) : ∃ v, mergeTsdf A a b = .ok v := by
  unfold mergeTsdf
  simp only [ha, hb]
  split
  · rename_i h
    obtain ⟨t, ht, et⟩ := hA (wa + wb)
    have hpos : 0 < wa + wb := by
      by_contra hcon
      have h0 : wa + wb = 0 := by linarith
      simp only [Arith.add, ht, Fl.lt, decide_eq_true_eq] at h
      rw [h0] at et
      have hz0 : t = 0 := by simpa using et
      linarith
    obtain ⟨c, hc, -⟩ := blend_between hA hd0 hd hwa hwb hpos a.color b.color
    rw [hc]
    exact ⟨_, rfl⟩
  · exact ⟨b, rfl⟩

example : RelErr (Arith.exact sq4) 0 ∧
    mergeTsdf (Arith.exact sq4) ⟨.fin 1, .fin 0, ⟨10#8, 0#8, 0#8, 255#8⟩⟩ ⟨.fin 5, .fin 0, ⟨50#8, 0#8, 0#8, 255#8⟩⟩ ≠ .ub :=
  ⟨relErr_exact _, by decide +kernel⟩

/-! ### C27: point filtering and point weights -/

/-- **C27.** Complete decision table of the point filter for a finite point: rejected exactly if too
short, or too long with clearing disabled for a non-free-space point; clearing exactly for free-space
points and too long ones. -/
theorem C27_classification (cfg : Config) (lo hi n : ℚ) (fs : Bool) (hlo : cfg.minRay = .fin lo)
    (hhi : cfg.maxRay = .fin hi) :
    isPointValid cfg (.fin n) fs =
      if n < lo then none
      else if n ≤ hi then some fs
      else if cfg.allowClear = true ∨ fs = true then some true else none := by
  unfold isPointValid
  simp only [hlo, hhi, lt_fin, decide_eq_true_eq, Bool.or_eq_true]
  by_cases h1 : n < lo
  · rw [if_pos h1, if_pos h1]
  · rw [if_neg h1, if_neg h1]
    by_cases h2 : n ≤ hi
    · rw [if_neg (not_lt.2 h2), if_pos h2]
    · rw [if_pos (not_le.1 h2), if_neg h2]

example : isPointValid exCfg (.fin (1 / 20)) true = none ∧ isPointValid exCfg (.fin 3) false = some false ∧
    isPointValid exCfg (.fin 7) false = some true ∧
    isPointValid { exCfg with allowClear := false } (.fin 7) false = none := by decide +kernel

/-- **C27.** Free-space points are never used as surface points, and accepted points are not too short;
this covers infinite and NaN norms as well. -/
theorem C27_freespace_clears (cfg : Config) (n : Fl) (c : Bool) (h : isPointValid cfg n true = some c) :
    c = true ∧ Fl.lt n cfg.minRay = false := by
  unfold isPointValid at h
  split at h
  · cases h
  · rename_i h1
    split at h
    · simp only [Bool.or_true, if_true, Option.some.injEq] at h
      exact ⟨h.symm, by simpa using h1⟩
    · simp only [Option.some.injEq] at h
      exact ⟨h.symm, by simpa using h1⟩

example : isPointValid exCfg (.fin 1) true = some true := by decide +kernel

/-- **C27, NaN.** A point with a NaN coordinate (NaN norm) passes the filter: all comparisons are false. -/
theorem C27_nan_accepted (cfg : Config) (fs : Bool) : isPointValid cfg .nan fs = some fs := by
  unfold isPointValid
  have h1 : Fl.lt .nan cfg.minRay = false := rfl
  have h2 : Fl.lt cfg.maxRay .nan = false := by cases cfg.maxRay <;> rfl
  simp [h1, h2]

/-- **C27.** The weight given to a point is never negative and never NaN, whatever its coordinates. -/
theorem C27_weight_nonneg (A : Arith) (hA : A.Faithful) (cfg : Config) (z : Fl) :
    Fl.le (.fin 0) (voxelWeight A cfg z) = true := voxelWeight_nonneg hA cfg z



/-- The weight a point at depth `z` should have: 1 in constant-weight mode, otherwise the inverse square of
the depth, and nothing for points in the image plane. -/
def depthWeight (const : Bool) (z : ℚ) : ℚ :=
  if const then 1 else if 1 / 1000000 < |z| then 1 / z ^ 2 else 0

/-- **C27.** In exact arithmetic the weight of a point is the inverse square of its depth (or 1). -/
theorem C27_weight_value (sq : ℚ → Fl) (cfg : Config) (z : ℚ) :
    voxelWeight (Arith.exact sq) cfg (.fin z) = .fin (depthWeight cfg.useConstWeight z) := by
  unfold voxelWeight depthWeight
  by_cases hc : cfg.useConstWeight = true
  · simp [hc]
  · rw [if_neg hc, if_neg hc]
    simp only [abs_fin, lt_fin, decide_eq_true_eq]
    have hk : kEpsilon = 1 / 1000000 := by norm_num [kEpsilon]
    rw [hk]
    by_cases h : 1 / 1000000 < |z|
    · rw [if_pos h, if_pos h, exact_mul, exact_div]
      · rw [← sq_abs, pow_two]
      · have : 0 < |z| := lt_trans (by norm_num) h
        positivity
    · rw [if_neg h, if_neg h]

example : voxelWeight (Arith.exact sq4) exCfg (.fin (-2)) = .fin (1 / 4) ∧ depthWeight false (-2) = 1 / 4 := by
  decide +kernel

/-! ### C25: the points of a bundle (merged integrator) -/

theorem mergeBundle_exact (sq : ℚ → Fl) (cfg : Config) (ps : List (Pt × Color)) :
    ∀ (W : ℚ) (P : Pt) (c : Color), 0 ≤ W →
      ∃ b P', mergeBundle (Arith.exact sq) cfg false (ps.map fun p => (p.1.map .fin, p.2)) ⟨c, P.map .fin, .fin W⟩ = .ok b ∧
        b.weight = .fin (W + total (fun p => depthWeight cfg.useConstWeight p.1.z)
          (ps.filter fun p => 1 / 1000000 ≤ depthWeight cfg.useConstWeight p.1.z)) ∧
        b.pointC = Vec3.map .fin P' ∧
        (∀ f : Pt → ℚ, (f = Vec3.x ∨ f = Vec3.y ∨ f = Vec3.z) →
          f P' * (W + total (fun p => depthWeight cfg.useConstWeight p.1.z)
            (ps.filter fun p => 1 / 1000000 ≤ depthWeight cfg.useConstWeight p.1.z)) =
          f P * W + total (fun p => depthWeight cfg.useConstWeight p.1.z * f p.1)
            (ps.filter fun p => 1 / 1000000 ≤ depthWeight cfg.useConstWeight p.1.z)) := by
  induction ps with
  | nil => intro W P c _; exact ⟨_, P, rfl, by simp [total], rfl, by simp [total]⟩
  | cons p ps ih =>
    intro W P c hW
    simp only [List.map_cons, mergeBundle, Vec3.map_z, C27_weight_value, lt_fin, decide_eq_true_eq]
    have hk : kEpsilon = 1 / 1000000 := by norm_num [kEpsilon]
    rw [hk]
    generalize hw : depthWeight cfg.useConstWeight p.1.z = w
    by_cases h : w < 1 / 1000000
    · rw [if_pos h, List.filter_cons_of_neg (by simp [hw]; linarith)]
      exact ih W P c hW
    · have hw' : 1 / 1000000 ≤ w := not_lt.1 h
      have hwp : 0 < w := lt_of_lt_of_le (by norm_num) hw'
      rw [if_neg h, List.filter_cons_of_pos (by simp only [hw, decide_eq_true_eq]; exact hw')]
      obtain ⟨col, hcol, -⟩ := blend_between (relErr_exact sq) le_rfl (by norm_num) hW hwp.le
        (by linarith : 0 < W + w) c p.2
      rw [hcol]
      have hne : W + w ≠ 0 := by linarith
      have hpt : (Arith.exact sq).vdiv ((Arith.exact sq).vadd ((Arith.exact sq).vscale (P.map .fin) (.fin W))
          ((Arith.exact sq).vscale (p.1.map .fin) (.fin w))) ((Arith.exact sq).add (.fin W) (.fin w)) =
          Vec3.map .fin (⟨(P.x * W + p.1.x * w) / (W + w), (P.y * W + p.1.y * w) / (W + w),
            (P.z * W + p.1.z * w) / (W + w)⟩ : Pt) := by
        simp only [Arith.vdiv, Arith.vadd, Arith.vscale, exact_add]
        ext <;> simp [exact_div sq hne]
      simp only [Outcome.bind_ok, hpt, Bool.false_eq_true, if_false]
      obtain ⟨b, P', h1, h2, h3, h4⟩ := ih (W + w)
        ⟨(P.x * W + p.1.x * w) / (W + w), (P.y * W + p.1.y * w) / (W + w), (P.z * W + p.1.z * w) / (W + w)⟩ col
        (by linarith)
      refine ⟨b, P', h1, ?_, h3, ?_⟩
      · rw [h2]
        simp only [total, List.map_cons, List.sum_cons, hw]
        congr 1; ring
      · intro f hf
        have := h4 f hf
        simp only [total, List.map_cons, List.sum_cons, hw] at this ⊢
        rw [← add_assoc, this]
        rcases hf with rfl | rfl | rfl <;> (simp only; field_simp; ring)

/-- **C25, bundled points.** In exact arithmetic the merged integrator replaces the points of a bundle by
their weighted mean, with the sum of their weights; the points with (almost) no weight are left out. -/
theorem C25_bundle_mean (sq : ℚ → Fl) (cfg : Config) (ps used : List (Pt × Color))
    (hused : used = ps.filter fun p => 1 / 1000000 ≤ depthWeight cfg.useConstWeight p.1.z) (hne : used ≠ []) :
    ∃ b, mergeBundle (Arith.exact sq) cfg false (ps.map fun p => (p.1.map .fin, p.2)) Bundle.init = .ok b ∧
      b.weight = .fin (total (fun p => depthWeight cfg.useConstWeight p.1.z) used) ∧
      b.pointC.x = .fin (weightedMean (fun p => depthWeight cfg.useConstWeight p.1.z) (fun p => p.1.x) used) ∧
      b.pointC.y = .fin (weightedMean (fun p => depthWeight cfg.useConstWeight p.1.z) (fun p => p.1.y) used) ∧
      b.pointC.z = .fin (weightedMean (fun p => depthWeight cfg.useConstWeight p.1.z) (fun p => p.1.z) used) := by
  obtain ⟨b, P', h1, h2, h3, h4⟩ := mergeBundle_exact sq cfg ps 0 ⟨0, 0, 0⟩ Color.default le_rfl
  rw [← hused] at h2 h4
  have hpos : 0 < total (fun p => depthWeight cfg.useConstWeight p.1.z) used := by
    have hall : ∀ p ∈ used, 0 < depthWeight cfg.useConstWeight p.1.z := by
      intro p hp
      rw [hused, List.mem_filter] at hp
      have : 1 / 1000000 ≤ depthWeight cfg.useConstWeight p.1.z := by simpa using hp.2
      exact lt_of_lt_of_le (by norm_num) this
    clear h2 h4 hused
    cases used with
    | nil => exact absurd rfl hne
    | cons o os =>
      simp only [total, List.map_cons, List.sum_cons]
      have h1 := hall o (by simp)
      have h2 : 0 ≤ (os.map fun p : Pt × Color => depthWeight cfg.useConstWeight p.1.z).sum := by
        apply List.sum_nonneg
        intro x hx
        obtain ⟨p, hp, rfl⟩ := List.mem_map.1 hx
        exact (hall p (by simp [hp])).le
      linarith
  rw [zero_add] at h2 h4
  refine ⟨b, h1, h2, ?_, ?_, ?_⟩
  all_goals rw [h3]; simp only [Vec3.map_x, Vec3.map_y, Vec3.map_z, weightedMean, Fl.fin.injEq]; rw [eq_div_iff hpos.ne']
  · simpa using h4 Vec3.x (Or.inl rfl)
  · simpa using h4 Vec3.y (Or.inr (Or.inl rfl))
  · simpa using h4 Vec3.z (Or.inr (Or.inr rfl))

example : (mergeBundle (Arith.exact sq4) exCfg false
    ([(⟨1, 0, 1⟩, ⟨10#8, 0#8, 0#8, 255#8⟩), (⟨9, 9, 0⟩, Color.default), (⟨6, 0, 2⟩, ⟨30#8, 0#8, 0#8, 255#8⟩)].map
      fun p : Pt × Color => (p.1.map .fin, p.2)) Bundle.init) =
    .ok ⟨⟨14#8, 0#8, 0#8, 255#8⟩, ⟨.fin 2, .fin 0, .fin (6 / 5)⟩, .fin (5 / 4)⟩ := by decide +kernel

/-- **C25, clearing bundles.** For a clearing ray only the first point with a weight counts: the bundle is
exactly that point, its weight and its colour, whatever follows. -/
theorem C25_clearing_bundle_first (sq : ℚ → Fl) (cfg : Config) (pre : List (Pt × Color)) (p : Pt × Color)
    (post : List (Pt × Color)) (hpre : ∀ q ∈ pre, depthWeight cfg.useConstWeight q.1.z < 1 / 1000000)
    (hp : 1 / 1000000 ≤ depthWeight cfg.useConstWeight p.1.z) :
    mergeBundle (Arith.exact sq) cfg true ((pre ++ p :: post).map fun p => (p.1.map .fin, p.2)) Bundle.init =
      .ok ⟨p.2, p.1.map .fin, .fin (depthWeight cfg.useConstWeight p.1.z)⟩ := by
  have hk : kEpsilon = 1 / 1000000 := by norm_num [kEpsilon]
  induction pre with
  | nil =>
    simp only [List.nil_append, List.map_cons, mergeBundle, Vec3.map_z, C27_weight_value, lt_fin, decide_eq_true_eq]
    rw [hk, if_neg (not_lt.2 hp)]
    have hwp : 0 < depthWeight cfg.useConstWeight p.1.z := lt_of_lt_of_le (by norm_num) hp
    simp only [Bundle.init, blend_zero_left hwp, Outcome.bind_ok, if_true]
    congr 2
    · simp only [Arith.vdiv, Arith.vadd, Arith.vscale, exact_add]
      ext <;> simp [exact_div sq hwp.ne', hwp.ne']
    · simp
  | cons q pre ih =>
    simp only [List.cons_append, List.map_cons, mergeBundle, Vec3.map_z, C27_weight_value, lt_fin, decide_eq_true_eq]
    rw [hk, if_pos (hpre q (by simp))]
    exact ih (fun r hr => hpre r (by simp [hr]))

example : mergeBundle (Arith.exact sq4) exCfg true
    ([(⟨9, 9, 0⟩, Color.default), (⟨6, 0, 2⟩, ⟨30#8, 0#8, 0#8, 255#8⟩), (⟨1, 0, 1⟩, ⟨10#8, 0#8, 0#8, 255#8⟩)].map
      fun p : Pt × Color => (p.1.map .fin, p.2)) Bundle.init =
    .ok ⟨⟨30#8, 0#8, 0#8, 255#8⟩, ⟨.fin 6, .fin 0, .fin 2⟩, .fin (1 / 4)⟩ := by decide +kernel

example : coarse.Faithful ∧ voxelWeight coarse exCfg (.fin 2) = .fin (1 / 4) ∧
    voxelWeight coarse exCfg .nan = .fin 0 := ⟨coarse_faithful, by decide +kernel⟩

/-! ### C21: merging voxels -/

/-- **C21.** Merging in exact arithmetic: sum of the weights, weighted mean of the distances, which lies
between the two distances. -/
theorem C21_weighted_mean (sq : ℚ → Fl) (a b : TsdfVoxel Fl) (da db wa wb : ℚ) (hda : a.distance = .fin da)
    (hdb : b.distance = .fin db) (hwa : a.weight = .fin wa) (hwb : b.weight = .fin wb) (ha : 0 ≤ wa) (hb : 0 ≤ wb)
    (hpos : 0 < wa + wb) :
    ∃ v D, mergeTsdf (Arith.exact sq) a b = .ok v ∧ v.weight = .fin (wa + wb) ∧ v.distance = .fin D ∧
      D * (wa + wb) = da * wa + db * wb ∧ min da db ≤ D ∧ D ≤ max da db ∧ ColorBetween v.color a.color b.color := by
  obtain ⟨c, hc, hbc⟩ := blend_between (relErr_exact sq) le_rfl (by norm_num) ha hb hpos a.color b.color
  refine ⟨{ distance := .fin ((da * wa + db * wb) / (wa + wb)), weight := .fin (wa + wb), color := c },
    (da * wa + db * wb) / (wa + wb), ?_, rfl, rfl, ?_, ?_, ?_, hbc⟩
  · unfold mergeTsdf
    simp only [hda, hdb, hwa, hwb, exact_add, exact_mul, lt_fin, decide_eq_true_eq, if_pos hpos,
      exact_div sq hpos.ne', hc, Outcome.bind_ok, Outcome.pure_eq]
  · field_simp
  · rw [le_div_iff₀ hpos]
    nlinarith [mul_le_mul_of_nonneg_right (min_le_left da db) ha, mul_le_mul_of_nonneg_right (min_le_right da db) hb]
  · rw [div_le_iff₀ hpos]
    nlinarith [mul_le_mul_of_nonneg_right (le_max_left da db) ha, mul_le_mul_of_nonneg_right (le_max_right da db) hb]

example : mergeTsdf (Arith.exact sq4) ⟨.fin 1, .fin 3, ⟨10#8, 0#8, 0#8, 255#8⟩⟩ ⟨.fin 5, .fin 1, ⟨50#8, 0#8, 0#8, 255#8⟩⟩ =
    .ok ⟨.fin 2, .fin 4, ⟨20#8, 0#8, 0#8, 255#8⟩⟩ := by decide +kernel

/-- **C21.** Merging does not depend on which voxel is merged into which — for every rounding, including
the colour. -/
theorem C21_commutative (A : Arith) (a b : TsdfVoxel Fl) (h : Fl.lt (.fin 0) (A.add a.weight b.weight) = true) :
    mergeTsdf A a b = mergeTsdf A b a := by
  unfold mergeTsdf
  simp only [add_comm' A b.weight a.weight, h, if_true, blend_comm A b.color a.color,
    add_comm' A (A.mul b.distance b.weight) _]

example : Fl.lt (.fin 0) (coarse.add (.fin 3) (.fin (1 / 2))) = true := by decide +kernel

/-- **C21.** Three voxels merged in either grouping give the same weight and distance. -/
theorem C21_associative (sq : ℚ → Fl) (a b c : TsdfVoxel Fl) (da db dc wa wb wc : ℚ) (hda : a.distance = .fin da)
    (hdb : b.distance = .fin db) (hdc : c.distance = .fin dc) (hwa : a.weight = .fin wa) (hwb : b.weight = .fin wb)
    (hwc : c.weight = .fin wc) (ha : 0 ≤ wa) (hb : 0 < wb) (hc : 0 ≤ wc) :
    ∃ ab bc v v', mergeTsdf (Arith.exact sq) a b = .ok ab ∧ mergeTsdf (Arith.exact sq) b c = .ok bc ∧
      mergeTsdf (Arith.exact sq) ab c = .ok v ∧ mergeTsdf (Arith.exact sq) a bc = .ok v' ∧
      v.weight = v'.weight ∧ v.distance = v'.distance := by
  obtain ⟨ab, dab, h1, w1, d1, e1, -⟩ := C21_weighted_mean sq a b da db wa wb hda hdb hwa hwb ha hb.le (by linarith)
  obtain ⟨bc, dbc, h2, w2, d2, e2, -⟩ := C21_weighted_mean sq b c db dc wb wc hdb hdc hwb hwc hb.le hc (by linarith)
  obtain ⟨v, dv, h3, w3, d3, e3, -⟩ := C21_weighted_mean sq ab c dab dc (wa + wb) wc d1 hdc w1 hwc (by linarith) hc
    (by linarith)
  obtain ⟨v', dv', h4, w4, d4, e4, -⟩ := C21_weighted_mean sq a bc da dbc wa (wb + wc) hda d2 hwa w2 ha (by linarith)
    (by linarith)
  refine ⟨ab, bc, v, v', h1, h2, h3, h4, ?_, ?_⟩
  · rw [w3, w4]; congr 1; ring
  · rw [d3, d4]; congr 1
    have hp : (wa + wb + wc) ≠ 0 := by linarith
    apply mul_right_cancel₀ hp
    rw [e3, e1, show wa + wb + wc = wa + (wb + wc) by ring, e4, e2]
    ring

example : (mergeTsdf (Arith.exact sq4) ⟨.fin 1, .fin 3, Color.default⟩ ⟨.fin 5, .fin 1, Color.default⟩ >>= fun ab =>
      mergeTsdf (Arith.exact sq4) ab ⟨.fin (-1), .fin 2, Color.default⟩) = .ok ⟨.fin 1, .fin 6, Color.default⟩ ∧
    (mergeTsdf (Arith.exact sq4) ⟨.fin 5, .fin 1, Color.default⟩ ⟨.fin (-1), .fin 2, Color.default⟩ >>= fun bc =>
      mergeTsdf (Arith.exact sq4) ⟨.fin 1, .fin 3, Color.default⟩ bc) = .ok ⟨.fin 1, .fin 6, Color.default⟩ := by
  decide +kernel

/-- **C21.** A voxel of weight zero is neutral on both sides, including the colour. -/
theorem C21_zero_neutral (sq : ℚ → Fl) (a b : TsdfVoxel Fl) (da db w : ℚ) (hda : a.distance = .fin da)
    (hdb : b.distance = .fin db) (hwa : a.weight = .fin 0) (hwb : b.weight = .fin w) (hw : 0 < w) :
    mergeTsdf (Arith.exact sq) a b = .ok b ∧ mergeTsdf (Arith.exact sq) b a = .ok b := by
  have h1 : mergeTsdf (Arith.exact sq) a b = .ok b := by
    unfold mergeTsdf
    simp only [hda, hdb, hwa, hwb, exact_add, exact_mul, lt_fin, decide_eq_true_eq, zero_add, if_pos hw,
      exact_div sq hw.ne', blend_zero_left hw, Outcome.bind_ok, Outcome.pure_eq, mul_zero, mul_div_assoc,
      div_self hw.ne', mul_one]
    rw [← hdb, ← hwb]
  refine ⟨h1, ?_⟩
  rw [← C21_commutative _ a b (by simp [hwa, hwb, Fl.lt, hw])]
  exact h1

example : mergeTsdf (Arith.exact sq4) ⟨.fin 7, .fin 0, ⟨1#8, 2#8, 3#8, 4#8⟩⟩ ⟨.fin 5, .fin 1, ⟨50#8, 60#8, 70#8, 255#8⟩⟩ =
    .ok ⟨.fin 5, .fin 1, ⟨50#8, 60#8, 70#8, 255#8⟩⟩ := by decide +kernel

/-- **C21.** Two voxels of weight zero: nothing happens. -/
theorem C21_both_zero (A : Arith) (h0 : A.rnd 0 = .fin 0) (a b : TsdfVoxel Fl) (hwa : a.weight = .fin 0)
    (hwb : b.weight = .fin 0) : mergeTsdf A a b = .ok b := by
  unfold mergeTsdf
  simp [hwa, hwb, Arith.add, h0, Fl.lt]

example : (coarse.rnd 0 = .fin 0) ∧
    mergeTsdf coarse ⟨.fin 7, .fin 0, ⟨1#8, 2#8, 3#8, 4#8⟩⟩ ⟨.fin 5, .fin 0, ⟨50#8, 60#8, 70#8, 255#8⟩⟩ =
      .ok ⟨.fin 5, .fin 0, ⟨50#8, 60#8, 70#8, 255#8⟩⟩ := by decide +kernel

/-- **C21.** Merging ESDF voxels never loses an observation: the result is observed iff one of the inputs
is, and the distance comes from the observed input(s). -/
theorem C21_esdf (sq : ℚ → Fl) (a b : EsdfVoxel Fl) (da db : ℚ) (hda : a.distance = .fin da)
    (hdb : b.distance = .fin db) :
    ((mergeEsdf (Arith.exact sq) a b).observed = true ↔ a.observed = true ∨ b.observed = true) ∧
    (a.observed = true → b.observed = true →
      (mergeEsdf (Arith.exact sq) a b).distance = .fin ((da + db) / 2)) ∧
    (a.observed = true → b.observed = false → (mergeEsdf (Arith.exact sq) a b).distance = .fin da) ∧
    (a.observed = false → (mergeEsdf (Arith.exact sq) a b).distance = .fin db) := by
  refine ⟨?_, ?_, ?_, ?_⟩
  · simp only [mergeEsdf, Bool.or_eq_true]; tauto
  · intro h1 h2
    simp [mergeEsdf, h1, h2, hda, hdb, exact_div sq (two_ne_zero)]
  · intro h1 h2; simp [mergeEsdf, h1, h2, hda]
  · intro h1; simp [mergeEsdf, h1, hdb]

example : mergeEsdf (Arith.exact sq4) ⟨.fin 1, true, false, false, true, ⟨0, 0, 1⟩⟩ ⟨.fin 4, false, true, false, false, ⟨1, 0, 0⟩⟩ =
    ⟨.fin 1, true, true, false, false, ⟨1, 0, 0⟩⟩ := by decide +kernel

/-- **C21.** Merging occupancy voxels: log-odds add up, observations are kept, order is irrelevant. -/
theorem C21_occupancy (sq : ℚ → Fl) (a b : OccVoxel Fl) (pa pb : ℚ) (ha : a.probabilityLog = .fin pa)
    (hb : b.probabilityLog = .fin pb) :
    (mergeOcc (Arith.exact sq) a b).probabilityLog = .fin (pa + pb) ∧
    ((mergeOcc (Arith.exact sq) a b).observed = true ↔ a.observed = true ∨ b.observed = true) ∧
    mergeOcc (Arith.exact sq) a b = mergeOcc (Arith.exact sq) b a := by
  refine ⟨?_, ?_, ?_⟩
  · simp [mergeOcc, ha, hb, add_comm]
  · simp only [mergeOcc, Bool.or_eq_true]; tauto
  · simp only [mergeOcc, add_comm' _ b.probabilityLog, Bool.or_comm b.observed]

example : mergeOcc (Arith.exact sq4) ⟨.fin (1 / 2), true⟩ ⟨.fin (-2), false⟩ = ⟨.fin (-3 / 2), true⟩ := by decide +kernel

end Vox.Tsdf
