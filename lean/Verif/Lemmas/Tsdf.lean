/-
Helper lemmas on floating-point comparisons, colour blending and the TSDF update.
-/
import Verif.Model.Tsdf
import Verif.Spec.Tsdf
import Mathlib.Tactic.Linarith
import Mathlib.Tactic.Positivity
import Mathlib.Tactic.FieldSimp
import Mathlib.Tactic.Ring
import Mathlib.Algebra.Order.Floor.Ring
import Mathlib.Data.Rat.Floor

namespace Vox.Tsdf

open Fl Spec

/-! ### Comparisons -/

theorem lt_fin (a b : ℚ) : Fl.lt (.fin a) (.fin b) = decide (a < b) := rfl
theorem le_fin (a b : ℚ) : Fl.le (.fin a) (.fin b) = decide (a ≤ b) := rfl

theorem le_fin_cases {a : ℚ} {x : Fl} (h : Fl.le (.fin a) x = true) : (∃ q, x = .fin q ∧ a ≤ q) ∨ x = .pinf := by
  cases x with
  | nan => simp [Fl.le] at h
  | ninf => simp [Fl.le] at h
  | fin q => exact Or.inl ⟨q, rfl, by simpa [Fl.le] using h⟩
  | pinf => exact Or.inr rfl

/-! ### Bounds -/

theorem clamp_within {T : ℚ} (hT : 0 ≤ T) (n : Fl) :
    Within (-T) T (if Fl.lt (.fin 0) n then Fl.stdMin (.fin T) n else Fl.stdMax (Fl.neg (.fin T)) n) := by
  unfold Within
  cases n with
  | nan => exact ⟨-T, by simp [Fl.lt, Fl.stdMax, Fl.neg], by linarith, by linarith⟩
  | ninf => exact ⟨-T, by simp [Fl.lt, Fl.stdMax, Fl.neg], by linarith, by linarith⟩
  | pinf => exact ⟨T, by simp [Fl.lt, Fl.stdMin], by linarith, by linarith⟩
  | fin q =>
    simp only [Fl.lt, Fl.stdMin, Fl.stdMax, Fl.neg, decide_eq_true_eq]
    by_cases h0 : 0 < q
    · rw [if_pos h0]
      by_cases h1 : q < T
      · rw [if_pos h1]; exact ⟨q, rfl, by linarith, by linarith⟩
      · rw [if_neg h1]; exact ⟨T, rfl, by linarith, by linarith⟩
    · rw [if_neg h0]
      push Not at h0
      by_cases h1 : -T < q
      · rw [if_pos h1]; exact ⟨q, rfl, by linarith, by linarith⟩
      · rw [if_neg h1]; exact ⟨-T, rfl, by linarith, by linarith⟩

theorem capWeight_within {M : ℚ} (hM : 0 ≤ M) {n : Fl} (h : Fl.lt n kFloatEpsilon = false) :
    Within 0 M (Fl.stdMin (.fin M) n) := by
  unfold Within
  cases n with
  | nan => exact ⟨M, by simp [Fl.stdMin, Fl.lt], hM, le_rfl⟩
  | ninf => simp [kFloatEpsilon, Fl.lt] at h
  | pinf => exact ⟨M, by simp [Fl.stdMin, Fl.lt], hM, le_rfl⟩
  | fin q =>
    have hq : 1 / 1000000 ≤ q := by simpa [kFloatEpsilon, Fl.lt] using h
    simp only [Fl.stdMin, Fl.lt, decide_eq_true_eq]
    by_cases h1 : q < M
    · rw [if_pos h1]; exact ⟨q, rfl, by linarith, by linarith⟩
    · rw [if_neg h1]; exact ⟨M, rfl, hM, le_rfl⟩

/-- The limits of a voxel. -/
def Bounded (T M : ℚ) (v : TsdfVoxel Fl) : Prop := Within (-T) T v.distance ∧ Within 0 M v.weight

theorem applyUpdate_bounded {A : Arith} {cfg : Config} {T M : ℚ} (hT : 0 ≤ T) (hM : 0 ≤ M)
    (hcT : cfg.truncation = .fin T) (hcM : cfg.maxWeight = .fin M) {sdf u : Fl} {c : Color}
    {v v' : TsdfVoxel Fl} (hv : Bounded T M v) (h : applyUpdate A cfg sdf u c v = .ok v') :
    Bounded T M v' := by
  unfold applyUpdate at h
  simp only at h
  split at h
  · simp only [Outcome.ok.injEq] at h; rw [← h]; exact hv
  · rename_i hlt
    obtain ⟨col, -, h⟩ := Outcome.bind_eq_ok.1 h
    simp only [Outcome.pure_eq, Outcome.ok.injEq] at h
    rw [← h, hcT, hcM]
    exact ⟨clamp_within hT _, capWeight_within hM (by simpa using hlt)⟩

/-! ### Weights under rounding -/

open Arith in
theorem rnd_nonneg {A : Arith} (hA : Faithful A) {q : ℚ} (h : 0 ≤ q) : Fl.le (.fin 0) (A.rnd q) = true := by
  have := hA.mono 0 q h
  rwa [hA.zero] at this

open Arith in
theorem mul_nonneg' {A : Arith} (hA : Faithful A) {a b : Fl} (ha : Fl.le (.fin 0) a = true)
    (hb : Fl.le (.fin 0) b = true) : A.mul a b = .nan ∨ Fl.le (.fin 0) (A.mul a b) = true := by
  rcases le_fin_cases ha with ⟨p, rfl, hp⟩ | rfl <;> rcases le_fin_cases hb with ⟨q, rfl, hq⟩ | rfl
  · exact Or.inr (rnd_nonneg hA (mul_nonneg hp hq))
  · simp only [Arith.mul, Fl.infOfSign]
    by_cases h : 0 < p
    · rw [if_pos h]; right; rfl
    · rw [if_neg h, if_neg (by linarith)]; left; rfl
  · simp only [Arith.mul, Fl.infOfSign]
    by_cases h : 0 < q
    · rw [if_pos h]; right; rfl
    · rw [if_neg h, if_neg (by linarith)]; left; rfl
  · right; rfl

open Arith in
/-- Measurement weights are never negative (and never NaN). -/
theorem voxelWeight_nonneg {A : Arith} (hA : Faithful A) (cfg : Config) (z : Fl) :
    Fl.le (.fin 0) (voxelWeight A cfg z) = true := by
  unfold voxelWeight
  split
  · simp [Fl.le]
  · simp only
    split
    · rename_i h
      cases z with
      | nan => simp [Fl.abs, Fl.lt] at h
      | ninf => simp [Fl.abs, Arith.mul, Arith.div, Fl.le]
      | pinf => simp [Fl.abs, Arith.mul, Arith.div, Fl.le]
      | fin q =>
        simp only [Fl.abs, Arith.mul]
        have hsq := rnd_nonneg hA (show 0 ≤ |q| * |q| by positivity)
        rcases le_fin_cases hsq with ⟨p, hp, hp0⟩ | hp
        · rw [hp]
          simp only [Arith.div]
          by_cases h0 : p = 0
          · simp [h0, Fl.infOfSign, Fl.le]
          · rw [if_neg h0]
            exact rnd_nonneg hA (by positivity)
        · rw [hp]; simp [Arith.div, Fl.le]
    · simp [Fl.le]

open Arith in
theorem updatedWeight_nonneg {A : Arith} (hA : Faithful A) {cfg : Config} {vs sdf w : Fl}
    (hw : Fl.le (.fin 0) w = true) (hf : Fl.le (.fin 0) cfg.sparsityFactor = true) :
    updatedWeight A cfg vs sdf w = .nan ∨ Fl.le (.fin 0) (updatedWeight A cfg vs sdf w) = true := by
  unfold updatedWeight
  simp only
  generalize hu : (if (cfg.useWeightDropoff && sdf.lt vs.neg) = true then
      ((A.div (A.mul w (A.add cfg.truncation sdf)) (A.sub cfg.truncation vs)).stdMax (fin 0)) else w) = u
  have hu0 : u = .nan ∨ Fl.le (.fin 0) u = true := by
    rw [← hu]
    split
    · generalize A.div (A.mul w (A.add cfg.truncation sdf)) (A.sub cfg.truncation vs) = x
      unfold Fl.stdMax
      split
      · right; simp [Fl.le]
      · rename_i h
        cases x with
        | nan => left; rfl
        | ninf => simp [Fl.lt] at h
        | pinf => right; rfl
        | fin q => right; simpa [Fl.le, Fl.lt] using h
    · right; exact hw
  split
  · rcases hu0 with h | h
    · left; rw [h]; cases cfg.sparsityFactor <;> rfl
    · exact mul_nonneg' hA h hf
  · exact hu0

open Arith in
/-- Adding a non-negative weight and capping never lowers the weight. -/
theorem applyUpdate_weight_mono {A : Arith} (hA : Faithful A) {cfg : Config} {M w : ℚ}
    (hcM : cfg.maxWeight = .fin M) (hM : A.rnd M = .fin M) {sdf u : Fl} {c : Color} {v v' : TsdfVoxel Fl}
    (hvw : v.weight = .fin w) (hw : A.rnd w = .fin w) (hwM : w ≤ M)
    (hu : u = .nan ∨ Fl.le (.fin 0) u = true) (h : applyUpdate A cfg sdf u c v = .ok v') :
    ∃ w', v'.weight = .fin w' ∧ w ≤ w' ∧ w' ≤ M ∧ A.rnd w' = .fin w' := by
  unfold applyUpdate at h
  simp only at h
  split at h
  · simp only [Outcome.ok.injEq] at h; rw [← h]; exact ⟨w, hvw, le_rfl, hwM, hw⟩
  · obtain ⟨col, -, h⟩ := Outcome.bind_eq_ok.1 h
    simp only [Outcome.pure_eq, Outcome.ok.injEq] at h
    rw [← h, hcM, hvw]
    simp only
    rcases hu with rfl | hu
    · exact ⟨M, by simp [Arith.add, Fl.stdMin, Fl.lt], hwM, le_rfl, hM⟩
    · rcases le_fin_cases hu with ⟨q, rfl, hq⟩ | rfl
      · have hm := hA.mono w (w + q) (by linarith)
        rw [hw] at hm
        simp only [Arith.add]
        rcases le_fin_cases hm with ⟨n, hn, hwn⟩ | hn
        · rw [hn]
          simp only [Fl.stdMin, Fl.lt, decide_eq_true_eq]
          by_cases h1 : n < M
          · rw [if_pos h1]; exact ⟨n, rfl, hwn, h1.le, hA.idem _ _ hn⟩
          · rw [if_neg h1]; exact ⟨M, rfl, hwM, le_rfl, hM⟩
        · rw [hn]; exact ⟨M, by simp [Fl.stdMin, Fl.lt], hwM, le_rfl, hM⟩
      · exact ⟨M, by simp [Arith.add, Fl.stdMin, Fl.lt], hwM, le_rfl, hM⟩

/-! ### Exact arithmetic -/

section exact
variable (s : ℚ → Fl)

@[simp] theorem exact_add (a b : ℚ) : (Arith.exact s).add (.fin a) (.fin b) = .fin (a + b) := rfl
@[simp] theorem exact_mul (a b : ℚ) : (Arith.exact s).mul (.fin a) (.fin b) = .fin (a * b) := rfl
@[simp] theorem neg_fin (a : ℚ) : Fl.neg (.fin a) = .fin (-a) := rfl
@[simp] theorem abs_fin (a : ℚ) : Fl.abs (.fin a) = .fin |a| := rfl
@[simp] theorem exact_sub (a b : ℚ) : (Arith.exact s).sub (.fin a) (.fin b) = .fin (a - b) := by
  simp [Arith.sub, sub_eq_add_neg]
theorem exact_div {a b : ℚ} (h : b ≠ 0) : (Arith.exact s).div (.fin a) (.fin b) = .fin (a / b) := by
  simp [Arith.div, h, Arith.exact]

end exact

/-! ### Colour blending with bounded relative error -/

theorem relErr_exact (s : ℚ → Fl) : RelErr (Arith.exact s) 0 := fun q => ⟨q, rfl, by simp⟩

theorem relErr_nonneg {d q q' : ℚ} (hd : d ≤ 1) (hq : 0 ≤ q) (h : |q' - q| ≤ d * |q|) :
    q * (1 - d) ≤ q' ∧ q' ≤ q * (1 + d) ∧ 0 ≤ q' := by
  rw [abs_of_nonneg hq] at h
  have h1 := (abs_le.1 h).1
  have h2 := (abs_le.1 h).2
  refine ⟨by linarith, by linarith, ?_⟩
  have : 0 ≤ q * (1 - d) := mul_nonneg hq (by linarith)
  linarith

theorem round_between {m M : ℤ} {q : ℚ} (hm : 0 ≤ m) (h1 : (m : ℚ) - 1 / 4 ≤ q) (h2 : q ≤ M + 1 / 4) :
    m ≤ roundHalfAway q ∧ roundHalfAway q ≤ M := by
  unfold roundHalfAway
  split
  · constructor
    · exact Int.le_floor.2 (by linarith)
    · have : ⌊q + 1 / 2⌋ < M + 1 := Int.floor_lt.2 (by push_cast; linarith)
      omega
  · rename_i h
    push Not at h
    have hm0 : m = 0 := by
      have : (m : ℚ) < 1 := by linarith
      have : m < 1 := by exact_mod_cast this
      omega
    subst hm0
    have hMn : -1 < M := by
      have : (-1 : ℚ) < M := by push_cast at h1; linarith
      exact_mod_cast this
    constructor
    · have : -1 < ⌈q - 1 / 2⌉ := Int.lt_ceil.2 (by push_cast at h1 ⊢; linarith)
      omega
    · exact Int.ceil_le.2 (by
        have : (0 : ℚ) ≤ M := by exact_mod_cast (by omega : 0 ≤ M)
        linarith)

/-- The exact interval arithmetic behind the blend: normalised weights `f1`, `f2` with small relative
errors give a channel value within a quarter of the interval of the inputs. -/
theorem blend_interval {d w1 w2 t f1 f2 p1 p2 v c1 c2 m M : ℚ} (hd0 : 0 ≤ d) (hd : d ≤ 1 / 4096)
    (hw1 : 0 ≤ w1) (hw2 : 0 ≤ w2) (hpos : 0 < w1 + w2)
    (ht : |t - (w1 + w2)| ≤ d * |w1 + w2|)
    (hf1 : |f1 - w1 / t| ≤ d * |w1 / t|) (hf2 : |f2 - w2 / t| ≤ d * |w2 / t|)
    (hp1 : |p1 - c1 * f1| ≤ d * |c1 * f1|) (hp2 : |p2 - c2 * f2| ≤ d * |c2 * f2|)
    (hv : |v - (p1 + p2)| ≤ d * |p1 + p2|)
    (hm : 0 ≤ m) (hM : M ≤ 255) (h1 : m ≤ c1 ∧ c1 ≤ M) (h2 : m ≤ c2 ∧ c2 ≤ M) :
    m - 1 / 4 ≤ v ∧ v ≤ M + 1 / 4 := by
  have hd1 : d ≤ 1 := by linarith
  obtain ⟨t1, t2, -⟩ := relErr_nonneg hd1 hpos.le ht
  have htp : 0 < t := lt_of_lt_of_le (mul_pos hpos (by linarith)) t1
  have hc1 : 0 ≤ c1 := le_trans hm h1.1
  have hc2 : 0 ≤ c2 := le_trans hm h2.1
  obtain ⟨f11, f12, f10⟩ := relErr_nonneg hd1 (div_nonneg hw1 htp.le) hf1
  obtain ⟨f21, f22, f20⟩ := relErr_nonneg hd1 (div_nonneg hw2 htp.le) hf2
  obtain ⟨p11, p12, p10⟩ := relErr_nonneg hd1 (mul_nonneg hc1 f10) hp1
  obtain ⟨p21, p22, p20⟩ := relErr_nonneg hd1 (mul_nonneg hc2 f20) hp2
  obtain ⟨v1, v2, v0⟩ := relErr_nonneg hd1 (add_nonneg p10 p20) hv
  -- sum of the normalised weights
  have hsum : w1 / t + w2 / t = (w1 + w2) / t := by ring
  have hM0 : 0 ≤ M := le_trans hc1 h1.2
  have hru : (w1 + w2) / t * (1 - d) ≤ 1 := by
    rw [div_mul_eq_mul_div, div_le_one htp]; exact t1
  have hrl : 1 ≤ (w1 + w2) / t * (1 + d) := by
    rw [div_mul_eq_mul_div, one_le_div htp]; exact t2
  set r := (w1 + w2) / t with hr
  have hr0 : 0 < r := div_pos hpos htp
  have hFu : f1 + f2 ≤ r * (1 + d) := by
    calc f1 + f2 ≤ (w1 / t + w2 / t) * (1 + d) := by linarith
      _ = r * (1 + d) := by rw [hsum]
  have hFl : r * (1 - d) ≤ f1 + f2 := by
    calc r * (1 - d) = (w1 / t + w2 / t) * (1 - d) := by rw [hsum]
      _ ≤ f1 + f2 := by linarith
  have hPu : p1 + p2 ≤ M * (f1 + f2) * (1 + d) := by
    have a1 : c1 * f1 ≤ M * f1 := mul_le_mul_of_nonneg_right h1.2 f10
    have a2 : c2 * f2 ≤ M * f2 := mul_le_mul_of_nonneg_right h2.2 f20
    have a3 : (c1 * f1 + c2 * f2) * (1 + d) ≤ (M * f1 + M * f2) * (1 + d) :=
      mul_le_mul_of_nonneg_right (by linarith) (by linarith)
    calc p1 + p2 ≤ (c1 * f1 + c2 * f2) * (1 + d) := by linarith
      _ ≤ (M * f1 + M * f2) * (1 + d) := a3
      _ = M * (f1 + f2) * (1 + d) := by ring
  have hPl : m * (f1 + f2) * (1 - d) ≤ p1 + p2 := by
    have a1 : m * f1 ≤ c1 * f1 := mul_le_mul_of_nonneg_right h1.1 f10
    have a2 : m * f2 ≤ c2 * f2 := mul_le_mul_of_nonneg_right h2.1 f20
    have a3 : (m * f1 + m * f2) * (1 - d) ≤ (c1 * f1 + c2 * f2) * (1 - d) :=
      mul_le_mul_of_nonneg_right (by linarith) (by linarith)
    calc m * (f1 + f2) * (1 - d) = (m * f1 + m * f2) * (1 - d) := by ring
      _ ≤ (c1 * f1 + c2 * f2) * (1 - d) := a3
      _ ≤ p1 + p2 := by linarith
  -- numeric factors
  have hr_up : r ≤ 4096 / 4095 := by
    have : r * (4095 / 4096) ≤ 1 := le_trans (mul_le_mul_of_nonneg_left (by linarith) hr0.le) hru
    linarith
  have hr_lo : 4096 / 4097 ≤ r := by
    have : 1 ≤ r * (4097 / 4096) := le_trans hrl (mul_le_mul_of_nonneg_left (by linarith) hr0.le)
    linarith
  have hm255 : m ≤ 255 := by linarith [h1.1, h1.2]
  have e1 : f1 + f2 ≤ 4096 / 4095 * (4097 / 4096) := by
    refine le_trans hFu ?_
    exact mul_le_mul hr_up (by linarith) (by linarith) (by norm_num)
  have e2 : 4096 / 4097 * (4095 / 4096) ≤ f1 + f2 := by
    refine le_trans ?_ hFl
    exact mul_le_mul hr_lo (by linarith) (by norm_num) hr0.le
  constructor
  · have g1 : m * (4096 / 4097 * (4095 / 4096)) * (4095 / 4096) ≤ p1 + p2 := by
      refine le_trans ?_ hPl
      exact mul_le_mul (mul_le_mul_of_nonneg_left e2 hm) (by linarith) (by norm_num)
        (mul_nonneg hm (by linarith))
    have g2 : m * (4096 / 4097 * (4095 / 4096)) * (4095 / 4096) * (4095 / 4096) ≤ v := by
      refine le_trans ?_ v1
      exact mul_le_mul g1 (by linarith) (by norm_num) (add_nonneg p10 p20)
    have : m - 1 / 4 ≤ m * (4096 / 4097 * (4095 / 4096)) * (4095 / 4096) * (4095 / 4096) := by
      linarith
    linarith
  · have g1 : p1 + p2 ≤ M * (4096 / 4095 * (4097 / 4096)) * (4097 / 4096) := by
      refine le_trans hPu ?_
      exact mul_le_mul (mul_le_mul_of_nonneg_left e1 hM0) (by linarith) (by linarith)
        (mul_nonneg hM0 (by norm_num))
    have g2 : v ≤ M * (4096 / 4095 * (4097 / 4096)) * (4097 / 4096) * (4097 / 4096) := by
      refine le_trans v2 ?_
      exact mul_le_mul g1 (by linarith) (by linarith)
        (mul_nonneg (mul_nonneg hM0 (by norm_num)) (by norm_num))
    have : M * (4096 / 4095 * (4097 / 4096)) * (4097 / 4096) * (4097 / 4096) ≤ M + 1 / 4 := by
      linarith
    linarith

theorem bitvec_ofInt_toNat {z : ℤ} (h0 : 0 ≤ z) (h1 : z ≤ 255) : ((BitVec.ofInt 8 z).toNat : ℤ) = z := by
  rw [BitVec.toNat_ofInt]
  omega

theorem blendChannel_between {A : Arith} {d w1 w2 t f1 f2 : ℚ} (hA : RelErr A d) (hd0 : 0 ≤ d) (hd : d ≤ 1 / 4096)
    (hw1 : 0 ≤ w1) (hw2 : 0 ≤ w2) (hpos : 0 < w1 + w2)
    (ht : |t - (w1 + w2)| ≤ d * |w1 + w2|)
    (hf1 : |f1 - w1 / t| ≤ d * |w1 / t|) (hf2 : |f2 - w2 / t| ≤ d * |w2 / t|) (c1 c2 : BitVec 8) :
    ∃ c, blendChannel A c1 (.fin f1) c2 (.fin f2) = .ok c ∧ ChannelBetween c c1 c2 := by
  obtain ⟨p1, hp1, ep1⟩ := hA (c1.toNat * f1)
  obtain ⟨p2, hp2, ep2⟩ := hA (c2.toNat * f2)
  obtain ⟨v, hv, ev⟩ := hA (p1 + p2)
  have hlt1 : c1.toNat < 256 := c1.isLt
  have hlt2 : c2.toNat < 256 := c2.isLt
  have key := blend_interval (m := ((min c1.toNat c2.toNat : ℕ) : ℚ)) (M := ((max c1.toNat c2.toNat : ℕ) : ℚ))
    hd0 hd hw1 hw2 hpos ht hf1 hf2 ep1 ep2 ev (by positivity)
    (by exact_mod_cast (by omega : max c1.toNat c2.toNat ≤ 255))
    ⟨by exact_mod_cast (by omega : min c1.toNat c2.toNat ≤ c1.toNat),
      by exact_mod_cast (by omega : c1.toNat ≤ max c1.toNat c2.toNat)⟩
    ⟨by exact_mod_cast (by omega : min c1.toNat c2.toNat ≤ c2.toNat),
      by exact_mod_cast (by omega : c2.toNat ≤ max c1.toNat c2.toNat)⟩
  have hr := round_between (m := ((min c1.toNat c2.toNat : ℕ) : ℤ)) (M := ((max c1.toNat c2.toNat : ℕ) : ℤ))
    (q := v) (by positivity) (by exact_mod_cast key.1) (by exact_mod_cast key.2)
  have h0 : 0 ≤ roundHalfAway v := le_trans (by positivity) hr.1
  have h255 : roundHalfAway v ≤ 255 := le_trans hr.2 (by omega)
  refine ⟨BitVec.ofInt 8 (roundHalfAway v), ?_, ?_⟩
  · simp only [blendChannel, Arith.mul, hp1, hp2, Arith.add, hv, toByte]
    rw [if_pos ⟨h0, h255⟩]
  · have := bitvec_ofInt_toNat h0 h255
    unfold ChannelBetween
    omega

/-- Blending with non-negative weights of positive total is defined and stays between the inputs. -/
theorem blend_between {A : Arith} {d w1 w2 : ℚ} (hA : RelErr A d) (hd0 : 0 ≤ d) (hd : d ≤ 1 / 4096)
    (hw1 : 0 ≤ w1) (hw2 : 0 ≤ w2) (hpos : 0 < w1 + w2) (c1 c2 : Color) :
    ∃ c, blend A c1 (.fin w1) c2 (.fin w2) = .ok c ∧ ColorBetween c c1 c2 := by
  obtain ⟨t, ht, et⟩ := hA (w1 + w2)
  have htp : 0 < t := by
    have := (relErr_nonneg (by linarith) hpos.le et).1
    exact lt_of_lt_of_le (mul_pos hpos (by linarith)) this
  obtain ⟨f1, hf1, ef1⟩ := hA (w1 / t)
  obtain ⟨f2, hf2, ef2⟩ := hA (w2 / t)
  have e1 : A.div (.fin w1) (A.add (.fin w1) (.fin w2)) = .fin f1 := by
    simp [Arith.add, ht, Arith.div, htp.ne', hf1]
  have e2 : A.div (.fin w2) (A.add (.fin w1) (.fin w2)) = .fin f2 := by
    simp [Arith.add, ht, Arith.div, htp.ne', hf2]
  obtain ⟨r, hr, br⟩ := blendChannel_between hA hd0 hd hw1 hw2 hpos et ef1 ef2 c1.r c2.r
  obtain ⟨g, hg, bg⟩ := blendChannel_between hA hd0 hd hw1 hw2 hpos et ef1 ef2 c1.g c2.g
  obtain ⟨b, hb, bb⟩ := blendChannel_between hA hd0 hd hw1 hw2 hpos et ef1 ef2 c1.b c2.b
  obtain ⟨a, ha, ba⟩ := blendChannel_between hA hd0 hd hw1 hw2 hpos et ef1 ef2 c1.a c2.a
  refine ⟨⟨r, g, b, a⟩, ?_, br, bg, bb, ba⟩
  simp only [blend, e1, e2, hr, hg, hb, ha]
  rfl

theorem lt_abs_fin {x : Fl} {T : ℚ} (h : Fl.lt (Fl.abs x) (.fin T) = true) : ∃ q, x = .fin q ∧ |q| < T := by
  cases x with
  | fin q => exact ⟨q, rfl, by simpa [Fl.lt, Fl.abs] using h⟩
  | _ => simp [Fl.lt, Fl.abs] at h

/-- Sign is preserved by rounding with small relative error. -/
theorem relErr_pos {A : Arith} {d q : ℚ} (hA : RelErr A d) (hd : d < 1) (hq : 0 < q) :
    ∃ q', A.rnd q = .fin q' ∧ 0 < q' := by
  obtain ⟨q', h, e⟩ := hA q
  exact ⟨q', h, lt_of_lt_of_le (mul_pos hq (by linarith)) (relErr_nonneg hd.le hq.le e).1⟩

theorem relErr_nonneg' {A : Arith} {d q : ℚ} (hA : RelErr A d) (hd : d < 1) (hq : 0 ≤ q) :
    ∃ q', A.rnd q = .fin q' ∧ 0 ≤ q' := by
  obtain ⟨q', h, e⟩ := hA q
  exact ⟨q', h, (relErr_nonneg hd.le hq e).2.2⟩

/-- Inside the truncation band the update weight is finite and non-negative. -/
theorem updatedWeight_finite {A : Arith} {d T vs w F : ℚ} {cfg : Config} (hA : RelErr A d) (hd : d < 1)
    (hcT : cfg.truncation = .fin T) (hcF : cfg.sparsityFactor = .fin F) (hF : 0 ≤ F) (hw : 0 ≤ w)
    {s : ℚ} (hs : |s| < T) :
    ∃ u, updatedWeight A cfg (.fin vs) (.fin s) (.fin w) = .fin u ∧ 0 ≤ u := by
  have h1 : ∃ u, (if (cfg.useWeightDropoff && Fl.lt (.fin s) (Fl.neg (.fin vs))) = true then
      ((A.div (A.mul (.fin w) (A.add cfg.truncation (.fin s))) (A.sub cfg.truncation (.fin vs))).stdMax (fin 0))
      else .fin w) = .fin u ∧ 0 ≤ u := by
    split
    · rename_i h
      have hlt : s < -vs := by
        simp only [Bool.and_eq_true, Fl.neg, Fl.lt, decide_eq_true_eq] at h
        exact h.2
      have hT : 0 < T + s := by linarith [(abs_lt.1 hs).1]
      have hD : 0 < T + -vs := by linarith
      rw [hcT]
      obtain ⟨a, ha, ha0⟩ := relErr_pos hA hd hT
      obtain ⟨D, hD', hD0⟩ := relErr_pos hA hd hD
      obtain ⟨n, hn, hn0⟩ := relErr_nonneg' hA hd (mul_nonneg hw ha0.le)
      obtain ⟨q, hq, hq0⟩ := relErr_nonneg' hA hd (div_nonneg hn0 hD0.le)
      refine ⟨q, ?_, hq0⟩
      simp only [Arith.add, Arith.sub, Fl.neg, ha, hD', Arith.mul, hn, Arith.div, if_neg hD0.ne', hq, Fl.stdMax]
      rw [if_neg]
      simpa [Fl.lt] using hq0
    · exact ⟨w, rfl, hw⟩
  obtain ⟨u, hu, hu0⟩ := h1
  unfold updatedWeight
  simp only [hu]
  split
  · rw [hcF]
    exact relErr_nonneg' hA hd (mul_nonneg hu0 hF)
  · exact ⟨u, rfl, hu0⟩

/-- The update is defined and keeps the weight finite and non-negative. -/
theorem updateVoxel_defined {A : Arith} {d T M vs w F W : ℚ} {cfg : Config} (hA : RelErr A d) (hd0 : 0 ≤ d)
    (hd : d ≤ 1 / 4096) (hcT : cfg.truncation = .fin T) (hcM : cfg.maxWeight = .fin M) (hM : 0 ≤ M)
    (hcF : cfg.sparsityFactor = .fin F) (hF : 0 ≤ F) {o : Obs} (how : o.weight = .fin w) (hw : 0 ≤ w)
    {v : TsdfVoxel Fl} (hvw : v.weight = .fin W) (hW : 0 ≤ W) :
    ∃ v', updateVoxel A cfg (.fin vs) o v = .ok v' ∧ (∃ W', v'.weight = .fin W' ∧ 0 ≤ W') ∧
      ColorBetween v'.color v.color o.color := by
  have hself : ColorBetween v.color v.color o.color :=
    ⟨⟨by omega, by omega⟩, ⟨by omega, by omega⟩, ⟨by omega, by omega⟩, ⟨by omega, by omega⟩⟩
  unfold updateVoxel applyUpdate
  simp only
  generalize hsdf : computeDistance A o.origin o.pointG o.center = sdf
  split
  · exact ⟨v, rfl, ⟨W, hvw, hW⟩, hself⟩
  · rename_i hlt
    have hcap := capWeight_within hM (by simpa using hlt)
    have hcol : ∃ c, updatedColor A cfg sdf (updatedWeight A cfg (.fin vs) sdf o.weight) o.color v = .ok c ∧
        ColorBetween c v.color o.color := by
      unfold updatedColor
      split
      · rename_i hab
        rw [hcT] at hab
        obtain ⟨s, rfl, hs⟩ := lt_abs_fin hab
        obtain ⟨u, hu, hu0⟩ := updatedWeight_finite (vs := vs) hA (by linarith) hcT hcF hF hw hs
        rw [how] at hlt ⊢
        rw [hu] at hlt ⊢
        rw [hvw] at hlt ⊢
        refine blend_between hA hd0 hd hW hu0 ?_ v.color o.color
        by_contra hcon
        have h0 : W + u = 0 := by linarith
        obtain ⟨z, hz, ez⟩ := hA (W + u)
        rw [h0] at hz ez
        have hz0 : z = 0 := by simpa using ez
        apply hlt
        simp [Arith.add, h0, hz, hz0, kFloatEpsilon, Fl.lt]
      · exact ⟨v.color, rfl, hself⟩
    obtain ⟨c, hc, hbc⟩ := hcol
    obtain ⟨q, hq, hq0, -⟩ := hcap
    refine ⟨_, by rw [hc]; rfl, ⟨q, by rw [hcM]; exact hq, hq0⟩, hbc⟩

/-- Weights of points are finite and non-negative. -/
theorem voxelWeight_finite {A : Arith} {d : ℚ} (hA : RelErr A d) (hd : d < 1) (cfg : Config) (z : Fl) :
    ∃ w, voxelWeight A cfg z = .fin w ∧ 0 ≤ w := by
  unfold voxelWeight
  split
  · exact ⟨1, rfl, by norm_num⟩
  · simp only
    split
    · rename_i h
      cases z with
      | nan => simp [Fl.abs, Fl.lt] at h
      | ninf => exact ⟨0, rfl, le_rfl⟩
      | pinf => exact ⟨0, rfl, le_rfl⟩
      | fin q =>
        have hq : kEpsilon < |q| := by simpa [Fl.abs, Fl.lt] using h
        have hk : (0 : ℚ) < kEpsilon := by norm_num [kEpsilon]
        have hq0 : 0 < |q| := lt_trans hk hq
        obtain ⟨p, hp, hp0⟩ := relErr_pos hA hd (mul_pos hq0 hq0)
        obtain ⟨r, hr, hr0⟩ := relErr_pos hA hd (div_pos one_pos hp0)
        exact ⟨r, by simp only [Fl.abs, Arith.mul, hp, Arith.div, if_neg hp0.ne', hr], hr0.le⟩
    · exact ⟨0, rfl, le_rfl⟩

theorem mergeBundle_defined {A : Arith} {d : ℚ} (hA : RelErr A d) (hd0 : 0 ≤ d) (hd : d ≤ 1 / 4096) (cfg : Config)
    (clearing : Bool) (ps : List (Vec3 Fl × Color)) :
    ∀ (b : Bundle), (∃ W, b.weight = .fin W ∧ 0 ≤ W) →
      ∃ b', mergeBundle A cfg clearing ps b = .ok b' ∧ ∃ W, b'.weight = .fin W ∧ 0 ≤ W := by
  induction ps with
  | nil => intro b hb; exact ⟨b, rfl, hb⟩
  | cons pc ps ih =>
    intro b hb
    obtain ⟨p, c⟩ := pc
    obtain ⟨W, hW, hW0⟩ := hb
    obtain ⟨w, hw, hw0⟩ := voxelWeight_finite hA (by linarith) cfg p.z
    simp only [mergeBundle]
    split
    · exact ih b ⟨W, hW, hW0⟩
    · rename_i h
      rw [hw] at h
      have hwp : 0 < w := by
        have : kEpsilon ≤ w := by simpa [Fl.lt] using h
        have hk : (0 : ℚ) < kEpsilon := by norm_num [kEpsilon]
        linarith
      obtain ⟨col, hcol, -⟩ := blend_between hA hd0 hd hW0 hw0 (by linarith) b.color c
      obtain ⟨t, ht, ht0⟩ := relErr_nonneg' hA (by linarith : d < 1) (add_nonneg hW0 hw0)
      rw [hW, hw, hcol]
      simp only [Outcome.bind_ok]
      split
      · exact ⟨_, rfl, t, by simp [Arith.add, ht], ht0⟩
      · exact ih _ ⟨t, by simp [Arith.add, ht], ht0⟩

/-! ### The update in exact arithmetic -/

theorem applyUpdate_exact {sq : ℚ → Fl} {cfg : Config} {T M D W s u : ℚ} {col : Color} {v : TsdfVoxel Fl}
    (hcT : cfg.truncation = .fin T) (hcM : cfg.maxWeight = .fin M) (hvd : v.distance = .fin D)
    (hvw : v.weight = .fin W) (hW : 0 ≤ W) (hu : 0 ≤ u) (hWu : 1 / 1000000 ≤ W + u) (hM : W + u ≤ M)
    (hD : |D| ≤ T) (hs : |s| ≤ T) :
    ∃ c, applyUpdate (Arith.exact sq) cfg (.fin s) (.fin u) col v =
        .ok { distance := .fin ((s * u + D * W) / (W + u)), weight := .fin (W + u), color := c } ∧
      updatedColor (Arith.exact sq) cfg (.fin s) (.fin u) col v = .ok c := by
  have hpos : 0 < W + u := by linarith
  have hcol : ∃ c, updatedColor (Arith.exact sq) cfg (.fin s) (.fin u) col v = .ok c := by
    unfold updatedColor
    split
    · rw [hvw]
      obtain ⟨c, hc, -⟩ := blend_between (relErr_exact sq) le_rfl (by norm_num) hW hu hpos v.color col
      exact ⟨c, hc⟩
    · exact ⟨_, rfl⟩
  obtain ⟨c, hc⟩ := hcol
  refine ⟨c, ?_, hc⟩
  unfold applyUpdate
  simp only [hc, hvw, hvd, exact_add, exact_mul, kFloatEpsilon, lt_fin, decide_eq_true_eq,
    if_neg (not_lt.2 hWu), exact_div sq hpos.ne', hcT, hcM, neg_fin, Fl.stdMin, Fl.stdMax]
  have hs' := abs_le.1 hs
  have hD' := abs_le.1 hD
  have hle : (s * u + D * W) / (W + u) ≤ T := by
    rw [div_le_iff₀ hpos]
    nlinarith [mul_le_mul_of_nonneg_right hs'.2 hu, mul_le_mul_of_nonneg_right hD'.2 hW]
  have hge : -T ≤ (s * u + D * W) / (W + u) := by
    rw [le_div_iff₀ hpos]
    nlinarith [mul_le_mul_of_nonneg_right hs'.1 hu, mul_le_mul_of_nonneg_right hD'.1 hW]
  simp only [Outcome.bind_ok, Outcome.pure_eq, Outcome.ok.injEq, TsdfVoxel.mk.injEq, and_true]
  constructor
  · by_cases h0 : 0 < (s * u + D * W) / (W + u)
    · rw [if_pos h0]
      by_cases h1 : (s * u + D * W) / (W + u) < T
      · rw [if_pos h1]
      · rw [if_neg h1]; congr 1; linarith
    · rw [if_neg h0]
      by_cases h1 : -T < (s * u + D * W) / (W + u)
      · rw [if_pos h1]
      · rw [if_neg h1]; congr 1; linarith
  · by_cases h1 : W + u < M
    · rw [if_pos h1]
    · rw [if_neg h1]; congr 1; linarith

theorem roundHalfAway_natCast (n : ℕ) : roundHalfAway (n : ℚ) = n := by
  unfold roundHalfAway
  rw [if_pos (by positivity)]
  rw [Int.floor_eq_iff]
  constructor <;> push_cast <;> linarith

theorem toByte_byte (c : BitVec 8) : toByte (.fin (c.toNat : ℚ)) = .ok c := by
  have hc : c.toNat < 256 := c.isLt
  simp only [toByte, roundHalfAway_natCast]
  rw [if_pos ⟨by positivity, by omega⟩]
  congr 1
  apply BitVec.eq_of_toNat_eq
  have := bitvec_ofInt_toNat (z := (c.toNat : ℤ)) (by positivity) (by omega)
  exact_mod_cast this

theorem blend_zero_right {sq : ℚ → Fl} {w : ℚ} (hw : 0 < w) (c1 c2 : Color) :
    blend (Arith.exact sq) c1 (.fin w) c2 (.fin 0) = .ok c1 := by
  unfold blend blendChannel
  simp only [exact_add, add_zero, exact_div sq hw.ne', div_self hw.ne', zero_div, exact_mul, mul_one, mul_zero,
    toByte_byte]
  rfl

theorem blend_zero_left {sq : ℚ → Fl} {w : ℚ} (hw : 0 < w) (c1 c2 : Color) :
    blend (Arith.exact sq) c1 (.fin 0) c2 (.fin w) = .ok c2 := by
  unfold blend blendChannel
  simp only [exact_add, zero_add, exact_div sq hw.ne', div_self hw.ne', zero_div, exact_mul, mul_one, mul_zero,
    toByte_byte]
  rfl

theorem add_comm' (A : Arith) (a b : Fl) : A.add a b = A.add b a := by
  cases a <;> cases b <;> simp [Arith.add, add_comm]

theorem blend_comm (A : Arith) (c1 c2 : Color) (w1 w2 : Fl) :
    blend A c1 w1 c2 w2 = blend A c2 w2 c1 w1 := by
  unfold blend blendChannel
  simp only [add_comm' A w2 w1]
  simp only [add_comm' A (A.mul (.fin (c2.r.toNat : ℚ)) _) _, add_comm' A (A.mul (.fin (c2.g.toNat : ℚ)) _) _,
    add_comm' A (A.mul (.fin (c2.b.toNat : ℚ)) _) _, add_comm' A (A.mul (.fin (c2.a.toNat : ℚ)) _) _]

end Vox.Tsdf
