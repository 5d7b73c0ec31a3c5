/-
The ray caster in `float`: rounded boundary parameters, and the traversal they give.
-/
import Verif.Lemmas.RayCaster
import Verif.Lemmas.RoundError
import Verif.Spec.RayFloat
import Mathlib.Tactic.FieldSimp

namespace Vox.Ray

open Fl Spec Ieee IndexF

open RoundErr (u_eq eta_eq rnd32_nonneg rnd32_mono rnd_fin)

/-! ### One axis of the setup -/

/-- One coordinate of the index of a point, rounded. -/
def rayIdx (x : ℚ) : ℤ := ⌊rnd32 (x + rnd32 kEpsilon)⌋

theorem eps_bounds : 0 < rnd32 kEpsilon ∧ rnd32 kEpsilon ≤ 1 / 1000000 := by decide +kernel

theorem fin_add {a b : ℚ} (h : |a + b| ≤ 2 ^ 127) : float32.add (.fin a) (.fin b) = .fin (rnd32 (a + b)) := rnd_fin h

theorem fin_sub {a b : ℚ} (h : |a - b| ≤ 2 ^ 127) : float32.sub (.fin a) (.fin b) = .fin (rnd32 (a - b)) := by
  rw [sub_eq_add_neg] at h ⊢
  exact rnd_fin h

theorem fin_div {a b : ℚ} (hb : b ≠ 0) (h : |a / b| ≤ 2 ^ 127) : float32.div (.fin a) (.fin b) = .fin (rnd32 (a / b)) := by
  show (if b = 0 then _ else float32.rnd (a / b)) = _
  rw [if_neg hb, rnd_fin h]

/-- The tolerance of the index of a point. -/
def tolG (X : ℚ) : ℚ := 1 / 1000000 + u * (X + 1)

theorem grid_axis {x X : ℚ} (hx : |x| ≤ X) (hX : X ≤ 2 ^ 20) :
    gridFl1 float32 (.fin x) = .ok (rayIdx x) ∧ -tolG X ≤ x - rayIdx x ∧ x - rayIdx x ≤ 1 + tolG X ∧ |rayIdx x| ≤ 2 ^ 20 + 2 := by
  obtain ⟨k0, k1⟩ := eps_bounds
  have hk : float32.rnd kEpsilon = .fin (rnd32 kEpsilon) := rnd_fin (by norm_num [kEpsilon])
  unfold gridFl1 rayIdx tolG
  rw [hk]
  generalize rnd32 kEpsilon = k at *
  obtain ⟨x1, x2⟩ := abs_le.1 hx
  have ha : |x + k| ≤ X + 1 / 2 := abs_le.2 ⟨by linarith, by linarith⟩
  rw [fin_add (ha.trans (by norm_num at *; linarith))]
  have he := rnd32_err (x + k)
  rw [u_eq, eta_eq] at *
  generalize rnd32 (x + k) = y at *
  obtain ⟨e1, e2⟩ := abs_le.1 he
  have f1 := Int.floor_le y
  have f2 := Int.lt_floor_add_one y
  have b1 : (-(2 ^ 20 + 2) : ℤ) ≤ ⌊y⌋ := Int.le_floor.2 (by push_cast; norm_num at *; linarith)
  have b2 : ⌊y⌋ < (2 ^ 20 + 2 : ℤ) := Int.floor_lt.2 (by push_cast; norm_num at *; linarith)
  refine ⟨?_, ?_, ?_, abs_le.2 ⟨b1, b2.le⟩⟩
  · show (if _ then Outcome.ok ⌊y⌋ else _) = _
    rw [if_pos ⟨by omega, by omega⟩]
  all_goals generalize ⌊y⌋ = F at *
  · norm_num at *
    linarith
  · norm_num at *
    linarith

theorem rayIdx_mono {x y : ℚ} (h : x ≤ y) : rayIdx x ≤ rayIdx y := Int.floor_le_floor (rnd32_mono (by linarith))

/-- Dividing by a rounded length and multiplying with the exact one. -/
theorem scaled_round {D R p : ℚ} (hR : 1 / 2 ^ 60 ≤ R) (hR2 : R ≤ 2 ^ 21) (hp : |p - R| ≤ 1001 / 1000 * u * R) :
    0 < p ∧ |rnd32 (D / p) * R - D| ≤ 21 / 10 * u * |D| + 1 / 2 ^ 120 ∧ |D / p| ≤ |D| * 2 ^ 61 := by
  have hR0 : 0 < R := lt_of_lt_of_le (by norm_num) hR
  rw [u_eq] at *
  obtain ⟨p1, p2⟩ := abs_le.1 hp
  have hp1 : 999 / 1000 * R ≤ p := by
    norm_num at *
    linarith
  have hp0 : 0 < p := lt_of_lt_of_le (by linarith) hp1
  have hinv : R / p ≤ 1002 / 1000 := by
    rw [div_le_iff₀ hp0]
    linarith
  have hrel : |R - p| / p ≤ 1004 / 1000 * (1 / 2 ^ 24) := by
    rw [div_le_iff₀ hp0, abs_sub_comm]
    refine hp.trans ?_
    norm_num at *
    linarith
  have h1 : |D / p * R - D| ≤ |D| * (1004 / 1000 * (1 / 2 ^ 24)) := by
    have e : D / p * R - D = D * ((R - p) / p) := by
      field_simp
    rw [e, abs_mul, abs_div, abs_of_pos hp0]
    exact mul_le_mul_of_nonneg_left hrel (abs_nonneg _)
  have h2 : |D / p| * R ≤ |D| * (1002 / 1000) := by
    rw [abs_div, abs_of_pos hp0]
    have e : |D| / p * R = |D| * (R / p) := by ring
    rw [e]
    exact mul_le_mul_of_nonneg_left hinv (abs_nonneg _)
  have h3 := mul_le_mul_of_nonneg_right (rnd32_err (D / p)) hR0.le
  rw [u_eq, eta_eq] at h3
  have h4 : |rnd32 (D / p) * R - D / p * R| ≤ (1 / 2 ^ 24 * |D / p| + 1 / 2 ^ 150) * R := by
    rw [← sub_mul, abs_mul, abs_of_pos hR0]
    exact h3
  have h5 := abs_sub_le (rnd32 (D / p) * R) (D / p * R) D
  have h6 : (1 / 2 ^ 24 * |D / p| + 1 / 2 ^ 150) * R = 1 / 2 ^ 24 * (|D / p| * R) + 1 / 2 ^ 150 * R := by ring
  refine ⟨hp0, ?_, ?_⟩
  · have := abs_nonneg D
    generalize |D / p| * R = m at *
    generalize |D| = d at *
    generalize |rnd32 (D / p) * R - D / p * R| = a at *
    generalize |D / p * R - D| = b at *
    generalize |rnd32 (D / p) * R - D| = c at *
    norm_num at *
    linarith
  · rw [abs_div, abs_of_pos hp0, div_le_iff₀ hp0]
    have : 1 ≤ 2 ^ 61 * p := by
      norm_num at *
      linarith
    have h7 := mul_le_mul_of_nonneg_left this (abs_nonneg D)
    linarith

/-- Distance of the first boundary along the axis. -/
def w0 (s r : ℚ) (S : ℤ) : ℚ := if 0 < r then S + 1 - s else s - S

theorem first_axis {x e X : ℚ} (hx : |x| ≤ X) (he : |e| ≤ X) (hX : X ≤ 2 ^ 20) (hr : 1 / 2 ^ 60 ≤ |e - x|) :
    (∃ q, tFirst float32 (.fin x) (float32.sub (.fin e) (.fin x)) (rayIdx x) = .fin q ∧ rnd32 q = q ∧ |q * |e - x| - w0 x (e - x) (rayIdx x)| ≤ 6 * u) ∧
      (∃ h, tStep float32 (float32.sub (.fin e) (.fin x)) = .fin h ∧ 0 ≤ h ∧ |h * |e - x| - 1| ≤ 3 * u) ∧
      signumFl (float32.sub (.fin e) (.fin x)) = signum (e - x) := by
  obtain ⟨-, g1, g2, g3⟩ := grid_axis hx hX
  obtain ⟨x1, x2⟩ := abs_le.1 hx
  obtain ⟨y1, y2⟩ := abs_le.1 he
  have hR2 : |e - x| ≤ 2 ^ 21 := abs_le.2 ⟨by norm_num at *; linarith, by norm_num at *; linarith⟩
  have hsub : float32.sub (.fin e) (.fin x) = .fin (rnd32 (e - x)) := fin_sub (hR2.trans (by norm_num))
  have herr := rnd32_err (e - x)
  have hp : |rnd32 (e - x) - (e - x)| ≤ 1001 / 1000 * u * |e - x| := by
    refine herr.trans ?_
    rw [u_eq, eta_eq]
    norm_num at *
    linarith
  -- sign and size of the rounded component
  obtain ⟨σ, hσ, hσ2, hsg, hsr, hcor, hw⟩ : ∃ σ : ℚ, (σ = 1 ∨ σ = -1) ∧ e - x = σ * |e - x| ∧ ((signum (e - x) : ℤ) : ℚ) = σ ∧
      (signum (rnd32 (e - x)) = signum (e - x)) ∧ (((max 0 (signum (e - x)) : ℤ) : ℚ) = (1 + σ) / 2) ∧
      w0 x (e - x) (rayIdx x) = σ * ((1 + σ) / 2 - (x - rayIdx x)) := by
    have hpos : 0 < |e - x| := lt_of_lt_of_le (by norm_num) hr
    have hsm : 1001 / 1000 * u * |e - x| < |e - x| := by
      rw [u_eq]
      norm_num
      linarith
    obtain ⟨p1, p2⟩ := abs_le.1 hp
    rcases lt_or_gt_of_ne (abs_pos.1 hpos) with h | h
    · rw [abs_of_neg h] at *
      refine ⟨-1, Or.inr rfl, by ring, by rw [signum_neg h]; norm_num, ?_, by rw [signum_neg h]; norm_num, ?_⟩
      · rw [signum_neg h, signum_neg (by linarith)]
      · unfold w0
        rw [if_neg (by linarith)]
        ring
    · rw [abs_of_pos h] at *
      refine ⟨1, Or.inl rfl, by ring, by rw [signum_pos h]; norm_num, ?_, by rw [signum_pos h]; norm_num, ?_⟩
      · rw [signum_pos h, signum_pos (by linarith)]
      · unfold w0
        rw [if_pos h]
        ring
  have hσσ : σ * σ = 1 := by rcases hσ with h | h <;> rw [h] <;> norm_num
  have hσa : |σ| = 1 := by rcases hσ with h | h <;> rw [h] <;> norm_num
  obtain ⟨p, hpe⟩ : ∃ p, p = σ * rnd32 (e - x) := ⟨_, rfl⟩
  have hrp : rnd32 (e - x) = σ * p := by rw [hpe, ← mul_assoc, hσσ, one_mul]
  have hpR : |p - (|e - x|)| ≤ 1001 / 1000 * u * |e - x| := by
    have : p - (|e - x|) = σ * (rnd32 (e - x) - (e - x)) := by
      rw [hpe, mul_sub]
      congr 1
      conv_rhs => rw [hσ2, ← mul_assoc, hσσ, one_mul]
    rw [this, abs_mul, hσa, one_mul]
    exact hp
  have hdivσ : ∀ D : ℚ, D / (σ * p) = σ * D / p := by
    intro D
    rcases hσ with h | h <;> rw [h]
    · rw [one_mul, one_mul]
    · rw [neg_one_mul, neg_one_mul, div_neg, neg_div]
  have hlt : ∀ q : ℚ, Fl.lt (Fl.abs (.fin q)) (.fin 0) = false := fun q => by simp [Fl.lt, Fl.abs]
  refine ⟨?_, ?_, ?_⟩
  · -- the first boundary
    have hsm : |x - rayIdx x| ≤ 107 / 100 := by
      unfold tolG at g1 g2
      rw [u_eq] at g1 g2
      exact abs_le.2 ⟨by norm_num at *; linarith, by norm_num at *; linarith⟩
    have hrn : float32.rnd ((rayIdx x : ℤ) : ℚ) = .fin (rayIdx x) := by
      have hi : |((rayIdx x : ℤ) : ℚ)| ≤ 2 ^ 20 + 2 := by exact_mod_cast g3
      rw [rnd_fin (hi.trans (by norm_num)), rnd32_int (g3.trans (by norm_num))]
    generalize hS : ((rayIdx x : ℤ) : ℚ) = S at *
    have h1 : float32.sub (.fin x) (.fin S) = .fin (rnd32 (x - S)) := fin_sub (hsm.trans (by norm_num))
    have e1 := rnd32_err (x - S)
    generalize hsh : rnd32 (x - S) = sh at *
    have d1 : |sh - (x - S)| ≤ 108 / 100 * u := by
      refine e1.trans ?_
      rw [u_eq, eta_eq]
      norm_num at *
      linarith
    have hsm2 : |(1 + σ) / 2 - sh| ≤ 108 / 100 + 11 / 100 := by
      have hb := abs_le.1 d1
      rw [u_eq] at hb
      unfold tolG at g1 g2
      rw [u_eq] at g1 g2
      rcases hσ with h | h <;> rw [h] <;> rw [abs_le] <;> constructor <;> norm_num at * <;> linarith
    have h2 : float32.sub (.fin ((1 + σ) / 2)) (.fin sh) = .fin (rnd32 ((1 + σ) / 2 - sh)) := fin_sub (hsm2.trans (by norm_num))
    have e2 := rnd32_err ((1 + σ) / 2 - sh)
    generalize hdi : rnd32 ((1 + σ) / 2 - sh) = di at *
    have d2 : |di - ((1 + σ) / 2 - (x - S))| ≤ 24 / 10 * u := by
      have : di - ((1 + σ) / 2 - (x - S)) = (di - ((1 + σ) / 2 - sh)) - (sh - (x - S)) := by ring
      rw [this]
      refine (abs_sub _ _).trans ?_
      rw [u_eq, eta_eq] at *
      norm_num at *
      linarith
    have dabs : |σ * di| ≤ 12 / 10 := by
      rw [abs_mul, hσa, one_mul]
      have h3 := abs_sub_abs_le_abs_sub di ((1 + σ) / 2 - (x - S))
      have h4 : |(1 + σ) / 2 - (x - S)| ≤ 107 / 100 := by
        unfold tolG at g1 g2
        rw [u_eq] at g1 g2
        rcases hσ with h | h <;> rw [h] <;> rw [abs_le] <;> constructor <;> norm_num at * <;> linarith
      rw [u_eq] at d2
      norm_num at *
      linarith
    obtain ⟨p0, r1, r2⟩ := scaled_round (D := σ * di) hr hR2 hpR
    have hne : σ * p ≠ 0 := mul_ne_zero (by rcases hσ with h | h <;> rw [h] <;> norm_num) p0.ne'
    refine ⟨rnd32 (σ * di / p), ?_, rne_idem (by norm_num) _, ?_⟩
    · unfold tFirst
      rw [hsub]
      simp only [signumFl, hsr, hS, hrn, h1, hcor, h2, hlt]
      rw [hrp]
      show float32.div (.fin di) (.fin (σ * p)) = _
      rw [fin_div hne, hdivσ]
      rw [hdivσ]
      refine r2.trans ?_
      have := mul_le_mul_of_nonneg_right dabs (show (0 : ℚ) ≤ 2 ^ 61 by norm_num)
      exact this.trans (by norm_num)
    · rw [hw]
      have h5 : |σ * di - σ * ((1 + σ) / 2 - (x - S))| ≤ 24 / 10 * u := by
        rw [← mul_sub, abs_mul, hσa, one_mul]
        exact d2
      have h6 := abs_sub_le (rnd32 (σ * di / p) * |e - x|) (σ * di) (σ * ((1 + σ) / 2 - (x - S)))
      have h7 : 21 / 10 * u * |σ * di| ≤ 21 / 10 * u * (12 / 10) := mul_le_mul_of_nonneg_left dabs (by rw [u_eq]; norm_num)
      rw [u_eq] at *
      generalize |σ * di| = a1 at *
      generalize |rnd32 (σ * di / p) * |e - x| - σ * di| = a2 at *
      generalize |σ * di - σ * ((1 + σ) / 2 - (x - S))| = a3 at *
      norm_num at *
      linarith
  · -- the step
    obtain ⟨p0, r1, r2⟩ := scaled_round (D := 1) hr hR2 hpR
    have hne : σ * p ≠ 0 := mul_ne_zero (by rcases hσ with h | h <;> rw [h] <;> norm_num) p0.ne'
    refine ⟨rnd32 (1 / p), ?_, rnd32_nonneg (by positivity), ?_⟩
    · unfold tStep
      rw [hsub]
      simp only [signumFl, hsr, hsg, hlt]
      rw [hrp]
      show float32.div (.fin σ) (.fin (σ * p)) = _
      rw [fin_div hne, hdivσ, hσσ]
      rw [hdivσ, hσσ]
      exact r2.trans (by norm_num)
    · refine r1.trans ?_
      rw [u_eq]
      norm_num
  · rw [hsub]
    exact hsr

/-! ### The traversal -/

/-- Bound of the accumulated error after `j` steps, in units of `u`. -/
def errB (j : ℕ) : ℚ := (j : ℚ) ^ 2 / 2 + 5 * j + 6

theorem errB_mono {i j : ℕ} (h : i ≤ j) : errB i ≤ errB j := by
  have : (i : ℚ) ≤ j := by exact_mod_cast h
  have h0 : (0 : ℚ) ≤ i := Nat.cast_nonneg i
  unfold errB
  nlinarith

theorem errB_small {j : ℕ} (h : j ≤ 2 ^ 11) : u * errB j ≤ 13 / 100 := by
  have := errB_mono h
  rw [u_eq]
  have e : errB (2 ^ 11) = 2107398 := by unfold errB; norm_num
  rw [e] at this
  norm_num
  linarith

/-- The state after `n i` steps along axis `i`: `q i` are the computed parameters, `W i` the exact distances of the first boundaries, `R i`
the exact lengths of the components. -/
structure InvF (R W : Fin 3 → ℚ) (sg : Fin 3 → ℤ) (S : Idx) (b : Body) (q : Fin 3 → ℚ) (n : Fin 3 → ℕ) : Prop where
  t : ∀ i, at3 b.t i = .fin (q i)
  fl : ∀ i, rnd32 (q i) = q i
  cur : ∀ i, at3 b.curr i = at3 S i + sg i * n i
  sign : ∀ i, at3 b.sign i = sg i
  err : ∀ i, |q i * R i - (W i + n i)| ≤ u * errB (n i)
  step : ∀ i, ∃ h, at3 b.tstep i = .fin h ∧ 0 ≤ h ∧ |h * R i - 1| ≤ 3 * u

/-- Sizes used throughout. -/
structure Sizes (R W : Fin 3 → ℚ) (tol : ℚ) : Prop where
  low : ∀ i, 1 / 2 ^ 60 ≤ R i
  high : ∀ i, R i ≤ 2 ^ 21
  wlow : ∀ i, -tol ≤ W i
  whigh : ∀ i, W i ≤ 1 + tol
  tol_le : tol ≤ 1 / 10

theorem invF_advance {R W : Fin 3 → ℚ} {sg : Fin 3 → ℤ} {S : Idx} {b : Body} {q : Fin 3 → ℚ} {n : Fin 3 → ℕ} {tol : ℚ} (hz : Sizes R W tol)
    (h : InvF R W sg S b q n) (hn : n (minCoeffIdx b.t) < 2 ^ 11) :
    ∃ q', InvF R W sg S (advance float32 b) q' (Function.update n (minCoeffIdx b.t) (n (minCoeffIdx b.t) + 1)) ∧
      q (minCoeffIdx b.t) ≤ q' (minCoeffIdx b.t) ∧ ∀ j, j ≠ minCoeffIdx b.t → q' j = q j := by
  obtain ⟨st, hst, st0, st1⟩ := h.step (minCoeffIdx b.t)
  generalize hi : minCoeffIdx b.t = i at *
  have hR := hz.low i
  have hR2 := hz.high i
  have hR0 : 0 < R i := lt_of_lt_of_le (by norm_num) hR
  have hW := hz.whigh i
  have hWl := hz.wlow i
  have ht := hz.tol_le
  have he := h.err i
  have hsm := errB_small hn.le
  -- the new parameter
  have hsum : |(q i + st) * R i - (W i + n i + 1)| ≤ u * errB (n i) + 3 * u := by
    have e : (q i + st) * R i - (W i + n i + 1) = (q i * R i - (W i + n i)) + (st * R i - 1) := by ring
    rw [e]
    exact (abs_add_le _ _).trans (add_le_add he st1)
  have hn0 : (0 : ℚ) ≤ n i := Nat.cast_nonneg _
  have hsize : |(q i + st) * R i| ≤ n i + 24 / 10 := by
    obtain ⟨a, c⟩ := abs_le.1 hsum
    rw [u_eq] at *
    rw [abs_le]
    constructor <;> norm_num at * <;> linarith
  have hqR : |q i + st| * R i ≤ n i + 24 / 10 := by
    rw [abs_mul, abs_of_pos hR0] at hsize
    exact hsize
  have hn11 : (n i : ℚ) ≤ 2 ^ 11 := by exact_mod_cast hn.le
  have hbig : |q i + st| ≤ 2 ^ 127 := by
    by_contra hcon
    push Not at hcon
    have h1 := mul_lt_mul_of_pos_right hcon hR0
    have h2 : (2 : ℚ) ^ 127 * (1 / 2 ^ 60) ≤ 2 ^ 127 * R i := mul_le_mul_of_nonneg_left hR (by norm_num)
    have h3 : (2 : ℚ) ^ 11 + 24 / 10 < 2 ^ 127 * (1 / 2 ^ 60) := by norm_num
    linarith
  have hround := mul_le_mul_of_nonneg_right (rnd32_err (q i + st)) hR0.le
  have hnew : |rnd32 (q i + st) * R i - (W i + n i + 1)| ≤ u * errB (n i + 1) := by
    have h1 : |rnd32 (q i + st) * R i - (q i + st) * R i| ≤ (u * |q i + st| + eta) * R i := by
      rw [← sub_mul, abs_mul, abs_of_pos hR0]
      exact hround
    have h2 := abs_sub_le (rnd32 (q i + st) * R i) ((q i + st) * R i) (W i + n i + 1)
    have h3 : (u * |q i + st| + eta) * R i = u * (|q i + st| * R i) + eta * R i := by ring
    have h4 : u * (|q i + st| * R i) ≤ u * (n i + 24 / 10) := mul_le_mul_of_nonneg_left hqR (by rw [u_eq]; norm_num)
    have h5 : eta * R i ≤ 1 / 100 * u := by
      rw [eta_eq, u_eq]
      norm_num at *
      linarith
    have h6 : u * errB (n i + 1) = u * errB (n i) + u * (n i + 11 / 2) := by
      unfold errB
      push_cast
      ring
    rw [h6]
    generalize |rnd32 (q i + st) * R i - (q i + st) * R i| = a1 at *
    generalize |(q i + st) * R i - (W i + n i + 1)| = a2 at *
    rw [h3] at h1
    have : u * (n i + 24 / 10) + 1 / 100 * u + 3 * u ≤ u * (n i + 11 / 2) := by
      rw [u_eq]
      norm_num
      linarith
    linarith
  have hmono : q i ≤ rnd32 (q i + st) := by
    conv_lhs => rw [← h.fl i]
    exact rnd32_mono (by linarith)
  refine ⟨Function.update q i (rnd32 (q i + st)), ⟨?_, ?_, ?_, h.sign, ?_, h.step⟩, by simpa using hmono, ?_⟩
  · intro j
    by_cases hj : j = i
    · subst hj
      have e : at3 (advance float32 b).t j = float32.add (at3 b.t j) (at3 b.tstep j) := by
        show at3 (modify3 b.t (minCoeffIdx b.t) _) j = _
        rw [hi]
        exact at3_modify3_same _ _ _
      rw [e, h.t, hst, fin_add hbig, Function.update_self]
    · have e : at3 (advance float32 b).t j = at3 b.t j := at3_modify3_ne _ (by rw [hi]; exact hj) _
      rw [e, h.t, Function.update_of_ne hj]
  · intro j
    by_cases hj : j = i
    · subst hj
      rw [Function.update_self]
      exact rne_idem (by norm_num) _
    · rw [Function.update_of_ne hj]
      exact h.fl j
  · intro j
    by_cases hj : j = i
    · subst hj
      have e : at3 (advance float32 b).curr j = at3 b.curr j + at3 b.sign j := by
        have := advance_curr_same float32 b
        rw [hi] at this
        exact this
      rw [e, h.cur, h.sign, Function.update_self]
      push_cast
      ring
    · rw [advance_curr_ne _ b (by rw [hi]; exact hj), h.cur, Function.update_of_ne hj]
  · intro j
    by_cases hj : j = i
    · subst hj
      rw [Function.update_self, Function.update_self]
      push_cast
      rw [← add_assoc]
      exact hnew
    · rw [Function.update_of_ne hj, Function.update_of_ne hj]
      exact h.err j
  · intro j hj
    exact Function.update_of_ne hj _ _

/-- Where on the segment the traversal is. -/
structure PosF (R W : Fin 3 → ℚ) (η : ℚ) (q : Fin 3 → ℚ) (n : Fin 3 → ℕ) (T : ℚ) : Prop where
  nonneg : 0 ≤ T
  le : ∀ i, T ≤ max (q i) 0
  low : ∀ i, W i + n i - 1 - η ≤ R i * T

/-- Within the tolerance, the segment is in the current cell at parameter `t`. -/
def InF (R W : Fin 3 → ℚ) (η : ℚ) (n : Fin 3 → ℕ) (t : ℚ) : Prop := ∀ i, W i + n i - 1 - η ≤ R i * t ∧ R i * t ≤ W i + n i + η

theorem below_next {R W : Fin 3 → ℚ} {sg : Fin 3 → ℤ} {S : Idx} {b : Body} {q : Fin 3 → ℚ} {n : Fin 3 → ℕ} {tol η : ℚ} (hz : Sizes R W tol)
    (h : InvF R W sg S b q n) (hη : tol ≤ η) {i : Fin 3} (hE : u * errB (n i) ≤ η) {T : ℚ} (hT : T ≤ max (q i) 0) :
    R i * T ≤ W i + n i + η := by
  have hR0 : 0 < R i := lt_of_lt_of_le (by norm_num) (hz.low i)
  have h1 := mul_le_mul_of_nonneg_left hT hR0.le
  have h2 := (abs_le.1 (h.err i)).2
  have hn0 : (0 : ℚ) ≤ n i := Nat.cast_nonneg _
  have h3 := hz.wlow i
  rcases le_total (q i) 0 with hq | hq
  · rw [max_eq_right hq] at h1
    linarith
  · rw [max_eq_left hq] at h1
    linarith

theorem posF_in {R W : Fin 3 → ℚ} {sg : Fin 3 → ℤ} {S : Idx} {b : Body} {q : Fin 3 → ℚ} {n : Fin 3 → ℕ} {tol η : ℚ} (hz : Sizes R W tol)
    (h : InvF R W sg S b q n) (hη : tol ≤ η) (hE : ∀ i, u * errB (n i) ≤ η) {T : ℚ} (hp : PosF R W η q n T) : InF R W η n T :=
  fun i => ⟨hp.low i, below_next hz h hη (hE i) (hp.le i)⟩

/-- The end of the segment lies clearly inside the cell reached after `g i` steps along axis `i`. -/
def EndF (R W : Fin 3 → ℚ) (η : ℚ) (g : Fin 3 → ℕ) : Prop := ∀ i, W i + g i - 1 + η < R i ∧ R i < W i + g i - η

theorem not_over {R W : Fin 3 → ℚ} {η : ℚ} {q : Fin 3 → ℚ} {n g : Fin 3 → ℕ} {T tol : ℚ} (hz : Sizes R W tol) (hp : PosF R W η q n T) (hT : T ≤ 1)
    (he : EndF R W η g) (i : Fin 3) : n i ≤ g i := by
  have hR0 : 0 < R i := lt_of_lt_of_le (by norm_num) (hz.low i)
  have h1 := hp.low i
  have h2 := mul_le_mul_of_nonneg_left hT hR0.le
  have h3 := (he i).2
  have : (n i : ℚ) < g i + 1 := by linarith
  have : n i < g i + 1 := by exact_mod_cast this
  omega

theorem emit_float {R W : Fin 3 → ℚ} {sg : Fin 3 → ℤ} {S : Idx} {tol η : ℚ} {g : Fin 3 → ℕ} {L : ℕ} (hz : Sizes R W tol) (hη : tol ≤ η)
    (hL : L ≤ 2 ^ 11) (hE : u * errB L ≤ η) (he : EndF R W η g) (hg : g 0 + g 1 + g 2 = L) (m : ℕ) :
    ∀ (b : Body) (q : Fin 3 → ℚ) (n : Fin 3 → ℕ) (T : ℚ), InvF R W sg S b q n → PosF R W η q n T → T ≤ 1 → n 0 + n 1 + n 2 + m = L →
      (∃ c, (emit float32 (m + 1) b).getLast? = some c ∧ ∀ i, at3 c i = at3 S i + sg i * g i) ∧
      (∀ c ∈ emit float32 (m + 1) b, ∃ (n' : Fin 3 → ℕ) (t : ℚ), (∀ i, at3 c i = at3 S i + sg i * n' i) ∧ 0 ≤ t ∧ t ≤ 1 ∧ InF R W η n' t) ∧
      (∀ t, T ≤ t → t ≤ 1 → ∃ c ∈ emit float32 (m + 1) b, ∃ n' : Fin 3 → ℕ, (∀ i, at3 c i = at3 S i + sg i * n' i) ∧ InF R W η n' t) := by
  have hno : ∀ n : Fin 3 → ℕ, (∀ i, n i ≤ g i) → ∀ i, n i ≤ L := by
    intro n hn i
    have := hn i
    have hi : i = 0 ∨ i = 1 ∨ i = 2 := by omega
    rcases hi with rfl | rfl | rfl <;> omega
  induction m with
  | zero =>
    intro b q n T hI hp hT hs
    have hng := fun i => not_over hz hp hT he i
    have heq : ∀ i, n i = g i := by
      have a0 := hng 0
      have a1 := hng 1
      have a2 := hng 2
      intro i
      have hi : i = 0 ∨ i = 1 ∨ i = 2 := by omega
      rcases hi with rfl | rfl | rfl <;> omega
    have hEn : ∀ i, u * errB (n i) ≤ η := fun i =>
      (mul_le_mul_of_nonneg_left (errB_mono (hno n hng i)) (by rw [u_eq]; norm_num)).trans hE
    have hin := posF_in hz hI hη hEn hp
    have hη0 : ∀ i, 0 ≤ η := fun i => by
      have := hEn i
      have h2 : 0 ≤ u * errB (n i) := mul_nonneg (by rw [u_eq]; norm_num) (by unfold errB; positivity)
      linarith
    refine ⟨⟨b.curr, by simp [emit], fun i => by rw [hI.cur, heq i]⟩, ?_, ?_⟩
    · intro c hc
      simp only [emit, List.mem_singleton] at hc
      exact ⟨n, T, fun i => by rw [hc, hI.cur], hp.nonneg, hT, hin⟩
    · intro t ht ht1
      refine ⟨b.curr, by simp [emit], n, hI.cur, fun i => ?_⟩
      have hR0 : 0 < R i := lt_of_lt_of_le (by norm_num) (hz.low i)
      have h1 := mul_le_mul_of_nonneg_left ht hR0.le
      have h2 := mul_le_mul_of_nonneg_left ht1 hR0.le
      have h3 := (hin i).1
      have h4 := (he i).2
      have h5 : (n i : ℚ) = g i := by rw [heq i]
      have h6 := hη0 i
      exact ⟨by linarith, by linarith⟩
  | succ m ih =>
    intro b q n T hI hp hT hs
    have hng := fun i => not_over hz hp hT he i
    have hEn : ∀ i, u * errB (n i) ≤ η := fun i =>
      (mul_le_mul_of_nonneg_left (errB_mono (hno n hng i)) (by rw [u_eq]; norm_num)).trans hE
    have hin := posF_in hz hI hη hEn hp
    obtain ⟨j, hj⟩ : ∃ j, n j + 1 ≤ g j := by
      by_contra hcon
      push Not at hcon
      have a0 := hcon 0
      have a1 := hcon 1
      have a2 := hcon 2
      omega
    have hmin := minCoeffIdx_min hI.t
    obtain ⟨q', hI', hq1, hq2⟩ := invF_advance hz hI (by
      have hi3 : minCoeffIdx b.t = 0 ∨ minCoeffIdx b.t = 1 ∨ minCoeffIdx b.t = 2 := by omega
      rcases hi3 with h | h | h <;> rw [h] <;> omega)
    generalize hi : minCoeffIdx b.t = i at *
    have hT'le : ∀ k, max T (q i) ≤ max (q k) 0 := fun k => max_le (hp.le k) ((hmin k).trans (le_max_left _ _))
    have hT'1 : max T (q i) ≤ 1 := by
      have hR0 : 0 < R j := lt_of_lt_of_le (by norm_num) (hz.low j)
      have h1 := below_next hz hI hη (hEn j) (hT'le j)
      have h2 := (he j).1
      have h3 : (n j : ℚ) + 1 ≤ g j := by exact_mod_cast hj
      have h4 : R j * max T (q i) < R j * 1 := by linarith
      exact (lt_of_mul_lt_mul_left h4 hR0.le).le
    have hp' : PosF R W η q' (Function.update n i (n i + 1)) (max T (q i)) := by
      refine ⟨hp.nonneg.trans (le_max_left _ _), ?_, ?_⟩
      · intro k
        by_cases hk : k = i
        · subst hk
          exact (hT'le k).trans (max_le_max hq1 le_rfl)
        · rw [hq2 k hk]
          exact hT'le k
      · intro k
        have hR0 : 0 < R k := lt_of_lt_of_le (by norm_num) (hz.low k)
        by_cases hk : k = i
        · subst hk
          rw [Function.update_self]
          push_cast
          have h1 := (abs_le.1 (hI.err k)).1
          have h2 := mul_le_mul_of_nonneg_left (le_max_right T (q k)) hR0.le
          have h3 := hEn k
          linarith
        · rw [Function.update_of_ne hk]
          have h2 := mul_le_mul_of_nonneg_left (le_max_left T (q i)) hR0.le
          have := hp.low k
          linarith
    have hs' : Function.update n i (n i + 1) 0 + Function.update n i (n i + 1) 1 + Function.update n i (n i + 1) 2 + m = L := by
      have hi3 : i = 0 ∨ i = 1 ∨ i = 2 := by omega
      rcases hi3 with rfl | rfl | rfl <;> simp [Function.update] <;> omega
    obtain ⟨ih1, ih2, ih3⟩ := ih _ q' _ _ hI' hp' hT'1 hs'
    have hcons : emit float32 (m + 1 + 1) b = b.curr :: emit float32 (m + 1) (advance float32 b) := rfl
    rw [hcons]
    refine ⟨?_, ?_, ?_⟩
    · obtain ⟨c, hc1, hc2⟩ := ih1
      exact ⟨c, by rw [List.getLast?_cons, hc1]; rfl, hc2⟩
    · intro c hc
      rcases List.mem_cons.1 hc with rfl | hc'
      · exact ⟨n, T, hI.cur, hp.nonneg, hT, hin⟩
      · exact ih2 c hc'
    · intro t ht ht1
      rcases le_total t (max T (q i)) with h2 | h2
      · refine ⟨b.curr, by simp, n, hI.cur, fun k => ?_⟩
        have hR0 : 0 < R k := lt_of_lt_of_le (by norm_num) (hz.low k)
        have h3 := mul_le_mul_of_nonneg_left ht hR0.le
        exact ⟨by linarith [hp.low k], below_next hz hI hη (hEn k) (h2.trans (hT'le k))⟩
      · obtain ⟨c, hc1, hc2⟩ := ih3 t h2 ht1
        exact ⟨c, by simp [hc1], hc2⟩

/-! ### The setup -/

def axR (s e : Pt) (i : Fin 3) : ℚ := |at3 e i - at3 s i|

def axW (s e : Pt) (i : Fin 3) : ℚ := w0 (at3 s i) (at3 e i - at3 s i) (rayIdx (at3 s i))

def axS (s e : Pt) (i : Fin 3) : ℤ := signum (at3 e i - at3 s i)

theorem coords_at {X : ℚ} {p : Pt} (h : CoordsWithin X p) (i : Fin 3) : |at3 p i| ≤ X := by
  match i with
  | 0 => exact h.1
  | 1 => exact h.2.1
  | 2 => exact h.2.2

theorem apart_at {d : ℚ} {s e : Pt} (h : ApartBy d s e) (i : Fin 3) : d ≤ |at3 e i - at3 s i| := by
  match i with
  | 0 => exact h.1
  | 1 => exact h.2.1
  | 2 => exact h.2.2

theorem gridFl_float {p : Pt} {X : ℚ} (hp : CoordsWithin X p) (hX : X ≤ 2 ^ 20) : gridFl float32 (p.map .fin) = .ok (p.map rayIdx) := by
  have h := fun i => (grid_axis (coords_at hp i) hX).1
  have h0 := h 0
  have h1 := h 1
  have h2 := h 2
  simp only [at3] at h0 h1 h2
  show (gridFl1 float32 (.fin p.x) >>= fun _ => _) = _
  rw [h0, Outcome.bind_ok]
  show (gridFl1 float32 (.fin p.y) >>= fun _ => _) = _
  rw [h1, Outcome.bind_ok]
  show (gridFl1 float32 (.fin p.z) >>= fun _ => _) = _
  rw [h2, Outcome.bind_ok]
  rfl

theorem at3_rayIdx (p : Pt) (i : Fin 3) : at3 (p.map rayIdx) i = rayIdx (at3 p i) := by
  match i with
  | 0 => rfl
  | 1 => rfl
  | 2 => rfl

theorem setup_float {s e : Pt} {X : ℚ} (hs : CoordsWithin X s) (he : CoordsWithin X e) (hX : X ≤ 2 ^ 20) (hr : ApartBy (1 / 2 ^ 60) s e)
    (hlen : l1dist (s.map rayIdx) (e.map rayIdx) < 2 ^ 32) :
    ∃ (b : Body) (q : Fin 3 → ℚ), setup float32 (s.map .fin) (e.map .fin) = .ok { len := l1dist (s.map rayIdx) (e.map rayIdx), body := some b } ∧
      b.step = 0 ∧ b.curr = s.map rayIdx ∧ InvF (axR s e) (axW s e) (axS s e) (s.map rayIdx) b q (fun _ => 0) := by
  have hf := fun i => first_axis (coords_at hs i) (coords_at he i) hX (apart_at hr i)
  choose q hq using fun i => (hf i).1
  refine ⟨⟨⟨tFirst float32 (.fin s.x) (float32.sub (.fin e.x) (.fin s.x)) (rayIdx s.x), tFirst float32 (.fin s.y) (float32.sub (.fin e.y) (.fin s.y)) (rayIdx s.y),
    tFirst float32 (.fin s.z) (float32.sub (.fin e.z) (.fin s.z)) (rayIdx s.z)⟩, s.map rayIdx,
    (float32.vsub (e.map .fin) (s.map .fin)).map signumFl, (float32.vsub (e.map .fin) (s.map .fin)).map (tStep float32), 0⟩, q, ?_, rfl, rfl, ?_⟩
  · unfold setup
    rw [if_neg (by simp [anyNan, isNan]), gridFl_float hs hX, gridFl_float he hX]
    have hm : l1 (s.map rayIdx) (e.map rayIdx) % 2 ^ 32 = l1dist (s.map rayIdx) (e.map rayIdx) := Nat.mod_eq_of_lt hlen
    simp only [Outcome.bind_ok, hm]
    rfl
  · refine ⟨?_, fun i => (hq i).2.1, ?_, ?_, ?_, ?_⟩
    · intro i
      have := (hq i).1
      match i with
      | 0 => exact this
      | 1 => exact this
      | 2 => exact this
    · intro i
      simp
    · intro i
      have := (hf i).2.2
      match i with
      | 0 => exact this
      | 1 => exact this
      | 2 => exact this
    · intro i
      have := (hq i).2.2
      unfold axR axW errB
      norm_num
      rw [mul_comm u 6]
      exact this
    · intro i
      have := (hf i).2.1
      match i with
      | 0 => exact this
      | 1 => exact this
      | 2 => exact this

theorem sizes_float {s e : Pt} {X : ℚ} (hs : CoordsWithin X s) (he : CoordsWithin X e) (hX : X ≤ 2 ^ 20) (hr : ApartBy (1 / 2 ^ 60) s e) :
    Sizes (axR s e) (axW s e) (tolG X) := by
  refine ⟨apart_at hr, ?_, ?_, ?_, ?_⟩
  · intro i
    obtain ⟨a, b⟩ := abs_le.1 (coords_at hs i)
    obtain ⟨c, d⟩ := abs_le.1 (coords_at he i)
    unfold axR
    rw [abs_le]
    constructor <;> norm_num at * <;> linarith
  · intro i
    obtain ⟨-, a, b, -⟩ := grid_axis (coords_at hs i) hX
    unfold axW w0
    split_ifs <;> linarith
  · intro i
    obtain ⟨-, a, b, -⟩ := grid_axis (coords_at hs i) hX
    unfold axW w0
    split_ifs <;> linarith
  · unfold tolG
    rw [u_eq]
    norm_num at *
    linarith

/-- A cell inside which `x` lies with a margin is the index of `x`. -/
theorem rayIdx_inside {x X m : ℚ} {E : ℤ} (hx : |x| ≤ X) (hX : X ≤ 2 ^ 20) (hm : tolG X ≤ m) (h1 : E + m < x) (h2 : x < E + 1 - m) : rayIdx x = E := by
  obtain ⟨-, a, b, -⟩ := grid_axis hx hX
  have h3 : (rayIdx x : ℚ) < E + 1 := by linarith
  have h4 : (E : ℚ) < rayIdx x + 1 := by linarith
  have h3' : rayIdx x < E + 1 := by exact_mod_cast h3
  have h4' : E < rayIdx x + 1 := by exact_mod_cast h4
  omega

theorem end_axis {s e : Pt} (hr : ApartBy (1 / 2 ^ 60) s e) (i : Fin 3) :
    rayIdx (at3 e i) = rayIdx (at3 s i) + axS s e i * (rayIdx (at3 e i) - rayIdx (at3 s i)).natAbs := by
  have hne : at3 e i - at3 s i ≠ 0 := by
    intro h
    have := apart_at hr i
    rw [h] at this
    norm_num at this
  unfold axS signum
  rcases lt_or_gt_of_ne hne with h | h
  · rw [if_neg (by linarith)]
    have := rayIdx_mono (show at3 e i ≤ at3 s i by linarith)
    rw [if_pos h]
    omega
  · have := rayIdx_mono (show at3 s i ≤ at3 e i by linarith)
    split_ifs <;> first | omega | (exfalso; linarith)

/-- The current cell in coordinates. -/
theorem in_axis {s e : Pt} (hr : ApartBy (1 / 2 ^ 60) s e) {η t : ℚ} {n : Fin 3 → ℕ} (h : InF (axR s e) (axW s e) η n t) {c : Idx}
    (hc : ∀ i, at3 c i = at3 (s.map rayIdx) i + axS s e i * n i) (i : Fin 3) :
    ((at3 c i : ℤ) : ℚ) - η ≤ at3 s i + t * (at3 e i - at3 s i) ∧ at3 s i + t * (at3 e i - at3 s i) ≤ ((at3 c i : ℤ) : ℚ) + 1 + η := by
  have hne : at3 e i - at3 s i ≠ 0 := by
    intro h
    have := apart_at hr i
    rw [h] at this
    norm_num at this
  obtain ⟨h1, h2⟩ := h i
  have h3 := hc i
  rw [at3_rayIdx] at h3
  have h4 : ((at3 c i : ℤ) : ℚ) = rayIdx (at3 s i) + axS s e i * n i := by rw [h3]; push_cast; rfl
  rw [h4]
  unfold axS signum
  unfold axR axW w0 at h1 h2
  rcases lt_or_gt_of_ne hne with h | h
  · rw [abs_of_neg h, if_neg (by linarith)] at h1 h2
    have hs : (if at3 e i - at3 s i = 0 then (0 : ℤ) else if at3 e i - at3 s i < 0 then -1 else 1) = -1 := by
      rw [if_neg hne, if_pos h]
    simp only [hs]
    push_cast
    constructor <;> nlinarith
  · rw [abs_of_pos h, if_pos h] at h1 h2
    have hs : (if at3 e i - at3 s i = 0 then (0 : ℤ) else if at3 e i - at3 s i < 0 then -1 else 1) = 1 := by
      rw [if_neg hne, if_neg (by linarith)]
    simp only [hs]
    push_cast
    constructor <;> nlinarith

theorem near_of_axis {c : Idx} {s e : Pt} {η t : ℚ}
    (h : ∀ i, ((at3 c i : ℤ) : ℚ) - η ≤ at3 s i + t * (at3 e i - at3 s i) ∧ at3 s i + t * (at3 e i - at3 s i) ≤ ((at3 c i : ℤ) : ℚ) + 1 + η) :
    NearUnitCell η c (segPoint s e t) := ⟨h 0, h 1, h 2⟩

theorem endF {s e : Pt} {X η : ℚ} {E : Idx} (he : CoordsWithin X e) (hX : X ≤ 2 ^ 20) (hr : ApartBy (1 / 2 ^ 60) s e) (hη : tolG X ≤ η)
    (hE : InsideBy η E e) :
    e.map rayIdx = E ∧ EndF (axR s e) (axW s e) η (fun i => (rayIdx (at3 e i) - rayIdx (at3 s i)).natAbs) := by
  have hin : ∀ i, ((at3 E i : ℤ) : ℚ) + η < at3 e i ∧ at3 e i < ((at3 E i : ℤ) : ℚ) + 1 - η := by
    intro i
    match i with
    | 0 => exact hE.1
    | 1 => exact hE.2.1
    | 2 => exact hE.2.2
  have hidx : ∀ i, rayIdx (at3 e i) = at3 E i := fun i => rayIdx_inside (coords_at he i) hX hη (hin i).1 (hin i).2
  refine ⟨Vec3.ext (hidx 0) (hidx 1) (hidx 2), ?_⟩
  intro i
  have hend := end_axis hr i
  obtain ⟨h1, h2⟩ := hin i
  rw [← hidx i] at h1 h2
  have hne : at3 e i - at3 s i ≠ 0 := by
    intro h
    have := apart_at hr i
    rw [h] at this
    norm_num at this
  simp only
  generalize (rayIdx (at3 e i) - rayIdx (at3 s i)).natAbs = g at *
  have hcast : (rayIdx (at3 e i) : ℚ) = rayIdx (at3 s i) + (axS s e i : ℚ) * (g : ℚ) := by exact_mod_cast hend
  unfold axS signum at hcast
  unfold axR axW w0
  rcases lt_or_gt_of_ne hne with h | h
  · have hs : (if at3 e i - at3 s i = 0 then (0 : ℤ) else if at3 e i - at3 s i < 0 then -1 else 1) = -1 := by
      rw [if_neg hne, if_pos h]
    rw [abs_of_neg h, if_neg (by linarith)]
    simp only [hs] at hcast
    push_cast at hcast
    constructor <;> linarith
  · have hs : (if at3 e i - at3 s i = 0 then (0 : ℤ) else if at3 e i - at3 s i < 0 then -1 else 1) = 1 := by
      rw [if_neg hne, if_neg (by linarith)]
    rw [abs_of_pos h, if_pos h]
    simp only [hs] at hcast
    push_cast at hcast
    constructor <;> linarith

/-- The number of steps against the length of the segment. -/
theorem steps_le {s e : Pt} {X : ℚ} (hs : CoordsWithin X s) (he : CoordsWithin X e) (hX : X ≤ 2 ^ 20) {N : ℕ} (hN : l1length s e + 4 ≤ N) :
    l1dist (s.map rayIdx) (e.map rayIdx) ≤ N := by
  have hax : ∀ i, ((rayIdx (at3 e i) - rayIdx (at3 s i)).natAbs : ℚ) ≤ |at3 e i - at3 s i| + 4 / 3 := by
    intro i
    obtain ⟨-, a, b, -⟩ := grid_axis (coords_at hs i) hX
    obtain ⟨-, c, d, -⟩ := grid_axis (coords_at he i) hX
    have ht : tolG X ≤ 1 / 10 := by
      unfold tolG
      rw [u_eq]
      norm_num at *
      linarith
    have e1 : ((rayIdx (at3 e i) - rayIdx (at3 s i)).natAbs : ℚ) = |(rayIdx (at3 e i) : ℚ) - rayIdx (at3 s i)| := by
      rw [Nat.cast_natAbs]
      push_cast
      rfl
    rw [e1]
    have f1 := le_abs_self (at3 e i - at3 s i)
    have f2 := neg_abs_le (at3 e i - at3 s i)
    rw [abs_le]
    constructor <;> linarith
  have h0 := hax 0
  have h1 := hax 1
  have h2 := hax 2
  simp only [at3] at h0 h1 h2
  unfold l1length at hN
  have : ((l1dist (s.map rayIdx) (e.map rayIdx) : ℕ) : ℚ) ≤ N := by
    unfold l1dist
    push_cast
    show ((rayIdx e.x - rayIdx s.x).natAbs : ℚ) + ((rayIdx e.y - rayIdx s.y).natAbs : ℚ) + ((rayIdx e.z - rayIdx s.z).natAbs : ℚ) ≤ N
    linarith
  exact_mod_cast this

theorem rayTol_ge {X : ℚ} (hX : 0 ≤ X) (N : ℕ) : tolG X ≤ rayTol X N ∧ u * errB N ≤ rayTol X N := by
  have hN : (0 : ℚ) ≤ N := Nat.cast_nonneg N
  unfold tolG rayTol errB
  rw [u_eq]
  have h2 : (0 : ℚ) ≤ (N : ℚ) ^ 2 := by positivity
  generalize (N : ℚ) ^ 2 = M at *
  constructor
  · norm_num
    linarith
  · norm_num
    linarith

theorem cast_float {s e : Pt} {X : ℚ} {N : ℕ} {E : Idx} (hs : CoordsWithin X s) (he : CoordsWithin X e) (hX : X ≤ 2 ^ 20)
    (hr : ApartBy (1 / 2 ^ 60) s e) (hN : l1length s e + 4 ≤ N) (hN2 : N ≤ 2 ^ 11) (hE : InsideBy (rayTol X N) E e) {n : ℕ} (hn : N + 2 ≤ n) :
    ∃ l, castRay float32 (s.map .fin) (e.map .fin) n = .ok (some l) ∧ l.head? = some (s.map rayIdx) ∧ l.getLast? = some E ∧
      l.length = l1dist (s.map rayIdx) E + 1 ∧
      (∀ c ∈ l, ∃ t, 0 ≤ t ∧ t ≤ 1 ∧ NearUnitCell (rayTol X N) c (segPoint s e t)) ∧
      (∀ t, 0 ≤ t → t ≤ 1 → ∃ c ∈ l, NearUnitCell (rayTol X N) c (segPoint s e t)) := by
  have hX0 : 0 ≤ X := (abs_nonneg _).trans hs.1
  obtain ⟨tol1, tol2⟩ := rayTol_ge hX0 N
  obtain ⟨hidx, hend⟩ := endF he hX hr tol1 hE
  have hL := steps_le hs he hX hN
  have hz := sizes_float hs he hX hr
  obtain ⟨b, q, hset, hb0, hcur, hI⟩ := setup_float hs he hX hr (by omega)
  have hpos : PosF (axR s e) (axW s e) (rayTol X N) q (fun _ => 0) 0 := by
    refine ⟨le_rfl, fun i => le_max_right _ _, fun i => ?_⟩
    have := hz.whigh i
    simp only [Nat.cast_zero, mul_zero]
    linarith
  have hE2 : u * errB (l1dist (s.map rayIdx) (e.map rayIdx)) ≤ rayTol X N :=
    (mul_le_mul_of_nonneg_left (errB_mono hL) (by rw [u_eq]; norm_num)).trans tol2
  obtain ⟨⟨c, hc1, hc2⟩, hin, hcov⟩ := emit_float (L := l1dist (s.map rayIdx) (e.map rayIdx)) hz tol1 (by omega) hE2 hend rfl
    (l1dist (s.map rayIdx) (e.map rayIdx)) b q (fun _ => 0) 0 hI hpos zero_le_one (by simp)
  have hcE : c = E := by
    rw [← hidx]
    have h3 : ∀ i, at3 c i = at3 (e.map rayIdx) i := by
      intro i
      rw [hc2 i, at3_rayIdx, at3_rayIdx]
      exact (end_axis hr i).symm
    exact Vec3.ext (h3 0) (h3 1) (h3 2)
  rw [← hidx]
  refine ⟨emit float32 (l1dist (s.map rayIdx) (e.map rayIdx) + 1) b, ?_, by simp [emit, hcur], by rw [hc1, hcE, hidx], emit_length _ _ _, ?_, ?_⟩
  · unfold castRay
    rw [hset]
    exact castLoop_emit float32 _ (by omega) _ n b (by omega) (by omega)
  · intro c' hc'
    obtain ⟨n', t, h1, h2, h3, h4⟩ := hin c' hc'
    exact ⟨t, h2, h3, near_of_axis (in_axis hr h4 h1)⟩
  · intro t h0 h1
    obtain ⟨c', hc', n', h2, h3⟩ := hcov t h0 h1
    exact ⟨c', hc', near_of_axis (in_axis hr h3 h2)⟩

end Vox.Ray
