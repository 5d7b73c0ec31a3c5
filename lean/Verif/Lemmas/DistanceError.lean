/-
Error bound of the projective distance in `float`.
-/
import Verif.Lemmas.RoundError
import Mathlib.Analysis.Real.Sqrt
import Mathlib.Tactic.Linarith
import Mathlib.Tactic.Ring
import Mathlib.Tactic.Positivity
import Mathlib.Tactic.FieldSimp
import Mathlib.Tactic.NormNum

namespace Vox.RoundErr

open Ieee Tsdf Spec
open IndexF (u eta rnd32_err)

/-- One product of a scalar product of rounded differences. -/
theorem term_err {x y x' y' p : ℚ} (hx : |x| ≤ 2 ^ 32) (hy : |y| ≤ 2 ^ 32) (hx' : |x' - x| ≤ u * |x| + eta) (hy' : |y' - y| ≤ u * |y| + eta)
    (hp : |p - x' * y'| ≤ u * |x' * y'| + eta) : |p - x * y| ≤ 31 / 10 * u * |x * y| + 1 / 2 ^ 110 ∧ |x' * y'| ≤ 2 ^ 66 := by
  have hX := abs_nonneg x
  have hY := abs_nonneg y
  have hm := mul_nonneg hX hY
  have ax : |x'| ≤ (1 + u) * |x| + eta := by
    have := abs_add_le (x' - x) x
    rw [sub_add_cancel] at this
    linarith
  have e0 : x' * y' - x * y = x' * (y' - y) + y * (x' - x) := by ring
  have e1 : |x' * y' - x * y| ≤ |x'| * |y' - y| + |y| * |x' - x| := by
    rw [e0]
    refine le_trans (abs_add_le _ _) ?_
    rw [abs_mul, abs_mul]
  have e2 : |x'| * |y' - y| ≤ ((1 + u) * |x| + eta) * (u * |y| + eta) :=
    mul_le_mul ax hy' (abs_nonneg _) (by rw [u_eq, eta_eq]; positivity)
  have e3 : |y| * |x' - x| ≤ |y| * (u * |x| + eta) := mul_le_mul_of_nonneg_left hx' hY
  have e4 : |x' * y'| ≤ |x' * y' - x * y| + |x * y| := by
    have := abs_add_le (x' * y' - x * y) (x * y)
    rwa [sub_add_cancel] at this
  have e5 : |p - x * y| ≤ |p - x' * y'| + |x' * y' - x * y| := by
    have := abs_add_le (p - x' * y') (x' * y' - x * y)
    rwa [sub_add_sub_cancel] at this
  have e6 : ((1 + u) * |x| + eta) * (u * |y| + eta) = u * (1 + u) * (|x| * |y|) + (1 + u) * (|x| * eta) + eta * u * |y| + eta * eta := by ring
  have e7 : |y| * (u * |x| + eta) = u * (|x| * |y|) + |y| * eta := by ring
  rw [abs_mul x y] at e4 ⊢
  have k1 : |x| * eta ≤ 2 ^ 32 * eta := mul_le_mul_of_nonneg_right hx (by rw [eta_eq]; positivity)
  have k2 : |y| * eta ≤ 2 ^ 32 * eta := mul_le_mul_of_nonneg_right hy (by rw [eta_eq]; positivity)
  have k3 : |x| * |y| ≤ 2 ^ 32 * 2 ^ 32 := mul_le_mul hx hy hY (by positivity)
  rw [e6] at e2
  rw [e7] at e3
  generalize |x| * |y| = m at *
  generalize |x' * y' - x * y| = a at *
  generalize |x' * y'| = b at *
  generalize |p - x' * y'| = c at *
  rw [u_eq, eta_eq] at *
  constructor <;> linarith

/-- A scalar product of rounded differences. -/
theorem dot_err {x1 x2 x3 y1 y2 y3 X1 X2 X3 Y1 Y2 Y3 p1 p2 p3 s t : ℚ}
    (hx1 : |x1| ≤ 2 ^ 32) (hx2 : |x2| ≤ 2 ^ 32) (hx3 : |x3| ≤ 2 ^ 32) (hy1 : |y1| ≤ 2 ^ 32) (hy2 : |y2| ≤ 2 ^ 32) (hy3 : |y3| ≤ 2 ^ 32)
    (eX1 : |X1 - x1| ≤ u * |x1| + eta) (eX2 : |X2 - x2| ≤ u * |x2| + eta) (eX3 : |X3 - x3| ≤ u * |x3| + eta)
    (eY1 : |Y1 - y1| ≤ u * |y1| + eta) (eY2 : |Y2 - y2| ≤ u * |y2| + eta) (eY3 : |Y3 - y3| ≤ u * |y3| + eta)
    (ep1 : |p1 - X1 * Y1| ≤ u * |X1 * Y1| + eta) (ep2 : |p2 - X2 * Y2| ≤ u * |X2 * Y2| + eta) (ep3 : |p3 - X3 * Y3| ≤ u * |X3 * Y3| + eta)
    (es : |s - (p1 + p2)| ≤ u * |p1 + p2| + eta) (et : |t - (s + p3)| ≤ u * |s + p3| + eta) :
    |t - (x1 * y1 + x2 * y2 + x3 * y3)| ≤ 11 / 2 * u * (|x1 * y1| + |x2 * y2| + |x3 * y3|) + 1 / 2 ^ 106 ∧
      |X1 * Y1| ≤ 2 ^ 66 ∧ |X2 * Y2| ≤ 2 ^ 66 ∧ |X3 * Y3| ≤ 2 ^ 66 ∧ |p1 + p2| ≤ 2 ^ 68 ∧ |s + p3| ≤ 2 ^ 69 := by
  obtain ⟨a1, b1⟩ := term_err hx1 hy1 eX1 eY1 ep1
  obtain ⟨a2, b2⟩ := term_err hx2 hy2 eX2 eY2 ep2
  obtain ⟨a3, b3⟩ := term_err hx3 hy3 eX3 eY3 ep3
  have l1 : |x1 * y1| ≤ 2 ^ 64 := by rw [abs_mul]; exact le_trans (mul_le_mul hx1 hy1 (abs_nonneg _) (by positivity)) (by norm_num)
  have l2 : |x2 * y2| ≤ 2 ^ 64 := by rw [abs_mul]; exact le_trans (mul_le_mul hx2 hy2 (abs_nonneg _) (by positivity)) (by norm_num)
  have l3 : |x3 * y3| ≤ 2 ^ 64 := by rw [abs_mul]; exact le_trans (mul_le_mul hx3 hy3 (abs_nonneg _) (by positivity)) (by norm_num)
  have m1 := abs_nonneg (x1 * y1)
  have m2 := abs_nonneg (x2 * y2)
  have m3 := abs_nonneg (x3 * y3)
  have s1 : |p1 + p2 - (x1 * y1 + x2 * y2)| ≤ |p1 - x1 * y1| + |p2 - x2 * y2| := by
    have := abs_add_le (p1 - x1 * y1) (p2 - x2 * y2)
    rwa [show p1 - x1 * y1 + (p2 - x2 * y2) = p1 + p2 - (x1 * y1 + x2 * y2) by ring] at this
  have s2 : |p1 + p2| ≤ |p1 + p2 - (x1 * y1 + x2 * y2)| + (|x1 * y1| + |x2 * y2|) := by
    have h1 := abs_add_le (p1 + p2 - (x1 * y1 + x2 * y2)) (x1 * y1 + x2 * y2)
    rw [sub_add_cancel] at h1
    have h2 := abs_add_le (x1 * y1) (x2 * y2)
    linarith
  have s3 : |s - (x1 * y1 + x2 * y2)| ≤ |s - (p1 + p2)| + |p1 + p2 - (x1 * y1 + x2 * y2)| := by
    have := abs_add_le (s - (p1 + p2)) (p1 + p2 - (x1 * y1 + x2 * y2))
    rwa [sub_add_sub_cancel] at this
  have s4 : |s + p3 - (x1 * y1 + x2 * y2 + x3 * y3)| ≤ |s - (x1 * y1 + x2 * y2)| + |p3 - x3 * y3| := by
    have := abs_add_le (s - (x1 * y1 + x2 * y2)) (p3 - x3 * y3)
    rwa [show s - (x1 * y1 + x2 * y2) + (p3 - x3 * y3) = s + p3 - (x1 * y1 + x2 * y2 + x3 * y3) by ring] at this
  have s5 : |s + p3| ≤ |s + p3 - (x1 * y1 + x2 * y2 + x3 * y3)| + (|x1 * y1| + |x2 * y2| + |x3 * y3|) := by
    have h1 := abs_add_le (s + p3 - (x1 * y1 + x2 * y2 + x3 * y3)) (x1 * y1 + x2 * y2 + x3 * y3)
    rw [sub_add_cancel] at h1
    have h2 := abs_add_le (x1 * y1 + x2 * y2) (x3 * y3)
    have h3 := abs_add_le (x1 * y1) (x2 * y2)
    linarith
  have s6 : |t - (x1 * y1 + x2 * y2 + x3 * y3)| ≤ |t - (s + p3)| + |s + p3 - (x1 * y1 + x2 * y2 + x3 * y3)| := by
    have := abs_add_le (t - (s + p3)) (s + p3 - (x1 * y1 + x2 * y2 + x3 * y3))
    rwa [sub_add_sub_cancel] at this
  generalize |x1 * y1| = q1 at *
  generalize |x2 * y2| = q2 at *
  generalize |x3 * y3| = q3 at *
  generalize |p1 + p2 - (x1 * y1 + x2 * y2)| = r1 at *
  generalize |s + p3 - (x1 * y1 + x2 * y2 + x3 * y3)| = r2 at *
  generalize |s - (x1 * y1 + x2 * y2)| = r3 at *
  generalize |p1 + p2| = r4 at *
  generalize |s + p3| = r5 at *
  rw [u_eq, eta_eq] at *
  refine ⟨by linarith, b1, b2, b3, by linarith, by linarith⟩

/-- The rounded square root. -/
theorem sqrt_err {q : ℚ} (h0 : 0 ≤ q) : |((sqrtRound 24 (-149) q : ℚ) : ℝ) - Real.sqrt q| ≤ (u : ℚ) * Real.sqrt q + (eta : ℚ) := by
  obtain ⟨lo, hi⟩ := sqrtRound_correct (p := 24) (qmin := -149) (by norm_num) h0
  have hq : (0 : ℝ) ≤ q := by exact_mod_cast h0
  have hs := Real.sqrt_nonneg (q : ℝ)
  have hu0 : (0 : ℝ) ≤ ((u : ℚ) : ℝ) := by rw [u_eq]; norm_num
  have hu1 : ((u : ℚ) : ℝ) ≤ 1 / 2 := by rw [u_eq]; norm_num
  rw [abs_le]
  constructor
  · by_contra hcon
    push Not at hcon
    -- a rational below the root whose rounding is still larger than the result
    rcases eq_or_lt_of_le hs with h | h
    · rw [← h] at hcon
      have h1 := lo 0 le_rfl (by simpa using h0)
      rw [rne_zero] at h1
      have h2 : (0 : ℝ) ≤ ((sqrtRound 24 (-149) q : ℚ) : ℝ) := by exact_mod_cast h1
      have h3 : (0 : ℝ) ≤ ((eta : ℚ) : ℝ) := by rw [eta_eq]; norm_num
      linarith
    · set g := Real.sqrt (q : ℝ) - ((u : ℚ) : ℝ) * Real.sqrt q - ((eta : ℚ) : ℝ) - ((sqrtRound 24 (-149) q : ℚ) : ℝ) with hg
      have hgp : 0 < g := by rw [hg]; linarith
      obtain ⟨a, ha1, ha2⟩ := exists_rat_btwn (show max 0 (Real.sqrt (q : ℝ) - g) < Real.sqrt q from max_lt h (by linarith))
      have ha0 : (0 : ℝ) < a := lt_of_le_of_lt (le_max_left _ _) ha1
      have ha0' : (0 : ℚ) ≤ a := by exact_mod_cast ha0.le
      have haa : a * a ≤ q := by
        have : (a : ℝ) * a ≤ q := by
          have := mul_le_mul ha2.le ha2.le ha0.le hs
          rwa [Real.mul_self_sqrt hq] at this
        exact_mod_cast this
      have h1 := lo a ha0' haa
      have h2 := (abs_le.1 (rnd32_err a)).1
      rw [abs_of_nonneg ha0'] at h2
      have h3 : a - (u * a + eta) ≤ sqrtRound 24 (-149) q := by
        have : rnd32 a ≤ sqrtRound 24 (-149) q := h1
        linarith
      have h4 : (a : ℝ) - (((u : ℚ) : ℝ) * a + ((eta : ℚ) : ℝ)) ≤ ((sqrtRound 24 (-149) q : ℚ) : ℝ) := by exact_mod_cast h3
      have h5 : Real.sqrt (q : ℝ) - g < a := lt_of_le_of_lt (le_max_right _ _) ha1
      have h6 : ((u : ℚ) : ℝ) * (Real.sqrt q - a) ≥ 0 := mul_nonneg hu0 (by linarith)
      linarith
  · by_contra hcon
    push Not at hcon
    set g := ((sqrtRound 24 (-149) q : ℚ) : ℝ) - Real.sqrt (q : ℝ) - ((u : ℚ) : ℝ) * Real.sqrt q - ((eta : ℚ) : ℝ) with hg
    have hgp : 0 < g := by rw [hg]; linarith
    obtain ⟨a, ha1, ha2⟩ := exists_rat_btwn (show Real.sqrt (q : ℝ) < Real.sqrt q + g / 2 by linarith)
    have ha0 : (0 : ℝ) ≤ a := le_trans hs ha1.le
    have ha0' : (0 : ℚ) ≤ a := by exact_mod_cast ha0
    have haa : q ≤ a * a := by
      have : (q : ℝ) ≤ a * a := by
        have := mul_le_mul ha1.le ha1.le hs ha0
        rwa [Real.mul_self_sqrt hq] at this
      exact_mod_cast this
    have h1 := hi a ha0' haa
    have h2 := (abs_le.1 (rnd32_err a)).2
    rw [abs_of_nonneg ha0'] at h2
    have h3 : sqrtRound 24 (-149) q ≤ a + (u * a + eta) := by
      have : sqrtRound 24 (-149) q ≤ rnd32 a := h1
      linarith
    have h4 : ((sqrtRound 24 (-149) q : ℚ) : ℝ) ≤ (a : ℝ) + (((u : ℚ) : ℝ) * a + ((eta : ℚ) : ℝ)) := by exact_mod_cast h3
    have h6 : ((u : ℚ) : ℝ) * (a - Real.sqrt q) ≤ 1 / 2 * (g / 2) := mul_le_mul hu1 (by linarith) (by linarith) (by norm_num)
    linarith

/-- The bounds behind the projective distance: `n` and `g` are the computed squared length and scalar product, `d` the computed length,
`x` the computed projection, `r` the result. -/
theorem projection_err {A B P n g d x r : ℝ} (hB : 1 / 2 ^ 10 ≤ B) (hA : 0 ≤ A) (hP : |P| ≤ A * B)
    (hn : |n - B * B| ≤ 11 / 2 * (1 / 2 ^ 24) * (B * B) + 1 / 2 ^ 106) (hg : |g - P| ≤ 11 / 2 * (1 / 2 ^ 24) * (A * B) + 1 / 2 ^ 106)
    (hd : |d - Real.sqrt n| ≤ 1 / 2 ^ 24 * Real.sqrt n + 1 / 2 ^ 150) (hx : |x - g / d| ≤ 1 / 2 ^ 24 * |g / d| + 1 / 2 ^ 150)
    (hr : |r - (d - x)| ≤ 1 / 2 ^ 24 * |d - x| + 1 / 2 ^ 150) :
    0 < d ∧ d ≤ 2 * B ∧ |g / d| ≤ 2 * A + 1 ∧ |r - (B - P / B)| ≤ 13 * (1 / 2 ^ 24) * (A + B) := by
  have hB0 : 0 < B := lt_of_lt_of_le (by positivity) hB
  have hBB : 1 / 2 ^ 10 * (1 / 2 ^ 10) ≤ B * B := mul_le_mul hB hB (by positivity) hB0.le
  obtain ⟨n1, n2⟩ := abs_le.1 hn
  have hn0 : 0 < n := by linarith
  have hnn : Real.sqrt n * Real.sqrt n = n := Real.mul_self_sqrt hn0.le
  have hs := Real.sqrt_nonneg n
  set q := Real.sqrt n with hq
  -- the square root
  have hq1 : 99 / 100 * B ≤ q := by
    by_contra hcon
    push Not at hcon
    have := mul_le_mul hcon.le hcon.le hs (by linarith)
    rw [hnn] at this
    linarith
  have hqB : |q - B| ≤ 3 * (1 / 2 ^ 24) * B := by
    have hsum : 199 / 100 * B ≤ q + B := by linarith
    have hsum0 : 0 < q + B := by linarith
    have e : (q - B) * (q + B) = n - B * B := by rw [← hnn]; ring
    have h1 : |q - B| * (q + B) ≤ 56 / 10 * (1 / 2 ^ 24) * (B * B) := by
      rw [← abs_of_pos hsum0, ← abs_mul, e]
      linarith
    have h2 : |q - B| * (199 / 100 * B) ≤ |q - B| * (q + B) := mul_le_mul_of_nonneg_left hsum (abs_nonneg _)
    have h3 : (|q - B| * (199 / 100)) * B ≤ (56 / 10 * (1 / 2 ^ 24) * B) * B := by
      calc (|q - B| * (199 / 100)) * B = |q - B| * (199 / 100 * B) := by ring
        _ ≤ 56 / 10 * (1 / 2 ^ 24) * (B * B) := le_trans h2 h1
        _ = (56 / 10 * (1 / 2 ^ 24) * B) * B := by ring
    have h4 := le_of_mul_le_mul_right h3 hB0
    linarith
  obtain ⟨q1, q2⟩ := abs_le.1 hqB
  have hdB : |d - B| ≤ 41 / 10 * (1 / 2 ^ 24) * B := by
    have := abs_add_le (d - q) (q - B)
    rw [sub_add_sub_cancel] at this
    linarith
  obtain ⟨d1, d2⟩ := abs_le.1 hdB
  have hdl : 999 / 1000 * B ≤ d := by linarith
  have hd0 : 0 < d := by linarith
  -- the projection
  have hg' : |g / d - P / B| ≤ 103 / 10 * (1 / 2 ^ 24) * A + 1 / 2 ^ 90 := by
    have e : g / d - P / B = (g - P) / d + (P / B) * ((B - d) / d) := by field_simp; ring
    have hPB : |P / B| ≤ A := by
      rw [abs_div, abs_of_pos hB0, div_le_iff₀ hB0]; exact hP
    have h1 : |(g - P) / d| ≤ 56 / 10 * (1 / 2 ^ 24) * A + 1 / 2 ^ 90 := by
      rw [abs_div, abs_of_pos hd0, div_le_iff₀ hd0]
      have k1 : A * (999 / 1000 * B) ≤ A * d := mul_le_mul_of_nonneg_left hdl hA
      have k2 : (1 : ℝ) / 2 ^ 90 * (1 / 2 ^ 11) ≤ 1 / 2 ^ 90 * d := mul_le_mul_of_nonneg_left (by linarith) (by positivity)
      have k3 : 0 ≤ A * B := mul_nonneg hA hB0.le
      calc |g - P| ≤ 11 / 2 * (1 / 2 ^ 24) * (A * B) + 1 / 2 ^ 106 := hg
        _ ≤ 56 / 10 * (1 / 2 ^ 24) * (A * d) + 1 / 2 ^ 90 * d := by linarith
        _ = (56 / 10 * (1 / 2 ^ 24) * A + 1 / 2 ^ 90) * d := by ring
    have h2 : |(B - d) / d| ≤ 42 / 10 * (1 / 2 ^ 24) := by
      rw [abs_div, abs_of_pos hd0, div_le_iff₀ hd0, abs_sub_comm]
      linarith
    have h3 : |P / B * ((B - d) / d)| ≤ A * (42 / 10 * (1 / 2 ^ 24)) := by
      rw [abs_mul]
      exact mul_le_mul hPB h2 (abs_nonneg _) hA
    rw [e]
    have := abs_add_le ((g - P) / d) (P / B * ((B - d) / d))
    linarith
  have hPB : |P / B| ≤ A := by
    rw [abs_div, abs_of_pos hB0, div_le_iff₀ hB0]; exact hP
  have hgd : |g / d| ≤ 101 / 100 * A + 1 / 2 ^ 89 := by
    have := abs_add_le (g / d - P / B) (P / B)
    rw [sub_add_cancel] at this
    linarith
  have hxP : |x - P / B| ≤ 114 / 10 * (1 / 2 ^ 24) * A + 1 / 2 ^ 88 := by
    have := abs_add_le (x - g / d) (g / d - P / B)
    rw [sub_add_sub_cancel] at this
    linarith
  have hdx : |(d - x) - (B - P / B)| ≤ 41 / 10 * (1 / 2 ^ 24) * B + 114 / 10 * (1 / 2 ^ 24) * A + 1 / 2 ^ 88 := by
    have := abs_sub (d - B) (x - P / B)
    rw [show d - B - (x - P / B) = d - x - (B - P / B) by ring] at this
    linarith
  have hdx' : |d - x| ≤ 101 / 100 * (A + B) := by
    have h1 := abs_add_le ((d - x) - (B - P / B)) (B - P / B)
    rw [sub_add_cancel] at h1
    have h2 := abs_sub B (P / B)
    rw [abs_of_pos hB0] at h2
    linarith
  refine ⟨hd0, by linarith, by linarith, ?_⟩
  have := abs_add_le (r - (d - x)) ((d - x) - (B - P / B))
  rw [sub_add_sub_cancel] at this
  linarith

/-- Cauchy and Schwarz for three terms of absolute values. -/
theorem cauchy3 (a1 a2 a3 b1 b2 b3 : ℝ) : |a1 * b1| + |a2 * b2| + |a3 * b3| ≤
    Real.sqrt (a1 * a1 + a2 * a2 + a3 * a3) * Real.sqrt (b1 * b1 + b2 * b2 + b3 * b3) := by
  rw [← Real.sqrt_mul (by nlinarith [mul_self_nonneg a1, mul_self_nonneg a2, mul_self_nonneg a3])]
  apply Real.le_sqrt_of_sq_le
  rw [abs_mul, abs_mul, abs_mul, ← abs_mul_abs_self a1, ← abs_mul_abs_self a2, ← abs_mul_abs_self a3, ← abs_mul_abs_self b1,
    ← abs_mul_abs_self b2, ← abs_mul_abs_self b3]
  generalize |a1| = x1
  generalize |a2| = x2
  generalize |a3| = x3
  generalize |b1| = y1
  generalize |b2| = y2
  generalize |b3| = y3
  nlinarith [sq_nonneg (x1 * y2 - x2 * y1), sq_nonneg (x1 * y3 - x3 * y1), sq_nonneg (x2 * y3 - x3 * y2)]

end Vox.RoundErr
