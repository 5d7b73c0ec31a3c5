/-
Property C110: the rounding error of the TSDF fusion in `float`; and the `float` versions of C26.
-/
import Verif.Lemmas.DistanceError
import Verif.Spec.TsdfRounding
import Verif.Props.Tsdf

namespace Vox.RoundErr

open Ieee Tsdf Spec
open IndexF (u eta rnd32_err)

/-! ### The observed distance -/

theorem abs_sub_le_of {a b m : ℚ} (ha : |a| ≤ m) (hb : |b| ≤ m) : |a - b| ≤ 2 * m := by
  have := abs_sub a b
  linarith

theorem cast_err {a b c : ℚ} (h : |a - b| ≤ u * |c| + eta) : |(a : ℝ) - b| ≤ 1 / 2 ^ 24 * |(c : ℝ)| + 1 / 2 ^ 150 := by
  have h2 : ((|a - b| : ℚ) : ℝ) ≤ ((u * |c| + eta : ℚ) : ℝ) := by exact_mod_cast h
  rw [u_eq, eta_eq] at h2
  push_cast at h2
  exact h2

/-- The computed squared length or scalar product, in `float`. -/
theorem dot32 {X1 X2 X3 Y1 Y2 Y3 : ℚ} (h1 : |X1 * Y1| ≤ 2 ^ 66) (h2 : |X2 * Y2| ≤ 2 ^ 66) (h3 : |X3 * Y3| ≤ 2 ^ 66)
    (h4 : |rnd32 (X1 * Y1) + rnd32 (X2 * Y2)| ≤ 2 ^ 68) (h5 : |rnd32 (rnd32 (X1 * Y1) + rnd32 (X2 * Y2)) + rnd32 (X3 * Y3)| ≤ 2 ^ 69) :
    float32.dot ⟨.fin X1, .fin X2, .fin X3⟩ ⟨.fin Y1, .fin Y2, .fin Y3⟩ =
      .fin (rnd32 (rnd32 (rnd32 (X1 * Y1) + rnd32 (X2 * Y2)) + rnd32 (X3 * Y3))) := by
  simp only [Arith.dot, Arith.mul, rnd_fin (le_trans h1 (by norm_num)), rnd_fin (le_trans h2 (by norm_num)),
    rnd_fin (le_trans h3 (by norm_num)), Arith.add, rnd_fin (le_trans h4 (by norm_num)), rnd_fin (le_trans h5 (by norm_num))]

/-- **C110.** The signed distance observed for a voxel, computed in `float`, differs from the exact signed distance along the ray by at
most 13 rounding units of the lengths involved — for all coordinates up to 2^30 and every measured point at least 2^-10 away from the
sensor. -/
theorem C110_distance (o p c : Vec3 ℚ) (ho : CoordsWithin (2 ^ 30) o) (hp : CoordsWithin (2 ^ 30) p) (hc : CoordsWithin (2 ^ 30) c)
    (hB : 1 / 2 ^ 10 ≤ segLength o p) :
    ∃ r : ℚ, computeDistance float32 (o.map .fin) (p.map .fin) (c.map .fin) = .fin r ∧
      |(r : ℝ) - rayDistance o p c| ≤ 13 * (1 / 2 ^ 24) * (segLength o c + segLength o p) := by
  obtain ⟨ho1, ho2, ho3⟩ := ho
  obtain ⟨hp1, hp2, hp3⟩ := hp
  obtain ⟨hc1, hc2, hc3⟩ := hc
  have b1 := le_trans (abs_sub_le_of hp1 ho1) (by norm_num : (2 : ℚ) * 2 ^ 30 ≤ 2 ^ 31)
  have b2 := le_trans (abs_sub_le_of hp2 ho2) (by norm_num : (2 : ℚ) * 2 ^ 30 ≤ 2 ^ 31)
  have b3 := le_trans (abs_sub_le_of hp3 ho3) (by norm_num : (2 : ℚ) * 2 ^ 30 ≤ 2 ^ 31)
  have a1 := le_trans (abs_sub_le_of hc1 ho1) (by norm_num : (2 : ℚ) * 2 ^ 30 ≤ 2 ^ 31)
  have a2 := le_trans (abs_sub_le_of hc2 ho2) (by norm_num : (2 : ℚ) * 2 ^ 30 ≤ 2 ^ 31)
  have a3 := le_trans (abs_sub_le_of hc3 ho3) (by norm_num : (2 : ℚ) * 2 ^ 30 ≤ 2 ^ 31)
  have hray : rayDistance o p c = segLength o p -
      (((c.x - o.x) * (p.x - o.x) + (c.y - o.y) * (p.y - o.y) + (c.z - o.z) * (p.z - o.z) : ℚ) : ℝ) / segLength o p := by
    have hpos : 0 < segLength o p := lt_of_lt_of_le (by positivity) hB
    have hsq : segLength o p * segLength o p = (((p.x - o.x) * (p.x - o.x) + (p.y - o.y) * (p.y - o.y) + (p.z - o.z) * (p.z - o.z) : ℚ) : ℝ) := by
      unfold segLength
      apply Real.mul_self_sqrt
      have : (0 : ℚ) ≤ (p.x - o.x) * (p.x - o.x) + (p.y - o.y) * (p.y - o.y) + (p.z - o.z) * (p.z - o.z) := by
        nlinarith [mul_self_nonneg (p.x - o.x), mul_self_nonneg (p.y - o.y), mul_self_nonneg (p.z - o.z)]
      exact_mod_cast this
    unfold rayDistance
    rw [div_eq_iff hpos.ne', sub_mul (segLength o p), hsq, div_mul_cancel₀ _ hpos.ne']
    push_cast
    ring
  have hA0 : 0 ≤ segLength o c := Real.sqrt_nonneg _
  have hcs := cauchy3 ((c.x - o.x : ℚ) : ℝ) ((c.y - o.y : ℚ) : ℝ) ((c.z - o.z : ℚ) : ℝ) ((p.x - o.x : ℚ) : ℝ) ((p.y - o.y : ℚ) : ℝ) ((p.z - o.z : ℚ) : ℝ)
  have hcs' : |((c.x - o.x) * (p.x - o.x) : ℝ)| + |((c.y - o.y) * (p.y - o.y) : ℝ)| + |((c.z - o.z) * (p.z - o.z) : ℝ)| ≤
      segLength o c * segLength o p := by
    unfold segLength
    push_cast at hcs ⊢
    exact hcs
  have hBB : segLength o p * segLength o p = ((p.x - o.x) * (p.x - o.x) + (p.y - o.y) * (p.y - o.y) + (p.z - o.z) * (p.z - o.z) : ℝ) := by
    unfold segLength
    rw [Real.mul_self_sqrt]
    · push_cast; ring
    · have : (0 : ℚ) ≤ (p.x - o.x) * (p.x - o.x) + (p.y - o.y) * (p.y - o.y) + (p.z - o.z) * (p.z - o.z) := by
        nlinarith [mul_self_nonneg (p.x - o.x), mul_self_nonneg (p.y - o.y), mul_self_nonneg (p.z - o.z)]
      exact_mod_cast this
  have hBup : segLength o p ≤ 2 ^ 33 := by
    unfold segLength
    rw [Real.sqrt_le_left (by positivity)]
    have t : ∀ x : ℚ, |x| ≤ 2 ^ 31 → x * x ≤ 2 ^ 62 := by
      intro x hx
      rw [← abs_mul_abs_self x]
      exact le_trans (mul_le_mul hx hx (abs_nonneg _) (by positivity)) (by norm_num)
    have : (p.x - o.x) * (p.x - o.x) + (p.y - o.y) * (p.y - o.y) + (p.z - o.z) * (p.z - o.z) ≤ (2 ^ 33) ^ 2 :=
      le_trans (add_le_add (add_le_add (t _ b1) (t _ b2)) (t _ b3)) (by norm_num)
    exact_mod_cast this
  have hAup : segLength o c ≤ 2 ^ 33 := by
    unfold segLength
    rw [Real.sqrt_le_left (by positivity)]
    have t : ∀ x : ℚ, |x| ≤ 2 ^ 31 → x * x ≤ 2 ^ 62 := by
      intro x hx
      rw [← abs_mul_abs_self x]
      exact le_trans (mul_le_mul hx hx (abs_nonneg _) (by positivity)) (by norm_num)
    have : (c.x - o.x) * (c.x - o.x) + (c.y - o.y) * (c.y - o.y) + (c.z - o.z) * (c.z - o.z) ≤ (2 ^ 33) ^ 2 :=
      le_trans (add_le_add (add_le_add (t _ a1) (t _ a2)) (t _ a3)) (by norm_num)
    exact_mod_cast this
  generalize segLength o p = B at *
  generalize segLength o c = A at *
  have w : (2 : ℚ) ^ 31 ≤ 2 ^ 32 := by norm_num
  have w' : (2 : ℚ) ^ 31 ≤ 2 ^ 127 := by norm_num
  obtain ⟨en, n1, n2, n3, n4, n5⟩ := dot_err (le_trans b1 w) (le_trans b2 w) (le_trans b3 w) (le_trans b1 w) (le_trans b2 w) (le_trans b3 w)
    (rnd32_err _) (rnd32_err _) (rnd32_err _) (rnd32_err _) (rnd32_err _) (rnd32_err _) (rnd32_err _) (rnd32_err _) (rnd32_err _)
    (rnd32_err _) (rnd32_err _)
  obtain ⟨eg, g1, g2, g3, g4, g5⟩ := dot_err (le_trans a1 w) (le_trans a2 w) (le_trans a3 w) (le_trans b1 w) (le_trans b2 w) (le_trans b3 w)
    (rnd32_err _) (rnd32_err _) (rnd32_err _) (rnd32_err _) (rnd32_err _) (rnd32_err _) (rnd32_err _) (rnd32_err _) (rnd32_err _)
    (rnd32_err _) (rnd32_err _)
  have dn := dot32 n1 n2 n3 n4 n5
  have dg := dot32 g1 g2 g3 g4 g5
  have vB : float32.vsub (p.map .fin) (o.map .fin) = ⟨.fin (rnd32 (p.x - o.x)), .fin (rnd32 (p.y - o.y)), .fin (rnd32 (p.z - o.z))⟩ := by
    simp only [Arith.vsub, Vec3.map₂, Vec3.map, Arith.sub, Fl.neg, Arith.add, ← sub_eq_add_neg, rnd_fin (le_trans b1 w'),
      rnd_fin (le_trans b2 w'), rnd_fin (le_trans b3 w')]
  have vA : float32.vsub (c.map .fin) (o.map .fin) = ⟨.fin (rnd32 (c.x - o.x)), .fin (rnd32 (c.y - o.y)), .fin (rnd32 (c.z - o.z))⟩ := by
    simp only [Arith.vsub, Vec3.map₂, Vec3.map, Arith.sub, Fl.neg, Arith.add, ← sub_eq_add_neg, rnd_fin (le_trans a1 w'),
      rnd_fin (le_trans a2 w'), rnd_fin (le_trans a3 w')]
  have hcomp : computeDistance float32 (o.map .fin) (p.map .fin) (c.map .fin) =
      float32.sub (float32.sqrtFl (float32.dot ⟨.fin (rnd32 (p.x - o.x)), .fin (rnd32 (p.y - o.y)), .fin (rnd32 (p.z - o.z))⟩
          ⟨.fin (rnd32 (p.x - o.x)), .fin (rnd32 (p.y - o.y)), .fin (rnd32 (p.z - o.z))⟩))
        (float32.div (float32.dot ⟨.fin (rnd32 (c.x - o.x)), .fin (rnd32 (c.y - o.y)), .fin (rnd32 (c.z - o.z))⟩
          ⟨.fin (rnd32 (p.x - o.x)), .fin (rnd32 (p.y - o.y)), .fin (rnd32 (p.z - o.z))⟩)
          (float32.sqrtFl (float32.dot ⟨.fin (rnd32 (p.x - o.x)), .fin (rnd32 (p.y - o.y)), .fin (rnd32 (p.z - o.z))⟩
          ⟨.fin (rnd32 (p.x - o.x)), .fin (rnd32 (p.y - o.y)), .fin (rnd32 (p.z - o.z))⟩))) := by
    simp only [computeDistance, Arith.norm, vA, vB]
  rw [hcomp, dn, dg]
  generalize rnd32 (rnd32 (rnd32 (rnd32 (p.x - o.x) * rnd32 (p.x - o.x)) + rnd32 (rnd32 (p.y - o.y) * rnd32 (p.y - o.y))) +
    rnd32 (rnd32 (p.z - o.z) * rnd32 (p.z - o.z))) = n at *
  generalize rnd32 (rnd32 (rnd32 (rnd32 (c.x - o.x) * rnd32 (p.x - o.x)) + rnd32 (rnd32 (c.y - o.y) * rnd32 (p.y - o.y))) +
    rnd32 (rnd32 (c.z - o.z) * rnd32 (p.z - o.z))) = g at *
  have hB0 : 0 < B := lt_of_lt_of_le (by positivity) hB
  have enR : |(n : ℝ) - B * B| ≤ 11 / 2 * (1 / 2 ^ 24) * (B * B) + 1 / 2 ^ 106 := by
    rw [abs_mul_self, abs_mul_self, abs_mul_self] at en
    have h : ((|n - ((p.x - o.x) * (p.x - o.x) + (p.y - o.y) * (p.y - o.y) + (p.z - o.z) * (p.z - o.z))| : ℚ) : ℝ) ≤
      ((11 / 2 * u * ((p.x - o.x) * (p.x - o.x) + (p.y - o.y) * (p.y - o.y) + (p.z - o.z) * (p.z - o.z)) + 1 / 2 ^ 106 : ℚ) : ℝ) := by
      exact_mod_cast en
    rw [u_eq] at h
    push_cast at h
    rw [hBB]
    exact h
  have egR : |(g : ℝ) - (((c.x - o.x) * (p.x - o.x) + (c.y - o.y) * (p.y - o.y) + (c.z - o.z) * (p.z - o.z) : ℚ) : ℝ)| ≤
      11 / 2 * (1 / 2 ^ 24) * (A * B) + 1 / 2 ^ 106 := by
    have h : ((|g - ((c.x - o.x) * (p.x - o.x) + (c.y - o.y) * (p.y - o.y) + (c.z - o.z) * (p.z - o.z))| : ℚ) : ℝ) ≤
      ((11 / 2 * u * (|(c.x - o.x) * (p.x - o.x)| + |(c.y - o.y) * (p.y - o.y)| + |(c.z - o.z) * (p.z - o.z)|) + 1 / 2 ^ 106 : ℚ) : ℝ) := by
      exact_mod_cast eg
    rw [u_eq] at h
    push_cast at h ⊢
    refine le_trans h ?_
    have := mul_le_mul_of_nonneg_left hcs' (by norm_num : (0 : ℝ) ≤ 11 / 2 * (1 / 2 ^ 24))
    linarith
  have hP : |(((c.x - o.x) * (p.x - o.x) + (c.y - o.y) * (p.y - o.y) + (c.z - o.z) * (p.z - o.z) : ℚ) : ℝ)| ≤ A * B := by
    push_cast
    refine le_trans ?_ hcs'
    refine le_trans (abs_add_le _ _) ?_
    have := abs_add_le (((c.x : ℝ) - o.x) * (p.x - o.x)) (((c.y : ℝ) - o.y) * (p.y - o.y))
    linarith
  generalize (((c.x - o.x) * (p.x - o.x) + (c.y - o.y) * (p.y - o.y) + (c.z - o.z) * (p.z - o.z) : ℚ) : ℝ) = P at *
  -- the length
  have hn0 : (0 : ℚ) ≤ n := by
    have hBB' : (1 / 2 ^ 10 : ℝ) * (1 / 2 ^ 10) ≤ B * B := mul_le_mul hB hB (by positivity) hB0.le
    have : (0 : ℝ) ≤ n := by
      have := (abs_le.1 enR).1
      linarith
    exact_mod_cast this
  have ed := sqrt_err hn0
  rw [u_eq, eta_eq] at ed
  push_cast at ed
  have esq : float32.sqrtFl (.fin n) = overflow (2 ^ 128) (sqrtRound 24 (-149) n) := by
    simp only [Arith.sqrtFl, if_pos hn0]
    rfl
  rw [esq]
  generalize sqrtRound 24 (-149) n = d at *
  obtain ⟨hd0, hd2, hgd, -⟩ := projection_err (x := (g : ℝ) / d) (r := (d : ℝ) - g / d) hB hA0 hP enR egR ed
    (by simp; positivity) (by simp; positivity)
  have hd0' : 0 < d := by exact_mod_cast hd0
  have hd3 : |d| < 2 ^ 128 := by
    rw [abs_of_pos hd0']
    have : (d : ℝ) < 2 ^ 128 := by
      refine lt_of_le_of_lt (le_trans hd2 (mul_le_mul_of_nonneg_left hBup (by norm_num))) (by norm_num)
    exact_mod_cast this
  rw [overflow_of_lt hd3]
  have hgd3 : |g / d| ≤ 2 ^ 35 := by
    have : |(g : ℝ) / d| ≤ 2 ^ 35 := by
      refine le_trans hgd (le_trans (add_le_add (mul_le_mul_of_nonneg_left hAup (by norm_num)) le_rfl) (by norm_num))
    exact_mod_cast this
  have ex := rnd_fin (x := g / d) (le_trans hgd3 (by norm_num))
  have exx := cast_err (rnd32_err (g / d))
  simp only [Arith.div, if_neg hd0'.ne', ex]
  have hx3 : |rnd32 (g / d)| ≤ 2 ^ 37 := by
    refine le_trans rnd32_le ?_
    rw [u_eq, eta_eq]
    refine le_trans (add_le_add (mul_le_mul_of_nonneg_left hgd3 (by norm_num)) le_rfl) (by norm_num)
  generalize rnd32 (g / d) = x at *
  push_cast at exx
  obtain ⟨-, -, -, hfin⟩ := projection_err (r := ((rnd32 (d - x) : ℚ) : ℝ)) hB hA0 hP enR egR ed exx
    (by have := cast_err (rnd32_err (d - x)); push_cast at this; exact this)
  refine ⟨rnd32 (d - x), ?_, ?_⟩
  · simp only [Arith.sub, Fl.neg, Arith.add, ← sub_eq_add_neg]
    apply rnd_fin
    have h1 : d ≤ 2 ^ 40 := by
      have : (d : ℝ) ≤ 2 ^ 40 := le_trans hd2 (le_trans (mul_le_mul_of_nonneg_left hBup (by norm_num)) (by norm_num))
      exact_mod_cast this
    have h2 := abs_sub d x
    rw [abs_of_pos hd0'] at h2
    refine le_trans h2 (le_trans (add_le_add h1 hx3) (by norm_num))
  · rw [hray]
    exact hfin

/-- The hypotheses hold for a sensor off the origin, with the bound below a thousandth of a millimetre (lengths in metres). -/
example : CoordsWithin (2 ^ 30) ⟨1, 2, 3⟩ ∧ CoordsWithin (2 ^ 30) ⟨4, 6, 3⟩ ∧ CoordsWithin (2 ^ 30) ⟨4, 5, 3⟩ ∧
    segLength ⟨1, 2, 3⟩ ⟨4, 6, 3⟩ = 5 ∧ rayDistance ⟨1, 2, 3⟩ ⟨4, 6, 3⟩ ⟨4, 5, 3⟩ = 4 / 5 := by
  have h : segLength ⟨1, 2, 3⟩ ⟨4, 6, 3⟩ = 5 := by
    unfold segLength
    norm_num
    rw [show (25 : ℝ) = 5 * 5 by norm_num, Real.sqrt_mul_self (by norm_num)]
  refine ⟨?_, ?_, ?_, h, ?_⟩
  · norm_num [CoordsWithin]
  · norm_num [CoordsWithin]
  · norm_num [CoordsWithin]
  · unfold rayDistance
    rw [h]
    norm_num

/-! ### The fusion -/

/-- One update in `float`, with its error bounds. -/
theorem step32 {cfg : Config} {T M s w d W : ℚ} (hcT : cfg.truncation = .fin T) (hT1 : 1 / 2 ^ 20 ≤ T) (hT2 : T ≤ 2 ^ 40)
    (hcM : cfg.maxWeight = .fin M) (hs : |s| ≤ T) (hd : |d| ≤ T) (hw : 1 / 100000 ≤ w) (hW : 0 ≤ W) (hsum : W + w ≤ 2 ^ 41)
    (hM : rnd32 (W + w) ≤ M) (col : Color) {v : TsdfVoxel Fl} (hvd : v.distance = .fin d) (hvw : v.weight = .fin W) :
    ∃ v' D', applyUpdate float32 cfg (.fin s) (.fin w) col v = .ok v' ∧ v'.distance = .fin D' ∧ v'.weight = .fin (rnd32 (W + w)) ∧
      |D'| ≤ T ∧ |rnd32 (W + w) - (W + w)| ≤ 17 / 16 * u * (W + w) ∧
      |D' * rnd32 (W + w) - (s * w + d * W)| ≤ 13 / 4 * u * (T * (W + w)) := by
  have hT0 : 0 < T := lt_of_lt_of_le (by positivity) hT1
  have hV0 : 0 < W + w := by linarith
  obtain ⟨gW, gc, gD⟩ := step_bounds hT1 hw hW rfl hs hd (rnd32_err (W + w)) (rnd32_err (s * w)) (rnd32_err (d * W))
    (rnd32_err (rnd32 (s * w) + rnd32 (d * W))) (rnd32_err (rnd32 (rnd32 (s * w) + rnd32 (d * W)) / rnd32 (W + w)))
  have hTV : T * (W + w) ≤ 2 ^ 40 * 2 ^ 41 := mul_le_mul hT2 hsum hV0.le (by positivity)
  have m1 : |s * w| ≤ 2 ^ 40 * 2 ^ 41 := by
    rw [abs_mul, abs_of_nonneg (by linarith : (0 : ℚ) ≤ w)]
    exact mul_le_mul (le_trans hs hT2) (by linarith) (by linarith) (by positivity)
  have m2 : |d * W| ≤ 2 ^ 40 * 2 ^ 41 := by
    rw [abs_mul, abs_of_nonneg hW]
    exact mul_le_mul (le_trans hd hT2) (by linarith) hW (by positivity)
  have r1 : |rnd32 (s * w)| ≤ 2 ^ 83 := by
    refine le_trans rnd32_le ?_
    rw [u_eq, eta_eq]
    refine le_trans (add_le_add (mul_le_mul_of_nonneg_left m1 (by norm_num)) le_rfl) (by norm_num)
  have r2 : |rnd32 (d * W)| ≤ 2 ^ 83 := by
    refine le_trans rnd32_le ?_
    rw [u_eq, eta_eq]
    refine le_trans (add_le_add (mul_le_mul_of_nonneg_left m2 (by norm_num)) le_rfl) (by norm_num)
  have r3 : |rnd32 (s * w) + rnd32 (d * W)| ≤ 2 ^ 127 := by
    refine le_trans (abs_add_le _ _) (le_trans (add_le_add r1 r2) (by norm_num))
  have hWl : (W + w) / 2 ≤ rnd32 (W + w) := by
    have h1 := (abs_le.1 gW).1
    rw [u_eq] at h1
    linarith
  have hWp : 0 < rnd32 (W + w) := by linarith
  have eW := rnd_fin_nonneg hV0.le (le_trans hsum (by norm_num))
  have ea := rnd_fin (x := s * w) (le_trans m1 (by norm_num))
  have eb := rnd_fin (x := d * W) (le_trans m2 (by norm_num))
  have ec := rnd_fin r3
  have r4 : |rnd32 (rnd32 (s * w) + rnd32 (d * W)) / rnd32 (W + w)| ≤ 4 * T := by
    rw [abs_div, abs_of_pos hWp, div_le_iff₀ hWp]
    refine le_trans gc ?_
    have := mul_le_mul_of_nonneg_left hWl (by linarith : 0 ≤ 4 * T)
    linarith
  have ed := rnd_fin (x := rnd32 (rnd32 (s * w) + rnd32 (d * W)) / rnd32 (W + w)) (le_trans r4 (le_trans (mul_le_mul_of_nonneg_left hT2 (by norm_num)) (by norm_num)))
  have hsmall : ¬ rnd32 (W + w) < 1 / 1000000 := by
    push Not
    linarith
  have hX : |s * w + d * W| ≤ T * (W + w) := by
    refine le_trans (abs_add_le _ _) ?_
    rw [abs_mul, abs_mul, abs_of_nonneg hW, abs_of_nonneg (by linarith : (0 : ℚ) ≤ w)]
    have k1 := mul_le_mul_of_nonneg_right hs (by linarith : (0 : ℚ) ≤ w)
    have k2 := mul_le_mul_of_nonneg_right hd hW
    linarith
  obtain ⟨c, hc, -⟩ : ∃ c, updatedColor float32 cfg (.fin s) (.fin w) col v = .ok c ∧ True := by
    unfold updatedColor
    split
    · rw [hvw]
      obtain ⟨c, hc, -⟩ := blend32 hW (by linarith : (0 : ℚ) ≤ w) (le_trans (by norm_num) (by linarith : (1 / 100000 : ℚ) ≤ W + w))
        (le_trans hsum (by norm_num)) v.color col
      exact ⟨c, hc, trivial⟩
    · exact ⟨_, rfl, trivial⟩
  have hclamp := clamp_bounds (V := W + w) hT0.le hWp.le hX gD (by
    have := mul_le_mul_of_nonneg_right gW hT0.le
    have hnn : 0 ≤ u * (T * (W + w)) := mul_nonneg (by rw [u_eq]; positivity) (mul_nonneg hT0.le hV0.le)
    linarith)
  generalize rnd32 (W + w) = W' at *
  generalize rnd32 (rnd32 (rnd32 (s * w) + rnd32 (d * W)) / W') = D at *
  refine ⟨{ distance := .fin (if 0 < D then min T D else max (-T) D), weight := .fin W', color := c }, _, ?_, rfl, rfl, ?_, gW, hclamp⟩
  · simp only [applyUpdate, hvw, hvd, Arith.add, eW, kFloatEpsilon, Fl.lt, decide_eq_true_eq, if_neg hsmall, Arith.mul, ea, eb, ec, Arith.div,
      if_neg hWp.ne', ed, hc, Outcome.bind_ok, Outcome.pure_eq, hcT, hcM, Fl.neg, Fl.stdMin, Fl.stdMax]
    congr 2
    · by_cases h0 : 0 < D
      · rw [if_pos h0, if_pos h0]
        by_cases h1 : D < T
        · rw [if_pos h1, min_eq_right h1.le]
        · rw [if_neg h1, min_eq_left (not_lt.1 h1)]
      · rw [if_neg h0, if_neg h0]
        by_cases h1 : -T < D
        · rw [if_pos h1, max_eq_right h1.le]
        · rw [if_neg h1, max_eq_left (not_lt.1 h1)]
    · by_cases h1 : W' < M
      · rw [if_pos h1]
      · rw [if_neg h1, le_antisymm hM (not_lt.1 h1)]
  · split
    · rename_i h0
      rw [abs_of_nonneg (le_min hT0.le h0.le)]
      exact min_le_left _ _
    · rename_i h0
      rw [abs_of_nonpos (max_le (by linarith) (not_lt.1 h0))]
      have := le_max_left (-T) D
      linarith

theorem total_cons (f : Obs → ℚ) (o : Obs) (os : List Obs) : total f (o :: os) = f o + total f os := by simp [total]

theorem total_nonneg {f : Obs → ℚ} {os : List Obs} (h : ∀ o ∈ os, 0 ≤ f o) : 0 ≤ total f os := by
  unfold total
  apply List.sum_nonneg
  intro x hx
  obtain ⟨o, ho, rfl⟩ := List.mem_map.1 hx
  exact h o ho

/-- The invariant of the fusion: after `k` observations with sum of weights `U` and weighted sum `S`. -/
theorem integrate32 {cfg : Config} {T M : ℚ} {vs : Fl} (hcT : cfg.truncation = .fin T) (hT1 : 1 / 2 ^ 20 ≤ T) (hT2 : T ≤ 2 ^ 40)
    (hcM : cfg.maxWeight = .fin M) (s w : Obs → ℚ) (os : List Obs) :
    (∀ o ∈ os, computeDistance float32 o.origin o.pointG o.center = .fin (s o) ∧
      updatedWeight float32 cfg vs (.fin (s o)) o.weight = .fin (w o) ∧ |s o| ≤ T ∧ 1 / 100000 ≤ w o) →
    ∀ (k : ℕ) (v : TsdfVoxel Fl) (d W S U : ℚ), v.distance = .fin d → v.weight = .fin W → |d| ≤ T → 0 ≤ W → 0 ≤ U →
      |W - U| ≤ 5 / 4 * k * u * U → |d * W - S| ≤ 4 * k * u * (T * U) → k + os.length ≤ 2 ^ 20 →
      (1 + 1 / 8) * (U + total w os) ≤ 2 ^ 41 → (1 + (k + os.length) / 2 ^ 23) * (U + total w os) ≤ M →
      ∃ v' d' W', integrate float32 cfg vs os v = .ok v' ∧ v'.distance = .fin d' ∧ v'.weight = .fin W' ∧ |d'| ≤ T ∧ 0 ≤ W' ∧
        |W' - (U + total w os)| ≤ 5 / 4 * (k + os.length) * u * (U + total w os) ∧
        |d' * W' - (S + total (fun o => w o * s o) os)| ≤ 4 * (k + os.length) * u * (T * (U + total w os)) := by
  induction os with
  | nil =>
    intro _ k v d W S U hvd hvw hd hW _ h1 h2 _ _ _
    refine ⟨v, d, W, rfl, hvd, hvw, hd, hW, ?_, ?_⟩
    · simpa [total] using h1
    · simpa [total] using h2
  | cons o os ih =>
    intro hos k v d W S U hvd hvw hd hW hU h1 h2 hk hcap hMt
    obtain ⟨hs, hw, hsT, hw0⟩ := hos o (by simp)
    have hrest : 0 ≤ total w os := total_nonneg (fun o' ho' => by linarith [(hos o' (by simp [ho'])).2.2.2])
    rw [total_cons] at hcap hMt
    have hT0 : 0 < T := lt_of_lt_of_le (by positivity) hT1
    have hu0 : (0 : ℚ) < u := by rw [u_eq]; positivity
    simp only [List.length_cons] at hk hMt ⊢
    have hkq : (k : ℚ) + 1 ≤ 2 ^ 20 := by exact_mod_cast (by omega : k + 1 ≤ 2 ^ 20)
    have hk0 : (0 : ℚ) ≤ k := by positivity
    have hku : (k : ℚ) * u ≤ 1 / 16 := by
      rw [u_eq]
      linarith
    have hkuU : (k : ℚ) * u * U ≤ 1 / 16 * U := mul_le_mul_of_nonneg_right hku hU
    obtain ⟨W1, W2⟩ := abs_le.1 h1
    have hWU : W ≤ 9 / 8 * U := by linarith
    have hU' : 0 ≤ U + w o := by linarith
    have hV : W + w o ≤ 9 / 8 * (U + w o) := by linarith
    have hsum : W + w o ≤ 2 ^ 41 := by linarith
    have hgW0 : |rnd32 (W + w o) - (W + w o)| ≤ 17 / 16 * u * (W + w o) := by
      have h3 := rnd32_rel (x := W + w o) (b := 1 / 100000) (by norm_num) (by rw [abs_of_nonneg (by linarith)]; linarith)
      rw [abs_of_nonneg (by linarith : 0 ≤ W + w o)] at h3
      refine le_trans h3 (mul_le_mul_of_nonneg_right ?_ (by linarith))
      rw [u_eq, eta_eq]
      norm_num
    have e1 : 17 / 16 * u * (W + w o) ≤ 5 / 4 * u * (U + w o) := by
      have := mul_le_mul_of_nonneg_left hV (by linarith : 0 ≤ 17 / 16 * u)
      have h9 : 0 ≤ u * (U + w o) := mul_nonneg hu0.le hU'
      linarith
    have hmono : 5 / 4 * k * u * U ≤ 5 / 4 * k * u * (U + w o) :=
      mul_le_mul_of_nonneg_left (by linarith) (by positivity)
    have hW' : |rnd32 (W + w o) - (U + w o)| ≤ 5 / 4 * (k + 1 : ℕ) * u * (U + w o) := by
      have := abs_add_le (rnd32 (W + w o) - (W + w o)) (W - U)
      rw [show rnd32 (W + w o) - (W + w o) + (W - U) = rnd32 (W + w o) - (U + w o) by ring] at this
      push_cast
      linarith
    have hM : rnd32 (W + w o) ≤ M := by
      have h3 := (abs_le.1 hW').2
      push_cast at h3 hMt
      have hlen : (0 : ℚ) ≤ os.length := by positivity
      have h4 : 5 / 4 * ((k : ℚ) + 1) * u ≤ (k + (os.length + 1)) / 2 ^ 23 := by
        rw [u_eq]
        linarith
      have h5 : (1 + ((k : ℚ) + (os.length + 1)) / 2 ^ 23) * (U + w o) ≤ (1 + (k + (os.length + 1)) / 2 ^ 23) * (U + (w o + total w os)) :=
        mul_le_mul_of_nonneg_left (by linarith) (by positivity)
      have h6 := mul_le_mul_of_nonneg_right h4 hU'
      linarith
    obtain ⟨v1, D1, hv1, hd1, hw1, hD1, gW, gD⟩ := step32 hcT hT1 hT2 hcM hsT hd hw0 hW hsum hM o.color hvd hvw
    have hW0 : 0 ≤ rnd32 (W + w o) := rnd32_nonneg (by linarith)
    have e2 : 13 / 4 * u * (T * (W + w o)) ≤ 4 * u * (T * (U + w o)) := by
      have h3 := mul_le_mul_of_nonneg_left hV hT0.le
      have h4 := mul_le_mul_of_nonneg_left h3 (by linarith : 0 ≤ 13 / 4 * u)
      have h9 : 0 ≤ u * (T * (U + w o)) := mul_nonneg hu0.le (mul_nonneg hT0.le hU')
      linarith
    have e3 : 4 * k * u * (T * U) ≤ 4 * k * u * (T * (U + w o)) :=
      mul_le_mul_of_nonneg_left (mul_le_mul_of_nonneg_left (by linarith) hT0.le) (by positivity)
    have hS' : |D1 * rnd32 (W + w o) - (S + w o * s o)| ≤ 4 * (k + 1 : ℕ) * u * (T * (U + w o)) := by
      have := abs_add_le (D1 * rnd32 (W + w o) - (s o * w o + d * W)) (d * W - S)
      rw [show D1 * rnd32 (W + w o) - (s o * w o + d * W) + (d * W - S) = D1 * rnd32 (W + w o) - (S + w o * s o) by ring] at this
      push_cast
      linarith
    obtain ⟨v', d', W', hi, hd', hw', hdT, hW'0, r1, r2⟩ := ih (fun o' ho' => hos o' (by simp [ho'])) (k + 1) v1 D1 (rnd32 (W + w o)) (S + w o * s o) (U + w o)
      hd1 hw1 hD1 hW0 hU' hW' hS' (by omega) (by rw [add_assoc]; exact hcap)
      (by rw [add_assoc]; push_cast at hMt ⊢; rw [show (k : ℚ) + 1 + os.length = k + (os.length + 1) by ring]; exact hMt)
    refine ⟨v', d', W', ?_, hd', hw', hdT, hW'0, ?_, ?_⟩
    · simp only [integrate, updateVoxel, hs, hw, hv1, Outcome.bind_ok]
      exact hi
    · rw [total_cons, ← add_assoc]
      push_cast at r1 ⊢
      rw [show (k : ℚ) + (os.length + 1) = k + 1 + os.length by ring]
      exact r1
    · rw [total_cons, total_cons, ← add_assoc, ← add_assoc]
      push_cast at r2 ⊢
      rw [show (k : ℚ) + (os.length + 1) = k + 1 + os.length by ring]
      exact r2

/-- **C110.** In `float` arithmetic, up to 2^20 observations of a fresh voxel are fused without undefined behaviour, and the result differs
from the weighted mean of the observed distances by at most 6 rounding units of the truncation distance per observation, its weight from
the sum of the weights by at most 5/4 rounding units of that sum per observation — while the weight limit is not reached. `s` and `w` name
the observed distances and weights. -/
theorem C110_fusion {cfg : Config} {T M : ℚ} {vs : Fl} (hcT : cfg.truncation = .fin T) (hT1 : 1 / 2 ^ 20 ≤ T) (hT2 : T ≤ 2 ^ 40)
    (hcM : cfg.maxWeight = .fin M) (s w : Obs → ℚ) (os : List Obs) (hne : os ≠ []) (hlen : os.length ≤ 2 ^ 20)
    (hos : ∀ o ∈ os, computeDistance float32 o.origin o.pointG o.center = .fin (s o) ∧
      updatedWeight float32 cfg vs (.fin (s o)) o.weight = .fin (w o) ∧ |s o| ≤ T ∧ 1 / 100000 ≤ w o)
    (hcap : total w os ≤ 2 ^ 40) (hM : (1 + os.length / 2 ^ 23) * total w os ≤ M) :
    ∃ v D W, integrate float32 cfg vs os freshVoxel = .ok v ∧ v.distance = .fin D ∧ v.weight = .fin W ∧
      |D - weightedMean w s os| ≤ 6 * os.length * (1 / 2 ^ 24) * T ∧ |W - total w os| ≤ 5 / 4 * os.length * (1 / 2 ^ 24) * total w os := by
  have hT0 : 0 < T := lt_of_lt_of_le (by positivity) hT1
  have hpos : 0 < total w os := by
    cases os with
    | nil => exact absurd rfl hne
    | cons o os =>
      have h0 := (hos o (by simp)).2.2.2
      have hrest : 0 ≤ total w os := total_nonneg (fun o' ho' => by linarith [(hos o' (by simp [ho'])).2.2.2])
      rw [total_cons]
      linarith
  obtain ⟨v, D, W, hi, hd, hw, hDT, hW, r1, r2⟩ := integrate32 hcT hT1 hT2 hcM s w os hos 0 freshVoxel 0 0 0 0 rfl rfl
    (by simpa using hT0.le) le_rfl le_rfl (by simp) (by simp) (by simpa using hlen)
    (by rw [zero_add]; linarith) (by simpa using hM)
  simp only [zero_add, Nat.cast_zero] at r1 r2
  rw [u_eq] at r1 r2
  refine ⟨v, D, W, hi, hd, hw, ?_, r1⟩
  have e : D - weightedMean w s os = ((D * W - total (fun o => w o * s o) os) + D * (total w os - W)) / total w os := by
    unfold weightedMean
    field_simp
    ring
  rw [e, abs_div, abs_of_pos hpos, div_le_iff₀ hpos]
  have h1 := abs_add_le (D * W - total (fun o => w o * s o) os) (D * (total w os - W))
  have h2 : |D * (total w os - W)| ≤ T * (5 / 4 * os.length * (1 / 2 ^ 24) * total w os) := by
    rw [abs_mul, abs_sub_comm]
    exact mul_le_mul hDT r1 (abs_nonneg _) hT0.le
  have h3 : 0 ≤ (os.length : ℚ) * (T * total w os) := mul_nonneg (by positivity) (mul_nonneg hT0.le hpos.le)
  have h4 : T * (5 / 4 * os.length * (1 / 2 ^ 24) * total w os) = 5 / 4 * (1 / 2 ^ 24) * (os.length * (T * total w os)) := by ring
  have h5 : 4 * (os.length : ℚ) * (1 / 2 ^ 24) * (T * total w os) = 4 * (1 / 2 ^ 24) * (os.length * (T * total w os)) := by ring
  have h6 : 6 * (os.length : ℚ) * (1 / 2 ^ 24) * T * total w os = 6 * (1 / 2 ^ 24) * (os.length * (T * total w os)) := by ring
  rw [h6]
  rw [h4] at h2
  rw [h5] at r2
  linarith

/-- **C110.** Hence the order of the observations matters at most by 12 rounding units of the truncation distance per observation. -/
theorem C110_order {cfg : Config} {T M : ℚ} {vs : Fl} (hcT : cfg.truncation = .fin T) (hT1 : 1 / 2 ^ 20 ≤ T) (hT2 : T ≤ 2 ^ 40)
    (hcM : cfg.maxWeight = .fin M) (s w : Obs → ℚ) (os os' : List Obs) (hne : os ≠ []) (hperm : os.Perm os') (hlen : os.length ≤ 2 ^ 20)
    (hos : ∀ o ∈ os, computeDistance float32 o.origin o.pointG o.center = .fin (s o) ∧
      updatedWeight float32 cfg vs (.fin (s o)) o.weight = .fin (w o) ∧ |s o| ≤ T ∧ 1 / 100000 ≤ w o)
    (hcap : total w os ≤ 2 ^ 40) (hM : (1 + os.length / 2 ^ 23) * total w os ≤ M) :
    ∃ v D v' D', integrate float32 cfg vs os freshVoxel = .ok v ∧ integrate float32 cfg vs os' freshVoxel = .ok v' ∧
      v.distance = .fin D ∧ v'.distance = .fin D' ∧ |D - D'| ≤ 12 * os.length * (1 / 2 ^ 24) * T := by
  have hp : ∀ f : Obs → ℚ, total f os' = total f os := fun f => ((hperm.map f).sum_eq).symm
  obtain ⟨v, D, W, h1, h2, -, h3, -⟩ := C110_fusion hcT hT1 hT2 hcM s w os hne hlen hos hcap hM
  obtain ⟨v', D', W', h1', h2', -, h3', -⟩ := C110_fusion hcT hT1 hT2 hcM s w os'
    (by intro h; rw [h] at hperm; exact hne hperm.eq_nil) (by rw [← hperm.length_eq]; exact hlen)
    (fun o ho => hos o (hperm.mem_iff.2 ho)) (by rw [hp]; exact hcap) (by rw [hp, ← hperm.length_eq]; exact hM)
  refine ⟨v, D, v', D', h1, h1', h2, h2', ?_⟩
  rw [← hperm.length_eq] at h3'
  have hm : weightedMean w s os' = weightedMean w s os := by unfold weightedMean; rw [hp, hp]
  rw [hm] at h3'
  have := abs_sub_le D (weightedMean w s os) D'
  rw [abs_sub_comm (weightedMean w s os)] at this
  linarith

/-- Three observations with distances that have no short binary expansion. -/
def exSeq : List Obs := [exObs (18 / 10) 1, exObs (19 / 10) (1 / 3), exObs (21 / 10) (1 / 7)]

/-- The distance and the weight of the observations above, as computed in `float`. -/
def exS (o : Obs) : ℚ := match computeDistance float32 o.origin o.pointG o.center with | .fin x => x | _ => 0

/-- See `exS`. -/
def exW (o : Obs) : ℚ := match updatedWeight float32 exCfg (.fin (1 / 10)) (.fin (exS o)) o.weight with | .fin x => x | _ => 0

/-- The hypotheses of the two theorems hold for three observations, one of them behind the surface, where the weight drops off; the bound is below
a millionth. -/
example : (∀ o ∈ exSeq, computeDistance float32 o.origin o.pointG o.center = .fin (exS o) ∧
      updatedWeight float32 exCfg (.fin (1 / 10)) (.fin (exS o)) o.weight = .fin (exW o) ∧ |exS o| ≤ 1 / 2 ∧ 1 / 100000 ≤ exW o) ∧
    total exW exSeq ≤ 2 ^ 40 ∧ (1 + exSeq.length / 2 ^ 23) * total exW exSeq ≤ 100 ∧ 6 * exSeq.length * (1 / 2 ^ 24) * (1 / 2 : ℚ) < 1 / 1000000 := by
  refine ⟨?_, by decide +kernel, by decide +kernel, by decide +kernel⟩
  decide +kernel

/-- Whether two runs of the fusion end with different distances. -/
def ordersDiffer (a b : Outcome (TsdfVoxel Fl)) : Bool :=
  match a, b with
  | .ok v, .ok v' => decide (v.distance ≠ v'.distance)
  | _, _ => false

/-- **C110.** In `float` the order of the observations does matter: the independence of the order that exact arithmetic has is lost. -/
theorem C110_order_matters : ∃ os os' : List Obs, os.Perm os' ∧
    ordersDiffer (integrate float32 exCfg (.fin (1 / 10)) os freshVoxel) (integrate float32 exCfg (.fin (1 / 10)) os' freshVoxel) = true :=
  ⟨exSeq, exSeq.reverse, (List.reverse_perm _).symm, by decide +kernel⟩

/-! ### From the geometry to the fused distance -/

theorem sum_cast (f : Obs → ℚ) (os : List Obs) : (((os.map f).sum : ℚ) : ℝ) = (os.map fun o => (f o : ℝ)).sum := by
  induction os with
  | nil => simp
  | cons o os ih => simp only [List.map_cons, List.sum_cons, Rat.cast_add, ih]

theorem mean_shift {w s : Obs → ℚ} {t : Obs → ℝ} {os : List Obs} {e : ℝ} (hpos : 0 < total w os) (hw : ∀ o ∈ os, 0 ≤ w o)
    (hs : ∀ o ∈ os, |(s o : ℝ) - t o| ≤ e) : |((weightedMean w s os : ℚ) : ℝ) - realMean w t os| ≤ e := by
  have hcast : ∀ f : Obs → ℚ, ((total f os : ℚ) : ℝ) = (os.map fun o => (f o : ℝ)).sum := fun f => sum_cast f os
  have hposR : (0 : ℝ) < (os.map fun o => (w o : ℝ)).sum := by rw [← hcast]; exact_mod_cast hpos
  have hkey : ∀ l : List Obs, (∀ o ∈ l, 0 ≤ w o ∧ |(s o : ℝ) - t o| ≤ e) →
      |(l.map fun o => ((w o * s o : ℚ) : ℝ)).sum - (l.map fun o => (w o : ℝ) * t o).sum| ≤ e * (l.map fun o => (w o : ℝ)).sum := by
    intro l
    induction l with
    | nil => intro _; simp
    | cons o l ih =>
      intro h
      obtain ⟨h1, h2⟩ := h o (by simp)
      have h3 := ih (fun o' ho' => h o' (by simp [ho']))
      have h1' : (0 : ℝ) ≤ w o := by exact_mod_cast h1
      simp only [List.map_cons, List.sum_cons]
      have h4 : |(w o : ℝ) * ((s o : ℝ) - t o)| ≤ w o * e := by
        rw [abs_mul, abs_of_nonneg h1']
        exact mul_le_mul_of_nonneg_left h2 h1'
      have h5 := abs_add_le ((w o : ℝ) * ((s o : ℝ) - t o)) ((l.map fun o => ((w o * s o : ℚ) : ℝ)).sum - (l.map fun o => (w o : ℝ) * t o).sum)
      rw [show (w o : ℝ) * ((s o : ℝ) - t o) + ((l.map fun o => ((w o * s o : ℚ) : ℝ)).sum - (l.map fun o => (w o : ℝ) * t o).sum) =
        ((w o * s o : ℚ) : ℝ) + (l.map fun o => ((w o * s o : ℚ) : ℝ)).sum - ((w o : ℝ) * t o + (l.map fun o => (w o : ℝ) * t o).sum) by push_cast; ring] at h5
      linarith
  have := hkey os (fun o ho => ⟨hw o ho, hs o ho⟩)
  unfold weightedMean realMean
  push_cast
  rw [hcast, hcast, ← sub_div, abs_div, abs_of_pos hposR, div_le_iff₀ hposR]
  exact this

/-- **C110.** From the sensor positions, the measured points and the voxel centre to the fused distance, all in `float`: the result differs from the
weighted mean of the exact signed distances along the rays by at most `(6 n T + 13 L)` rounding units, where `n` is the number of observations, `T`
the truncation distance and `L` bounds the distances of voxel and measured point from the sensor, added. -/
theorem C110_end_to_end {cfg : Config} {T M : ℚ} {vs : Fl} (hcT : cfg.truncation = .fin T) (hT1 : 1 / 2 ^ 20 ≤ T) (hT2 : T ≤ 2 ^ 40)
    (hcM : cfg.maxWeight = .fin M) (og pt ce : Obs → Vec3 ℚ) (w : Obs → ℚ) (L : ℝ) (os : List Obs) (hne : os ≠ []) (hlen : os.length ≤ 2 ^ 20)
    (hgeo : ∀ o ∈ os, o.origin = (og o).map .fin ∧ o.pointG = (pt o).map .fin ∧ o.center = (ce o).map .fin ∧ CoordsWithin (2 ^ 30) (og o) ∧
      CoordsWithin (2 ^ 30) (pt o) ∧ CoordsWithin (2 ^ 30) (ce o) ∧ 1 / 2 ^ 10 ≤ segLength (og o) (pt o) ∧
      segLength (og o) (ce o) + segLength (og o) (pt o) ≤ L ∧ |rayDistance (og o) (pt o) (ce o)| + 13 * (1 / 2 ^ 24) * L ≤ T)
    (hw : ∀ o ∈ os, updatedWeight float32 cfg vs (computeDistance float32 o.origin o.pointG o.center) o.weight = .fin (w o) ∧ 1 / 100000 ≤ w o)
    (hcap : total w os ≤ 2 ^ 40) (hM : (1 + os.length / 2 ^ 23) * total w os ≤ M) :
    ∃ v D, integrate float32 cfg vs os freshVoxel = .ok v ∧ v.distance = .fin D ∧
      |(D : ℝ) - realMean w (fun o => rayDistance (og o) (pt o) (ce o)) os| ≤ (6 * os.length * T + 13 * L) * (1 / 2 ^ 24) := by
  have hdist : ∀ o ∈ os, ∃ r : ℚ, computeDistance float32 o.origin o.pointG o.center = .fin r ∧
      |(r : ℝ) - rayDistance (og o) (pt o) (ce o)| ≤ 13 * (1 / 2 ^ 24) * L := by
    intro o ho
    obtain ⟨g1, g2, g3, g4, g5, g6, g7, g8, -⟩ := hgeo o ho
    obtain ⟨r, h1, h2⟩ := C110_distance (og o) (pt o) (ce o) g4 g5 g6 g7
    refine ⟨r, by rw [g1, g2, g3]; exact h1, le_trans h2 (mul_le_mul_of_nonneg_left g8 (by norm_num))⟩
  let s : Obs → ℚ := fun o => match computeDistance float32 o.origin o.pointG o.center with | .fin x => x | _ => 0
  have hs : ∀ o ∈ os, computeDistance float32 o.origin o.pointG o.center = .fin (s o) ∧ |(s o : ℝ) - rayDistance (og o) (pt o) (ce o)| ≤ 13 * (1 / 2 ^ 24) * L := by
    intro o ho
    obtain ⟨r, h1, h2⟩ := hdist o ho
    have : s o = r := by simp only [s, h1]
    rw [this]
    exact ⟨h1, h2⟩
  obtain ⟨v, D, W, h1, h2, -, h3, -⟩ := C110_fusion (vs := vs) hcT hT1 hT2 hcM s w os hne hlen (by
    intro o ho
    obtain ⟨k1, k2⟩ := hs o ho
    obtain ⟨k3, k4⟩ := hw o ho
    refine ⟨k1, by rw [← k1]; exact k3, ?_, k4⟩
    have k5 := (hgeo o ho).2.2.2.2.2.2.2.2
    have k6 := abs_add_le ((s o : ℝ) - rayDistance (og o) (pt o) (ce o)) (rayDistance (og o) (pt o) (ce o))
    rw [sub_add_cancel] at k6
    have k7 : |(s o : ℝ)| ≤ T := by linarith
    exact_mod_cast k7) hcap hM
  refine ⟨v, D, h1, h2, ?_⟩
  have hpos : 0 < total w os := by
    cases os with
    | nil => exact absurd rfl hne
    | cons o os =>
      have h0 := (hw o (by simp)).2
      have hrest : 0 ≤ total w os := total_nonneg (fun o' ho' => by linarith [(hw o' (by simp [ho'])).2])
      rw [total_cons]
      linarith
  have h4 := mean_shift hpos (fun o ho => by linarith [(hw o ho).2]) (fun o ho => (hs o ho).2)
  have h5 : |(D : ℝ) - ((weightedMean w s os : ℚ) : ℝ)| ≤ 6 * os.length * (1 / 2 ^ 24) * T := by
    have : ((|D - weightedMean w s os| : ℚ) : ℝ) ≤ ((6 * os.length * (1 / 2 ^ 24) * T : ℚ) : ℝ) := by exact_mod_cast h3
    push_cast at this
    exact this
  have := abs_sub_le (D : ℝ) ((weightedMean w s os : ℚ) : ℝ) (realMean w (fun o => rayDistance (og o) (pt o) (ce o)) os)
  linarith

/-- The hypotheses on the geometry hold for the ray along x of the example above. -/
example : ∀ x ∈ [(18 / 10 : ℚ), 19 / 10, 21 / 10], CoordsWithin (2 ^ 30) ⟨0, 0, 0⟩ ∧ CoordsWithin (2 ^ 30) ⟨2, 0, 0⟩ ∧ CoordsWithin (2 ^ 30) ⟨x, 0, 0⟩ ∧
    1 / 2 ^ 10 ≤ segLength ⟨0, 0, 0⟩ ⟨2, 0, 0⟩ ∧ segLength ⟨0, 0, 0⟩ ⟨x, 0, 0⟩ + segLength ⟨0, 0, 0⟩ ⟨2, 0, 0⟩ ≤ 5 ∧
    |rayDistance ⟨0, 0, 0⟩ ⟨2, 0, 0⟩ ⟨x, 0, 0⟩| + 13 * (1 / 2 ^ 24) * 5 ≤ ((1 / 2 : ℚ) : ℝ) := by
  have hseg : ∀ x : ℚ, 0 ≤ x → segLength ⟨0, 0, 0⟩ ⟨x, 0, 0⟩ = x := by
    intro x hx
    unfold segLength
    have hx' : (0 : ℝ) ≤ x := by exact_mod_cast hx
    simp [Real.sqrt_mul_self hx']
  have h2 : segLength ⟨0, 0, 0⟩ ⟨2, 0, 0⟩ = 2 := by rw [hseg 2 (by norm_num)]; norm_num
  intro x hx
  have hx0 : 0 ≤ x ∧ x ≤ 21 / 10 ∧ 18 / 10 ≤ x := by
    simp only [List.mem_cons, List.not_mem_nil, or_false] at hx
    rcases hx with rfl | rfl | rfl <;> norm_num
  have hxR : (x : ℝ) ≤ 21 / 10 ∧ (18 / 10 : ℝ) ≤ x := by
    have h3 : ((x : ℚ) : ℝ) ≤ ((21 / 10 : ℚ) : ℝ) := by exact_mod_cast hx0.2.1
    have h4 : ((18 / 10 : ℚ) : ℝ) ≤ ((x : ℚ) : ℝ) := by exact_mod_cast hx0.2.2
    push_cast at h3 h4
    exact ⟨h3, h4⟩
  refine ⟨by norm_num [CoordsWithin], by norm_num [CoordsWithin], ⟨?_, by norm_num, by norm_num⟩, ?_, ?_, ?_⟩
  · rw [abs_of_nonneg hx0.1]
    exact le_trans hx0.2.1 (by norm_num)
  · rw [h2]; norm_num
  · rw [h2, hseg x hx0.1]
    linarith
  · unfold rayDistance
    rw [h2]
    push_cast
    rw [show ((2 : ℝ) - x) * (2 - 0) + (0 - 0) * (0 - 0) + (0 - 0) * (0 - 0) = (2 - x) * 2 by ring, mul_div_cancel_right₀ _ (by norm_num : (2 : ℝ) ≠ 0)]
    have : |(2 : ℝ) - x| ≤ 1 / 5 := by
      rw [abs_le]
      constructor <;> linarith
    linarith

/-! ### Limits of the weight -/

/-- **C110.** A weight is lost altogether beyond 2^24 observations' worth: with observation weights of at most 1, whatever their number and whatever the
limit, the weight never exceeds 2^24. -/
theorem C110_absorbed {cfg : Config} {M : ℚ} {vs : Fl} (hcM : cfg.maxWeight = .fin M) (hM : 0 ≤ M) (os : List Obs)
    (hos : ∀ o ∈ os, ∃ x, updatedWeight float32 cfg vs (computeDistance float32 o.origin o.pointG o.center) o.weight = .fin x ∧ 0 ≤ x ∧ x ≤ 1) :
    ∀ (v v' : TsdfVoxel Fl), (∃ W, v.weight = .fin W ∧ 0 ≤ W ∧ W ≤ 2 ^ 24) → integrate float32 cfg vs os v = .ok v' →
      ∃ W, v'.weight = .fin W ∧ 0 ≤ W ∧ W ≤ 2 ^ 24 := by
  induction os with
  | nil =>
    intro v v' h hi
    simp only [integrate, Outcome.ok.injEq] at hi
    rw [← hi]
    exact h
  | cons o os ih =>
    intro v v' ⟨W, hW, hW0, hW1⟩ hi
    obtain ⟨x, hx, hx0, hx1⟩ := hos o (by simp)
    simp only [integrate] at hi
    obtain ⟨v1, h1, h2⟩ := Outcome.bind_eq_ok.1 hi
    refine ih (fun o' ho' => hos o' (by simp [ho'])) v1 v' ?_ h2
    unfold updateVoxel applyUpdate at h1
    simp only [hx, hW, Arith.add] at h1
    have hs0 : 0 ≤ W + x := by linarith
    rw [rnd_fin_nonneg hs0 (by linarith)] at h1
    have hcap : rnd32 (W + x) ≤ 2 ^ 24 := by
      refine le_trans (rnd32_mono (add_le_add hW1 hx1)) (le_of_eq ?_)
      decide +kernel
    have hn := rnd32_nonneg hs0
    generalize rnd32 (W + x) = W' at h1 hcap hn
    split at h1
    · simp only [Outcome.ok.injEq] at h1
      rw [← h1]
      exact ⟨W, hW, hW0, hW1⟩
    · obtain ⟨c, -, h4⟩ := Outcome.bind_eq_ok.1 h1
      simp only [Outcome.pure_eq, Outcome.ok.injEq] at h4
      rw [← h4, hcM]
      simp only [Fl.stdMin, Fl.lt, decide_eq_true_eq]
      by_cases h5 : W' < M
      · rw [if_pos h5]
        exact ⟨W', rfl, hn, hcap⟩
      · rw [if_neg h5]
        exact ⟨M, rfl, hM, by linarith⟩

/-- The weight is absorbed: a voxel of weight 2^24 stays there after two more observations of weight 1, far below the limit. -/
example : (match integrate float32 { exCfg with maxWeight := .fin (2 ^ 30) } (.fin (1 / 10)) [exObs (18 / 10) 1, exObs (18 / 10) 1]
    { distance := .fin (1 / 8), weight := .fin (2 ^ 24), color := Color.default } with | .ok v => decide (v.weight = .fin (2 ^ 24)) | _ => false) = true := by
  decide +kernel

/-! ### C26 in `float` -/

/-- **C26.** Blending two colours in `float`, with finite `float` weights that are not negative and not both zero, is defined. If the sum of the weights is
finite every channel lies between those of the inputs; if the sum overflows the result is black and transparent. -/
theorem C26_blend_float32 {w1 w2 : ℚ} (f1 : rnd32 w1 = w1) (f2 : rnd32 w2 = w2) (h1 : 0 ≤ w1) (h2 : 0 ≤ w2) (hpos : 0 < w1 + w2) (c1 c2 : Color) :
    ∃ c, blend float32 c1 (.fin w1) c2 (.fin w2) = .ok c ∧
      (rnd32 (w1 + w2) < 2 ^ 128 → ColorBetween c c1 c2) ∧ (2 ^ 128 ≤ rnd32 (w1 + w2) → c = ⟨0#8, 0#8, 0#8, 0#8⟩) := by
  rcases lt_or_ge (rnd32 (w1 + w2)) (2 ^ 128) with h | h
  · obtain ⟨c, hc, hb⟩ := blend32_of h1 h2 hpos (float_sum f1 f2 hpos.le)
      (overflow_of_lt (by rw [abs_of_nonneg (rnd32_nonneg hpos.le)]; exact h)) c1 c2
    exact ⟨c, hc, fun _ => hb, fun h' => absurd h' (not_le.2 h)⟩
  · have e : float32.rnd (w1 + w2) = .pinf := by
      show overflow (2 ^ 128) (rnd32 (w1 + w2)) = .pinf
      unfold overflow
      rw [if_pos h]
    have hz : float32.rnd 0 = .fin 0 := float32_faithful.zero
    refine ⟨⟨0#8, 0#8, 0#8, 0#8⟩, ?_, fun h' => absurd h (not_le.2 h'), fun _ => rfl⟩
    have hch : ∀ a b : BitVec 8, blendChannel float32 a (.fin 0) b (.fin 0) = .ok 0#8 := by
      intro a b
      simp only [blendChannel, Arith.mul, mul_zero, hz, Arith.add, add_zero, toByte]
      decide +kernel
    simp only [blend, Arith.add, e, Arith.div, hch]
    rfl

example : rnd32 (1 / 4) = 1 / 4 ∧ rnd32 (1 / 2 ^ 149) = 1 / 2 ^ 149 ∧ rnd32 (2 ^ 127) = 2 ^ 127 ∧ rnd32 (2 ^ 127 + 2 ^ 127) = 2 ^ 128 := by decide +kernel

/-- **C26.** No sequence of observations of a voxel, with any coordinates (even NaN or infinite ones), runs into undefined behaviour in `float`, and no
update takes the colour out of the range between old and observed colour. -/
theorem C26_sequence_float32 {T M vs F : ℚ} {cfg : Config} (hcT : cfg.truncation = .fin T) (hT : rnd32 T = T) (hT2 : T ≤ 2 ^ 40)
    (hvs : rnd32 vs = vs) (hvs2 : |vs| ≤ 2 ^ 40) (hcM : cfg.maxWeight = .fin M) (hM : 0 ≤ M) (hM2 : M ≤ 2 ^ 100)
    (hcF : cfg.sparsityFactor = .fin F) (hF : 0 ≤ F) (hF2 : F ≤ 2 ^ 20) (os : List Obs) (hos : ∀ o ∈ os, ∃ w, o.weight = .fin w ∧ 0 ≤ w ∧ w ≤ 2 ^ 70) :
    (∃ v, integrate float32 cfg (.fin vs) os freshVoxel = .ok v) ∧
      ∀ o ∈ os, ∀ v : TsdfVoxel Fl, (∃ W, v.weight = .fin W ∧ 0 ≤ W ∧ W ≤ 2 ^ 100) →
        ∃ v', updateVoxel float32 cfg (.fin vs) o v = .ok v' ∧ ColorBetween v'.color v.color o.color := by
  have step : ∀ o ∈ os, ∀ v : TsdfVoxel Fl, (∃ W, v.weight = .fin W ∧ 0 ≤ W ∧ W ≤ 2 ^ 100) →
      ∃ v', updateVoxel float32 cfg (.fin vs) o v = .ok v' ∧ (∃ W', v'.weight = .fin W' ∧ 0 ≤ W' ∧ W' ≤ 2 ^ 100) ∧ ColorBetween v'.color v.color o.color := by
    intro o ho v ⟨W, hW, hW0, hW1⟩
    obtain ⟨w, hw, hw0, hw1⟩ := hos o ho
    exact updateVoxel32 hcT hT hT2 hvs hvs2 hcM hM hM2 hcF hF hF2 hw hw0 hw1 hW hW0 hW1
  refine ⟨?_, fun o ho v hv => ?_⟩
  · have : ∀ l : List Obs, (∀ o ∈ l, o ∈ os) → ∀ v : TsdfVoxel Fl, (∃ W, v.weight = .fin W ∧ 0 ≤ W ∧ W ≤ 2 ^ 100) →
        ∃ v', integrate float32 cfg (.fin vs) l v = .ok v' := by
      intro l
      induction l with
      | nil => intro _ v _; exact ⟨v, rfl⟩
      | cons o l ih =>
        intro hl v hv
        obtain ⟨v1, h1, hw1, -⟩ := step o (hl o (by simp)) v hv
        obtain ⟨v', h'⟩ := ih (fun o' ho' => hl o' (by simp [ho'])) v1 hw1
        exact ⟨v', by simp only [integrate, h1, Outcome.bind_ok]; exact h'⟩
    exact this os (fun _ h => h) freshVoxel ⟨0, rfl, le_rfl, by positivity⟩
  · obtain ⟨v', h1, -, h3⟩ := step o ho v hv
    exact ⟨v', h1, h3⟩

/-- A configuration with drop-off and sparsity compensation, and a sequence with a point at infinity and one that is not a number. -/
example : rnd32 (1 / 2) = 1 / 2 ∧ rnd32 (rnd32 (1 / 10)) = rnd32 (1 / 10) ∧
    (match integrate float32 { exCfg with useSparsity := true, sparsityFactor := .fin 3 } (.fin (rnd32 (1 / 10)))
      [exObs (3 / 2) 1, { exObs 1 1 with pointG := ⟨.nan, .fin 0, .pinf⟩ }, exObs 2 0, exObs (9 / 4) (1 / 3)] freshVoxel with | .ok _ => true | _ => false) = true := by
  decide +kernel

/-- **C26.** Merging the points of a bundle, however many, is free of undefined behaviour in `float`. -/
theorem C26_bundle_float32 (cfg : Config) (clearing : Bool) (ps : List (Vec3 Fl × Color)) :
    ∃ b, mergeBundle float32 cfg clearing ps Bundle.init = .ok b ∧ ∃ W, b.weight = .fin W ∧ 0 ≤ W ∧ W ≤ 2 ^ 70 := by
  obtain ⟨b, h1, h2⟩ := mergeBundle32 cfg clearing ps Bundle.init ⟨0, rfl, le_rfl, by positivity⟩
  exact ⟨b, h1, h2⟩

example : (match mergeBundle float32 exCfg false [(⟨.fin 1, .fin 0, .fin (1 / 3)⟩, ⟨10#8, 0#8, 0#8, 255#8⟩), (⟨.fin 1, .fin 0, .fin (2 ^ 70)⟩, ⟨10#8, 0#8, 0#8, 255#8⟩),
      (⟨.fin 0, .fin 0, .nan⟩, ⟨90#8, 0#8, 0#8, 255#8⟩)] Bundle.init with | .ok b => decide (b.color.r = 10#8) | _ => false) = true := by
  decide +kernel

/-- **C26.** Merging two voxels with non-negative finite weights is free of undefined behaviour in `float`. -/
theorem C26_merge_float32 (a b : TsdfVoxel Fl) {wa wb : ℚ} (ha : a.weight = .fin wa) (hb : b.weight = .fin wb) (fa : rnd32 wa = wa) (fb : rnd32 wb = wb)
    (hwa : 0 ≤ wa) (hwb : 0 ≤ wb) : ∃ v, mergeTsdf float32 a b = .ok v := by
  unfold mergeTsdf
  simp only [ha, hb]
  split
  · rename_i h
    have hpos : 0 < wa + wb := by
      by_contra hcon
      have h0 : wa + wb = 0 := by linarith
      simp only [Arith.add, h0, float32_faithful.zero, Fl.lt] at h
      simp at h
    obtain ⟨c, hc, -⟩ := C26_blend_float32 fa fb hwa hwb hpos a.color b.color
    rw [hc]
    exact ⟨_, rfl⟩
  · exact ⟨b, rfl⟩

example : (match mergeTsdf float32 ⟨.fin 1, .fin (2 ^ 127), ⟨10#8, 20#8, 30#8, 255#8⟩⟩ ⟨.fin 1, .fin (2 ^ 127), ⟨10#8, 20#8, 30#8, 255#8⟩⟩ with
    | .ok v => decide (v.color = ⟨0#8, 0#8, 0#8, 0#8⟩) | _ => false) = true := by
  decide +kernel

end Vox.RoundErr
