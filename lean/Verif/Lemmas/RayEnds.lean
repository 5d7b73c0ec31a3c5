/-
The constructor of the ray caster in `float`: the ends of the ray.
-/
import Verif.Lemmas.RayCover
import Verif.Lemmas.DistanceError
import Verif.Props.TsdfRounding
import Verif.Model.TsdfScan

namespace Vox.RayEnds

open Fl Spec Ieee Ray
open IndexF (u eta rnd32_err)
open RoundErr (u_eq eta_eq rnd32_nonneg rnd_fin dot_err sqrt_err dot32)

/-! ### The unit vector -/

theorem norm_real {a b c q : ℚ} (h : |q - (a * a + b * b + c * c)| ≤ 6 * u * (a * a + b * b + c * c)) (hl : 1 / 2 ^ 80 ≤ a * a + b * b + c * c) :
    0 < q ∧ 0 < sqrtRound 24 (-149) q ∧ (∀ x ∈ [a, b, c], 999 / 1000 * |x| ≤ sqrtRound 24 (-149) q) ∧
      sqrtRound 24 (-149) q ≤ 1001 / 1000 * (|a| + |b| + |c|) := by
  have hq0 : 0 < q := by
    obtain ⟨h1, -⟩ := abs_le.1 h
    rw [u_eq] at h1
    norm_num at *
    linarith
  have hs := sqrt_err hq0.le
  rw [u_eq, eta_eq] at hs
  push_cast at hs
  generalize sqrtRound 24 (-149) q = n at *
  -- the exact length
  have hS0 : (0 : ℝ) ≤ ((a * a + b * b + c * c : ℚ) : ℝ) := by
    have : (0 : ℚ) ≤ a * a + b * b + c * c := le_trans (by norm_num) hl
    exact_mod_cast this
  have hr := Real.sqrt_nonneg ((a * a + b * b + c * c : ℚ) : ℝ)
  have hrr := Real.mul_self_sqrt hS0
  have hlow : (1 / 2 ^ 40 : ℝ) ≤ Real.sqrt ((a * a + b * b + c * c : ℚ) : ℝ) := by
    rw [Real.le_sqrt (by positivity) hS0]
    have h2 : (1 / 2 ^ 80 : ℚ) = (1 / 2 ^ 40) ^ 2 := by norm_num
    rw [h2] at hl
    have h3 : (((1 / 2 ^ 40) ^ 2 : ℚ) : ℝ) ≤ ((a * a + b * b + c * c : ℚ) : ℝ) := by exact_mod_cast hl
    push_cast at h3 ⊢
    exact h3
  have hq2 : |(q : ℝ) - ((a * a + b * b + c * c : ℚ) : ℝ)| ≤ 6 * (1 / 2 ^ 24) * ((a * a + b * b + c * c : ℚ) : ℝ) := by
    rw [u_eq] at h
    have : ((|q - (a * a + b * b + c * c)| : ℚ) : ℝ) ≤ ((6 * (1 / 2 ^ 24) * (a * a + b * b + c * c) : ℚ) : ℝ) := by exact_mod_cast h
    push_cast at this ⊢
    exact this
  have hcomp : ∀ x ∈ [a, b, c], ((|x| : ℚ) : ℝ) ≤ Real.sqrt ((a * a + b * b + c * c : ℚ) : ℝ) := by
    intro x hx
    rw [Real.le_sqrt (by exact_mod_cast abs_nonneg x) hS0]
    have : |x| ^ 2 ≤ a * a + b * b + c * c := by
      rw [sq_abs]
      have h1 := mul_self_nonneg a
      have h2 := mul_self_nonneg b
      have h3 := mul_self_nonneg c
      simp only [List.mem_cons, List.not_mem_nil, or_false] at hx
      rcases hx with rfl | rfl | rfl <;> nlinarith
    exact_mod_cast this
  have hsum : Real.sqrt ((a * a + b * b + c * c : ℚ) : ℝ) ≤ ((|a| + |b| + |c| : ℚ) : ℝ) := by
    rw [Real.sqrt_le_left (by positivity)]
    have : a * a + b * b + c * c ≤ (|a| + |b| + |c|) ^ 2 := by
      have h1 := abs_nonneg a
      have h2 := abs_nonneg b
      have h3 := abs_nonneg c
      rw [← abs_mul_abs_self a, ← abs_mul_abs_self b, ← abs_mul_abs_self c]
      nlinarith [mul_nonneg h1 h2, mul_nonneg h1 h3, mul_nonneg h2 h3]
    exact_mod_cast this
  generalize Real.sqrt ((a * a + b * b + c * c : ℚ) : ℝ) = r at *
  generalize ((a * a + b * b + c * c : ℚ) : ℝ) = S at *
  have hqr := Real.sqrt_nonneg (q : ℝ)
  have hqq := Real.mul_self_sqrt (show (0 : ℝ) ≤ q by exact_mod_cast hq0.le)
  have hlo : 9999 / 10000 * r ≤ Real.sqrt q := by
    obtain ⟨k1, k2⟩ := abs_le.1 hq2
    by_contra hcon
    push Not at hcon
    have : Real.sqrt (q : ℝ) * Real.sqrt (q : ℝ) < 9999 / 10000 * r * (9999 / 10000 * r) := by
      rcases hqr.eq_or_lt with h0 | h0
      · rw [← h0]; nlinarith
      · exact mul_lt_mul'' hcon hcon hqr hqr
    norm_num at *
    nlinarith
  have hhi : Real.sqrt q ≤ 10001 / 10000 * r := by
    obtain ⟨k1, k2⟩ := abs_le.1 hq2
    by_contra hcon
    push Not at hcon
    have : 10001 / 10000 * r * (10001 / 10000 * r) < Real.sqrt (q : ℝ) * Real.sqrt (q : ℝ) :=
      mul_lt_mul'' hcon hcon (by positivity) (by positivity)
    norm_num at *
    nlinarith
  obtain ⟨s1, s2⟩ := abs_le.1 hs
  generalize Real.sqrt (q : ℝ) = z at *
  have hnlo : 999 / 1000 * r ≤ (n : ℝ) := by
    norm_num at *
    linarith
  have hnhi : (n : ℝ) ≤ 1001 / 1000 * r := by
    norm_num at *
    linarith
  refine ⟨hq0, ?_, ?_, ?_⟩
  · have : (0 : ℝ) < n := lt_of_lt_of_le (by norm_num at *; linarith) hnlo
    exact_mod_cast this
  · intro x hx
    have := hcomp x hx
    have h2 : ((999 / 1000 * |x| : ℚ) : ℝ) ≤ n := by
      push_cast at this ⊢
      linarith
    exact_mod_cast h2
  · have h2 : (n : ℝ) ≤ ((1001 / 1000 * (|a| + |b| + |c|) : ℚ) : ℝ) := by
      push_cast at hsum ⊢
      linarith
    exact_mod_cast h2

theorem unit_float {o p : Pt} (hl : ApartBy (1 / 2 ^ 39) o p) (h1 : |p.x - o.x| ≤ 2 ^ 31) (h2 : |p.y - o.y| ≤ 2 ^ 31) (h3 : |p.z - o.z| ≤ 2 ^ 31) :
    ∃ n : ℚ, 0 < n ∧ (∀ i, 999 / 1000 * |at3 p i - at3 o i| ≤ n) ∧ n ≤ 1001 / 1000 * l1length o p ∧
      Occ.normalized float32 (float32.vsub (p.map .fin) (o.map .fin)) =
        ⟨.fin (rnd32 (rnd32 (p.x - o.x) / n)), .fin (rnd32 (rnd32 (p.y - o.y) / n)), .fin (rnd32 (rnd32 (p.z - o.z) / n))⟩ := by
  have w : (2 : ℚ) ^ 31 ≤ 2 ^ 32 := by norm_num
  have w' : (2 : ℚ) ^ 31 ≤ 2 ^ 127 := by norm_num
  obtain ⟨l1, l2, l3⟩ := hl
  obtain ⟨en, n1, n2, n3, n4, n5⟩ := dot_err (le_trans h1 w) (le_trans h2 w) (le_trans h3 w) (le_trans h1 w) (le_trans h2 w) (le_trans h3 w)
    (rnd32_err _) (rnd32_err _) (rnd32_err _) (rnd32_err _) (rnd32_err _) (rnd32_err _) (rnd32_err _) (rnd32_err _) (rnd32_err _)
    (rnd32_err _) (rnd32_err _)
  have dn := dot32 n1 n2 n3 n4 n5
  have vB : float32.vsub (p.map .fin) (o.map .fin) = ⟨.fin (rnd32 (p.x - o.x)), .fin (rnd32 (p.y - o.y)), .fin (rnd32 (p.z - o.z))⟩ := by
    simp only [Arith.vsub, Vec3.map₂, Vec3.map, Arith.sub, Fl.neg, Arith.add, ← sub_eq_add_neg, rnd_fin (le_trans h1 w'),
      rnd_fin (le_trans h2 w'), rnd_fin (le_trans h3 w')]
  have hax : ∀ x : ℚ, 1 / 2 ^ 39 ≤ |x| → |x| ≤ 2 ^ 31 → ∀ n : ℚ, 0 < n → 999 / 1000 * |x| ≤ n → |rnd32 x / n| ≤ 2 := by
    intro x hx hx2 n hn hxn
    rw [abs_div, abs_of_pos hn, div_le_iff₀ hn]
    have := RoundErr.rnd32_le (x := x)
    rw [u_eq, eta_eq] at this
    norm_num at *
    linarith
  have hmul : ∀ x : ℚ, |x * x| = x * x := fun x => abs_of_nonneg (mul_self_nonneg x)
  rw [hmul, hmul, hmul] at en
  have hS : (1 : ℚ) / 2 ^ 80 ≤ (p.x - o.x) * (p.x - o.x) + (p.y - o.y) * (p.y - o.y) + (p.z - o.z) * (p.z - o.z) := by
    have k1 := mul_self_nonneg (p.y - o.y)
    have k2 := mul_self_nonneg (p.z - o.z)
    have k3 : (1 / 2 ^ 39 : ℚ) * (1 / 2 ^ 39) ≤ (p.x - o.x) * (p.x - o.x) := by
      rw [← abs_mul_abs_self (p.x - o.x)]
      exact mul_le_mul l1 l1 (by norm_num) (abs_nonneg _)
    norm_num at k3 ⊢
    linarith
  have hS78 : (1 : ℚ) / 2 ^ 78 ≤ (p.x - o.x) * (p.x - o.x) + (p.y - o.y) * (p.y - o.y) + (p.z - o.z) * (p.z - o.z) := by
    have k1 := mul_self_nonneg (p.y - o.y)
    have k2 := mul_self_nonneg (p.z - o.z)
    have k3 : (1 / 2 ^ 39 : ℚ) * (1 / 2 ^ 39) ≤ (p.x - o.x) * (p.x - o.x) := by
      rw [← abs_mul_abs_self (p.x - o.x)]
      exact mul_le_mul l1 l1 (by norm_num) (abs_nonneg _)
    norm_num at k3 ⊢
    linarith
  have en6 := en.trans (show 11 / 2 * u * ((p.x - o.x) * (p.x - o.x) + (p.y - o.y) * (p.y - o.y) + (p.z - o.z) * (p.z - o.z)) + 1 / 2 ^ 106 ≤
      6 * u * ((p.x - o.x) * (p.x - o.x) + (p.y - o.y) * (p.y - o.y) + (p.z - o.z) * (p.z - o.z)) by
    rw [u_eq]
    generalize (p.x - o.x) * (p.x - o.x) + (p.y - o.y) * (p.y - o.y) + (p.z - o.z) * (p.z - o.z) = S at *
    norm_num at *
    linarith)
  obtain ⟨q0, m0, m1, m2⟩ := norm_real en6 hS
  rw [vB]
  unfold Occ.normalized
  rw [dn]
  generalize rnd32 (rnd32 (rnd32 (rnd32 (p.x - o.x) * rnd32 (p.x - o.x)) + rnd32 (rnd32 (p.y - o.y) * rnd32 (p.y - o.y))) +
    rnd32 (rnd32 (p.z - o.z) * rnd32 (p.z - o.z))) = q at *
  generalize hn : sqrtRound 24 (-149) q = n at *
  have hfin : float32.sqrtFl (.fin q) = .fin n := by
    show (if 0 ≤ q then overflow (2 ^ 128) (sqrtRound 24 (-149) q) else _) = _
    rw [if_pos q0.le, hn]
    refine overflow_of_lt ?_
    rw [abs_of_pos m0]
    norm_num at *
    linarith
  have hlt : Fl.lt (.fin 0) (.fin q) = true := by simp [Fl.lt, q0]
  rw [if_pos hlt, hfin]
  have mx := m1 (p.x - o.x) (by simp)
  have my := m1 (p.y - o.y) (by simp)
  have mz := m1 (p.z - o.z) (by simp)
  have b : (2 : ℚ) ≤ 2 ^ 127 := by norm_num
  refine ⟨n, m0, ?_, m2, ?_⟩
  · intro i
    match i with
    | 0 => exact mx
    | 1 => exact my
    | 2 => exact mz
  · show (⟨float32.div (.fin _) (.fin n), float32.div (.fin _) (.fin n), float32.div (.fin _) (.fin n)⟩ : Vec3 Fl) = _
    rw [fin_div m0.ne' ((hax _ l1 h1 n m0 mx).trans b), fin_div m0.ne' ((hax _ l2 h2 n m0 my).trans b), fin_div m0.ne' ((hax _ l3 h3 n m0 mz).trans b)]

/-! ### One axis -/

theorem fin_mul {a b : ℚ} (h : |a * b| ≤ 2 ^ 127) : float32.mul (.fin a) (.fin b) = .fin (rnd32 (a * b)) := rnd_fin h

/-- The truncation distance along the ray, one component. -/
theorem step_axis {r n T : ℚ} (hn : 0 < n) (hrn : 999 / 1000 * |r| ≤ n) (hr : 1 / 2 ^ 39 ≤ |r|) (hT0 : 0 < T) (hT : T ≤ 2 ^ 30) :
    float32.mul (.fin (rnd32 (rnd32 r / n))) (.fin T) = .fin (rnd32 (rnd32 (rnd32 r / n) * T)) ∧
      |rnd32 (rnd32 (rnd32 r / n) * T) - T / n * r| ≤ 31 / 10 * u * |T / n * r| + 1 / 2 ^ 110 ∧ |T / n * r| ≤ 1002 / 1000 * T := by
  have e1 : |rnd32 r - r| ≤ 1001 / 1000 * u * |r| := by
    refine (rnd32_err r).trans ?_
    rw [u_eq, eta_eq]
    norm_num at *
    linarith
  have hρ : |T / n * r| = T * (|r| / n) := by
    rw [abs_mul, abs_div, abs_of_pos hn, abs_of_pos hT0]
    ring
  have hr1 : |r| / n ≤ 1002 / 1000 := by
    rw [div_le_iff₀ hn]
    linarith
  have e2 : |rnd32 r / n - r / n| ≤ 1001 / 1000 * u * (|r| / n) := by
    rw [← sub_div, abs_div, abs_of_pos hn]
    have := div_le_div_of_nonneg_right e1 hn.le
    rwa [mul_div_assoc] at this
  have e3 := rnd32_err (rnd32 r / n)
  have a1 : |rnd32 r / n| ≤ (1 + 1001 / 1000 * u) * (|r| / n) := by
    have h1 := abs_add_le (rnd32 r / n - r / n) (r / n)
    rw [sub_add_cancel, abs_div r n, abs_of_pos hn] at h1
    linarith
  generalize rnd32 r / n = d at *
  have e4 : |rnd32 d - r / n| ≤ 2003 / 1000 * u * (|r| / n) + eta := by
    have h1 := abs_sub_le (rnd32 d) d (r / n)
    have h2 : u * |d| ≤ u * ((1 + 1001 / 1000 * u) * (|r| / n)) := mul_le_mul_of_nonneg_left a1 (by rw [u_eq]; norm_num)
    have h3 : 0 ≤ |r| / n := by positivity
    rw [u_eq] at *
    generalize |r| / n = ρ at *
    norm_num at *
    linarith
  generalize rnd32 d = v at *
  have e5 : |v * T - T / n * r| ≤ (2003 / 1000 * u * (|r| / n) + eta) * T := by
    have : v * T - T / n * r = (v - r / n) * T := by ring
    rw [this, abs_mul, abs_of_pos hT0]
    exact mul_le_mul_of_nonneg_right e4 hT0.le
  have e5' : |v * T - T / n * r| ≤ 2003 / 1000 * u * |T / n * r| + eta * T := by
    refine e5.trans (le_of_eq ?_)
    rw [hρ]
    ring
  have a2 : |v * T| ≤ |v * T - T / n * r| + |T / n * r| := by
    have h1 := abs_add_le (v * T - T / n * r) (T / n * r)
    rwa [sub_add_cancel] at h1
  have hρ2 : |T / n * r| ≤ 1002 / 1000 * T := by
    rw [hρ]
    have := mul_le_mul_of_nonneg_left hr1 hT0.le
    linarith
  have hρ0 := abs_nonneg (T / n * r)
  have hbig : |v * T| ≤ 2 ^ 40 := by
    rw [u_eq, eta_eq] at *
    generalize |T / n * r| = ρ at *
    generalize |v * T| = m at *
    generalize |v * T - T / n * r| = m at *
    norm_num at *
    linarith
  refine ⟨fin_mul (hbig.trans (by norm_num)), ?_, hρ2⟩
  have h1 := abs_sub_le (rnd32 (v * T)) (v * T) (T / n * r)
  have h2 := rnd32_err (v * T)
  rw [u_eq, eta_eq] at *
  generalize |T / n * r| = ρ at *
  generalize |rnd32 (v * T) - T / n * r| = m1 at *
  generalize |rnd32 (v * T) - v * T| = m2 at *
  generalize |v * T - T / n * r| = m3 at *
  generalize |v * T| = m4 at *
  norm_num at *
  linarith

/-- Adding the step to the measured point, one component. -/
theorem end_axis {p w x X s : ℚ} (hX : |p| + |x| ≤ X * s) (hXs : X * s ≤ 2 ^ 30) (hX1 : 1 / 2 ^ 20 ≤ X * s) (hw : |w - x| ≤ 31 / 10 * u * |x| + 1 / 2 ^ 110) :
    float32.add (.fin p) (.fin w) = .fin (rnd32 (p + w)) ∧ |rnd32 (p + w) - (p + x)| ≤ 42 / 10 * u * (X * s) := by
  have h0 := abs_nonneg p
  have h0' := abs_nonneg x
  have h1 : |p + w| ≤ X * s + |w - x| := by
    have h2 := abs_add_le (p + x) (w - x)
    have h3 := abs_add_le p x
    have e : p + x + (w - x) = p + w := by ring
    rw [e] at h2
    linarith
  have h2 := rnd32_err (p + w)
  have h3 := abs_sub_le (rnd32 (p + w)) (p + w) (p + x)
  have e : p + w - (p + x) = w - x := by ring
  rw [e] at h3
  generalize X * s = Y at *
  generalize |p| = P at *
  generalize |x| = Z at *
  have hb : |p + w| ≤ 2 ^ 40 := by
    rw [u_eq] at *
    generalize |p + w| = m at *
    generalize |w - x| = m2 at *
    norm_num at *
    linarith
  refine ⟨fin_add (hb.trans (by norm_num)), ?_⟩
  rw [u_eq, eta_eq] at *
  generalize |rnd32 (p + w) - (p + x)| = m1 at *
  generalize |rnd32 (p + w) - (p + w)| = m3 at *
  generalize |p + w| = m at *
  generalize |w - x| = m2 at *
  norm_num at *
  linarith

/-- The inverse of the voxel size. -/
theorem inv_axis {s : ℚ} (hs : 1 / 2 ^ 20 ≤ s) (hs2 : s ≤ 2 ^ 10) :
    TsdfScan.sizeInv float32 s = .fin (rnd32 (1 / s)) ∧ |rnd32 (1 / s) * s - 1| ≤ 1001 / 1000 * u := by
  have h0 : 0 < s := lt_of_lt_of_le (by norm_num) hs
  have hi : |1 / s| ≤ 2 ^ 20 := by
    rw [abs_of_pos (by positivity), div_le_iff₀ h0]
    norm_num at *
    linarith
  refine ⟨fin_div h0.ne' (hi.trans (by norm_num)), ?_⟩
  have h1 := mul_le_mul_of_nonneg_right (rnd32_err (1 / s)) h0.le
  have e : rnd32 (1 / s) * s - 1 = (rnd32 (1 / s) - 1 / s) * s := by field_simp
  rw [e, abs_mul, abs_of_pos h0]
  refine h1.trans ?_
  rw [abs_of_pos (show 0 < 1 / s by positivity)]
  have e2 : (u * (1 / s) + eta) * s = u + eta * s := by field_simp
  rw [e2, u_eq, eta_eq]
  norm_num at *
  linarith

/-- Scaling, one component. -/
theorem scale_axis {y x s X : ℚ} (hs : 1 / 2 ^ 20 ≤ s) (hs2 : s ≤ 2 ^ 10) (hX1 : 1 ≤ X) (hX : X ≤ 2 ^ 20) (hx : |x| ≤ X * s)
    (hy : |y - x| ≤ 42 / 10 * u * (X * s)) :
    float32.mul (.fin y) (.fin (rnd32 (1 / s))) = .fin (rnd32 (y * rnd32 (1 / s))) ∧ |rnd32 (y * rnd32 (1 / s)) - x / s| ≤ 8 * u * X := by
  obtain ⟨-, hi⟩ := inv_axis hs hs2
  have h0 : 0 < s := lt_of_lt_of_le (by norm_num) hs
  generalize rnd32 (1 / s) = v at *
  have hxs : |x / s| ≤ X := by
    rw [abs_div, abs_of_pos h0, div_le_iff₀ h0]
    exact hx
  have hys : |y / s - x / s| ≤ 42 / 10 * u * X := by
    rw [← sub_div, abs_div, abs_of_pos h0, div_le_iff₀ h0]
    linarith
  have hy2 : |y / s| ≤ X + 42 / 10 * u * X := by
    have := abs_add_le (y / s - x / s) (x / s)
    rw [sub_add_cancel] at this
    linarith
  have e : y * v = y / s * (v * s) := by field_simp
  have h1 : |y * v - y / s| ≤ (X + 42 / 10 * u * X) * (1001 / 1000 * u) := by
    have e2 : y * v - y / s = y / s * (v * s - 1) := by rw [e]; ring
    rw [e2, abs_mul]
    exact mul_le_mul hy2 hi (abs_nonneg _) (le_trans (abs_nonneg _) hy2)
  have h2 := abs_add_le (y * v - y / s) (y / s)
  rw [sub_add_cancel] at h2
  have h3 := rnd32_err (y * v)
  have h4 := abs_sub_le (rnd32 (y * v)) (y * v) (x / s)
  have h5 := abs_sub_le (y * v) (y / s) (x / s)
  have hb : |y * v| ≤ 2 ^ 40 := by
    rw [u_eq] at *
    generalize |y * v - y / s| = m1 at *
    generalize |y * v| = m at *
    generalize |y / s| = m2 at *
    norm_num at *
    linarith
  refine ⟨fin_mul (hb.trans (by norm_num)), ?_⟩
  rw [u_eq, eta_eq] at *
  generalize |rnd32 (y * v) - x / s| = k1 at *
  generalize |rnd32 (y * v) - y * v| = k2 at *
  generalize |y * v - x / s| = k3 at *
  generalize |y * v - y / s| = m1 at *
  generalize |y / s - x / s| = k4 at *
  generalize |y * v| = m at *
  generalize |y / s| = m2 at *
  norm_num at *
  linarith

/-! ### The ends of the ray -/

theorem fin_sub' {a b : ℚ} : float32.sub (.fin a) (.fin b) = float32.add (.fin a) (.fin (-b)) := rfl

/-- One component of the scaled ends: `x` is the exact step. -/
theorem ends_axis {o p n s T X : ℚ} (hn : 0 < n) (hrn : 999 / 1000 * |p - o| ≤ n) (hr : 1 / 2 ^ 39 ≤ |p - o|) (hT0 : 0 < T)
    (hs : 1 / 2 ^ 20 ≤ s) (hs2 : s ≤ 2 ^ 10) (hX1 : 1 ≤ X) (hX : X ≤ 2 ^ 20) (ho : |o| ≤ X * s) (hp : |p| ≤ X * s - 101 / 100 * T) :
    (∃ a, float32.mul (.fin o) (.fin (rnd32 (1 / s))) = .fin a ∧ |a - o / s| ≤ 8 * u * X) ∧
    (∃ a, float32.mul (float32.sub (.fin p) (float32.mul (.fin (rnd32 (rnd32 (p - o) / n))) (.fin T))) (.fin (rnd32 (1 / s))) = .fin a ∧
      |a - (p - T / n * (p - o)) / s| ≤ 8 * u * X) ∧
    (∃ b, float32.mul (float32.add (.fin p) (float32.mul (.fin (rnd32 (rnd32 (p - o) / n))) (.fin T))) (.fin (rnd32 (1 / s))) = .fin b ∧
      |b - (p + T / n * (p - o)) / s| ≤ 8 * u * X) ∧ |T / n * (p - o)| ≤ 101 / 100 * T := by
  have hs0 : 0 < s := lt_of_lt_of_le (by norm_num) hs
  have hXs : X * s ≤ 2 ^ 30 := (mul_le_mul hX hs2 hs0.le (by norm_num)).trans (by norm_num)
  have hXs1 : 1 / 2 ^ 20 ≤ X * s := by nlinarith
  have hT : T ≤ 2 ^ 30 := by
    have := abs_nonneg p
    linarith
  obtain ⟨f1, f2, f3⟩ := step_axis hn hrn hr hT0 hT
  have f3' : |T / n * (p - o)| ≤ 101 / 100 * T := by linarith
  have hpx : |p| + |T / n * (p - o)| ≤ X * s := by linarith
  rw [f1]
  generalize rnd32 (rnd32 (rnd32 (p - o) / n) * T) = w at *
  generalize T / n * (p - o) = x at *
  have f2' : |-w - -x| ≤ 31 / 10 * u * |-x| + 1 / 2 ^ 110 := by
    rw [abs_neg, ← neg_sub', abs_neg]
    exact f2
  obtain ⟨g1, g2⟩ := end_axis (p := p) (w := w) (x := x) (X := X) (s := s) hpx hXs hXs1 f2
  obtain ⟨g3, g4⟩ := end_axis (p := p) (w := -w) (x := -x) (X := X) (s := s) (by rw [abs_neg]; exact hpx) hXs hXs1 f2'
  have hpx1 : |p + x| ≤ X * s := (abs_add_le _ _).trans hpx
  have hpx2 : |p + -x| ≤ X * s := (abs_add_le _ _).trans (by rw [abs_neg]; exact hpx)
  refine ⟨?_, ?_, ?_, f3'⟩
  · obtain ⟨k1, k2⟩ := scale_axis (y := o) (x := o) (s := s) (X := X) hs hs2 hX1 hX ho (by
      rw [sub_self, abs_zero, u_eq]
      generalize X * s = Y at *
      norm_num at *
      linarith)
    exact ⟨_, k1, k2⟩
  · obtain ⟨k1, k2⟩ := scale_axis (y := rnd32 (p + -w)) (x := p + -x) (s := s) (X := X) hs hs2 hX1 hX hpx2 g4
    rw [← sub_eq_add_neg p x] at k2
    exact ⟨_, by rw [fin_sub', g3]; exact k1, k2⟩
  · obtain ⟨k1, k2⟩ := scale_axis (y := rnd32 (p + w)) (x := p + x) (s := s) (X := X) hs hs2 hX1 hX hpx1 g2
    exact ⟨_, by rw [g1]; exact k1, k2⟩

/-- The exact ends, in voxels; `lam` is the truncation distance divided by the length of the ray. -/
def exactStart (carving : Bool) (lam s : ℚ) (o p : ℚ) : ℚ := if carving then o / s else (p - lam * (p - o)) / s

theorem ends_float {P : TsdfScan.Params} {o p : Pt} {s T X : ℚ} (hT : P.tsdf.truncation = .fin T) (hT0 : 0 < T)
    (hs : 1 / 2 ^ 20 ≤ s) (hs2 : s ≤ 2 ^ 10) (hX1 : 1 ≤ X) (hX : X ≤ 2 ^ 20) (ho : CoordsWithin (X * s) o) (hp : CoordsWithin (X * s - 101 / 100 * T) p)
    (hl : ApartBy (1 / 2 ^ 39) o p) :
    ∃ (a b : Pt) (lam : ℚ), 0 < lam ∧ T ≤ 1001 / 1000 * l1length o p * lam ∧ (∀ i, |lam * (at3 p i - at3 o i)| ≤ 101 / 100 * T) ∧
      float32.vscale (TsdfScan.rayEnds float32 P (o.map .fin) (p.map .fin) false).1 (TsdfScan.sizeInv float32 s) = a.map .fin ∧
      float32.vscale (TsdfScan.rayEnds float32 P (o.map .fin) (p.map .fin) false).2 (TsdfScan.sizeInv float32 s) = b.map .fin ∧
      (∀ i, |at3 a i - exactStart P.carving lam s (at3 o i) (at3 p i)| ≤ 8 * u * X) ∧
      (∀ i, |at3 b i - (at3 p i + lam * (at3 p i - at3 o i)) / s| ≤ 8 * u * X) := by
  have hs0 : 0 < s := lt_of_lt_of_le (by norm_num) hs
  have hXs : X * s ≤ 2 ^ 30 := (mul_le_mul hX hs2 hs0.le (by norm_num)).trans (by norm_num)
  have hsz : ∀ i, |at3 p i - at3 o i| ≤ 2 ^ 31 := by
    intro i
    have h1 := abs_sub (at3 p i) (at3 o i)
    have h2 := coords_at ho i
    have h3 := coords_at hp i
    norm_num at *
    linarith
  obtain ⟨n, hn, hrn, hn2, hunit⟩ := unit_float hl (hsz 0) (hsz 1) (hsz 2)
  have hax := fun i => ends_axis hn (hrn i) (apart_at hl i) hT0 hs hs2 hX1 hX (coords_at ho i) (coords_at hp i)
  obtain ⟨hinv, -⟩ := inv_axis hs hs2
  choose a1 ha1 ea1 using fun i => (hax i).1
  choose a2 ha2 ea2 using fun i => (hax i).2.1
  choose b hb eb using fun i => (hax i).2.2.1
  have e2 : float32.vscale (TsdfScan.rayEnds float32 P (o.map .fin) (p.map .fin) false).2 (TsdfScan.sizeInv float32 s) =
      (⟨b 0, b 1, b 2⟩ : Pt).map .fin := by
    unfold TsdfScan.rayEnds
    rw [hunit, hinv, hT]
    show (⟨_, _, _⟩ : Vec3 Fl) = ⟨_, _, _⟩
    rw [← hb 0, ← hb 1, ← hb 2]
    rfl
  have hlam : T ≤ 1001 / 1000 * l1length o p * (T / n) := by
    rw [mul_div_assoc', le_div_iff₀ hn]
    have := mul_le_mul_of_nonneg_left hn2 hT0.le
    linarith
  have at3b : ∀ (f : Fin 3 → ℚ) (i : Fin 3), at3 (⟨f 0, f 1, f 2⟩ : Pt) i = f i := by
    intro f i
    match i with
    | 0 => rfl
    | 1 => rfl
    | 2 => rfl
  have hlast := fun i => (hax i).2.2.2
  cases hc : P.carving with
  | true =>
    refine ⟨⟨a1 0, a1 1, a1 2⟩, ⟨b 0, b 1, b 2⟩, T / n, div_pos hT0 hn, hlam, hlast, ?_, e2, ?_, ?_⟩
    · unfold TsdfScan.rayEnds
      rw [hunit, hinv, hT, hc]
      show (⟨_, _, _⟩ : Vec3 Fl) = ⟨_, _, _⟩
      rw [← ha1 0, ← ha1 1, ← ha1 2]
      rfl
    · intro i
      rw [at3b]
      exact ea1 i
    · intro i
      rw [at3b]
      exact eb i
  | false =>
    refine ⟨⟨a2 0, a2 1, a2 2⟩, ⟨b 0, b 1, b 2⟩, T / n, div_pos hT0 hn, hlam, hlast, ?_, e2, ?_, ?_⟩
    · unfold TsdfScan.rayEnds
      rw [hunit, hinv, hT, hc]
      show (⟨_, _, _⟩ : Vec3 Fl) = ⟨_, _, _⟩
      rw [← ha2 0, ← ha2 1, ← ha2 2]
      rfl
    · intro i
      rw [at3b]
      exact ea2 i
    · intro i
      rw [at3b]
      exact eb i

end Vox.RayEnds
