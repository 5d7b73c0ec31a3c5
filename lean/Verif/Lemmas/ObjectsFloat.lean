/-
Error bounds for distances to simulated objects.
-/
import Verif.Model.ObjectsFloat
import Verif.Spec.ObjectsFloat
import Verif.Lemmas.DistanceError
import Verif.Lemmas.TimingDouble
import Verif.Lemmas.Cylinder
import Verif.Props.TsdfRounding

namespace Vox.SimF

open Ieee Spec ObjSpec
open IndexF (u eta rnd32_err)
open RoundErr (u_eq eta_eq dot_err dot32 sqrt_err cast_err rnd_fin rnd32_le cauchy3 rnd32_nonneg)

/-! ### Lengths -/

/-- The square root of a number known up to an error. -/
theorem sqrt_near {n B : ℝ} (hn0 : 0 ≤ n) (hB : 0 ≤ B) (hn : |n - B * B| ≤ 11 / 2 * (1 / 2 ^ 24) * (B * B) + 1 / 2 ^ 106) :
    |Real.sqrt n - B| ≤ 69 / 25 * (1 / 2 ^ 24) * B + 1 / 2 ^ 53 := by
  have hs := Real.sqrt_nonneg n
  have hss := Real.mul_self_sqrt hn0
  obtain ⟨n1, n2⟩ := abs_le.1 hn
  have hBB := mul_nonneg hB hB
  generalize Real.sqrt n = q at *
  rw [abs_le]
  constructor
  · by_contra hcon
    push Not at hcon
    have h1 : q < (1 - 69 / 25 * (1 / 2 ^ 24)) * B - 1 / 2 ^ 53 := by linarith
    have h2 : q * q < ((1 - 69 / 25 * (1 / 2 ^ 24)) * B - 1 / 2 ^ 53) * ((1 - 69 / 25 * (1 / 2 ^ 24)) * B - 1 / 2 ^ 53) :=
      mul_self_lt_mul_self hs h1
    have h3 : (1 / 2 ^ 53 : ℝ) ≤ (1 - 69 / 25 * (1 / 2 ^ 24)) * B := by linarith
    nlinarith
  · by_contra hcon
    push Not at hcon
    have h1 : (1 + 69 / 25 * (1 / 2 ^ 24)) * B + 1 / 2 ^ 53 < q := by linarith
    have h2 := mul_self_lt_mul_self (by positivity) h1
    nlinarith

/-- The computed length of a vector whose components carry one rounding each. -/
theorem norm_near {x1 x2 x3 X1 X2 X3 : ℚ} (hx1 : |x1| ≤ 2 ^ 32) (hx2 : |x2| ≤ 2 ^ 32) (hx3 : |x3| ≤ 2 ^ 32)
    (e1 : |X1 - x1| ≤ u * |x1| + eta) (e2 : |X2 - x2| ≤ u * |x2| + eta) (e3 : |X3 - x3| ≤ u * |x3| + eta) :
    ∃ d : ℚ, float32.norm ⟨.fin X1, .fin X2, .fin X3⟩ = .fin d ∧ 0 ≤ d ∧
      |(d : ℝ) - Real.sqrt ((x1 : ℝ) ^ 2 + (x2 : ℝ) ^ 2 + (x3 : ℝ) ^ 2)| ≤
        4 * (1 / 2 ^ 24) * Real.sqrt ((x1 : ℝ) ^ 2 + (x2 : ℝ) ^ 2 + (x3 : ℝ) ^ 2) + 1 / 2 ^ 52 := by
  obtain ⟨en, n1, n2, n3, n4, n5⟩ := dot_err hx1 hx2 hx3 hx1 hx2 hx3 e1 e2 e3 e1 e2 e3
    (rnd32_err _) (rnd32_err _) (rnd32_err _) (rnd32_err _) (rnd32_err _)
  have dn := dot32 n1 n2 n3 n4 n5
  have hn0 : 0 ≤ rnd32 (rnd32 (rnd32 (X1 * X1) + rnd32 (X2 * X2)) + rnd32 (X3 * X3)) :=
    rnd32_nonneg (add_nonneg (rnd32_nonneg (add_nonneg (rnd32_nonneg (mul_self_nonneg _)) (rnd32_nonneg (mul_self_nonneg _))))
      (rnd32_nonneg (mul_self_nonneg _)))
  simp only [Arith.norm, dn]
  generalize rnd32 (rnd32 (rnd32 (X1 * X1) + rnd32 (X2 * X2)) + rnd32 (X3 * X3)) = n at *
  have hsum : (0 : ℝ) ≤ (x1 : ℝ) ^ 2 + (x2 : ℝ) ^ 2 + (x3 : ℝ) ^ 2 := by positivity
  have hB := Real.sqrt_nonneg ((x1 : ℝ) ^ 2 + (x2 : ℝ) ^ 2 + (x3 : ℝ) ^ 2)
  have hBB := Real.mul_self_sqrt hsum
  have hBup : Real.sqrt ((x1 : ℝ) ^ 2 + (x2 : ℝ) ^ 2 + (x3 : ℝ) ^ 2) ≤ 2 ^ 34 := by
    rw [Real.sqrt_le_left (by positivity)]
    have t : ∀ x : ℚ, |x| ≤ 2 ^ 32 → x ^ 2 ≤ 2 ^ 64 := by
      intro x hx
      rw [← sq_abs]
      exact (pow_le_pow_left₀ (abs_nonneg _) hx 2).trans (by norm_num)
    have : x1 ^ 2 + x2 ^ 2 + x3 ^ 2 ≤ (2 ^ 34) ^ 2 :=
      le_trans (add_le_add (add_le_add (t _ hx1) (t _ hx2)) (t _ hx3)) (by norm_num)
    exact_mod_cast this
  generalize Real.sqrt ((x1 : ℝ) ^ 2 + (x2 : ℝ) ^ 2 + (x3 : ℝ) ^ 2) = B at *
  have enR : |(n : ℝ) - B * B| ≤ 11 / 2 * (1 / 2 ^ 24) * (B * B) + 1 / 2 ^ 106 := by
    rw [abs_mul_self, abs_mul_self, abs_mul_self] at en
    have h : ((|n - (x1 * x1 + x2 * x2 + x3 * x3)| : ℚ) : ℝ) ≤ ((11 / 2 * u * (x1 * x1 + x2 * x2 + x3 * x3) + 1 / 2 ^ 106 : ℚ) : ℝ) := by
      exact_mod_cast en
    rw [u_eq] at h
    push_cast at h
    rw [hBB, pow_two, pow_two, pow_two]
    exact h
  have hn0R : (0 : ℝ) ≤ n := by exact_mod_cast hn0
  have ed := sqrt_err hn0
  rw [u_eq, eta_eq] at ed
  push_cast at ed
  have eq := sqrt_near hn0R hB enR
  have esq : float32.sqrtFl (.fin n) = overflow (2 ^ 128) (sqrtRound 24 (-149) n) := by
    simp only [Arith.sqrtFl, if_pos hn0]
    rfl
  rw [esq]
  have hd0 : 0 ≤ sqrtRound 24 (-149) n := by
    obtain ⟨lo, -⟩ := sqrtRound_correct (p := 24) (qmin := -149) (by norm_num) hn0
    have h1 := lo 0 le_rfl (by simpa using hn0)
    rwa [rne_zero] at h1
  generalize sqrtRound 24 (-149) n = d at *
  have hq0 := Real.sqrt_nonneg (n : ℝ)
  generalize Real.sqrt (n : ℝ) = q at *
  obtain ⟨q1, q2⟩ := abs_le.1 eq
  obtain ⟨d1, d2⟩ := abs_le.1 ed
  have key : |(d : ℝ) - B| ≤ 4 * (1 / 2 ^ 24) * B + 1 / 2 ^ 52 := by
    rw [abs_le]
    constructor <;> linarith
  refine ⟨d, overflow_of_lt ?_, hd0, key⟩
  rw [abs_of_nonneg hd0]
  have : (d : ℝ) < 2 ^ 128 := by
    have := (abs_le.1 key).2
    linarith
  exact_mod_cast this

theorem exact_le (x : ℚ) : |x - x| ≤ u * |x| + eta := by
  rw [sub_self, abs_zero, u_eq, eta_eq]
  positivity

theorem length_nonneg (v : Vec3 ℚ) : 0 ≤ length v := Real.sqrt_nonneg _

theorem length_sq (v : Vec3 ℚ) : length v * length v = (v.x : ℝ) ^ 2 + (v.y : ℝ) ^ 2 + (v.z : ℝ) ^ 2 :=
  Real.mul_self_sqrt (by positivity)

theorem comp_le (a b c : ℝ) : |a| ≤ Real.sqrt (a ^ 2 + b ^ 2 + c ^ 2) ∧ |b| ≤ Real.sqrt (a ^ 2 + b ^ 2 + c ^ 2) ∧
    |c| ≤ Real.sqrt (a ^ 2 + b ^ 2 + c ^ 2) := by
  refine ⟨?_, ?_, ?_⟩ <;> (apply Real.abs_le_sqrt; nlinarith [sq_nonneg a, sq_nonneg b, sq_nonneg c])

/-- The length of a vector is at most the sum of its components. -/
theorem norm_le_sum {a b c m : ℝ} (ha : |a| ≤ m) (hb : |b| ≤ m) (hc : |c| ≤ m) : Real.sqrt (a ^ 2 + b ^ 2 + c ^ 2) ≤ 2 * m := by
  have hm := (abs_nonneg a).trans ha
  rw [Real.sqrt_le_left (by positivity)]
  have t : ∀ x : ℝ, |x| ≤ m → x ^ 2 ≤ m ^ 2 := by
    intro x hx
    rw [← sq_abs]
    exact pow_le_pow_left₀ (abs_nonneg _) hx 2
  nlinarith [t a ha, t b hb, t c hc, sq_nonneg m]

/-- Lengths of two vectors with close components. -/
theorem norm_lipschitz (a b c a' b' c' : ℝ) : Real.sqrt (a' ^ 2 + b' ^ 2 + c' ^ 2) ≤
    Real.sqrt (a ^ 2 + b ^ 2 + c ^ 2) + (|a' - a| + |b' - b| + |c' - c|) := by
  obtain ⟨h1, h2, h3⟩ := comp_le a b c
  have hq := Real.mul_self_sqrt (show (0 : ℝ) ≤ a ^ 2 + b ^ 2 + c ^ 2 by positivity)
  have hq0 := Real.sqrt_nonneg (a ^ 2 + b ^ 2 + c ^ 2)
  generalize Real.sqrt (a ^ 2 + b ^ 2 + c ^ 2) = q at *
  rw [Real.sqrt_le_left (by positivity)]
  have t : ∀ x x' : ℝ, |x| ≤ q → x' ^ 2 ≤ x ^ 2 + 2 * q * |x' - x| + |x' - x| ^ 2 := by
    intro x x' hx
    have e : x' ^ 2 = x ^ 2 + 2 * (x * (x' - x)) + (x' - x) ^ 2 := by ring
    have : x * (x' - x) ≤ q * |x' - x| := by
      refine (le_abs_self _).trans ?_
      rw [abs_mul]
      exact mul_le_mul_of_nonneg_right hx (abs_nonneg _)
    rw [e, sq_abs]
    linarith
  have u1 := t a a' h1
  have u2 := t b b' h2
  have u3 := t c c' h3
  have p1 := abs_nonneg (a' - a)
  have p2 := abs_nonneg (b' - b)
  have p3 := abs_nonneg (c' - c)
  generalize |a' - a| = A at *
  generalize |b' - b| = B at *
  generalize |c' - c| = C at *
  nlinarith [mul_nonneg p1 p2, mul_nonneg p1 p3, mul_nonneg p2 p3]

/-! ### The sphere -/

theorem sphere_near (c p : Vec3 ℚ) (r : ℚ) (hc : CoordsWithin (2 ^ 30) c) (hp : CoordsWithin (2 ^ 30) p) (hr0 : 0 ≤ r) (hr : r ≤ 2 ^ 30) :
    ∃ q : ℚ, sphere (c.map .fin) (.fin r) (p.map .fin) = .fin q ∧
      |(q : ℝ) - (segLength c p - r)| ≤ 6 * (1 / 2 ^ 24) * (segLength c p + r) + 1 / 2 ^ 51 := by
  obtain ⟨c1, c2, c3⟩ := hc
  obtain ⟨p1, p2, p3⟩ := hp
  have b1 := le_trans (RoundErr.abs_sub_le_of c1 p1) (by norm_num : (2 : ℚ) * 2 ^ 30 ≤ 2 ^ 32)
  have b2 := le_trans (RoundErr.abs_sub_le_of c2 p2) (by norm_num : (2 : ℚ) * 2 ^ 30 ≤ 2 ^ 32)
  have b3 := le_trans (RoundErr.abs_sub_le_of c3 p3) (by norm_num : (2 : ℚ) * 2 ^ 30 ≤ 2 ^ 32)
  obtain ⟨d, hd, hd0, ed⟩ := norm_near b1 b2 b3 (rnd32_err _) (rnd32_err _) (rnd32_err _)
  have w : (2 : ℚ) ^ 32 ≤ 2 ^ 127 := by norm_num
  have v : float32.vsub (c.map .fin) (p.map .fin) = ⟨.fin (rnd32 (c.x - p.x)), .fin (rnd32 (c.y - p.y)), .fin (rnd32 (c.z - p.z))⟩ := by
    simp only [Arith.vsub, Vec3.map₂, Vec3.map, Arith.sub, Fl.neg, Arith.add, ← sub_eq_add_neg, rnd_fin (le_trans b1 w),
      rnd_fin (le_trans b2 w), rnd_fin (le_trans b3 w)]
  have hL : Real.sqrt (((c.x - p.x : ℚ) : ℝ) ^ 2 + ((c.y - p.y : ℚ) : ℝ) ^ 2 + ((c.z - p.z : ℚ) : ℝ) ^ 2) = segLength c p := by
    unfold segLength
    congr 1
    push_cast
    ring
  have hup : segLength c p ≤ 2 * 2 ^ 32 := by
    rw [← hL]
    exact norm_le_sum (by exact_mod_cast b1) (by exact_mod_cast b2) (by exact_mod_cast b3)
  rw [hL] at ed
  have hL0 : 0 ≤ segLength c p := Real.sqrt_nonneg _
  generalize segLength c p = B at *
  simp only [sphere, v, hd, Arith.sub, Fl.neg, Arith.add, ← sub_eq_add_neg]
  obtain ⟨d1, d2⟩ := abs_le.1 ed
  have hr0R : (0 : ℝ) ≤ r := by exact_mod_cast hr0
  have hrR : (r : ℝ) ≤ 2 ^ 30 := by exact_mod_cast hr
  have hdr : |(d : ℝ) - r| ≤ B + r + 4 * (1 / 2 ^ 24) * B + 1 / 2 ^ 52 := by
    rw [abs_le]; constructor <;> linarith
  have hb : |d - r| ≤ 2 ^ 127 := by
    have : |(d : ℝ) - r| ≤ 2 ^ 127 := hdr.trans (by linarith)
    exact_mod_cast this
  refine ⟨_, rnd_fin hb, ?_⟩
  have er := cast_err (rnd32_err (d - r))
  push_cast at er
  obtain ⟨r1, r2⟩ := abs_le.1 er
  rw [abs_le]
  constructor <;> linarith

/-! ### The plane -/

/-- The computed scalar product of two vectors. -/
theorem dot_near (n c : Vec3 ℚ) (hn : CoordsWithin 2 n) (hc : CoordsWithin (2 ^ 30) c) :
    ∃ g : ℚ, float32.dot (n.map .fin) (c.map .fin) = .fin g ∧
      |(g : ℝ) - ((n.x : ℝ) * c.x + n.y * c.y + n.z * c.z)| ≤ 11 / 2 * (1 / 2 ^ 24) * (length n * length c) + 1 / 2 ^ 106 ∧
      |(n.x : ℝ) * c.x + n.y * c.y + n.z * c.z| ≤ length n * length c := by
  obtain ⟨n1, n2, n3⟩ := hn
  obtain ⟨c1, c2, c3⟩ := hc
  have w1 : (2 : ℚ) ≤ 2 ^ 32 := by norm_num
  have w2 : (2 : ℚ) ^ 30 ≤ 2 ^ 32 := by norm_num
  obtain ⟨en, m1, m2, m3, m4, m5⟩ := dot_err (n1.trans w1) (n2.trans w1) (n3.trans w1) (c1.trans w2) (c2.trans w2) (c3.trans w2)
    (exact_le _) (exact_le _) (exact_le _) (exact_le _) (exact_le _) (exact_le _)
    (rnd32_err _) (rnd32_err _) (rnd32_err _) (rnd32_err _) (rnd32_err _)
  have hcs := cauchy3 (n.x : ℝ) n.y n.z c.x c.y c.z
  have hcs' : |(n.x : ℝ) * c.x| + |(n.y : ℝ) * c.y| + |(n.z : ℝ) * c.z| ≤ length n * length c := by
    unfold ObjSpec.length
    rw [pow_two, pow_two, pow_two, pow_two, pow_two, pow_two]
    exact hcs
  refine ⟨_, dot32 m1 m2 m3 m4 m5, ?_, ?_⟩
  · generalize rnd32 (rnd32 (rnd32 (n.x * c.x) + rnd32 (n.y * c.y)) + rnd32 (n.z * c.z)) = g at *
    have h : ((|g - (n.x * c.x + n.y * c.y + n.z * c.z)| : ℚ) : ℝ) ≤
        ((11 / 2 * u * (|n.x * c.x| + |n.y * c.y| + |n.z * c.z|) + 1 / 2 ^ 106 : ℚ) : ℝ) := by exact_mod_cast en
    rw [u_eq] at h
    push_cast at h
    refine h.trans ?_
    have := mul_le_mul_of_nonneg_left hcs' (by norm_num : (0 : ℝ) ≤ 11 / 2 * (1 / 2 ^ 24))
    linarith
  · refine le_trans ?_ hcs'
    refine (abs_add_le _ _).trans ?_
    have := abs_add_le ((n.x : ℝ) * c.x) (n.y * c.y)
    linarith

/-- The quotient of the scalar product and the computed length of the normal. -/
theorem quotient_near {N C P g m : ℝ} (hN : |N - 1| ≤ 1 / 500) (hC : 0 ≤ C) (hP : |P| ≤ N * C)
    (hg : |g - P| ≤ 11 / 2 * (1 / 2 ^ 24) * (N * C) + 1 / 2 ^ 106) (hm : |m - N| ≤ 4 * (1 / 2 ^ 24) * N + 1 / 2 ^ 52) :
    0 < m ∧ |g / m - P / N| ≤ 10 * (1 / 2 ^ 24) * C + 1 / 2 ^ 105 ∧ |P / N| ≤ C := by
  obtain ⟨N1, N2⟩ := abs_le.1 hN
  obtain ⟨m1, m2⟩ := abs_le.1 hm
  have hN0 : 0 < N := by linarith
  have hm0 : 99 / 100 < m := by linarith
  have hPN : |P / N| ≤ C := by
    rw [abs_div, abs_of_pos hN0, div_le_iff₀ hN0]
    linarith
  refine ⟨by linarith, ?_, hPN⟩
  have e : g / m - P / N = (g - P) / m + P / N * ((N - m) / m) := by
    field_simp
    ring
  rw [e]
  refine (abs_add_le _ _).trans ?_
  have h1 : |(g - P) / m| ≤ (11 / 2 * (1 / 2 ^ 24) * (N * C) + 1 / 2 ^ 106) * (100 / 99) := by
    rw [abs_div, abs_of_pos (by linarith : 0 < m), div_eq_mul_inv]
    refine mul_le_mul hg ?_ (by positivity) (by positivity)
    rw [inv_le_comm₀ (by linarith) (by norm_num)]
    linarith
  have h2 : |(N - m) / m| ≤ (4 * (1 / 2 ^ 24) * N + 1 / 2 ^ 52) * (100 / 99) := by
    rw [abs_div, abs_of_pos (by linarith : 0 < m), div_eq_mul_inv, abs_sub_comm]
    refine mul_le_mul hm ?_ (by positivity) (by positivity)
    rw [inv_le_comm₀ (by linarith) (by norm_num)]
    linarith
  have h3 : |P / N * ((N - m) / m)| ≤ C * ((4 * (1 / 2 ^ 24) * N + 1 / 2 ^ 52) * (100 / 99)) := by
    rw [abs_mul]
    exact mul_le_mul hPN h2 (abs_nonneg _) hC
  have hNC : N * C ≤ (501 / 500) * C := mul_le_mul_of_nonneg_right (by linarith) hC
  refine (add_le_add h1 h3).trans ?_
  have e3 : C * ((4 * (1 / 2 ^ 24) * N + 1 / 2 ^ 52) * (100 / 99)) = 4 * (1 / 2 ^ 24) * (100 / 99) * (N * C) + 1 / 2 ^ 52 * (100 / 99) * C := by ring
  rw [e3]
  linarith

theorem length_le {v : Vec3 ℚ} {m : ℚ} (hv : CoordsWithin m v) : length v ≤ 2 * m :=
  norm_le_sum (by exact_mod_cast hv.1) (by exact_mod_cast hv.2.1) (by exact_mod_cast hv.2.2)

theorem coords_le_length (v : Vec3 ℚ) {m : ℚ} (h : length v ≤ m) : CoordsWithin m v := by
  obtain ⟨h1, h2, h3⟩ := comp_le (v.x : ℝ) v.y v.z
  refine ⟨?_, ?_, ?_⟩
  · exact_mod_cast h1.trans h
  · exact_mod_cast h2.trans h
  · exact_mod_cast h3.trans h

theorem plane_near (c n p : Vec3 ℚ) (hc : CoordsWithin (2 ^ 30) c) (hp : CoordsWithin (2 ^ 30) p) (hn : |length n - 1| ≤ 1 / 500) :
    ∃ q : ℚ, plane (c.map .fin) (n.map .fin) (p.map .fin) = .fin q ∧
      |(q : ℝ) - ((n.x : ℝ) * (p.x - c.x) + n.y * (p.y - c.y) + n.z * (p.z - c.z)) / length n| ≤
        13 * (1 / 2 ^ 24) * (length p + length c) + |length n - 1| * length p + 1 / 2 ^ 104 := by
  obtain ⟨hn1, hn2⟩ := abs_le.1 hn
  have hnc : CoordsWithin 2 n := coords_le_length n (by push_cast; linarith)
  obtain ⟨g, hg, eg, hP⟩ := dot_near n c hnc hc
  obtain ⟨g', hg', eg', hP'⟩ := dot_near n p hnc hp
  have w : (2 : ℚ) ≤ 2 ^ 32 := by norm_num
  obtain ⟨m, hm, hm0, em⟩ := norm_near (hnc.1.trans w) (hnc.2.1.trans w) (hnc.2.2.trans w) (exact_le _) (exact_le _) (exact_le _)
  have hm' : float32.norm (n.map .fin) = .fin m := hm
  have em' : |(m : ℝ) - length n| ≤ 4 * (1 / 2 ^ 24) * length n + 1 / 2 ^ 52 := em
  have hCup := length_le hc
  have hXup := length_le hp
  push_cast at hCup hXup
  have hC0 := length_nonneg c
  have hX0 := length_nonneg p
  have eT : ((n.x : ℝ) * (p.x - c.x) + n.y * (p.y - c.y) + n.z * (p.z - c.z)) / length n =
      ((n.x : ℝ) * p.x + n.y * p.y + n.z * p.z) / length n - ((n.x : ℝ) * c.x + n.y * c.y + n.z * c.z) / length n := by ring
  rw [eT]
  generalize (n.x : ℝ) * c.x + n.y * c.y + n.z * c.z = P at *
  generalize (n.x : ℝ) * p.x + n.y * p.y + n.z * p.z = Q at *
  generalize length c = C at *
  generalize length p = X at *
  generalize length n = N at *
  have hN0 : 0 < N := by linarith
  obtain ⟨hmpos, hq, hPN⟩ := quotient_near hn hC0 hP eg em'
  have hmq : m ≠ 0 := by
    have : (0 : ℚ) < m := by exact_mod_cast hmpos
    exact this.ne'
  simp only [plane, hg, hg', hm', Fl.neg, Arith.div, if_neg hmq]
  obtain ⟨q1, q2⟩ := abs_le.1 hq
  obtain ⟨s1, s2⟩ := abs_le.1 hPN
  have hgm : |(-g / m : ℝ)| ≤ 2 * C + 1 := by
    rw [neg_div, abs_neg, abs_le]
    constructor <;> linarith
  have hgm' : |-g / m| ≤ 2 ^ 33 := by
    have : |(-g / m : ℝ)| ≤ 2 ^ 33 := hgm.trans (by linarith)
    exact_mod_cast this
  rw [rnd_fin (hgm'.trans (by norm_num))]
  have ex := cast_err (rnd32_err (-g / m))
  push_cast at ex
  generalize rnd32 (-g / m) = x at *
  rw [neg_div] at ex hgm
  rw [abs_neg] at ex hgm
  obtain ⟨x1, x2⟩ := abs_le.1 ex
  have hgm2 : |(g / m : ℝ)| ≤ C + 10 * (1 / 2 ^ 24) * C + 1 / 2 ^ 105 := by
    rw [abs_le]
    constructor <;> linarith
  obtain ⟨g1, g2⟩ := abs_le.1 eg'
  obtain ⟨t1, t2⟩ := abs_le.1 hP'
  have hNX : N * X ≤ 501 / 500 * X := mul_le_mul_of_nonneg_right (by linarith) hX0
  have hsum : |(g' : ℝ) + x| ≤ 11 / 10 * X + 11 / 10 * C + 1 / 2 ^ 103 := by
    rw [abs_le]
    constructor <;> linarith
  have hsum' : |g' + x| ≤ 2 ^ 127 := by
    have : |(g' : ℝ) + x| ≤ 2 ^ 127 := hsum.trans (by linarith)
    exact_mod_cast this
  refine ⟨_, rnd_fin hsum', ?_⟩
  have er := cast_err (rnd32_err (g' + x))
  push_cast at er
  obtain ⟨r1, r2⟩ := abs_le.1 er
  have hQ : |Q - Q / N| ≤ |N - 1| * X := by
    have e : Q - Q / N = (N - 1) * (Q / N) := by field_simp
    rw [e, abs_mul]
    refine mul_le_mul_of_nonneg_left ?_ (abs_nonneg _)
    rw [abs_div, abs_of_pos hN0, div_le_iff₀ hN0]
    linarith
  obtain ⟨Q1, Q2⟩ := abs_le.1 hQ
  rw [abs_le]
  constructor <;> linarith

end Vox.SimF
