/-
Error bounds of interpolation in `float`.
-/
import Verif.Model.InterpFloat
import Verif.Spec.InterpFloat
import Verif.Lemmas.Interp
import Verif.Lemmas.RoundError
import Mathlib.Tactic.Linarith
import Mathlib.Tactic.Ring
import Mathlib.Tactic.FieldSimp
import Mathlib.Tactic.Positivity
import Mathlib.Tactic.NormNum

namespace Vox.InterpF

open Layer Grid Ieee Spec IndexF

open RoundErr (u_eq eta_eq rnd32_nonneg rnd_fin)

variable {V : Type}

/-! ### Sums in any order -/

/-- Relative error of `n` terms added in any order. -/
def relE (n : ℕ) : ℚ := ((n : ℚ) - 1) * (1025 / 1024 * u)

/-- Absolute error of `n` terms added in any order. -/
def absE (n : ℕ) : ℚ := ((n : ℚ) - 1) * (2 * eta)

theorem add_step {x y X Y A B rx ry ex ey : ℚ} (hX : |x - X| ≤ rx * A + ex) (hY : |y - Y| ≤ ry * B + ey) (hA : |X| ≤ A) (hB : |Y| ≤ B)
    {m n : ℚ} (hm : 1 ≤ m) (hn : 1 ≤ n) (hmn : m + n ≤ 16) (hrx : rx = (m - 1) * (1025 / 1024 * u)) (hry : ry = (n - 1) * (1025 / 1024 * u))
    (hex : ex = (m - 1) * (2 * eta)) (hey : ey = (n - 1) * (2 * eta)) (hbig : A + B ≤ 2 ^ 120) :
    float32.add (.fin x) (.fin y) = .fin (rnd32 (x + y)) ∧
      |rnd32 (x + y) - (X + Y)| ≤ (m + n - 1) * (1025 / 1024 * u) * (A + B) + (m + n - 1) * (2 * eta) := by
  have hA0 : 0 ≤ A := le_trans (abs_nonneg _) hA
  have hB0 : 0 ≤ B := le_trans (abs_nonneg _) hB
  subst hrx hry hex hey
  rw [u_eq, eta_eq] at *
  have e1 : |x + y - (X + Y)| ≤ (m - 1) * (1025 / 1024 * (1 / 2 ^ 24)) * A + (m - 1) * (2 * (1 / 2 ^ 150)) +
      ((n - 1) * (1025 / 1024 * (1 / 2 ^ 24)) * B + (n - 1) * (2 * (1 / 2 ^ 150))) := by
    have : x + y - (X + Y) = (x - X) + (y - Y) := by ring
    rw [this]
    exact (abs_add_le _ _).trans (add_le_add hX hY)
  have m15 : m ≤ 15 := by linarith
  have n15 : n ≤ 15 := by linarith
  have mA : (m - 1) * A ≤ (m + n - 2) * A := mul_le_mul_of_nonneg_right (by linarith) hA0
  have nB : (n - 1) * B ≤ (m + n - 2) * B := mul_le_mul_of_nonneg_right (by linarith) hB0
  have k1 : (m + n - 2) * (A + B) ≤ 14 * (A + B) := mul_le_mul_of_nonneg_right (by linarith) (by linarith)
  have e2 : |x + y| ≤ A + B + |x + y - (X + Y)| := by
    have : x + y = (X + Y) + (x + y - (X + Y)) := by ring
    have h1 := abs_add_le (X + Y) (x + y - (X + Y))
    rw [← this] at h1
    have h2 := abs_add_le X Y
    linarith
  have e3 : |x + y - (X + Y)| ≤ (m + n - 2) * (A + B) * (1025 / 1024 * (1 / 2 ^ 24)) + (m + n - 2) * (2 * (1 / 2 ^ 150)) := by
    refine e1.trans ?_
    norm_num at *
    linarith
  have hxy : |x + y| ≤ 2 ^ 127 := by
    norm_num at *
    linarith
  refine ⟨by show float32.rnd (x + y) = _; exact rnd_fin hxy, ?_⟩
  have e4 := rnd32_err (x + y)
  rw [u_eq, eta_eq] at e4
  have e5 : |rnd32 (x + y) - (X + Y)| ≤ |rnd32 (x + y) - (x + y)| + |x + y - (X + Y)| := abs_sub_le _ _ _
  norm_num at *
  linarith

theorem terms_pos (o : Order) : 1 ≤ o.terms.length := by
  induction o with
  | term i => simp [Order.terms]
  | add a b ha hb => simp [Order.terms]; omega

theorem sum_err (x : ℕ → Fl) (y X A : ℕ → ℚ) (hx : ∀ i, x i = .fin (y i)) (hy : ∀ i, y i = X i) (hA : ∀ i, |X i| ≤ A i) :
    ∀ o : Order, o.terms.length ≤ 16 → (o.terms.map A).sum ≤ 2 ^ 120 →
      ∃ r, o.sum x = .fin r ∧ |r - (o.terms.map X).sum| ≤ relE o.terms.length * (o.terms.map A).sum + absE o.terms.length ∧
        |(o.terms.map X).sum| ≤ (o.terms.map A).sum
  | .term i, _, _ => ⟨y i, by simp [Order.sum, hx], by simp [Order.terms, relE, absE, hy], by simpa [Order.terms] using hA i⟩
  | .add a b, hn, hb => by
    have hA0 : ∀ l : List ℕ, 0 ≤ (l.map A).sum := by
      intro l
      refine List.sum_nonneg ?_
      intro z hz
      obtain ⟨i, -, rfl⟩ := List.mem_map.1 hz
      exact le_trans (abs_nonneg _) (hA i)
    simp only [Order.terms, List.map_append, List.sum_append, List.length_append] at hn hb ⊢
    have pa := hA0 a.terms
    have pb := hA0 b.terms
    obtain ⟨r, er, h1, h2⟩ := sum_err x y X A hx hy hA a (by omega) (by linarith)
    obtain ⟨q, eq, h3, h4⟩ := sum_err x y X A hx hy hA b (by omega) (by linarith)
    have la : (1 : ℚ) ≤ a.terms.length := by exact_mod_cast terms_pos a
    have lb : (1 : ℚ) ≤ b.terms.length := by exact_mod_cast terms_pos b
    have lab : (a.terms.length : ℚ) + b.terms.length ≤ 16 := by exact_mod_cast hn
    obtain ⟨s1, s2⟩ := add_step h1 h3 h2 h4 la lb lab rfl rfl rfl rfl hb
    refine ⟨rnd32 (r + q), ?_, ?_, ?_⟩
    · show float32.add (a.sum x) (b.sum x) = _
      rw [er, eq, s1]
    · unfold relE absE
      push_cast
      exact s2
    · exact (abs_add_le _ _).trans (add_le_add h2 h4)

theorem map_fin_getD (L : List ℚ) (i : ℕ) : entry (L.map .fin) i = .fin (L.getD i 0) := by
  unfold entry
  simp only [List.getD_eq_getElem?_getD, List.getElem?_map]
  cases L[i]? <;> rfl

theorem sum_range8 (f : ℕ → ℚ) : ((List.range 8).map f).sum = f 0 + f 1 + f 2 + f 3 + f 4 + f 5 + f 6 + f 7 := by
  simp [List.range, List.range.loop]
  ring

/-- Eight terms added in any order. -/
theorem sum8 {o : Order} (ho : Complete o) {x0 x1 x2 x3 x4 x5 x6 x7 B : ℚ}
    (hB : |x0| + |x1| + |x2| + |x3| + |x4| + |x5| + |x6| + |x7| ≤ B) (hbig : B ≤ 2 ^ 120) :
    ∃ r, o.sum (entry ([x0, x1, x2, x3, x4, x5, x6, x7].map .fin)) = .fin r ∧
      |r - (x0 + x1 + x2 + x3 + x4 + x5 + x6 + x7)| ≤ 7 * (1025 / 1024 * u) * B + 14 * eta := by
  have hl : o.terms.length = 8 := by rw [ho.length_eq]; rfl
  have hs : ∀ f : ℕ → ℚ, (o.terms.map f).sum = f 0 + f 1 + f 2 + f 3 + f 4 + f 5 + f 6 + f 7 := by
    intro f
    rw [← sum_range8, (ho.map f).sum_eq]
  obtain ⟨r, h1, h2, -⟩ := sum_err (entry ([x0, x1, x2, x3, x4, x5, x6, x7].map .fin)) (fun i => [x0, x1, x2, x3, x4, x5, x6, x7].getD i 0)
    (fun i => [x0, x1, x2, x3, x4, x5, x6, x7].getD i 0) (fun i => |[x0, x1, x2, x3, x4, x5, x6, x7].getD i 0|)
    (fun i => map_fin_getD _ i) (fun _ => rfl) (fun _ => le_rfl) o (by omega) (by rw [hs]; exact hB.trans hbig)
  refine ⟨r, h1, ?_⟩
  rw [hs, hs, hl] at h2
  refine le_trans h2 ?_
  unfold relE absE
  rw [u_eq, eta_eq]
  have : |x0| + |x1| + |x2| + |x3| + |x4| + |x5| + |x6| + |x7| ≤ B := hB
  simp only [List.getD_cons_zero, List.getD_cons_succ]
  norm_num at *
  linarith

/-! ### The interpolated value -/

theorem mul_sign {t d : ℚ} (ht : t = 0 ∨ t = 1 ∨ t = -1) (hd : rnd32 d = d) (hb : |d| ≤ 2 ^ 127) :
    float32.mul (.fin t) (.fin d) = .fin (t * d) := by
  have h0 : rnd32 0 = 0 := rne_zero
  have hn : rnd32 (-d) = -d := by
    have : rnd32 (-d) = -rnd32 d := rne_neg d
    rw [this, hd]
  show float32.rnd (t * d) = _
  rcases ht with rfl | rfl | rfl
  · rw [rnd_fin (by simp), zero_mul, h0]
  · rw [rnd_fin (by simpa using hb), one_mul, hd]
  · rw [rnd_fin (by simpa using hb), neg_one_mul, hn]

/-- The entries of the table. -/
theorem table_entries : ∀ row ∈ Interp.interpTable, row.length = 8 ∧ ∀ t ∈ row, t = 0 ∨ t = 1 ∨ t = -1 := by decide +kernel

/-- One rounded term of the last sum. -/
theorem term_bound {q' q a' a n D : ℚ} (hq0 : 0 ≤ q) (hq1 : q ≤ 5 / 4) (hq : |q' - q| ≤ 4 * u) (hn : 0 ≤ n) (hn8 : n ≤ 8) (hD : 0 ≤ D)
    (hD2 : D ≤ 2 ^ 100) (ha : |a| ≤ n * D) (ha' : |a' - a| ≤ 7 * (1025 / 1024 * u) * (n * D) + 14 * eta) :
    float32.mul (.fin q') (.fin a') = .fin (rnd32 (q' * a')) ∧ |rnd32 (q' * a') - q * a| ≤ 15 * u * (n * D) + 20 * eta ∧
      |rnd32 (q' * a')| ≤ 13 / 10 * (n * D) + 20 * eta := by
  have hnD : 0 ≤ n * D := mul_nonneg hn hD
  have hnDb : n * D ≤ 8 * 2 ^ 100 := mul_le_mul hn8 hD2 hD (by norm_num)
  have hq'' : |q'| ≤ 5 / 4 + 4 * u := by
    have := abs_add_le (q' - q) q
    rw [sub_add_cancel, abs_of_nonneg hq0] at this
    linarith
  have ha'' : |a'| ≤ n * D + (7 * (1025 / 1024 * u) * (n * D) + 14 * eta) := by
    have := abs_add_le (a' - a) a
    rw [sub_add_cancel] at this
    linarith
  have h1 : |q' * a' - q * a| ≤ (5 / 4 + 4 * u) * (7 * (1025 / 1024 * u) * (n * D) + 14 * eta) + 4 * u * (n * D) := by
    have e : q' * a' - q * a = q' * (a' - a) + (q' - q) * a := by ring
    rw [e]
    refine (abs_add_le _ _).trans ?_
    rw [abs_mul, abs_mul]
    refine add_le_add (mul_le_mul hq'' ha' (abs_nonneg _) ?_) (mul_le_mul hq ha (abs_nonneg _) ?_) <;> (unfold u; norm_num)
  have h2 : |q * a| ≤ 5 / 4 * (n * D) := by
    rw [abs_mul, abs_of_nonneg hq0]
    exact mul_le_mul hq1 ha (abs_nonneg _) (by norm_num)
  have h3 : |q' * a'| ≤ |q * a| + |q' * a' - q * a| := by
    have := abs_add_le (q * a) (q' * a' - q * a)
    rwa [add_sub_cancel] at this
  have h4 := rnd32_err (q' * a')
  have h5 : |rnd32 (q' * a') - q * a| ≤ |rnd32 (q' * a') - q' * a'| + |q' * a' - q * a| := abs_sub_le _ _ _
  have h6 : |rnd32 (q' * a')| ≤ |q * a| + |rnd32 (q' * a') - q * a| := by
    have := abs_add_le (q * a) (rnd32 (q' * a') - q * a)
    rwa [add_sub_cancel] at this
  rw [u_eq, eta_eq] at *
  generalize n * D = N at *
  have hb : |q' * a'| ≤ 2 ^ 127 := by
    norm_num at *
    linarith
  refine ⟨by show float32.rnd (q' * a') = _; exact rnd_fin hb, ?_, ?_⟩
  · norm_num at *
    linarith
  · norm_num at *
    linarith

/-- One row of the table times the data. -/
theorem row_bound {o : Order} (ho : Complete o) {t0 t1 t2 t3 t4 t5 t6 t7 d0 d1 d2 d3 d4 d5 d6 d7 n D : ℚ}
    (h0 : t0 = 0 ∨ t0 = 1 ∨ t0 = -1) (h1 : t1 = 0 ∨ t1 = 1 ∨ t1 = -1) (h2 : t2 = 0 ∨ t2 = 1 ∨ t2 = -1) (h3 : t3 = 0 ∨ t3 = 1 ∨ t3 = -1) (h4 : t4 = 0 ∨ t4 = 1 ∨ t4 = -1) (h5 : t5 = 0 ∨ t5 = 1 ∨ t5 = -1) (h6 : t6 = 0 ∨ t6 = 1 ∨ t6 = -1) (h7 : t7 = 0 ∨ t7 = 1 ∨ t7 = -1)
    (hd0 : rnd32 d0 = d0 ∧ |d0| ≤ D) (hd1 : rnd32 d1 = d1 ∧ |d1| ≤ D) (hd2 : rnd32 d2 = d2 ∧ |d2| ≤ D) (hd3 : rnd32 d3 = d3 ∧ |d3| ≤ D) (hd4 : rnd32 d4 = d4 ∧ |d4| ≤ D) (hd5 : rnd32 d5 = d5 ∧ |d5| ≤ D) (hd6 : rnd32 d6 = d6 ∧ |d6| ≤ D) (hd7 : rnd32 d7 = d7 ∧ |d7| ≤ D)
    (hn : |t0| + |t1| + |t2| + |t3| + |t4| + |t5| + |t6| + |t7| = n) (hn8 : n ≤ 8) (hD : 0 ≤ D) (hD2 : D ≤ 2 ^ 100) :
    ∃ a, dotF o ([t0, t1, t2, t3, t4, t5, t6, t7].map .fin) ([d0, d1, d2, d3, d4, d5, d6, d7].map .fin) = .fin a ∧
      |a - (t0 * d0 + t1 * d1 + t2 * d2 + t3 * d3 + t4 * d4 + t5 * d5 + t6 * d6 + t7 * d7)| ≤ 7 * (1025 / 1024 * u) * (n * D) + 14 * eta ∧
      |t0 * d0 + t1 * d1 + t2 * d2 + t3 * d3 + t4 * d4 + t5 * d5 + t6 * d6 + t7 * d7| ≤ n * D := by
  have hbig : D ≤ 2 ^ 127 := hD2.trans (by norm_num)
  have k : ∀ t d : ℚ, |d| ≤ D → |t * d| ≤ |t| * D := fun t d h => by
    rw [abs_mul]
    exact mul_le_mul_of_nonneg_left h (abs_nonneg t)
  have hsum : |t0 * d0| + |t1 * d1| + |t2 * d2| + |t3 * d3| + |t4 * d4| + |t5 * d5| + |t6 * d6| + |t7 * d7| ≤ n * D := by
    have := k t0 d0 hd0.2
    have := k t1 d1 hd1.2
    have := k t2 d2 hd2.2
    have := k t3 d3 hd3.2
    have := k t4 d4 hd4.2
    have := k t5 d5 hd5.2
    have := k t6 d6 hd6.2
    have := k t7 d7 hd7.2
    rw [← hn]
    linarith
  have hnD : n * D ≤ 2 ^ 120 := by
    have := mul_le_mul hn8 hD2 hD (by norm_num)
    refine this.trans (by norm_num)
  obtain ⟨a, ha, he⟩ := sum8 ho hsum hnD
  refine ⟨a, ?_, he, ?_⟩
  · rw [← ha]
    unfold dotF
    simp only [List.map_cons, List.map_nil, List.zipWith_cons_cons, List.zipWith_nil_right,
      mul_sign h0 hd0.1 (hd0.2.trans hbig), mul_sign h1 hd1.1 (hd1.2.trans hbig), mul_sign h2 hd2.1 (hd2.2.trans hbig), mul_sign h3 hd3.1 (hd3.2.trans hbig), mul_sign h4 hd4.1 (hd4.2.trans hbig), mul_sign h5 hd5.1 (hd5.2.trans hbig), mul_sign h6 hd6.1 (hd6.2.trans hbig), mul_sign h7 hd7.1 (hd7.2.trans hbig)]
  · refine le_trans ?_ hsum
    have q0 := abs_add_le (t0 * d0) (t1 * d1)
    have q1 := abs_add_le (t0 * d0 + t1 * d1) (t2 * d2)
    have q2 := abs_add_le (t0 * d0 + t1 * d1 + t2 * d2) (t3 * d3)
    have q3 := abs_add_le (t0 * d0 + t1 * d1 + t2 * d2 + t3 * d3) (t4 * d4)
    have q4 := abs_add_le (t0 * d0 + t1 * d1 + t2 * d2 + t3 * d3 + t4 * d4) (t5 * d5)
    have q5 := abs_add_le (t0 * d0 + t1 * d1 + t2 * d2 + t3 * d3 + t4 * d4 + t5 * d5) (t6 * d6)
    have q6 := abs_add_le (t0 * d0 + t1 * d1 + t2 * d2 + t3 * d3 + t4 * d4 + t5 * d5 + t6 * d6) (t7 * d7)
    linarith

/-- The weights that are products. -/
theorem weight_err {x y z : ℚ} (hx : 0 ≤ x ∧ x ≤ 16 / 15) (hy : 0 ≤ y ∧ y ≤ 16 / 15) (hz : 0 ≤ z ∧ z ≤ 16 / 15) :
    x * y ≤ 5 / 4 ∧ |rnd32 (x * y) - x * y| ≤ 4 * u ∧ x * y * z ≤ 5 / 4 ∧ |rnd32 (rnd32 (x * y) * z) - x * y * z| ≤ 4 * u := by
  have h1 : x * y ≤ 16 / 15 * (16 / 15) := mul_le_mul hx.2 hy.2 hy.1 (by norm_num)
  have h0 : 0 ≤ x * y := mul_nonneg hx.1 hy.1
  have h2 : x * y * z ≤ 16 / 15 * (16 / 15) * (16 / 15) := mul_le_mul h1 hz.2 hz.1 (by norm_num)
  have h3 := rnd32_err (x * y)
  rw [abs_of_nonneg h0] at h3
  have w0 : 0 ≤ rnd32 (x * y) := rnd32_nonneg h0
  have h4 := rnd32_err (rnd32 (x * y) * z)
  rw [abs_of_nonneg (mul_nonneg w0 hz.1)] at h4
  have h5 : |rnd32 (x * y) * z - x * y * z| ≤ (u * (x * y) + eta) * (16 / 15) := by
    rw [← sub_mul, abs_mul, abs_of_nonneg hz.1]
    exact mul_le_mul h3 hz.2 hz.1 (le_trans (abs_nonneg _) h3)
  have h6 := (abs_le.1 h5).2
  have h7 : |rnd32 (rnd32 (x * y) * z) - x * y * z| ≤ |rnd32 (rnd32 (x * y) * z) - rnd32 (x * y) * z| + |rnd32 (x * y) * z - x * y * z| :=
    abs_sub_le _ _ _
  rw [u_eq, eta_eq] at *
  generalize |rnd32 (rnd32 (x * y) * z) - x * y * z| = A at *
  generalize |rnd32 (rnd32 (x * y) * z) - rnd32 (x * y) * z| = B at *
  generalize |rnd32 (x * y) * z - x * y * z| = C at *
  generalize |rnd32 (x * y) - x * y| = E at *
  generalize rnd32 (x * y) * z = W at *
  generalize x * y * z = P at *
  generalize x * y = Q at *
  norm_num at *
  refine ⟨?_, ?_, ?_, ?_⟩ <;> linarith

/-- The rounding error of the interpolated value at the (rounded) offset. -/
theorem member_err {rows : ℕ → Order} {last : Order} (hrows : ∀ i, i < 8 → Complete (rows i)) (hlast : Complete last)
    {x y z d0 d1 d2 d3 d4 d5 d6 d7 D : ℚ} (hx : 0 ≤ x ∧ x ≤ 16 / 15) (hy : 0 ≤ y ∧ y ≤ 16 / 15) (hz : 0 ≤ z ∧ z ≤ 16 / 15)
    (hd0 : rnd32 d0 = d0 ∧ |d0| ≤ D) (hd1 : rnd32 d1 = d1 ∧ |d1| ≤ D) (hd2 : rnd32 d2 = d2 ∧ |d2| ≤ D) (hd3 : rnd32 d3 = d3 ∧ |d3| ≤ D) (hd4 : rnd32 d4 = d4 ∧ |d4| ≤ D) (hd5 : rnd32 d5 = d5 ∧ |d5| ≤ D) (hd6 : rnd32 d6 = d6 ∧ |d6| ≤ D) (hd7 : rnd32 d7 = d7 ∧ |d7| ≤ D)
    (hD : 0 ≤ D) (hD2 : D ≤ 2 ^ 100) :
    ∃ r, interpMember rows last [1, x, y, z, rnd32 (x * y), rnd32 (y * z), rnd32 (z * x), rnd32 (rnd32 (x * y) * z)] ([d0, d1, d2, d3, d4, d5, d6, d7].map .fin) = .fin r ∧
      |r - Interp.interpMember (Interp.qOf ⟨x, y, z⟩) [d0, d1, d2, d3, d4, d5, d6, d7]| ≤ D / 2 ^ 14 + 1 / 2 ^ 140 := by
  have x0 := hx.1
  have y0 := hy.1
  have z0 := hz.1
  have x1 := hx.2
  have y1 := hy.2
  have z1 := hz.2
  obtain ⟨k4, g4, k7, g7⟩ := weight_err hx hy hz
  obtain ⟨k5, g5, -, -⟩ := weight_err hy hz hx
  obtain ⟨k6, g6, -, -⟩ := weight_err hz hx hy
  obtain ⟨a0, r0, e0, m0⟩ := row_bound (hrows 0 (by norm_num)) (t0 := 1) (t1 := 0) (t2 := 0) (t3 := 0) (t4 := 0) (t5 := 0) (t6 := 0) (t7 := 0)
    (by norm_num) (by norm_num) (by norm_num) (by norm_num) (by norm_num) (by norm_num) (by norm_num) (by norm_num)
    hd0 hd1 hd2 hd3 hd4 hd5 hd6 hd7 (n := 1) (by norm_num) (by norm_num) hD hD2
  obtain ⟨a1, r1, e1, m1⟩ := row_bound (hrows 1 (by norm_num)) (t0 := -1) (t1 := 0) (t2 := 0) (t3 := 0) (t4 := 1) (t5 := 0) (t6 := 0) (t7 := 0)
    (by norm_num) (by norm_num) (by norm_num) (by norm_num) (by norm_num) (by norm_num) (by norm_num) (by norm_num)
    hd0 hd1 hd2 hd3 hd4 hd5 hd6 hd7 (n := 2) (by norm_num) (by norm_num) hD hD2
  obtain ⟨a2, r2, e2, m2⟩ := row_bound (hrows 2 (by norm_num)) (t0 := -1) (t1 := 0) (t2 := 1) (t3 := 0) (t4 := 0) (t5 := 0) (t6 := 0) (t7 := 0)
    (by norm_num) (by norm_num) (by norm_num) (by norm_num) (by norm_num) (by norm_num) (by norm_num) (by norm_num)
    hd0 hd1 hd2 hd3 hd4 hd5 hd6 hd7 (n := 2) (by norm_num) (by norm_num) hD hD2
  obtain ⟨a3, r3, e3, m3⟩ := row_bound (hrows 3 (by norm_num)) (t0 := -1) (t1 := 1) (t2 := 0) (t3 := 0) (t4 := 0) (t5 := 0) (t6 := 0) (t7 := 0)
    (by norm_num) (by norm_num) (by norm_num) (by norm_num) (by norm_num) (by norm_num) (by norm_num) (by norm_num)
    hd0 hd1 hd2 hd3 hd4 hd5 hd6 hd7 (n := 2) (by norm_num) (by norm_num) hD hD2
  obtain ⟨a4, r4, e4, m4⟩ := row_bound (hrows 4 (by norm_num)) (t0 := 1) (t1 := 0) (t2 := -1) (t3 := 0) (t4 := -1) (t5 := 0) (t6 := 1) (t7 := 0)
    (by norm_num) (by norm_num) (by norm_num) (by norm_num) (by norm_num) (by norm_num) (by norm_num) (by norm_num)
    hd0 hd1 hd2 hd3 hd4 hd5 hd6 hd7 (n := 4) (by norm_num) (by norm_num) hD hD2
  obtain ⟨a5, r5, e5, m5⟩ := row_bound (hrows 5 (by norm_num)) (t0 := 1) (t1 := -1) (t2 := -1) (t3 := 1) (t4 := 0) (t5 := 0) (t6 := 0) (t7 := 0)
    (by norm_num) (by norm_num) (by norm_num) (by norm_num) (by norm_num) (by norm_num) (by norm_num) (by norm_num)
    hd0 hd1 hd2 hd3 hd4 hd5 hd6 hd7 (n := 4) (by norm_num) (by norm_num) hD hD2
  obtain ⟨a6, r6, e6, m6⟩ := row_bound (hrows 6 (by norm_num)) (t0 := 1) (t1 := -1) (t2 := 0) (t3 := 0) (t4 := -1) (t5 := 1) (t6 := 0) (t7 := 0)
    (by norm_num) (by norm_num) (by norm_num) (by norm_num) (by norm_num) (by norm_num) (by norm_num) (by norm_num)
    hd0 hd1 hd2 hd3 hd4 hd5 hd6 hd7 (n := 4) (by norm_num) (by norm_num) hD hD2
  obtain ⟨a7, r7, e7, m7⟩ := row_bound (hrows 7 (by norm_num)) (t0 := -1) (t1 := 1) (t2 := 1) (t3 := -1) (t4 := 1) (t5 := -1) (t6 := -1) (t7 := 1)
    (by norm_num) (by norm_num) (by norm_num) (by norm_num) (by norm_num) (by norm_num) (by norm_num) (by norm_num)
    hd0 hd1 hd2 hd3 hd4 hd5 hd6 hd7 (n := 8) (by norm_num) (by norm_num) hD hD2
  obtain ⟨p0, s0, b0⟩ := term_bound (q' := 1) (q := 1) (by positivity) (by linarith) (by rw [sub_self, abs_zero, u_eq]; norm_num) (n := 1) (by norm_num) (by norm_num) hD hD2 m0 e0
  obtain ⟨p1, s1, b1⟩ := term_bound (q' := x) (q := x) (by positivity) (by linarith) (by rw [sub_self, abs_zero, u_eq]; norm_num) (n := 2) (by norm_num) (by norm_num) hD hD2 m1 e1
  obtain ⟨p2, s2, b2⟩ := term_bound (q' := y) (q := y) (by positivity) (by linarith) (by rw [sub_self, abs_zero, u_eq]; norm_num) (n := 2) (by norm_num) (by norm_num) hD hD2 m2 e2
  obtain ⟨p3, s3, b3⟩ := term_bound (q' := z) (q := z) (by positivity) (by linarith) (by rw [sub_self, abs_zero, u_eq]; norm_num) (n := 2) (by norm_num) (by norm_num) hD hD2 m3 e3
  obtain ⟨p4, s4, b4⟩ := term_bound (q' := rnd32 (x * y)) (q := x * y) (by positivity) (by linarith) g4 (n := 4) (by norm_num) (by norm_num) hD hD2 m4 e4
  obtain ⟨p5, s5, b5⟩ := term_bound (q' := rnd32 (y * z)) (q := y * z) (by positivity) (by linarith) g5 (n := 4) (by norm_num) (by norm_num) hD hD2 m5 e5
  obtain ⟨p6, s6, b6⟩ := term_bound (q' := rnd32 (z * x)) (q := z * x) (by positivity) (by linarith) g6 (n := 4) (by norm_num) (by norm_num) hD hD2 m6 e6
  obtain ⟨p7, s7, b7⟩ := term_bound (q' := rnd32 (rnd32 (x * y) * z)) (q := x * y * z) (by positivity) (by linarith) g7 (n := 8) (by norm_num) (by norm_num) hD hD2 m7 e7
  have hB : |rnd32 ((1) * a0)| + |rnd32 ((x) * a1)| + |rnd32 ((y) * a2)| + |rnd32 ((z) * a3)| + |rnd32 ((rnd32 (x * y)) * a4)| + |rnd32 ((rnd32 (y * z)) * a5)| + |rnd32 ((rnd32 (z * x)) * a6)| + |rnd32 ((rnd32 (rnd32 (x * y) * z)) * a7)| ≤ 36 * D + 160 * eta := by
    have : 0 ≤ eta := by rw [eta_eq]; positivity
    linarith
  obtain ⟨r, hr, he⟩ := sum8 hlast hB (by rw [eta_eq]; norm_num at *; linarith)
  refine ⟨r, ?_, ?_⟩
  · rw [← hr]
    have e : interpMember rows last [1, x, y, z, rnd32 (x * y), rnd32 (y * z), rnd32 (z * x), rnd32 (rnd32 (x * y) * z)] ([d0, d1, d2, d3, d4, d5, d6, d7].map .fin) = last.sum (entry (List.zipWith float32.mul
        ([1, x, y, z, rnd32 (x * y), rnd32 (y * z), rnd32 (z * x), rnd32 (rnd32 (x * y) * z)].map .fin)
        [dotF (rows 0) ([1, 0, 0, 0, 0, 0, 0, 0].map .fin) ([d0, d1, d2, d3, d4, d5, d6, d7].map .fin), dotF (rows 1) ([-1, 0, 0, 0, 1, 0, 0, 0].map .fin) ([d0, d1, d2, d3, d4, d5, d6, d7].map .fin), dotF (rows 2) ([-1, 0, 1, 0, 0, 0, 0, 0].map .fin) ([d0, d1, d2, d3, d4, d5, d6, d7].map .fin), dotF (rows 3) ([-1, 1, 0, 0, 0, 0, 0, 0].map .fin) ([d0, d1, d2, d3, d4, d5, d6, d7].map .fin), dotF (rows 4) ([1, 0, -1, 0, -1, 0, 1, 0].map .fin) ([d0, d1, d2, d3, d4, d5, d6, d7].map .fin), dotF (rows 5) ([1, -1, -1, 1, 0, 0, 0, 0].map .fin) ([d0, d1, d2, d3, d4, d5, d6, d7].map .fin), dotF (rows 6) ([1, -1, 0, 0, -1, 1, 0, 0].map .fin) ([d0, d1, d2, d3, d4, d5, d6, d7].map .fin), dotF (rows 7) ([-1, 1, 1, -1, 1, -1, -1, 1].map .fin) ([d0, d1, d2, d3, d4, d5, d6, d7].map .fin)])) := rfl
    rw [e, r0, r1, r2, r3, r4, r5, r6, r7]
    simp only [List.map_cons, List.map_nil, List.zipWith_cons_cons, List.zipWith_nil_right, p0, p1, p2, p3, p4, p5, p6, p7]
  · have key : Interp.interpMember (Interp.qOf ⟨x, y, z⟩) [d0, d1, d2, d3, d4, d5, d6, d7] =
        (1) * (1 * d0 + 0 * d1 + 0 * d2 + 0 * d3 + 0 * d4 + 0 * d5 + 0 * d6 + 0 * d7) + (x) * (-1 * d0 + 0 * d1 + 0 * d2 + 0 * d3 + 1 * d4 + 0 * d5 + 0 * d6 + 0 * d7) + (y) * (-1 * d0 + 0 * d1 + 1 * d2 + 0 * d3 + 0 * d4 + 0 * d5 + 0 * d6 + 0 * d7) + (z) * (-1 * d0 + 1 * d1 + 0 * d2 + 0 * d3 + 0 * d4 + 0 * d5 + 0 * d6 + 0 * d7) + (x * y) * (1 * d0 + 0 * d1 + -1 * d2 + 0 * d3 + -1 * d4 + 0 * d5 + 1 * d6 + 0 * d7) + (y * z) * (1 * d0 + -1 * d1 + -1 * d2 + 1 * d3 + 0 * d4 + 0 * d5 + 0 * d6 + 0 * d7) + (z * x) * (1 * d0 + -1 * d1 + 0 * d2 + 0 * d3 + -1 * d4 + 1 * d5 + 0 * d6 + 0 * d7) + (x * y * z) * (-1 * d0 + 1 * d1 + 1 * d2 + -1 * d3 + 1 * d4 + -1 * d5 + -1 * d6 + 1 * d7) := by
      simp only [Interp.interpMember, Interp.qOf, Interp.interpTable, Interp.rowDot, List.map_cons, List.map_nil, List.zipWith_cons_cons,
        List.zipWith_nil_right, List.sum_cons, List.sum_nil]
      ring
    rw [key]
    rw [u_eq, eta_eq] at *
    clear key
    generalize rnd32 ((1) * a0) = P0 at *
    generalize rnd32 ((x) * a1) = P1 at *
    generalize rnd32 ((y) * a2) = P2 at *
    generalize rnd32 ((z) * a3) = P3 at *
    generalize rnd32 ((rnd32 (x * y)) * a4) = P4 at *
    generalize rnd32 ((rnd32 (y * z)) * a5) = P5 at *
    generalize rnd32 ((rnd32 (z * x)) * a6) = P6 at *
    generalize rnd32 ((rnd32 (rnd32 (x * y) * z)) * a7) = P7 at *
    generalize (1) * (1 * d0 + 0 * d1 + 0 * d2 + 0 * d3 + 0 * d4 + 0 * d5 + 0 * d6 + 0 * d7) = T0 at *
    generalize (x) * (-1 * d0 + 0 * d1 + 0 * d2 + 0 * d3 + 1 * d4 + 0 * d5 + 0 * d6 + 0 * d7) = T1 at *
    generalize (y) * (-1 * d0 + 0 * d1 + 1 * d2 + 0 * d3 + 0 * d4 + 0 * d5 + 0 * d6 + 0 * d7) = T2 at *
    generalize (z) * (-1 * d0 + 1 * d1 + 0 * d2 + 0 * d3 + 0 * d4 + 0 * d5 + 0 * d6 + 0 * d7) = T3 at *
    generalize (x * y) * (1 * d0 + 0 * d1 + -1 * d2 + 0 * d3 + -1 * d4 + 0 * d5 + 1 * d6 + 0 * d7) = T4 at *
    generalize (y * z) * (1 * d0 + -1 * d1 + -1 * d2 + 1 * d3 + 0 * d4 + 0 * d5 + 0 * d6 + 0 * d7) = T5 at *
    generalize (z * x) * (1 * d0 + -1 * d1 + 0 * d2 + 0 * d3 + -1 * d4 + 1 * d5 + 0 * d6 + 0 * d7) = T6 at *
    generalize (x * y * z) * (-1 * d0 + 1 * d1 + 1 * d2 + -1 * d3 + 1 * d4 + -1 * d5 + -1 * d6 + 1 * d7) = T7 at *
    obtain ⟨u0, v0⟩ := abs_le.1 s0
    obtain ⟨u1, v1⟩ := abs_le.1 s1
    obtain ⟨u2, v2⟩ := abs_le.1 s2
    obtain ⟨u3, v3⟩ := abs_le.1 s3
    obtain ⟨u4, v4⟩ := abs_le.1 s4
    obtain ⟨u5, v5⟩ := abs_le.1 s5
    obtain ⟨u6, v6⟩ := abs_le.1 s6
    obtain ⟨u7, v7⟩ := abs_le.1 s7
    obtain ⟨w1, w2⟩ := abs_le.1 he
    rw [abs_le]
    norm_num at *
    constructor <;> linarith

end Vox.InterpF
