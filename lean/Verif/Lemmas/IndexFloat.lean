/-
Error bounds of the index computations in `float`.
-/
import Verif.Model.IndexFloat
import Verif.Lemmas.Ieee
import Mathlib.Tactic.Linarith
import Mathlib.Tactic.Ring
import Mathlib.Tactic.Positivity
import Mathlib.Tactic.FieldSimp
import Mathlib.Tactic.NormNum

namespace Vox.IndexF

open Ieee

/-- Half a unit in the last place of one. -/
def u : ℚ := 1 / 2 ^ 24

/-- Half of the smallest positive `float`. -/
def eta : ℚ := 1 / 2 ^ 150

theorem pow2_neg (n : ℕ) : pow2 (-(n : ℤ)) = 1 / 2 ^ n := by
  rw [pow2_eq, zpow_neg, zpow_natCast, one_div]

theorem pow2_pos_nat (n : ℕ) : pow2 (n : ℤ) = 2 ^ n := by
  rw [pow2_eq, zpow_natCast]

theorem rnd32_err (x : ℚ) : |rnd32 x - x| ≤ u * |x| + eta := by
  unfold rnd32
  rcases le_or_gt (pow2 (-149 + (24 : ℕ) - 1)) |x| with h | h
  · have := rne_relative h
    have e : pow2 (-((24 : ℕ) : ℤ)) = u := by rw [pow2_neg]; rfl
    rw [e] at this
    have : (0 : ℚ) ≤ eta := by unfold eta; positivity
    linarith
  · have hu : 0 ≤ u * |x| := mul_nonneg (by unfold u; positivity) (abs_nonneg x)
    rcases eq_or_ne x 0 with rfl | hx
    · rw [rne_zero]; simp; unfold eta; positivity
    have herr := rne_error (p := 24) (qmin := -149) x
    have hl : lastDigit 24 (-149) x = -149 := by
      have h1 := (ilog2_spec hx).1
      have h2 : ilog2 x < -149 + (24 : ℕ) - 1 := pow2_lt_iff.1 (lt_of_le_of_lt h1 h)
      unfold lastDigit
      push_cast at *
      omega
    rw [hl] at herr
    have e : pow2 (-149) / 2 = eta := by
      have := pow2_neg 149
      push_cast at this
      rw [this]
      unfold eta
      norm_num
    linarith

theorem rnd64_rel {x : ℚ} (h : pow2 (-1022) ≤ |x|) : |rnd64 x - x| ≤ 1 / 2 ^ 53 * |x| := by
  have := rne_relative (p := 53) (qmin := -1074) (x := x) (by simpa using h)
  have e : pow2 (-((53 : ℕ) : ℤ)) = 1 / 2 ^ 53 := pow2_neg 53
  rw [e] at this
  exact this

/-- The sizes considered. -/
structure Size (s : ℚ) : Prop where
  float : rnd32 s = s
  low : 1 / 2 ^ 90 ≤ s
  high : s ≤ 2 ^ 90

theorem Size.pos {s : ℚ} (h : Size s) : 0 < s := lt_of_lt_of_le (by positivity) h.low

theorem Size.form {s : ℚ} (h : Size s) : ∃ k e : ℤ, |k| ≤ 2 ^ 24 ∧ -149 ≤ e ∧ s = k * pow2 e := by
  obtain ⟨k, e, h1, h2, h3⟩ := rne_form (p := 24) (qmin := -149) s
  exact ⟨k, e, h1, h2, by rw [← h3]; exact h.float.symm⟩

theorem rnd32_int {n : ℤ} (h : |n| ≤ 2 ^ 24) : rnd32 n = n := by
  have := rne_exact (p := 24) (qmin := -149) (by norm_num) h (show (-149 : ℤ) ≤ 0 by norm_num)
  have e : pow2 0 = 1 := by simp [pow2]
  rw [e, mul_one] at this
  exact this

theorem inverse_err {s : ℚ} (h : Size s) : |inverse s - 1 / s| ≤ 3 / 2 * u * (1 / s) := by
  have hs := h.pos
  have hi : 0 < 1 / s := by positivity
  have hlo : 1 / 2 ^ 90 ≤ 1 / s := one_div_le_one_div_of_le hs h.high
  have hn : pow2 (-1022) ≤ |1 / s| := by
    rw [abs_of_pos hi]
    refine le_trans ?_ hlo
    have := pow2_neg 90
    rw [← this]
    exact pow2_le (by norm_num)
  have h1 := rnd64_rel hn
  have h2 := rnd32_err (rnd64 (1 / s))
  rw [abs_of_pos hi] at h1
  have h3 : |rnd64 (1 / s)| ≤ 1 / s + 1 / 2 ^ 53 * (1 / s) := by
    have := abs_sub_abs_le_abs_sub (rnd64 (1 / s)) (1 / s)
    rw [abs_of_pos hi] at this
    linarith
  have h4 : |inverse s - 1 / s| ≤ |inverse s - rnd64 (1 / s)| + |rnd64 (1 / s) - 1 / s| := abs_sub_le _ _ _
  have h5 : |inverse s - rnd64 (1 / s)| ≤ u * |rnd64 (1 / s)| + eta := h2
  unfold u eta at *
  norm_num at *
  linarith

/-- What is floored differs little from the quotient. -/
theorem raw_err {S : ℚ} (h : Size S) (p : ℚ) :
    |rnd32 (rnd32 (p * inverse S) + kEps) - p / S| ≤ 4 * u * |p / S| + 3 / 2 / 1000000 := by
  have hS := h.pos
  have h1 : |p * inverse S - p / S| ≤ 3 / 2 * u * |p / S| := by
    have e : p * inverse S - p / S = p * (inverse S - 1 / S) := by ring
    rw [e, abs_mul]
    have := mul_le_mul_of_nonneg_left (inverse_err h) (abs_nonneg p)
    have e2 : |p / S| = |p| * (1 / S) := by rw [abs_div, abs_of_pos hS]; ring
    rw [e2]
    linarith
  have h2 := rnd32_err (p * inverse S)
  have h3 := rnd32_err (rnd32 (p * inverse S) + kEps)
  have h4 := rnd32_err (1 / 1000000)
  change |kEps - 1 / 1000000| ≤ _ at h4
  rw [abs_of_pos (show (0 : ℚ) < 1 / 1000000 by norm_num)] at h4
  have hk : |kEps| ≤ 1 / 1000000 + (u * (1 / 1000000) + eta) := by
    have := abs_sub_abs_le_abs_sub kEps (1 / 1000000)
    rw [abs_of_pos (show (0 : ℚ) < 1 / 1000000 by norm_num)] at this
    linarith
  have a1 := abs_sub_abs_le_abs_sub (p * inverse S) (p / S)
  have a2 := abs_sub_abs_le_abs_sub (rnd32 (p * inverse S)) (p * inverse S)
  have a3 := abs_add_le (rnd32 (p * inverse S)) kEps
  have t : |rnd32 (rnd32 (p * inverse S) + kEps) - p / S| ≤
      |rnd32 (rnd32 (p * inverse S) + kEps) - (rnd32 (p * inverse S) + kEps)| + (|rnd32 (p * inverse S) - p * inverse S| +
        (|p * inverse S - p / S| + |kEps|)) := by
    have e : rnd32 (rnd32 (p * inverse S) + kEps) - p / S = (rnd32 (rnd32 (p * inverse S) + kEps) - (rnd32 (p * inverse S) + kEps)) +
      ((rnd32 (p * inverse S) - p * inverse S) + ((p * inverse S - p / S) + kEps)) := by ring
    rw [e]
    refine (abs_add_le _ _).trans (add_le_add le_rfl ((abs_add_le _ _).trans (add_le_add le_rfl (abs_add_le _ _))))
  have hx := abs_nonneg (p / S)
  generalize |rnd32 (rnd32 (p * inverse S) + kEps) - p / S| = A at *
  generalize |rnd32 (rnd32 (p * inverse S) + kEps) - (rnd32 (p * inverse S) + kEps)| = B at *
  generalize |rnd32 (p * inverse S) - p * inverse S| = C at *
  generalize |p * inverse S - p / S| = D at *
  generalize |rnd32 (p * inverse S) + kEps| = E at *
  generalize |rnd32 (p * inverse S)| = F at *
  generalize |p * inverse S| = G at *
  generalize |p / S| = X at *
  generalize |kEps| = K at *
  unfold u eta at *
  norm_num at *
  linarith

/-- A point clearly inside a cell is assigned to it. -/
theorem gridIndex1_inside {S : ℚ} (h : Size S) {p X : ℚ} {i : ℤ} (hX : |p / S| ≤ X) (hlo : (i : ℚ) + (4 * u * X + 3 / 2 / 1000000) ≤ p / S)
    (hhi : p / S < (i : ℚ) + 1 - (4 * u * X + 3 / 2 / 1000000)) : gridIndex1 p (inverse S) = i := by
  have e := raw_err h p
  have hu : (0 : ℚ) < u := by unfold u; positivity
  have : 4 * u * |p / S| ≤ 4 * u * X := mul_le_mul_of_nonneg_left hX (by linarith)
  obtain ⟨e1, e2⟩ := abs_le.1 e
  unfold gridIndex1
  rw [Int.floor_eq_iff]
  constructor <;> linarith

theorem center1_eq {s : ℚ} (h : Size s) {i : ℤ} (hi : |i| ≤ 2 ^ 24) : center1 i s = rnd32 (((i : ℚ) + 1 / 2) * s) := by
  obtain ⟨k, e, hk, he, hs⟩ := h.form
  unfold center1
  rw [rnd32_int hi]
  have hb : |2 * i + 1| ≤ 2 ^ 26 := by
    rw [abs_le] at *
    constructor <;> omega
  have p1 : pow2 (-1) = 1 / 2 := by have := pow2_neg 1; push_cast at this; simpa using this
  have e1 : rnd64 ((i : ℚ) + 1 / 2) = (i : ℚ) + 1 / 2 := by
    have := rne_exact (p := 53) (qmin := -1074) (k := 2 * i + 1) (e := -1) (by norm_num)
      (hb.trans (by norm_num)) (by norm_num)
    have e : (((2 * i + 1 : ℤ) : ℚ)) * pow2 (-1) = (i : ℚ) + 1 / 2 := by rw [p1]; push_cast; ring
    rw [e] at this
    exact this
  have e2 : rnd64 (((i : ℚ) + 1 / 2) * s) = ((i : ℚ) + 1 / 2) * s := by
    have hp : |(2 * i + 1) * k| ≤ 2 ^ 53 := by
      rw [abs_mul]
      calc |2 * i + 1| * |k| ≤ 2 ^ 26 * 2 ^ 24 := mul_le_mul hb hk (abs_nonneg _) (by norm_num)
        _ ≤ 2 ^ 53 := by norm_num
    have := rne_exact (p := 53) (qmin := -1074) (k := (2 * i + 1) * k) (e := -1 + e) (by norm_num) hp (by omega)
    have e' : ((((2 * i + 1) * k : ℤ) : ℚ)) * pow2 (-1 + e) = ((i : ℚ) + 1 / 2) * s := by
      rw [pow2_add, p1, hs]; push_cast; ring
    rw [e'] at this
    exact this
  rw [e1, e2]

theorem eta_le {s : ℚ} (h : Size s) : eta ≤ 1 / 2 ^ 60 * s := by
  have := h.low
  have h2 := mul_le_mul_of_nonneg_left this (show (0 : ℚ) ≤ 1 / 2 ^ 60 by positivity)
  refine le_trans ?_ h2
  unfold eta
  norm_num

theorem center1_err {s : ℚ} (h : Size s) {i : ℤ} (hi : |i| ≤ 2 ^ 24) :
    |center1 i s - ((i : ℚ) + 1 / 2) * s| ≤ (u * |(i : ℚ) + 1 / 2| + 1 / 2 ^ 60) * s := by
  rw [center1_eq h hi]
  have := rnd32_err (((i : ℚ) + 1 / 2) * s)
  rw [abs_mul, abs_of_pos h.pos] at this
  have e := eta_le h
  linarith

theorem origin1_err {s : ℚ} (h : Size s) {i : ℤ} (hi : |i| ≤ 2 ^ 24) :
    |origin1 i s - (i : ℚ) * s| ≤ (u * |(i : ℚ)| + 1 / 2 ^ 60) * s := by
  unfold origin1
  rw [rnd32_int hi]
  have := rnd32_err ((i : ℚ) * s)
  rw [abs_mul, abs_of_pos h.pos] at this
  have e := eta_le h
  linarith

theorem blockSize_eq {s : ℚ} (h : Size s) {k : ℕ} (hk : k ≤ 24) : blockSize s (2 ^ k) = 2 ^ k * s := by
  obtain ⟨m, e, hm, he, hs⟩ := h.form
  have e1 : rnd32 ((2 ^ k : ℕ) : ℚ) = 2 ^ k := by
    have := rnd32_int (n := 2 ^ k) (by rw [abs_of_nonneg (by positivity)]; exact pow_le_pow_right₀ (by norm_num) hk)
    push_cast at this ⊢
    exact this
  unfold blockSize
  rw [e1]
  have := rne_exact (p := 24) (qmin := -149) (k := m) (e := k + e) (by norm_num) hm (by omega)
  have e2 : (m : ℚ) * pow2 (k + e) = s * 2 ^ k := by rw [pow2_add, pow2_pos_nat, hs]; ring
  rw [e2] at this
  show rne 24 (-149) (s * 2 ^ k) = _
  rw [this]
  ring

/-- Rounding a small multiple of the size to its index. -/
theorem originIndex1_near {S : ℚ} (h : Size S) {p : ℚ} {i : ℤ} (hi : |i| ≤ 2 ^ 21) (hp : |p / S - i| ≤ 1 / 8) :
    originIndex1 p (inverse S) = i := by
  have hS := h.pos
  have h1 : |p * inverse S - p / S| ≤ 3 / 2 * u * |p / S| := by
    have e : p * inverse S - p / S = p * (inverse S - 1 / S) := by ring
    rw [e, abs_mul]
    have := mul_le_mul_of_nonneg_left (inverse_err h) (abs_nonneg p)
    have e2 : |p / S| = |p| * (1 / S) := by rw [abs_div, abs_of_pos hS]; ring
    rw [e2]
    linarith
  have h2 := rnd32_err (p * inverse S)
  have a1 := abs_sub_abs_le_abs_sub (p * inverse S) (p / S)
  have hib : |(i : ℚ)| ≤ 2 ^ 21 := by exact_mod_cast hi
  have a2 := abs_sub_abs_le_abs_sub (p / S) i
  have hx : |p / S| ≤ 2 ^ 21 + 1 / 8 := by linarith
  have t : |rnd32 (p * inverse S) - i| < 1 / 2 := by
    have e : rnd32 (p * inverse S) - i = (rnd32 (p * inverse S) - p * inverse S) + ((p * inverse S - p / S) + (p / S - i)) := by ring
    rw [e]
    refine lt_of_le_of_lt ((abs_add_le _ _).trans (add_le_add le_rfl (abs_add_le _ _))) ?_
    generalize |rnd32 (p * inverse S) - p * inverse S| = A at *
    generalize |p * inverse S - p / S| = B at *
    generalize |p / S - (i : ℚ)| = C at *
    generalize |p / S| = X at *
    generalize |p * inverse S| = Y at *
    unfold u eta at *
    norm_num at *
    linarith
  obtain ⟨t1, t2⟩ := abs_lt.1 t
  unfold originIndex1 roundHalfAway
  split_ifs
  · rw [Int.floor_eq_iff]; constructor <;> linarith
  · rw [Int.ceil_eq_iff]; constructor <;> linarith

/-- The arithmetic of the bound: block offset `B`, voxel `V`, side `N`, all in voxels. -/
theorem axis_bounds {B V N O C W D : ℚ} (hN2 : N ≤ 1024) (hV0 : 0 ≤ V) (hV1 : V + 1 ≤ N) (hg : |B + V| ≤ 524288)
    (ho : |O - B| ≤ 1 / 16777216 * |B| + 1 / 1152921504606846976 * N)
    (hc : |C - (V + 1 / 2)| ≤ 1 / 16777216 * |V + 1 / 2| + 1 / 1152921504606846976)
    (hw : |W - (O + C)| ≤ 1 / 16777216 * |O + C| + 1 / 1152921504606846976)
    (hd : |D - (W - O)| ≤ 1 / 16777216 * |W - O| + 1 / 1152921504606846976) :
    B + 1 / 3 ≤ W ∧ W ≤ B + N - 1 / 3 ∧ |W| ≤ 530000 ∧ V + 1 / 3 ≤ D ∧ D ≤ V + 2 / 3 ∧ |D| ≤ 2000 := by
  have hB : |B| ≤ 525312 := by
    have := abs_sub (B + V) V
    rw [add_sub_cancel_right, abs_of_nonneg hV0] at this
    linarith
  rw [abs_of_nonneg (show (0 : ℚ) ≤ V + 1 / 2 by linarith)] at hc
  obtain ⟨o1, o2⟩ := abs_le.1 (ho.trans (show _ ≤ 1 / 16777216 * 525312 + 1 / 1152921504606846976 * 1024 by linarith))
  obtain ⟨c1, c2⟩ := abs_le.1 (hc.trans (show _ ≤ 1 / 16777216 * 1024 + 1 / 1152921504606846976 by linarith))
  obtain ⟨g1, g2⟩ := abs_le.1 hg
  have hOC : |O + C| ≤ 526000 := by
    rw [abs_le]
    constructor <;> linarith
  obtain ⟨w1, w2⟩ := abs_le.1 (hw.trans (show _ ≤ 1 / 16777216 * 526000 + 1 / 1152921504606846976 by linarith))
  have hWO : |W - O| ≤ 1100 := by
    rw [abs_le]
    constructor <;> linarith
  obtain ⟨d1, d2⟩ := abs_le.1 (hd.trans (show _ ≤ 1 / 16777216 * 1100 + 1 / 1152921504606846976 by linarith))
  rw [abs_le, abs_le]
  refine ⟨?_, ?_, ⟨?_, ?_⟩, ?_, ?_, ?_, ?_⟩ <;> linarith

/-- Block and voxel of the coordinates of a voxel, one axis. -/
theorem axis_lookup {s : ℚ} (h : Size s) (hS : s ≤ 2 ^ 80) {k : ℕ} (hk : k ≤ 10) {b v : ℤ} (hv0 : 0 ≤ v) (hv1 : v < 2 ^ k)
    (hg : |b * 2 ^ k + v| ≤ 2 ^ 19) :
    gridIndex1 (rnd32 (origin1 b (2 ^ k * s) + center1 v s)) (inverse (2 ^ k * s)) = b ∧
    gridIndex1 (rnd32 (rnd32 (origin1 b (2 ^ k * s) + center1 v s) - origin1 b (2 ^ k * s))) (inverse s) = v := by
  have hs := h.pos
  have hN1 : (1 : ℚ) ≤ 2 ^ k := one_le_pow₀ (by norm_num)
  have hN2 : (2 : ℚ) ^ k ≤ 1024 := by
    calc (2 : ℚ) ^ k ≤ 2 ^ 10 := pow_le_pow_right₀ (by norm_num) hk
      _ = 1024 := by norm_num
  have hK2 : (2 : ℤ) ^ k ≤ 1024 := by exact_mod_cast hN2
  have hK1 : (1 : ℤ) ≤ 2 ^ k := by exact_mod_cast hN1
  have hB : Size (2 ^ k * s) := by
    refine ⟨?_, ?_, ?_⟩
    · have := blockSize_eq h (k := k) (by omega)
      rw [← this]
      exact rne_idem (by norm_num) _
    · have := h.low
      have := mul_le_mul_of_nonneg_right hN1 hs.le
      linarith
    · calc (2 : ℚ) ^ k * s ≤ 1024 * 2 ^ 80 := mul_le_mul hN2 hS hs.le (by norm_num)
        _ = 2 ^ 90 := by norm_num
  have hgq : |(b : ℚ) * 2 ^ k + v| ≤ 2 ^ 19 := by exact_mod_cast hg
  have hvq0 : (0 : ℚ) ≤ v := by exact_mod_cast hv0
  have hvq1 : (v : ℚ) + 1 ≤ 2 ^ k := by exact_mod_cast hv1
  have hbb : |(b : ℚ) * 2 ^ k| ≤ 2 ^ 19 + 1024 := by
    have := abs_sub ((b : ℚ) * 2 ^ k + v) v
    rw [add_sub_cancel_right, abs_of_nonneg hvq0] at this
    linarith
  have hb24 : |b| ≤ 2 ^ 24 := by
    have hbz : |b * 2 ^ k| ≤ 2 ^ 19 + 1024 := by exact_mod_cast hbb
    rw [abs_mul, abs_of_pos (show (0 : ℤ) < 2 ^ k by omega)] at hbz
    have := mul_le_mul_of_nonneg_left hK1 (abs_nonneg b)
    have e : (2 : ℤ) ^ 19 + 1024 ≤ 2 ^ 24 := by norm_num
    linarith
  have hv24 : |v| ≤ 2 ^ 24 := by
    rw [abs_of_nonneg hv0]
    have e : (1024 : ℤ) ≤ 2 ^ 24 := by norm_num
    linarith
  have ho := origin1_err hB hb24
  have hc := center1_err h hv24
  set o := origin1 b (2 ^ k * s)
  set c := center1 v s
  have hw := rnd32_err (o + c)
  have hd := rnd32_err (rnd32 (o + c) - o)
  set w := rnd32 (o + c)
  set d := rnd32 (w - o)
  have heta := eta_le h
  -- in units of the voxel size
  obtain ⟨O, hO⟩ : ∃ O, o = O * s := ⟨o / s, by field_simp⟩
  obtain ⟨C, hC⟩ : ∃ C, c = C * s := ⟨c / s, by field_simp⟩
  obtain ⟨W, hW⟩ : ∃ W, w = W * s := ⟨w / s, by field_simp⟩
  obtain ⟨D, hD⟩ : ∃ D, d = D * s := ⟨d / s, by field_simp⟩
  have scale : ∀ x e : ℚ, |x * s| ≤ e * s → |x| ≤ e := by
    intro x e hx
    rw [abs_mul, abs_of_pos hs] at hx
    exact le_of_mul_le_mul_right hx hs
  have ho' : |O - b * 2 ^ k| ≤ u * |(b : ℚ) * 2 ^ k| + 1 / 2 ^ 60 * 2 ^ k := by
    refine scale _ _ ?_
    have e : (O - b * 2 ^ k) * s = o - b * (2 ^ k * s) := by rw [hO]; ring
    rw [e]
    refine ho.trans (le_of_eq ?_)
    rw [abs_mul, abs_of_pos (show (0 : ℚ) < 2 ^ k by linarith)]
    ring
  have hc' : |C - ((v : ℚ) + 1 / 2)| ≤ u * |(v : ℚ) + 1 / 2| + 1 / 2 ^ 60 := by
    refine scale _ _ ?_
    have e : (C - ((v : ℚ) + 1 / 2)) * s = c - ((v : ℚ) + 1 / 2) * s := by rw [hC]; ring
    rw [e]
    exact hc
  have hw' : |W - (O + C)| ≤ u * |O + C| + 1 / 2 ^ 60 := by
    refine scale _ _ ?_
    have e : (W - (O + C)) * s = w - (o + c) := by rw [hW, hO, hC]; ring
    rw [e]
    have e2 : |o + c| = |O + C| * s := by rw [hO, hC, ← add_mul, abs_mul, abs_of_pos hs]
    rw [e2] at hw
    linarith
  have hd' : |D - (W - O)| ≤ u * |W - O| + 1 / 2 ^ 60 := by
    refine scale _ _ ?_
    have e : (D - (W - O)) * s = d - (w - o) := by rw [hD, hW, hO]; ring
    rw [e]
    have e2 : |w - o| = |W - O| * s := by rw [hW, hO, ← sub_mul, abs_mul, abs_of_pos hs]
    rw [e2] at hd
    linarith
  have n1 : u = 1 / 16777216 := by unfold u; norm_num
  have n2 : (1 : ℚ) / 2 ^ 60 = 1 / 1152921504606846976 := by norm_num
  have n3 : (2 : ℚ) ^ 19 = 524288 := by norm_num
  rw [n1, n2] at ho' hc' hw' hd'
  rw [n3] at hgq
  obtain ⟨hWlo, hWhi, hWabs, hDlo, hDhi, hDabs⟩ := axis_bounds hN2 hvq0 hvq1 hgq ho' hc' hw' hd'
  constructor
  · have e : w / (2 ^ k * s) = W / 2 ^ k := by rw [hW]; field_simp
    have hp : (0 : ℚ) < 2 ^ k := by linarith
    refine gridIndex1_inside hB (X := 530000 / 2 ^ k) ?_ ?_ ?_
    · rw [e, abs_div, abs_of_pos hp]
      exact div_le_div_of_nonneg_right hWabs hp.le
    · rw [e, le_div_iff₀ hp, n1]
      have : ((b : ℚ) + (4 * (1 / 16777216) * (530000 / 2 ^ k) + 3 / 2 / 1000000)) * 2 ^ k =
          b * 2 ^ k + 4 * (1 / 16777216) * 530000 + 3 / 2 / 1000000 * 2 ^ k := by field_simp; ring
      rw [this]
      linarith
    · rw [e, div_lt_iff₀ hp, n1]
      have : ((b : ℚ) + 1 - (4 * (1 / 16777216) * (530000 / 2 ^ k) + 3 / 2 / 1000000)) * 2 ^ k =
          b * 2 ^ k + 2 ^ k - 4 * (1 / 16777216) * 530000 - 3 / 2 / 1000000 * 2 ^ k := by field_simp; ring
      rw [this]
      linarith
  · have e : d / s = D := by rw [hD]; field_simp
    refine gridIndex1_inside h (X := 2000) ?_ ?_ ?_
    · rw [e]; exact hDabs
    · rw [e, n1]; linarith
    · rw [e, n1]; linarith

end Vox.IndexF
