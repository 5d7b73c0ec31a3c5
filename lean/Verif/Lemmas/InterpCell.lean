/-
The cell in which `float` interpolation looks, axis by axis.
-/
import Verif.Lemmas.InterpFloat

namespace Vox.InterpF

open Layer Grid Ieee Spec IndexF

open RoundErr (u_eq eta_eq rnd32_nonneg rnd_fin)

variable {V : Type}

theorem size_block {s : ℚ} (h : Size s) (hS : s ≤ 2 ^ 80) {k : ℕ} (hk : k ≤ 10) : Size (2 ^ k * s) ∧ (1 : ℚ) ≤ 2 ^ k ∧ (2 : ℚ) ^ k ≤ 1024 := by
  have hs := h.pos
  have hN1 : (1 : ℚ) ≤ 2 ^ k := one_le_pow₀ (by norm_num)
  have hN2 : (2 : ℚ) ^ k ≤ 1024 := by
    calc (2 : ℚ) ^ k ≤ 2 ^ 10 := pow_le_pow_right₀ (by norm_num) hk
      _ = 1024 := by norm_num
  refine ⟨⟨?_, ?_, ?_⟩, hN1, hN2⟩
  · have := blockSize_eq h (k := k) (by omega)
    rw [← this]
    exact rne_idem (by norm_num) _
  · have := h.low
    have := mul_le_mul_of_nonneg_right hN1 hs.le
    linarith
  · calc (2 : ℚ) ^ k * s ≤ 1024 * 2 ^ 80 := mul_le_mul hN2 hS hs.le (by norm_num)
      _ = 2 ^ 90 := by norm_num

theorem scale_le {s x e : ℚ} (hs : 0 < s) (h : |x * s| ≤ e * s) : |x| ≤ e := by
  rw [abs_mul, abs_of_pos hs] at h
  exact le_of_mul_le_mul_right h hs

/-- A rounded difference or sum, in voxels. -/
theorem rnd_units {s : ℚ} (h : Size s) (X : ℚ) : |rnd32 (X * s) / s - X| ≤ u * |X| + 1 / 2 ^ 60 := by
  have hs := h.pos
  refine scale_le hs ?_
  have e : (rnd32 (X * s) / s - X) * s = rnd32 (X * s) - X * s := by field_simp
  rw [e]
  have := rnd32_err (X * s)
  rw [abs_mul, abs_of_pos hs] at this
  have := eta_le h
  linarith

/-- The centre of a voxel, in voxels. -/
theorem center_units {s : ℚ} (h : Size s) (hS : s ≤ 2 ^ 80) {k : ℕ} (hk : k ≤ 10) {b v : ℤ} (hv0 : 0 ≤ v) (hv1 : v < 2 ^ k) {Y : ℚ}
    (hY : |(b : ℚ) * 2 ^ k + v| ≤ Y) (hY2 : Y ≤ 2 ^ 20) :
    |rnd32 (origin1 b (2 ^ k * s) + center1 v s) / s - ((b : ℚ) * 2 ^ k + v + 1 / 2)| ≤ u * (2 * Y + 2 * 2 ^ k + 1) := by
  obtain ⟨hB, hN1, hN2⟩ := size_block h hS hk
  have hs := h.pos
  have hvq0 : (0 : ℚ) ≤ v := by exact_mod_cast hv0
  have hvq1 : (v : ℚ) + 1 ≤ 2 ^ k := by exact_mod_cast hv1
  have hbb : |(b : ℚ) * 2 ^ k| ≤ Y + 2 ^ k := by
    have := abs_sub ((b : ℚ) * 2 ^ k + v) v
    rw [add_sub_cancel_right, abs_of_nonneg hvq0] at this
    linarith
  have hb24 : |b| ≤ 2 ^ 24 := by
    have h1 : |(b : ℚ)| ≤ 2 ^ 24 := by
      rw [abs_mul, abs_of_pos (by positivity : (0 : ℚ) < 2 ^ k)] at hbb
      have := mul_le_mul_of_nonneg_left hN1 (abs_nonneg (b : ℚ))
      have e : (2 : ℚ) ^ 20 + 1024 ≤ 2 ^ 24 := by norm_num
      linarith
    exact_mod_cast h1
  have hv24 : |v| ≤ 2 ^ 24 := by
    have h1 : |(v : ℚ)| ≤ 2 ^ 24 := by
      rw [abs_of_nonneg hvq0]
      have e : (1024 : ℚ) ≤ 2 ^ 24 := by norm_num
      linarith
    exact_mod_cast h1
  have ho := origin1_err hB hb24
  have hc := center1_err h hv24
  obtain ⟨O, hO⟩ : ∃ O, origin1 b (2 ^ k * s) = O * s := ⟨origin1 b (2 ^ k * s) / s, by field_simp⟩
  obtain ⟨C, hC⟩ : ∃ C, center1 v s = C * s := ⟨center1 v s / s, by field_simp⟩
  rw [hO, hC]
  rw [hO] at ho
  rw [hC] at hc
  have e : O * s + C * s = (O + C) * s := by ring
  rw [e]
  have hw := rnd_units h (O + C)
  have ho' : |O - b * 2 ^ k| ≤ u * |(b : ℚ) * 2 ^ k| + 1 / 2 ^ 60 * 2 ^ k := by
    refine scale_le hs ?_
    have e : (O - b * 2 ^ k) * s = O * s - b * (2 ^ k * s) := by ring
    rw [e]
    refine ho.trans (le_of_eq ?_)
    rw [abs_mul, abs_of_pos (show (0 : ℚ) < 2 ^ k by linarith)]
    ring
  have hc' : |C - (v + 1 / 2)| ≤ u * |(v : ℚ) + 1 / 2| + 1 / 2 ^ 60 := by
    refine scale_le hs ?_
    have e : (C - (v + 1 / 2)) * s = C * s - (v + 1 / 2) * s := by ring
    rw [e]
    exact hc
  rw [abs_of_nonneg (show (0 : ℚ) ≤ v + 1 / 2 by linarith)] at hc'
  generalize rnd32 ((O + C) * s) / s = W at *
  generalize (b : ℚ) * 2 ^ k = B at *
  generalize (2 : ℚ) ^ k = N at *
  generalize (v : ℚ) = v at *
  have hOC : |O + C| ≤ Y + 1 / 2 + (|O - B| + |C - (v + 1 / 2)|) := by
    have e : O + C = (B + v) + (1 / 2 + ((O - B) + (C - (v + 1 / 2)))) := by ring
    rw [e]
    refine (abs_add_le _ _).trans ?_
    have h1 := abs_add_le (1 / 2 : ℚ) ((O - B) + (C - (v + 1 / 2)))
    have h2 := abs_add_le (O - B) (C - (v + 1 / 2))
    rw [abs_of_pos (by norm_num : (0 : ℚ) < 1 / 2)] at h1
    linarith
  have t : |W - (B + v + 1 / 2)| ≤ |W - (O + C)| + (|O - B| + |C - (v + 1 / 2)|) := by
    have e : W - (B + v + 1 / 2) = (W - (O + C)) + ((O - B) + (C - (v + 1 / 2))) := by ring
    rw [e]
    exact (abs_add_le _ _).trans (add_le_add le_rfl (abs_add_le _ _))
  rw [u_eq] at *
  have hY0 : 0 ≤ Y := le_trans (abs_nonneg _) hY
  generalize |W - (B + v + 1 / 2)| = a1 at *
  generalize |W - (O + C)| = a2 at *
  generalize |O - B| = a3 at *
  generalize |C - (v + 1 / 2)| = a4 at *
  generalize |O + C| = a5 at *
  generalize |B| = a6 at *
  norm_num at *
  linarith

theorem inverse_nonneg {s : ℚ} (h : Size s) : 0 ≤ inverse s := by
  have h1 := inverse_err h
  have hi : 0 < 1 / s := one_div_pos.2 h.pos
  have := (abs_le.1 h1).1
  rw [u_eq] at this
  generalize 1 / s = y at *
  norm_num at this
  linarith

/-- The rounded offset. -/
theorem offset_err {s : ℚ} (h : Size s) {c p Z : ℚ} (hZ : p - c = Z * s) (hZ2 : |Z| ≤ 5 / 4) :
    |offset1 c p (inverse s) - Z| ≤ 5 * u := by
  have hs := h.pos
  unfold offset1
  rw [hZ]
  have h1 := rnd_units h Z
  obtain ⟨T, hT⟩ : ∃ T, rnd32 (Z * s) = T * s := ⟨rnd32 (Z * s) / s, by field_simp⟩
  rw [hT] at h1 ⊢
  rw [mul_div_cancel_right₀ _ hs.ne'] at h1
  have h2 : |T * s * inverse s - T| ≤ 3 / 2 * u * |T| := by
    have e : T * s * inverse s - T = T * (s * (inverse s - 1 / s)) := by field_simp
    rw [e, abs_mul, abs_mul, abs_of_pos hs]
    have h3 := mul_le_mul_of_nonneg_left (inverse_err h) hs.le
    have e2 : s * (3 / 2 * u * (1 / s)) = 3 / 2 * u := by field_simp
    rw [e2] at h3
    have := mul_le_mul_of_nonneg_left h3 (abs_nonneg T)
    linarith
  have h4 := rnd32_err (T * s * inverse s)
  have a1 := abs_sub_abs_le_abs_sub T Z
  have a2 := abs_sub_abs_le_abs_sub (T * s * inverse s) T
  have t : |rnd32 (T * s * inverse s) - Z| ≤ |rnd32 (T * s * inverse s) - T * s * inverse s| + (|T * s * inverse s - T| + |T - Z|) := by
    have e : rnd32 (T * s * inverse s) - Z = (rnd32 (T * s * inverse s) - T * s * inverse s) + ((T * s * inverse s - T) + (T - Z)) := by ring
    rw [e]
    exact (abs_add_le _ _).trans (add_le_add le_rfl (abs_add_le _ _))
  rw [u_eq, eta_eq] at *
  generalize |rnd32 (T * s * inverse s) - Z| = A at *
  generalize |rnd32 (T * s * inverse s) - T * s * inverse s| = B at *
  generalize |T * s * inverse s - T| = C at *
  generalize |T - Z| = E at *
  generalize |T * s * inverse s| = F at *
  generalize |T| = G at *
  generalize |Z| = H at *
  norm_num at *
  linarith

theorem of_rnd_nonneg {x : ℚ} (h : ¬ rnd32 x < 0) : -(4 * eta) ≤ x := by
  by_contra hc
  push Not at hc
  have h1 := rnd32_err x
  have hx : x < 0 := by
    have : 0 < eta := by rw [eta_eq]; positivity
    linarith
  rw [abs_of_neg hx] at h1
  have := (abs_le.1 h1).2
  rw [u_eq, eta_eq] at *
  norm_num at *
  linarith

/-- Block and voxel of a position, one axis. -/
theorem axis_locate {s : ℚ} (h : Size s) (hS : s ≤ 2 ^ 80) {k : ℕ} (hk : k ≤ 10) {p X : ℚ} (hX : |p / s| ≤ X) (hX2 : X ≤ 2 ^ 19)
    {b i v : ℤ} (hb : b = gridIndex1 p (inverse (2 ^ k * s)))
    (hi : i = gridIndex1 (rnd32 (p - origin1 b (2 ^ k * s))) (inverse s)) (hv : v = max (min i (2 ^ k - 1)) 0) :
    |b| ≤ 2 ^ 20 ∧ |i| ≤ 2 ^ 20 ∧ (0 ≤ v ∧ v < 2 ^ k) ∧ (v : ℚ) ≤ p / s - b * 2 ^ k + 1 / 7 ∧ p / s - b * 2 ^ k < v + 1 + 1 / 7 := by
  obtain ⟨hB, hN1, hN2⟩ := size_block h hS hk
  have hs := h.pos
  have hK1 : (1 : ℤ) ≤ 2 ^ k := by exact_mod_cast hN1
  have hK2 : (2 : ℤ) ^ k ≤ 1024 := by exact_mod_cast hN2
  obtain ⟨P, hP⟩ : ∃ P, p = P * s := ⟨p / s, by field_simp⟩
  have hPs : p / s = P := by rw [hP]; field_simp
  rw [hPs] at hX ⊢
  have hX0 : 0 ≤ X := le_trans (abs_nonneg _) hX
  have hNpos : (0 : ℚ) < 2 ^ k := by linarith
  -- the block
  have b1 : (b : ℚ) * 2 ^ k ≤ P + 1 / 7 ∧ P < b * 2 ^ k + 2 ^ k + 1 / 7 := by
    have e := raw_err hB p
    have hq : p / (2 ^ k * s) = P / 2 ^ k := by rw [hP]; field_simp
    rw [hq, abs_div, abs_of_pos hNpos] at e
    have f1 := Int.floor_le (rnd32 (rnd32 (p * inverse (2 ^ k * s)) + kEps))
    have f2 := Int.lt_floor_add_one (rnd32 (rnd32 (p * inverse (2 ^ k * s)) + kEps))
    change ((gridIndex1 p (inverse (2 ^ k * s)) : ℤ) : ℚ) ≤ _ at f1
    change _ < ((gridIndex1 p (inverse (2 ^ k * s)) : ℤ) : ℚ) + 1 at f2
    rw [← hb] at f1 f2
    obtain ⟨e1, e2⟩ := abs_le.1 e
    generalize rnd32 (rnd32 (p * inverse (2 ^ k * s)) + kEps) = R at *
    have g1 := mul_le_mul_of_nonneg_right (show (b : ℚ) ≤ P / 2 ^ k + (4 * u * (|P| / 2 ^ k) + 3 / 2 / 1000000) by linarith) hNpos.le
    have g2 := mul_lt_mul_of_pos_right (show P / 2 ^ k < (b : ℚ) + 1 + (4 * u * (|P| / 2 ^ k) + 3 / 2 / 1000000) by linarith) hNpos
    have c1 : (P / 2 ^ k + (4 * u * (|P| / 2 ^ k) + 3 / 2 / 1000000)) * 2 ^ k = P + 4 * u * |P| + 3 / 2 / 1000000 * 2 ^ k := by
      field_simp
      ring
    have c2 : P / 2 ^ k * 2 ^ k = P := by field_simp
    have c3 : ((b : ℚ) + 1 + (4 * u * (|P| / 2 ^ k) + 3 / 2 / 1000000)) * 2 ^ k = b * 2 ^ k + 2 ^ k + 4 * u * |P| + 3 / 2 / 1000000 * 2 ^ k := by
      field_simp
      ring
    rw [c1] at g1
    rw [c2, c3] at g2
    rw [u_eq] at *
    generalize (b : ℚ) * 2 ^ k = B at *
    generalize (2 : ℚ) ^ k = N at *
    norm_num at *
    constructor <;> linarith
  obtain ⟨p1, p2⟩ := abs_le.1 hX
  have hBabs : |(b : ℚ) * 2 ^ k| ≤ X + 2 ^ k + 1 / 7 := by
    rw [abs_le]
    constructor <;> linarith
  have hbq : |(b : ℚ)| ≤ 2 ^ 20 := by
    rw [abs_mul, abs_of_pos hNpos] at hBabs
    have := mul_le_mul_of_nonneg_left hN1 (abs_nonneg (b : ℚ))
    norm_num at *
    linarith
  have hbz : |b| ≤ 2 ^ 20 := by exact_mod_cast hbq
  have ho := origin1_err hB (i := b) (hbz.trans (by norm_num))
  obtain ⟨O, hO⟩ : ∃ O, origin1 b (2 ^ k * s) = O * s := ⟨origin1 b (2 ^ k * s) / s, by field_simp⟩
  have ho' : |O - b * 2 ^ k| ≤ u * |(b : ℚ) * 2 ^ k| + 1 / 2 ^ 60 * 2 ^ k := by
    refine scale_le hs ?_
    have e : (O - b * 2 ^ k) * s = O * s - b * (2 ^ k * s) := by ring
    rw [e, ← hO]
    refine ho.trans (le_of_eq ?_)
    rw [abs_mul, abs_of_pos hNpos]
    ring
  have ho2 : |O - b * 2 ^ k| ≤ 1 / 30 := by
    rw [u_eq] at *
    generalize |O - b * 2 ^ k| = A at *
    generalize |(b : ℚ) * 2 ^ k| = B at *
    generalize (2 : ℚ) ^ k = N at *
    norm_num at *
    linarith
  obtain ⟨o1, o2⟩ := abs_le.1 ho2
  -- the voxel
  obtain ⟨T, hT⟩ : ∃ T, rnd32 (p - origin1 b (2 ^ k * s)) = T * s := ⟨rnd32 (p - origin1 b (2 ^ k * s)) / s, by field_simp⟩
  have ht := rnd_units h (P - O)
  have epo : (P - O) * s = p - origin1 b (2 ^ k * s) := by rw [hO, hP]; ring
  rw [epo, hT, mul_div_cancel_right₀ _ hs.ne'] at ht
  have hPO : |P - O| ≤ 1026 := by
    rw [abs_le]
    constructor <;> linarith
  have ht2 : |T - (P - O)| ≤ 1 / 10000 := by
    rw [u_eq] at *
    generalize |T - (P - O)| = A at *
    generalize |P - O| = B at *
    norm_num at *
    linarith
  obtain ⟨t1, t2⟩ := abs_le.1 ht2
  have hTa : |T| ≤ 1027 := by
    obtain ⟨x1, x2⟩ := abs_le.1 hPO
    rw [abs_le]
    constructor <;> linarith
  have hi2 : (i : ℚ) ≤ P - b * 2 ^ k + 1 / 28 ∧ P - b * 2 ^ k < i + 1 + 1 / 28 := by
    have e := raw_err h (T * s)
    rw [mul_div_cancel_right₀ _ hs.ne', ← hT] at e
    have f1 := Int.floor_le (rnd32 (rnd32 (rnd32 (p - origin1 b (2 ^ k * s)) * inverse s) + kEps))
    have f2 := Int.lt_floor_add_one (rnd32 (rnd32 (rnd32 (p - origin1 b (2 ^ k * s)) * inverse s) + kEps))
    change ((gridIndex1 (rnd32 (p - origin1 b (2 ^ k * s))) (inverse s) : ℤ) : ℚ) ≤ _ at f1
    change _ < ((gridIndex1 (rnd32 (p - origin1 b (2 ^ k * s))) (inverse s) : ℤ) : ℚ) + 1 at f2
    rw [← hi] at f1 f2
    obtain ⟨e1, e2⟩ := abs_le.1 e
    rw [u_eq] at *
    generalize rnd32 (rnd32 (rnd32 (p - origin1 b (2 ^ k * s)) * inverse s) + kEps) = R at *
    generalize (b : ℚ) * 2 ^ k = B at *
    generalize |T| = A at *
    norm_num at *
    constructor <;> linarith
  obtain ⟨i1, i2⟩ := hi2
  have hiz : |i| ≤ 2 ^ 20 := by
    have : |(i : ℚ)| ≤ 2 ^ 20 := by
      rw [abs_le]
      norm_num
      constructor <;> linarith
    exact_mod_cast this
  have hv0 : 0 ≤ v := by rw [hv]; exact le_max_right _ _
  have hv1 : v < 2 ^ k := by rw [hv]; omega
  have hvq0 : (0 : ℚ) ≤ v := by exact_mod_cast hv0
  have hvq1 : (v : ℚ) + 1 ≤ 2 ^ k := by exact_mod_cast hv1
  have hvP : (v : ℚ) ≤ P - b * 2 ^ k + 1 / 7 ∧ P - b * 2 ^ k < v + 1 + 1 / 7 := by
    rcases lt_or_ge i 0 with c | c
    · have e : v = 0 := by omega
      have ci : (i : ℚ) + 1 ≤ 0 := by exact_mod_cast c
      rw [e]
      push_cast
      constructor <;> linarith
    · rcases lt_or_ge i (2 ^ k) with c2 | c2
      · have e : v = i := by omega
        rw [e]
        constructor <;> linarith
      · have e : v = 2 ^ k - 1 := by omega
        have ci : (2 : ℚ) ^ k ≤ i := by exact_mod_cast c2
        rw [e]
        push_cast
        constructor <;> linarith
  exact ⟨hbz, hiz, ⟨hv0, hv1⟩, hvP.1, hvP.2⟩

/-- One axis of the search for the cell. -/
theorem axis_cell {s : ℚ} (h : Size s) (hS : s ≤ 2 ^ 80) {k : ℕ} (hk : k ≤ 10) {p X : ℚ} (hX : |p / s| ≤ X) (hX2 : X ≤ 2 ^ 19)
    {b i v b' v' : ℤ} (hb : b = gridIndex1 p (inverse (2 ^ k * s)))
    (hi : i = gridIndex1 (rnd32 (p - origin1 b (2 ^ k * s))) (inverse s)) (hv : v = max (min i (2 ^ k - 1)) 0)
    (hbv : Interp.shiftAxis (2 ^ k) (rnd32 (p - rnd32 (origin1 b (2 ^ k * s) + center1 v s))) b v = (b', v')) :
    IsI32 b ∧ IsI32 i ∧ IsI32 b' ∧ (0 ≤ v' ∧ v' < 2 ^ k) ∧ (b * 2 ^ k + v = b' * 2 ^ k + v' ∨ b * 2 ^ k + v = b' * 2 ^ k + v' + 1) ∧
    0 ≤ offset1 (rnd32 (origin1 b' (2 ^ k * s) + center1 v' s)) p (inverse s) ∧
    |offset1 (rnd32 (origin1 b' (2 ^ k * s) + center1 v' s)) p (inverse s) - (p / s - ((b' * 2 ^ k + v' : ℤ) + 1 / 2))| ≤
      u * (2 * X + 2 * 2 ^ k + 13) ∧
    (-(u * (2 * X + 2 * 2 ^ k + 8)) ≤ p / s - ((b' * 2 ^ k + v' : ℤ) + 1 / 2) ∧
      p / s - ((b' * 2 ^ k + v' : ℤ) + 1 / 2) ≤ 1 + u * (2 * X + 2 * 2 ^ k + 8)) := by
  obtain ⟨hbz, hiz, ⟨hv0, hv1⟩, v1, v2⟩ := axis_locate h hS hk hX hX2 hb hi hv
  clear hb hi hv
  obtain ⟨hB, hN1, hN2⟩ := size_block h hS hk
  have hs := h.pos
  obtain ⟨P, hP⟩ : ∃ P, p = P * s := ⟨p / s, by field_simp⟩
  have hPs : p / s = P := by rw [hP]; field_simp
  rw [hPs] at hX v1 v2 ⊢
  have hX0 : 0 ≤ X := le_trans (abs_nonneg _) hX
  obtain ⟨p1, p2⟩ := abs_le.1 hX
  have hvq0 : (0 : ℚ) ≤ v := by exact_mod_cast hv0
  have hvq1 : (v : ℚ) + 1 ≤ 2 ^ k := by exact_mod_cast hv1
  have hgv : |(b : ℚ) * 2 ^ k + v| ≤ X + 2 := by
    rw [abs_le]
    constructor <;> linarith
  have hc := center_units h hS hk hv0 hv1 hgv (by norm_num at *; linarith)
  obtain ⟨W, hW⟩ : ∃ W, rnd32 (origin1 b (2 ^ k * s) + center1 v s) = W * s :=
    ⟨rnd32 (origin1 b (2 ^ k * s) + center1 v s) / s, by field_simp⟩
  rw [hW, mul_div_cancel_right₀ _ hs.ne'] at hc
  have hE : u * (2 * (X + 2) + 2 * 2 ^ k + 1) ≤ 1 / 15 := by
    rw [u_eq]
    generalize (2 : ℚ) ^ k = N at *
    norm_num at *
    linarith
  obtain ⟨c1, c2⟩ := abs_le.1 hc
  have hu : 0 < u := by rw [u_eq]; positivity
  have i32 : ∀ x : ℤ, |x| ≤ 2 ^ 21 → IsI32 x := by
    intro x hx
    obtain ⟨x1, x2⟩ := abs_le.1 hx
    unfold IsI32
    norm_num at *
    omega
  refine ⟨i32 _ (hbz.trans (by norm_num)), i32 _ (hiz.trans (by norm_num)), ?_⟩
  -- whichever corner is chosen
  have fin : ∀ b' v' : ℤ, IsI32 b' → 0 ≤ v' → v' < 2 ^ k → (b * 2 ^ k + v = b' * 2 ^ k + v' ∨ b * 2 ^ k + v = b' * 2 ^ k + v' + 1) →
      0 ≤ offset1 (rnd32 (origin1 b' (2 ^ k * s) + center1 v' s)) p (inverse s) →
      (-(u * (2 * X + 2 * 2 ^ k + 8)) ≤ P - ((b' * 2 ^ k + v' : ℤ) + 1 / 2) ∧ P - ((b' * 2 ^ k + v' : ℤ) + 1 / 2) ≤ 1 + u * (2 * X + 2 * 2 ^ k + 8)) →
      IsI32 b' ∧ (0 ≤ v' ∧ v' < 2 ^ k) ∧ (b * 2 ^ k + v = b' * 2 ^ k + v' ∨ b * 2 ^ k + v = b' * 2 ^ k + v' + 1) ∧
      0 ≤ offset1 (rnd32 (origin1 b' (2 ^ k * s) + center1 v' s)) p (inverse s) ∧
      |offset1 (rnd32 (origin1 b' (2 ^ k * s) + center1 v' s)) p (inverse s) - (P - ((b' * 2 ^ k + v' : ℤ) + 1 / 2))| ≤
        u * (2 * X + 2 * 2 ^ k + 13) ∧
      (-(u * (2 * X + 2 * 2 ^ k + 8)) ≤ P - ((b' * 2 ^ k + v' : ℤ) + 1 / 2) ∧
        P - ((b' * 2 ^ k + v' : ℤ) + 1 / 2) ≤ 1 + u * (2 * X + 2 * 2 ^ k + 8)) := by
    intro b' v' hb' h0 h1 hgg hnn hr
    refine ⟨hb', ⟨h0, h1⟩, hgg, hnn, ?_, hr⟩
    have hE8 : u * (2 * X + 2 * 2 ^ k + 8) ≤ 1 / 15 := by
      rw [u_eq]
      generalize (2 : ℚ) ^ k = N at *
      norm_num at *
      linarith
    have hg' : |(b' : ℚ) * 2 ^ k + v'| ≤ X + 3 := by
      obtain ⟨r1, r2⟩ := hr
      push_cast at r1 r2
      rw [abs_le]
      constructor <;> linarith
    have hc' := center_units h hS hk h0 h1 hg' (by norm_num at *; linarith)
    obtain ⟨W', hW'⟩ : ∃ W', rnd32 (origin1 b' (2 ^ k * s) + center1 v' s) = W' * s :=
      ⟨rnd32 (origin1 b' (2 ^ k * s) + center1 v' s) / s, by field_simp⟩
    rw [hW', mul_div_cancel_right₀ _ hs.ne'] at hc'
    have hE' : u * (2 * (X + 3) + 2 * 2 ^ k + 1) ≤ 1 / 15 := by
      rw [u_eq]
      generalize (2 : ℚ) ^ k = N at *
      norm_num at *
      linarith
    obtain ⟨d1, d2⟩ := abs_le.1 hc'
    obtain ⟨r1, r2⟩ := hr
    push_cast at r1 r2 ⊢
    have hZ : |P - W'| ≤ 5 / 4 := by
      rw [abs_le]
      constructor <;> linarith
    have ho3 := offset_err h (c := W' * s) (p := p) (Z := P - W') (by rw [hP]; ring) hZ
    rw [hW']
    have tri : |offset1 (W' * s) p (inverse s) - (P - (b' * 2 ^ k + v' + 1 / 2))| ≤
        |offset1 (W' * s) p (inverse s) - (P - W')| + |W' - (b' * 2 ^ k + v' + 1 / 2)| := by
      have e : offset1 (W' * s) p (inverse s) - (P - (b' * 2 ^ k + v' + 1 / 2)) =
        (offset1 (W' * s) p (inverse s) - (P - W')) - (W' - (b' * 2 ^ k + v' + 1 / 2)) := by ring
      rw [e]
      exact abs_sub _ _
    linarith
  unfold Interp.shiftAxis at hbv
  by_cases hneg : rnd32 (p - rnd32 (origin1 b (2 ^ k * s) + center1 v s)) < 0
  · rw [if_pos hneg] at hbv
    have hPW : P < W := by
      by_contra hc2
      push Not at hc2
      have : 0 ≤ rnd32 (p - rnd32 (origin1 b (2 ^ k * s) + center1 v s)) := by
        refine rnd32_nonneg ?_
        rw [hW, hP, ← sub_mul]
        exact mul_nonneg (by linarith) hs.le
      linarith
    have hg : b' * 2 ^ k + v' = b * 2 ^ k + v - 1 ∧ 0 ≤ v' ∧ v' < 2 ^ k ∧ |b'| ≤ 2 ^ 21 := by
      obtain ⟨x1, x2⟩ := abs_le.1 hbz
      by_cases hm : v - 1 < 0
      · rw [if_pos hm, Prod.mk.injEq] at hbv
        obtain ⟨rfl, rfl⟩ := hbv
        push_cast
        refine ⟨by ring, by omega, by omega, ?_⟩
        rw [abs_le]
        norm_num at *
        omega
      · rw [if_neg hm, Prod.mk.injEq] at hbv
        obtain ⟨rfl, rfl⟩ := hbv
        refine ⟨by ring, by omega, by omega, hbz.trans (by norm_num)⟩
    obtain ⟨g1, g2, g3, g4⟩ := hg
    have gq : ((b' * 2 ^ k + v' : ℤ) : ℚ) = b * 2 ^ k + v - 1 := by rw [g1]; push_cast; ring
    have hg' : |(b' : ℚ) * 2 ^ k + v'| ≤ X + 3 := by
      have e : (b' : ℚ) * 2 ^ k + v' = b * 2 ^ k + v - 1 := by rw [← gq]; push_cast; ring
      rw [e]
      obtain ⟨y1, y2⟩ := abs_le.1 hgv
      rw [abs_le]
      constructor <;> linarith
    have hc' := center_units h hS hk g2 g3 hg' (by norm_num at *; linarith)
    have hE' : u * (2 * (X + 3) + 2 * 2 ^ k + 1) ≤ 1 / 15 := by
      rw [u_eq]
      generalize (2 : ℚ) ^ k = N at *
      norm_num at *
      linarith
    obtain ⟨d1, d2⟩ := abs_le.1 hc'
    have gq2 : (b' : ℚ) * 2 ^ k + v' = b * 2 ^ k + v - 1 := by rw [← gq]; push_cast; ring
    refine fin b' v' (i32 _ g4) g2 g3 (Or.inr (by omega)) ?_ ?_
    · refine rnd32_nonneg (mul_nonneg (rnd32_nonneg ?_) (inverse_nonneg h))
      have e : rnd32 (origin1 b' (2 ^ k * s) + center1 v' s) = rnd32 (origin1 b' (2 ^ k * s) + center1 v' s) / s * s := by field_simp
      rw [e, hP, ← sub_mul]
      refine mul_nonneg ?_ hs.le
      rw [gq2] at d2
      linarith
    · rw [gq]
      constructor
      · have : 0 ≤ u * (2 * X + 2 * 2 ^ k + 8) := by positivity
        linarith
      · linarith
  · rw [if_neg hneg, Prod.mk.injEq] at hbv
    obtain ⟨rfl, rfl⟩ := hbv
    have hPW : W - 1 / 2 ^ 58 ≤ P := by
      have h1 := of_rnd_nonneg hneg
      rw [hW, hP, ← sub_mul] at h1
      have h2 := eta_le h
      have h3 : -(1 / 2 ^ 58) * s ≤ (P - W) * s := by
        norm_num at *
        linarith
      have := le_of_mul_le_mul_right h3 hs
      linarith
    refine fin b v (i32 _ (hbz.trans (by norm_num))) hv0 hv1 (Or.inl rfl) ?_ ?_
    · push Not at hneg
      exact rnd32_nonneg (mul_nonneg hneg (inverse_nonneg h))
    · push_cast
      constructor
      · rw [u_eq] at *
        generalize (2 : ℚ) ^ k = N at *
        norm_num at *
        linarith
      · have : 0 ≤ u * (2 * X + 2 * 2 ^ k + 8) := by positivity
        linarith

end Vox.InterpF
