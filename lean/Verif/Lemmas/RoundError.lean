/-
Error bounds of the TSDF fusion in `float`.
-/
import Verif.Lemmas.IndexFloat
import Verif.Lemmas.Tsdf
import Mathlib.Tactic.Linarith
import Mathlib.Tactic.Ring
import Mathlib.Tactic.Positivity
import Mathlib.Tactic.FieldSimp
import Mathlib.Tactic.NormNum

namespace Vox.RoundErr

open Ieee Tsdf Spec
open IndexF (u eta rnd32_err)

theorem u_eq : u = 1 / 2 ^ 24 := rfl

theorem eta_eq : eta = 1 / 2 ^ 150 := rfl

theorem rnd32_nonneg {x : ℚ} (h : 0 ≤ x) : 0 ≤ rnd32 x := rne_nonneg h

theorem rnd32_le {x : ℚ} : |rnd32 x| ≤ (1 + u) * |x| + eta := by
  have h := rnd32_err x
  have : |rnd32 x| ≤ |rnd32 x - x| + |x| := by
    have := abs_add_le (rnd32 x - x) x
    rwa [sub_add_cancel] at this
  linarith

/-- No overflow up to 2^127. -/
theorem rnd_fin {x : ℚ} (h : |x| ≤ 2 ^ 127) : float32.rnd x = .fin (rnd32 x) := by
  refine overflow_of_lt (lt_of_le_of_lt rnd32_le ?_)
  rw [u_eq, eta_eq]
  have : (1 + 1 / 2 ^ 24 : ℚ) * |x| ≤ (1 + 1 / 2 ^ 24) * 2 ^ 127 := mul_le_mul_of_nonneg_left h (by norm_num)
  refine lt_of_le_of_lt (add_le_add this le_rfl) (by norm_num)

theorem rnd_fin_nonneg {x : ℚ} (h0 : 0 ≤ x) (h : x ≤ 2 ^ 127) : float32.rnd x = .fin (rnd32 x) :=
  rnd_fin (by rwa [abs_of_nonneg h0])

/-- Rounding of a number that is at least `b`, with the absolute error absorbed in the relative one. -/
theorem rnd32_rel {x b : ℚ} (hb : 0 < b) (h : b ≤ |x|) : |rnd32 x - x| ≤ (u + eta / b) * |x| := by
  have := rnd32_err x
  have h2 : eta ≤ eta / b * |x| := by
    rw [div_mul_eq_mul_div, le_div_iff₀ hb]
    exact mul_le_mul_of_nonneg_left h (by rw [eta_eq]; positivity)
  linarith

/-! ### Blending -/

theorem blend_interval32 {w1 w2 t f1 f2 p1 p2 v c1 c2 m M : ℚ}
    (hw1 : 0 ≤ w1) (hw2 : 0 ≤ w2) (hpos : 0 < w1 + w2) (ht : |t - (w1 + w2)| ≤ 1 / 2 ^ 23 * (w1 + w2))
    (hf1 : |f1 - w1 / t| ≤ u * |w1 / t| + eta) (hf10 : 0 ≤ f1) (hf2 : |f2 - w2 / t| ≤ u * |w2 / t| + eta) (hf20 : 0 ≤ f2)
    (hp1 : |p1 - c1 * f1| ≤ u * |c1 * f1| + eta) (hp2 : |p2 - c2 * f2| ≤ u * |c2 * f2| + eta)
    (hp10 : 0 ≤ p1) (hp20 : 0 ≤ p2) (hv : |v - (p1 + p2)| ≤ u * |p1 + p2| + eta)
    (hm : 0 ≤ m) (hM : M ≤ 255) (h1 : m ≤ c1 ∧ c1 ≤ M) (h2 : m ≤ c2 ∧ c2 ≤ M) :
    (m - 1 / 4 ≤ v ∧ v ≤ M + 1 / 4) ∧ f1 ≤ 2 ∧ f2 ≤ 2 ∧ p1 + p2 ≤ 1024 := by
  rw [u_eq, eta_eq] at *
  have t1 := (abs_le.1 ht).1
  have t2 := (abs_le.1 ht).2
  have htp : 0 < t := by linarith
  have hc1 : 0 ≤ c1 := le_trans hm h1.1
  have hc2 : 0 ≤ c2 := le_trans hm h2.1
  have hM0 : 0 ≤ M := le_trans hc1 h1.2
  have hm255 : m ≤ 255 := by linarith [h1.1, h1.2]
  have g1 : 0 ≤ w1 / t := div_nonneg hw1 htp.le
  have g2 : 0 ≤ w2 / t := div_nonneg hw2 htp.le
  rw [abs_of_nonneg g1] at hf1
  rw [abs_of_nonneg g2] at hf2
  rw [abs_of_nonneg (mul_nonneg hc1 hf10)] at hp1
  rw [abs_of_nonneg (mul_nonneg hc2 hf20)] at hp2
  rw [abs_of_nonneg (add_nonneg hp10 hp20)] at hv
  have hsum : w1 / t + w2 / t = (w1 + w2) / t := by ring
  have hru : (w1 + w2) / t ≤ 1 + 1 / 2 ^ 22 := by
    rw [div_le_iff₀ htp]
    linarith
  have hrl : 1 - 1 / 2 ^ 22 ≤ (w1 + w2) / t := by
    rw [le_div_iff₀ htp]
    linarith
  rw [← hsum] at hru hrl
  obtain ⟨a1, a2⟩ := abs_le.1 hf1
  obtain ⟨b1, b2⟩ := abs_le.1 hf2
  obtain ⟨q1, q2⟩ := abs_le.1 hp1
  obtain ⟨r1, r2⟩ := abs_le.1 hp2
  obtain ⟨v1, v2⟩ := abs_le.1 hv
  have hFu : f1 + f2 ≤ 1 + 1 / 2 ^ 20 := by linarith
  have hFl : 1 - 1 / 2 ^ 20 ≤ f1 + f2 := by linarith
  have k1 : c1 * f1 ≤ M * f1 := mul_le_mul_of_nonneg_right h1.2 hf10
  have k2 : c2 * f2 ≤ M * f2 := mul_le_mul_of_nonneg_right h2.2 hf20
  have k3 : m * f1 ≤ c1 * f1 := mul_le_mul_of_nonneg_right h1.1 hf10
  have k4 : m * f2 ≤ c2 * f2 := mul_le_mul_of_nonneg_right h2.1 hf20
  have hMF : M * (f1 + f2) ≤ M * (1 + 1 / 2 ^ 20) := mul_le_mul_of_nonneg_left hFu hM0
  have hmF : m * (1 - 1 / 2 ^ 20) ≤ m * (f1 + f2) := mul_le_mul_of_nonneg_left hFl hm
  refine ⟨⟨by linarith, by linarith⟩, by linarith, by linarith, by linarith⟩

theorem blendChannel32 {w1 w2 t : ℚ} (hw1 : 0 ≤ w1) (hw2 : 0 ≤ w2) (hpos : 0 < w1 + w2)
    (ht : |t - (w1 + w2)| ≤ 1 / 2 ^ 23 * (w1 + w2)) (c1 c2 : BitVec 8) :
    ∃ c, blendChannel float32 c1 (.fin (rnd32 (w1 / t))) c2 (.fin (rnd32 (w2 / t))) = .ok c ∧ ChannelBetween c c1 c2 := by
  have hlt1 : c1.toNat < 256 := c1.isLt
  have hlt2 : c2.toNat < 256 := c2.isLt
  have htp : 0 < t := by
    have := (abs_le.1 ht).1
    linarith
  have f10 : 0 ≤ rnd32 (w1 / t) := rnd32_nonneg (div_nonneg hw1 htp.le)
  have f20 : 0 ≤ rnd32 (w2 / t) := rnd32_nonneg (div_nonneg hw2 htp.le)
  have p10 : (0 : ℚ) ≤ c1.toNat * rnd32 (w1 / t) := mul_nonneg (by positivity) f10
  have p20 : (0 : ℚ) ≤ c2.toNat * rnd32 (w2 / t) := mul_nonneg (by positivity) f20
  obtain ⟨key, hf1, hf2, hp⟩ := blend_interval32 (m := ((min c1.toNat c2.toNat : ℕ) : ℚ)) (M := ((max c1.toNat c2.toNat : ℕ) : ℚ))
    hw1 hw2 hpos ht (rnd32_err _) f10 (rnd32_err _) f20 (rnd32_err _) (rnd32_err _) (rnd32_nonneg p10) (rnd32_nonneg p20)
    (rnd32_err _) (by positivity)
    (by exact_mod_cast (by omega : max c1.toNat c2.toNat ≤ 255))
    ⟨by exact_mod_cast (by omega : min c1.toNat c2.toNat ≤ c1.toNat),
      by exact_mod_cast (by omega : c1.toNat ≤ max c1.toNat c2.toNat)⟩
    ⟨by exact_mod_cast (by omega : min c1.toNat c2.toNat ≤ c2.toNat),
      by exact_mod_cast (by omega : c2.toNat ≤ max c1.toNat c2.toNat)⟩
  have hc1 : (c1.toNat : ℚ) ≤ 256 := by exact_mod_cast hlt1.le
  have hc2 : (c2.toNat : ℚ) ≤ 256 := by exact_mod_cast hlt2.le
  have b1 : (c1.toNat : ℚ) * rnd32 (w1 / t) ≤ 512 := by
    have := mul_le_mul hc1 hf1 f10 (by norm_num : (0 : ℚ) ≤ 256)
    linarith
  have b2 : (c2.toNat : ℚ) * rnd32 (w2 / t) ≤ 512 := by
    have := mul_le_mul hc2 hf2 f20 (by norm_num : (0 : ℚ) ≤ 256)
    linarith
  have e1 := rnd_fin_nonneg p10 (le_trans b1 (by norm_num))
  have e2 := rnd_fin_nonneg p20 (le_trans b2 (by norm_num))
  have e3 := rnd_fin_nonneg (add_nonneg (rnd32_nonneg p10) (rnd32_nonneg p20)) (le_trans hp (by norm_num))
  generalize rnd32 (rnd32 (c1.toNat * rnd32 (w1 / t)) + rnd32 (c2.toNat * rnd32 (w2 / t))) = v at key e3
  have hr := round_between (m := ((min c1.toNat c2.toNat : ℕ) : ℤ)) (M := ((max c1.toNat c2.toNat : ℕ) : ℤ))
    (q := v) (by positivity) (by exact_mod_cast key.1) (by exact_mod_cast key.2)
  have h0 : 0 ≤ roundHalfAway v := le_trans (by positivity) hr.1
  have h255 : roundHalfAway v ≤ 255 := le_trans hr.2 (by omega)
  refine ⟨BitVec.ofInt 8 (roundHalfAway v), ?_, ?_⟩
  · simp only [blendChannel, Arith.mul, e1, e2, Arith.add, e3, toByte]
    rw [if_pos ⟨h0, h255⟩]
  · have := bitvec_ofInt_toNat h0 h255
    unfold ChannelBetween
    omega

/-- Rounding a sum of weights. -/
theorem weight_sum {x : ℚ} (h : 1 / 2 ^ 100 ≤ x) : |rnd32 x - x| ≤ 1 / 2 ^ 23 * x := by
  have h0 : 0 ≤ x := le_trans (by positivity) h
  have := rnd32_rel (x := x) (b := 1 / 2 ^ 100) (by positivity) (by rwa [abs_of_nonneg h0])
  rw [abs_of_nonneg h0, u_eq, eta_eq] at this
  refine le_trans this (mul_le_mul_of_nonneg_right (by norm_num) h0)

/-- Rounding a sum of two `float` weights: exact if it is subnormal. -/
theorem float_sum {a b : ℚ} (ha : rnd32 a = a) (hb : rnd32 b = b) (h0 : 0 ≤ a + b) : |rnd32 (a + b) - (a + b)| ≤ 1 / 2 ^ 23 * (a + b) := by
  rcases le_or_gt (1 / 2 ^ 100) (a + b) with h | h
  · exact weight_sum h
  · obtain ⟨j, hj⟩ := rne_grid (p := 24) (qmin := -149) a
    obtain ⟨k, hk⟩ := rne_grid (p := 24) (qmin := -149) b
    rw [show rne 24 (-149) a = a from ha] at hj
    rw [show rne 24 (-149) b = b from hb] at hk
    rcases le_or_gt (1 / 2 ^ 126) (a + b) with h2 | h2
    · have h3 : pow2 (-149 + (24 : ℕ) - 1) ≤ |a + b| := by
        rw [abs_of_nonneg h0]
        have := IndexF.pow2_neg 126
        push_cast at this ⊢
        norm_num at this ⊢
        rw [this]
        norm_num at h2
        exact h2
      have h4 := rne_relative h3
      have e : pow2 (-((24 : ℕ) : ℤ)) = u := by rw [IndexF.pow2_neg]; rfl
      rw [e, abs_of_nonneg h0, u_eq] at h4
      refine le_trans h4 (mul_le_mul_of_nonneg_right (by norm_num) h0)
    · have e149 : pow2 (-149) = 1 / 2 ^ 149 := by
        have := IndexF.pow2_neg 149
        push_cast at this
        exact this
      have hsum : a + b = ((j + k : ℤ) : ℚ) * pow2 (-149) := by
        rw [hj, hk]; push_cast; ring
      have hle : |j + k| ≤ 2 ^ 24 := by
        rw [hsum, e149] at h2 h0
        have h5 : ((j + k : ℤ) : ℚ) < 2 ^ 24 := by
          rw [mul_one_div, div_lt_iff₀ (by positivity)] at h2
          refine lt_trans h2 (by norm_num)
        have h6 : (0 : ℚ) ≤ ((j + k : ℤ) : ℚ) := by
          by_contra hneg
          push Not at hneg
          have := mul_neg_of_neg_of_pos hneg (by positivity : (0 : ℚ) < 1 / 2 ^ 149)
          linarith
        have h7 : (j + k : ℤ) < 2 ^ 24 := by exact_mod_cast h5
        have h8 : (0 : ℤ) ≤ j + k := by exact_mod_cast h6
        rw [abs_of_nonneg h8]
        omega
      have hex : rnd32 (a + b) = a + b := by
        have := rne_exact (p := 24) (qmin := -149) (by norm_num) hle (le_refl (-149))
        rw [← hsum] at this
        exact this
      rw [hex, sub_self, abs_zero]
      positivity

/-- Blending in `float` is defined and stays between the inputs. -/
theorem blend32_of {w1 w2 : ℚ} (hw1 : 0 ≤ w1) (hw2 : 0 ≤ w2) (hpos : 0 < w1 + w2)
    (ht : |rnd32 (w1 + w2) - (w1 + w2)| ≤ 1 / 2 ^ 23 * (w1 + w2)) (e0 : float32.rnd (w1 + w2) = .fin (rnd32 (w1 + w2))) (c1 c2 : Color) :
    ∃ c, blend float32 c1 (.fin w1) c2 (.fin w2) = .ok c ∧ ColorBetween c c1 c2 := by
  generalize rnd32 (w1 + w2) = t at ht e0
  have htl : (w1 + w2) / 2 ≤ t := by
    have := (abs_le.1 ht).1
    linarith
  have htp : 0 < t := by linarith
  have d1 : w1 / t ≤ 2 := by rw [div_le_iff₀ htp]; linarith
  have d2 : w2 / t ≤ 2 := by rw [div_le_iff₀ htp]; linarith
  have e1 : float32.div (.fin w1) (float32.add (.fin w1) (.fin w2)) = .fin (rnd32 (w1 / t)) := by
    simp only [Arith.add, e0, Arith.div, if_neg htp.ne']
    exact rnd_fin_nonneg (div_nonneg hw1 htp.le) (le_trans d1 (by norm_num))
  have e2 : float32.div (.fin w2) (float32.add (.fin w1) (.fin w2)) = .fin (rnd32 (w2 / t)) := by
    simp only [Arith.add, e0, Arith.div, if_neg htp.ne']
    exact rnd_fin_nonneg (div_nonneg hw2 htp.le) (le_trans d2 (by norm_num))
  obtain ⟨r, hr, br⟩ := blendChannel32 hw1 hw2 hpos ht c1.r c2.r
  obtain ⟨g, hg, bg⟩ := blendChannel32 hw1 hw2 hpos ht c1.g c2.g
  obtain ⟨b, hb, bb⟩ := blendChannel32 hw1 hw2 hpos ht c1.b c2.b
  obtain ⟨a, ha, ba⟩ := blendChannel32 hw1 hw2 hpos ht c1.a c2.a
  refine ⟨⟨r, g, b, a⟩, ?_, br, bg, bb, ba⟩
  simp only [blend, e1, e2, hr, hg, hb, ha]
  rfl

theorem blend32 {w1 w2 : ℚ} (hw1 : 0 ≤ w1) (hw2 : 0 ≤ w2) (hlo : 1 / 2 ^ 100 ≤ w1 + w2) (hhi : w1 + w2 ≤ 2 ^ 127) (c1 c2 : Color) :
    ∃ c, blend float32 c1 (.fin w1) c2 (.fin w2) = .ok c ∧ ColorBetween c c1 c2 := by
  have hpos : 0 < w1 + w2 := lt_of_lt_of_le (by positivity) hlo
  exact blend32_of hw1 hw2 hpos (weight_sum hlo) (rnd_fin_nonneg hpos.le hhi) c1 c2

/-! ### Definedness of the update -/

theorem rnd32_mono {a b : ℚ} (h : a ≤ b) : rnd32 a ≤ rnd32 b := rne_mono (by norm_num) h

/-- A sum below the threshold of the update stays below it. -/
theorem not_small {x : ℚ} (hx : x ≤ 2 ^ 127) (h0 : 0 ≤ x) (h : Fl.lt (float32.rnd x) kFloatEpsilon = false) : 1 / 2 ^ 100 ≤ x := by
  by_contra hcon
  push Not at hcon
  rw [rnd_fin_nonneg h0 hx] at h
  have h1 := rnd32_mono hcon.le
  have h2 : rnd32 (1 / 2 ^ 100) = 1 / 2 ^ 100 := by decide +kernel
  rw [h2] at h1
  simp only [Fl.lt, kFloatEpsilon, decide_eq_false_iff_not, not_lt] at h
  have : (1 / 1000000 : ℚ) ≤ 1 / 2 ^ 100 := le_trans h h1
  norm_num at this

/-- The difference of two `float` numbers does not round to zero. -/
theorem float_diff_pos {a b : ℚ} (ha : rnd32 a = a) (hb : rnd32 b = b) (h : 0 < a + -b) : 1 / 2 ^ 149 ≤ rnd32 (a + -b) := by
  obtain ⟨j, hj⟩ := rne_grid (p := 24) (qmin := -149) a
  obtain ⟨k, hk⟩ := rne_grid (p := 24) (qmin := -149) b
  rw [show rne 24 (-149) a = a from ha] at hj
  rw [show rne 24 (-149) b = b from hb] at hk
  have e149 : pow2 (-149) = 1 / 2 ^ 149 := by
    have := IndexF.pow2_neg 149
    push_cast at this
    exact this
  have hsum : a + -b = ((j - k : ℤ) : ℚ) * (1 / 2 ^ 149) := by
    rw [hj, hk, e149]; push_cast; ring
  have h1 : (0 : ℚ) < ((j - k : ℤ) : ℚ) := by
    by_contra hneg
    push Not at hneg
    have := mul_nonpos_of_nonpos_of_nonneg hneg (by positivity : (0 : ℚ) ≤ 1 / 2 ^ 149)
    linarith
  have h2 : (1 : ℤ) ≤ j - k := by
    have : (0 : ℤ) < j - k := by exact_mod_cast h1
    omega
  have h3 : (1 : ℚ) ≤ ((j - k : ℤ) : ℚ) := by exact_mod_cast h2
  have h4 : 1 / 2 ^ 149 ≤ a + -b := by
    rw [hsum]
    have := mul_le_mul_of_nonneg_right h3 (by positivity : (0 : ℚ) ≤ 1 / 2 ^ 149)
    linarith
  have h5 : rnd32 (1 / 2 ^ 149) = 1 / 2 ^ 149 := by decide +kernel
  rw [← h5]
  exact rnd32_mono h4

theorem rnd32_nonneg_le {x : ℚ} (h : 0 ≤ x) : rnd32 x ≤ (1 + u) * x + eta := by
  have := rnd32_le (x := x)
  rw [abs_of_nonneg h, abs_of_nonneg (rnd32_nonneg h)] at this
  exact this

/-- Inside the truncation band the weight of an update is finite. -/
theorem updatedWeight32 {T vs w F : ℚ} {cfg : Config} (hcT : cfg.truncation = .fin T) (hT : rnd32 T = T) (hT2 : T ≤ 2 ^ 40)
    (hvs : rnd32 vs = vs) (hvs2 : |vs| ≤ 2 ^ 40) (hcF : cfg.sparsityFactor = .fin F) (hF : 0 ≤ F) (hF2 : F ≤ 2 ^ 20) (hw : 0 ≤ w) (hw2 : w ≤ 2 ^ 70)
    {s : ℚ} (hs : |s| < T) :
    ∃ x, updatedWeight float32 cfg (.fin vs) (.fin s) (.fin w) = .fin x ∧ 0 ≤ x ∧ x ≤ 2 ^ 100 := by
  have h1 : ∃ x, (if (cfg.useWeightDropoff && Fl.lt (.fin s) (Fl.neg (.fin vs))) = true then
      ((float32.div (float32.mul (.fin w) (float32.add cfg.truncation (.fin s))) (float32.sub cfg.truncation (.fin vs))).stdMax (.fin 0))
      else .fin w) = Fl.fin x ∧ 0 ≤ x ∧ x ≤ 2 ^ 75 := by
    split
    · rename_i h
      have hlt : s < -vs := by
        simp only [Bool.and_eq_true, Fl.neg, Fl.lt, decide_eq_true_eq] at h
        exact h.2
      obtain ⟨s1, s2⟩ := abs_lt.1 hs
      obtain ⟨v1, v2⟩ := abs_le.1 hvs2
      have hTs : 0 < T + s := by linarith
      have hD : 0 < T + -vs := by linarith
      have hDr := float_diff_pos hT hvs hD
      have hle : rnd32 (T + s) ≤ rnd32 (T + -vs) := rnd32_mono (by linarith)
      have ha0 := rnd32_nonneg hTs.le
      have hau := rnd32_nonneg_le hTs.le
      have ea := rnd_fin_nonneg hTs.le (le_trans (by linarith : T + s ≤ 2 * 2 ^ 40) (by norm_num))
      have eD := rnd_fin_nonneg hD.le (le_trans (by linarith : T + -vs ≤ 2 * 2 ^ 40) (by norm_num))
      generalize rnd32 (T + s) = a at hle ha0 hau ea
      generalize rnd32 (T + -vs) = D at hle hDr eD
      rw [u_eq, eta_eq] at hau
      have ha2 : a ≤ 2 ^ 42 := by
        have : (1 + 1 / 2 ^ 24) * (T + s) + 1 / 2 ^ 150 ≤ (2 : ℚ) ^ 42 := by linarith
        linarith
      have hD0 : 0 < D := lt_of_lt_of_le (by positivity) hDr
      have hwa : 0 ≤ w * a := mul_nonneg hw ha0
      have hwa2 : w * a ≤ 2 ^ 70 * 2 ^ 42 := mul_le_mul hw2 ha2 ha0 (by positivity)
      have en := rnd_fin_nonneg hwa (le_trans hwa2 (by norm_num))
      have hn0 := rnd32_nonneg hwa
      have hnu := rnd32_nonneg_le hwa
      generalize rnd32 (w * a) = n at en hn0 hnu
      have hq0 : 0 ≤ n / D := div_nonneg hn0 hD0.le
      have hq1 : n / D ≤ 2 * w + 1 := by
        rw [div_le_iff₀ hD0]
        rw [u_eq, eta_eq] at hnu
        have k1 : w * a ≤ w * D := mul_le_mul_of_nonneg_left hle hw
        have k2 : (1 / 2 ^ 150 : ℚ) ≤ D := le_trans (by norm_num) hDr
        have k3 : 0 ≤ w * D := mul_nonneg hw hD0.le
        have k4 : (1 + 1 / 2 ^ 24 : ℚ) * (w * a) ≤ 2 * (w * D) := by linarith
        calc n ≤ (1 + 1 / 2 ^ 24) * (w * a) + 1 / 2 ^ 150 := hnu
          _ ≤ 2 * (w * D) + D := by linarith
          _ = (2 * w + 1) * D := by ring
      have eq := rnd_fin_nonneg hq0 (le_trans hq1 (le_trans (by linarith : 2 * w + 1 ≤ 2 * 2 ^ 70 + 1) (by norm_num)))
      have hr0 := rnd32_nonneg hq0
      have hru := rnd32_nonneg_le hq0
      generalize rnd32 (n / D) = q at eq hr0 hru
      rw [u_eq, eta_eq] at hru
      refine ⟨q, ?_, hr0, ?_⟩
      · simp only [hcT, Arith.add, Arith.sub, Fl.neg, ea, eD, Arith.mul, en, Arith.div, if_neg hD0.ne', eq, Fl.stdMax]
        rw [if_neg]
        simpa [Fl.lt] using hr0
      · have : (1 + 1 / 2 ^ 24) * (n / D) + 1 / 2 ^ 150 ≤ (1 + 1 / 2 ^ 24) * (2 * 2 ^ 70 + 1) + 1 / 2 ^ 150 := by
          have := mul_le_mul_of_nonneg_left (le_trans hq1 (by linarith : 2 * w + 1 ≤ 2 * 2 ^ 70 + 1)) (by norm_num : (0 : ℚ) ≤ 1 + 1 / 2 ^ 24)
          linarith
        refine le_trans hru (le_trans this (by norm_num))
    · exact ⟨w, rfl, hw, le_trans hw2 (by norm_num)⟩
  obtain ⟨x, hx, hx0, hx1⟩ := h1
  unfold updatedWeight
  simp only [hx]
  split
  · rw [hcF]
    have p0 : 0 ≤ x * F := mul_nonneg hx0 hF
    have p1 : x * F ≤ 2 ^ 75 * 2 ^ 20 := mul_le_mul hx1 hF2 hF (by positivity)
    have e := rnd_fin_nonneg p0 (le_trans p1 (by norm_num))
    refine ⟨rnd32 (x * F), by simp only [Arith.mul]; exact e, rnd32_nonneg p0, ?_⟩
    have := rnd32_nonneg_le p0
    rw [u_eq, eta_eq] at this
    have k := mul_le_mul_of_nonneg_left p1 (by norm_num : (0 : ℚ) ≤ 1 + 1 / 2 ^ 24)
    refine le_trans this (le_trans (add_le_add k le_rfl) (by norm_num))
  · exact ⟨x, rfl, hx0, le_trans hx1 (by norm_num)⟩

theorem updateVoxel32 {T M vs w F W : ℚ} {cfg : Config} (hcT : cfg.truncation = .fin T) (hT : rnd32 T = T) (hT2 : T ≤ 2 ^ 40)
    (hvs : rnd32 vs = vs) (hvs2 : |vs| ≤ 2 ^ 40) (hcM : cfg.maxWeight = .fin M) (hM : 0 ≤ M) (hM2 : M ≤ 2 ^ 100)
    (hcF : cfg.sparsityFactor = .fin F) (hF : 0 ≤ F) (hF2 : F ≤ 2 ^ 20) {o : Obs} (how : o.weight = .fin w) (hw : 0 ≤ w) (hw2 : w ≤ 2 ^ 70)
    {v : TsdfVoxel Fl} (hvw : v.weight = .fin W) (hW : 0 ≤ W) (hW2 : W ≤ 2 ^ 100) :
    ∃ v', updateVoxel float32 cfg (.fin vs) o v = .ok v' ∧ (∃ W', v'.weight = .fin W' ∧ 0 ≤ W' ∧ W' ≤ 2 ^ 100) ∧
      ColorBetween v'.color v.color o.color := by
  have hself : ColorBetween v.color v.color o.color :=
    ⟨⟨by omega, by omega⟩, ⟨by omega, by omega⟩, ⟨by omega, by omega⟩, ⟨by omega, by omega⟩⟩
  unfold updateVoxel applyUpdate
  simp only
  generalize hsdf : computeDistance float32 o.origin o.pointG o.center = sdf
  split
  · exact ⟨v, rfl, ⟨W, hvw, hW, hW2⟩, hself⟩
  · rename_i hlt
    have hcap := capWeight_within hM (by simpa using hlt)
    have hcol : ∃ c, updatedColor float32 cfg sdf (updatedWeight float32 cfg (.fin vs) sdf o.weight) o.color v = .ok c ∧
        ColorBetween c v.color o.color := by
      unfold updatedColor
      split
      · rename_i hab
        rw [hcT] at hab
        obtain ⟨s, rfl, hs⟩ := lt_abs_fin hab
        obtain ⟨x, hx, hx0, hx1⟩ := updatedWeight32 hcT hT hT2 hvs hvs2 hcF hF hF2 hw hw2 hs
        rw [how] at hlt ⊢
        rw [hx] at hlt ⊢
        rw [hvw] at hlt ⊢
        have hsum : W + x ≤ 2 ^ 127 := le_trans (add_le_add hW2 hx1) (by norm_num)
        refine blend32 hW hx0 (not_small hsum (by linarith) ?_) hsum v.color o.color
        simpa [Arith.add] using hlt
      · exact ⟨v.color, rfl, hself⟩
    obtain ⟨c, hc, hbc⟩ := hcol
    obtain ⟨q, hq, hq0, hqM⟩ := hcap
    exact ⟨_, by rw [hc]; rfl, ⟨q, by rw [hcM]; exact hq, hq0, le_trans hqM hM2⟩, hbc⟩

/-- Weights of points are at most about 10^12. -/
theorem voxelWeight32 (cfg : Config) (z : Fl) : ∃ w, voxelWeight float32 cfg z = .fin w ∧ 0 ≤ w ∧ w ≤ 2 ^ 41 := by
  unfold voxelWeight
  split
  · exact ⟨1, rfl, by norm_num, by norm_num⟩
  · simp only
    split
    · rename_i h
      cases z with
      | nan => simp [Fl.abs, Fl.lt] at h
      | ninf => exact ⟨0, rfl, le_rfl, by positivity⟩
      | pinf => exact ⟨0, rfl, le_rfl, by positivity⟩
      | fin q =>
        have hq : 1 / 1000000 < |q| := by simpa [Fl.abs, Fl.lt, kEpsilon] using h
        have hqq : 1 / 1000000 * (1 / 1000000) ≤ |q| * |q| := mul_le_mul hq.le hq.le (by norm_num) (abs_nonneg q)
        have hr := rnd32_mono hqq
        have hlow : (1 / 2 ^ 40 : ℚ) ≤ rnd32 (1 / 1000000 * (1 / 1000000)) := by decide +kernel
        simp only [Fl.abs, Arith.mul]
        have hover : float32.rnd (|q| * |q|) = .fin (rnd32 (|q| * |q|)) ∨ float32.rnd (|q| * |q|) = .pinf := by
          show overflow (2 ^ 128) (rnd32 (|q| * |q|)) = _ ∨ overflow (2 ^ 128) (rnd32 (|q| * |q|)) = _
          unfold overflow
          split
          · exact Or.inr rfl
          · rw [if_neg]
            · exact Or.inl rfl
            · have : 0 ≤ rnd32 (|q| * |q|) := rnd32_nonneg (by positivity)
              push Not
              refine lt_of_lt_of_le (by norm_num) this
        rcases hover with e | e
        · rw [e]
          have hp : 1 / 2 ^ 40 ≤ rnd32 (|q| * |q|) := le_trans hlow hr
          generalize rnd32 (|q| * |q|) = p at hp
          have hp0 : 0 < p := lt_of_lt_of_le (by positivity) hp
          have hd0 : 0 ≤ 1 / p := by positivity
          have hd1 : 1 / p ≤ 2 ^ 40 := by
            rw [div_le_iff₀ hp0]
            have := mul_le_mul_of_nonneg_left hp (by positivity : (0 : ℚ) ≤ 2 ^ 40)
            linarith
          have e2 := rnd_fin_nonneg hd0 (le_trans hd1 (by norm_num))
          refine ⟨rnd32 (1 / p), ?_, rnd32_nonneg hd0, ?_⟩
          · simp only [Arith.div, if_neg hp0.ne', e2]
          · have := rnd32_nonneg_le hd0
            rw [u_eq, eta_eq] at this
            have k := mul_le_mul_of_nonneg_left hd1 (by norm_num : (0 : ℚ) ≤ 1 + 1 / 2 ^ 24)
            refine le_trans this (le_trans (add_le_add k le_rfl) (by norm_num))
        · rw [e]
          exact ⟨0, rfl, le_rfl, by positivity⟩
    · exact ⟨0, rfl, le_rfl, by positivity⟩

theorem mergeBundle32 (cfg : Config) (clearing : Bool) (ps : List (Vec3 Fl × Color)) :
    ∀ (b : Bundle), (∃ W, b.weight = .fin W ∧ 0 ≤ W ∧ W ≤ 2 ^ 70) →
      ∃ b', mergeBundle float32 cfg clearing ps b = .ok b' ∧ ∃ W, b'.weight = .fin W ∧ 0 ≤ W ∧ W ≤ 2 ^ 70 := by
  induction ps with
  | nil => intro b hb; exact ⟨b, rfl, hb⟩
  | cons pc ps ih =>
    intro b hb
    obtain ⟨p, c⟩ := pc
    obtain ⟨W, hW, hW0, hW1⟩ := hb
    obtain ⟨w, hw, hw0, hw1⟩ := voxelWeight32 cfg p.z
    simp only [mergeBundle]
    split
    · exact ih b ⟨W, hW, hW0, hW1⟩
    · rename_i h
      rw [hw] at h
      have hwp : 1 / 2 ^ 100 ≤ w := by
        have h1 : kEpsilon ≤ w := by simpa [Fl.lt] using h
        refine le_trans ?_ h1
        norm_num [kEpsilon]
      have hsum : W + w ≤ 2 ^ 70 + 2 ^ 41 := add_le_add hW1 hw1
      have hsum' : W + w ≤ 2 ^ 127 := le_trans hsum (by norm_num)
      obtain ⟨col, hcol, -⟩ := blend32 hW0 hw0 (by linarith) hsum' b.color c
      have et := rnd_fin_nonneg (add_nonneg hW0 hw0) hsum'
      have hcap : rnd32 (W + w) ≤ 2 ^ 70 := by
        refine le_trans (rnd32_mono hsum) (le_of_eq ?_)
        decide +kernel
      have hn := rnd32_nonneg (add_nonneg hW0 hw0)
      rw [hW, hw, hcol]
      simp only [Outcome.bind_ok]
      split
      · exact ⟨_, rfl, rnd32 (W + w), by simp [Arith.add, et], hn, hcap⟩
      · exact ih _ ⟨rnd32 (W + w), by simp [Arith.add, et], hn, hcap⟩

/-! ### One step of the fusion -/

/-- The exact bounds behind one step: `x` is the exact numerator, `V` the exact weight, `W'` the rounded weight, `a`, `b`, `c`, `D` the
rounded intermediate results. -/
theorem mean_bounds {T s w d W V W' a b c D : ℚ} (hT1 : 1 / 2 ^ 20 ≤ T) (hw : 0 ≤ w) (hW : 0 ≤ W) (hV : V = W + w) (hVw : 1 / 200000 ≤ V)
    (hs : |s| ≤ T) (hd : |d| ≤ T) (hW' : |W' - V| ≤ u * |V| + eta) (ha : |a - s * w| ≤ u * |s * w| + eta)
    (hb : |b - d * W| ≤ u * |d * W| + eta) (hc : |c - (a + b)| ≤ u * |a + b| + eta) (hD : |D - c / W'| ≤ u * |c / W'| + eta) :
    |W' - V| ≤ 17 / 16 * u * V ∧ |c| ≤ 2 * (T * V) ∧ |D * W' - (s * w + d * W)| ≤ 13 / 4 * u * (T * V) := by
  have hu : (0 : ℚ) ≤ u := by rw [u_eq]; positivity
  have he : (0 : ℚ) ≤ eta := by rw [eta_eq]; positivity
  have hV0 : 0 < V := by linarith
  have hT0 : 0 < T := lt_of_lt_of_le (by positivity) hT1
  have hTV : 0 < T * V := mul_pos hT0 hV0
  have hTVlo : 1 / 2 ^ 20 * (1 / 200000) ≤ T * V := mul_le_mul hT1 hVw (by norm_num) hT0.le
  have hee : eta ≤ u * (T * V) / 1000 := by
    have : u * (1 / 2 ^ 20 * (1 / 200000)) ≤ u * (T * V) := mul_le_mul_of_nonneg_left hTVlo hu
    have h2 : eta ≤ u * (1 / 2 ^ 20 * (1 / 200000)) / 1000 := by rw [u_eq, eta_eq]; norm_num
    linarith
  have heV : eta ≤ u * V / 1000 := by
    have : u * (1 / 200000) ≤ u * V := mul_le_mul_of_nonneg_left hVw hu
    have h2 : eta ≤ u * (1 / 200000) / 1000 := by rw [u_eq, eta_eq]; norm_num
    linarith
  rw [abs_of_pos hV0] at hW'
  have g1 : |W' - V| ≤ 17 / 16 * u * V := by linarith
  have hus : u * V ≤ V / 1000 := by
    have : u ≤ 1 / 1000 := by rw [u_eq]; norm_num
    have := mul_le_mul_of_nonneg_right this hV0.le
    linarith
  have hWp : 0 < W' := by
    have := (abs_le.1 g1).1
    linarith
  have m1 : |s * w| ≤ T * w := by
    rw [abs_mul, abs_of_nonneg (by linarith : (0 : ℚ) ≤ w)]
    exact mul_le_mul_of_nonneg_right hs (by linarith)
  have m2 : |d * W| ≤ T * W := by
    rw [abs_mul, abs_of_nonneg hW]
    exact mul_le_mul_of_nonneg_right hd hW
  have hsplit : T * w + T * W = T * V := by rw [hV]; ring
  have m1' : u * |s * w| ≤ u * (T * w) := mul_le_mul_of_nonneg_left m1 hu
  have m2' : u * |d * W| ≤ u * (T * W) := mul_le_mul_of_nonneg_left m2 hu
  have hsplit' : u * (T * w) + u * (T * W) = u * (T * V) := by rw [← hsplit]; ring
  have n1 : |(a + b) - (s * w + d * W)| ≤ u * (T * V) + 2 * eta := by
    have := abs_add_le (a - s * w) (b - d * W)
    rw [show a - s * w + (b - d * W) = (a + b) - (s * w + d * W) by ring] at this
    linarith
  have huTV : u * (T * V) ≤ T * V / 1000 := by
    have : u ≤ 1 / 1000 := by rw [u_eq]; norm_num
    have := mul_le_mul_of_nonneg_right this hTV.le
    linarith
  have n2 : |s * w + d * W| ≤ T * V := by
    have := abs_add_le (s * w) (d * W)
    linarith
  have n3 : |a + b| ≤ 101 / 100 * (T * V) := by
    have := abs_add_le ((a + b) - (s * w + d * W)) (s * w + d * W)
    rw [sub_add_cancel] at this
    linarith
  have n3' : u * |a + b| ≤ 101 / 100 * (u * (T * V)) := by
    have := mul_le_mul_of_nonneg_left n3 hu
    linarith
  have n4 : |c - (s * w + d * W)| ≤ 202 / 100 * (u * (T * V)) := by
    have := abs_add_le (c - (a + b)) ((a + b) - (s * w + d * W))
    rw [show c - (a + b) + ((a + b) - (s * w + d * W)) = c - (s * w + d * W) by ring] at this
    linarith
  have n5 : |c| ≤ 102 / 100 * (T * V) := by
    have := abs_add_le (c - (s * w + d * W)) (s * w + d * W)
    rw [sub_add_cancel] at this
    linarith
  have n5' : u * |c| ≤ 102 / 100 * (u * (T * V)) := by
    have := mul_le_mul_of_nonneg_left n5 hu
    linarith
  refine ⟨g1, by linarith, ?_⟩
  have n6 : |D * W' - c| ≤ u * |c| + eta * W' := by
    have h1 : D * W' - c = (D - c / W') * W' := by field_simp
    rw [h1, abs_mul, abs_of_pos hWp]
    have h2 := mul_le_mul_of_nonneg_right hD hWp.le
    rw [abs_div, abs_of_pos hWp, add_mul, mul_assoc, div_mul_cancel₀ _ hWp.ne'] at h2
    exact h2
  have n7 : eta * W' ≤ u * (T * V) / 100 := by
    have hW2 : W' ≤ 2 * V := by
      have := (abs_le.1 g1).2
      linarith
    have e1 : eta * W' ≤ eta * (2 * V) := mul_le_mul_of_nonneg_left hW2 he
    have e2 : eta ≤ u * T / 1000 := by
      have : u * (1 / 2 ^ 20) ≤ u * T := mul_le_mul_of_nonneg_left hT1 hu
      have h2 : eta ≤ u * (1 / 2 ^ 20) / 1000 := by rw [u_eq, eta_eq]; norm_num
      linarith
    have e3 : eta * (2 * V) ≤ u * T / 1000 * (2 * V) := mul_le_mul_of_nonneg_right e2 (by linarith)
    have e4 : u * T / 1000 * (2 * V) = u * (T * V) / 500 := by ring
    linarith [mul_nonneg hu hTV.le]
  have := abs_add_le (D * W' - c) (c - (s * w + d * W))
  rw [sub_add_sub_cancel] at this
  linarith [mul_nonneg hu hTV.le]

/-- The same for a fusion step, whose new weight is bounded below. -/
theorem step_bounds {T s w d W V W' a b c D : ℚ} (hT1 : 1 / 2 ^ 20 ≤ T) (hw : 1 / 100000 ≤ w) (hW : 0 ≤ W) (hV : V = W + w)
    (hs : |s| ≤ T) (hd : |d| ≤ T) (hW' : |W' - V| ≤ u * |V| + eta) (ha : |a - s * w| ≤ u * |s * w| + eta)
    (hb : |b - d * W| ≤ u * |d * W| + eta) (hc : |c - (a + b)| ≤ u * |a + b| + eta) (hD : |D - c / W'| ≤ u * |c / W'| + eta) :
    |W' - V| ≤ 17 / 16 * u * V ∧ |c| ≤ 2 * (T * V) ∧ |D * W' - (s * w + d * W)| ≤ 13 / 4 * u * (T * V) :=
  mean_bounds hT1 (by linarith) hW hV (by rw [hV]; linarith) hs hd hW' ha hb hc hD

/-- Clamping the new distance to the truncation band keeps the bound. -/
theorem clamp_bounds {T X V W' D : ℚ} (hT : 0 ≤ T) (hW' : 0 ≤ W') (hX : |X| ≤ T * V) {e : ℚ} (he : |D * W' - X| ≤ e)
    (hw : |W' - V| * T ≤ e) : |(if 0 < D then min T D else max (-T) D) * W' - X| ≤ e := by
  obtain ⟨x1, x2⟩ := abs_le.1 hX
  obtain ⟨e1, e2⟩ := abs_le.1 he
  have w1 : -(|W' - V| * T) ≤ (W' - V) * T := by
    have := mul_le_mul_of_nonneg_right (neg_abs_le (W' - V)) hT
    linarith
  split
  · rcases le_total T D with h | h
    · rw [min_eq_left h]
      have : T * W' ≤ D * W' := mul_le_mul_of_nonneg_right h hW'
      rw [abs_le]
      constructor <;> linarith
    · rw [min_eq_right h]; exact he
  · rcases le_total (-T) D with h | h
    · rw [max_eq_right h]; exact he
    · rw [max_eq_left h]
      have : D * W' ≤ -T * W' := mul_le_mul_of_nonneg_right h hW'
      rw [abs_le]
      constructor <;> linarith

end Vox.RoundErr
