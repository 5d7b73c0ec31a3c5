/-
Merging voxels in `float`: error of one merge and of a sequence of merges.
-/
import Verif.Lemmas.RoundError
import Verif.Lemmas.Setup
import Verif.Spec.Tsdf

namespace Vox.RoundErr

open Ieee Tsdf Spec
open IndexF (u eta rnd32_err)

/-- Twice a float is a float, up to overflow. -/
theorem rnd32_double {x : ℚ} (h : rnd32 x = x) : rnd32 (2 * x) = 2 * x := by
  obtain ⟨k, e, hk, he, hr⟩ := rne_form (p := 24) (qmin := -149) x
  have hx : x = k * pow2 e := h.symm.trans hr
  have := Setup.rnd32_scale hk he 1
  rw [← hx, pow_one, mul_comm x] at this
  exact this

/-- One merge in `float`, with its error bounds. -/
theorem merge32 {T da db wa wb : ℚ} (hT1 : 1 / 2 ^ 20 ≤ T) (hT2 : T ≤ 2 ^ 41) (ha : |da| ≤ T) (hb : |db| ≤ T) (hwa : 0 ≤ wa) (hwb : 0 ≤ wb)
    (hlo : 1 / 200000 ≤ wa + wb) (hhi : wa + wb ≤ 2 ^ 41) {a b : TsdfVoxel Fl} (hda : a.distance = .fin da) (hdb : b.distance = .fin db)
    (ea : a.weight = .fin wa) (eb : b.weight = .fin wb) :
    ∃ v D, mergeTsdf float32 a b = .ok v ∧ v.distance = .fin D ∧ v.weight = .fin (rnd32 (wa + wb)) ∧ ColorBetween v.color a.color b.color ∧
      |rnd32 (wa + wb) - (wa + wb)| ≤ 17 / 16 * u * (wa + wb) ∧
      |D * rnd32 (wa + wb) - (da * wa + db * wb)| ≤ 13 / 4 * u * (T * (wa + wb)) := by
  have hT0 : 0 < T := lt_of_lt_of_le (by positivity) hT1
  have hV0 : 0 < wa + wb := lt_of_lt_of_le (by norm_num) hlo
  obtain ⟨gW, gc, gD⟩ := mean_bounds (V := wa + wb) hT1 hwa hwb (add_comm _ _) hlo ha hb (rnd32_err (wa + wb)) (rnd32_err (da * wa))
    (rnd32_err (db * wb)) (rnd32_err (rnd32 (da * wa) + rnd32 (db * wb)))
    (rnd32_err (rnd32 (rnd32 (da * wa) + rnd32 (db * wb)) / rnd32 (wa + wb)))
  have m1 : |da * wa| ≤ 2 ^ 41 * 2 ^ 41 := by
    rw [abs_mul, abs_of_nonneg hwa]
    exact mul_le_mul (le_trans ha hT2) (by linarith) hwa (by positivity)
  have m2 : |db * wb| ≤ 2 ^ 41 * 2 ^ 41 := by
    rw [abs_mul, abs_of_nonneg hwb]
    exact mul_le_mul (le_trans hb hT2) (by linarith) hwb (by positivity)
  have r1 : |rnd32 (da * wa)| ≤ 2 ^ 83 := by
    refine le_trans rnd32_le ?_
    rw [u_eq, eta_eq]
    refine le_trans (add_le_add (mul_le_mul_of_nonneg_left m1 (by norm_num)) le_rfl) (by norm_num)
  have r2 : |rnd32 (db * wb)| ≤ 2 ^ 83 := by
    refine le_trans rnd32_le ?_
    rw [u_eq, eta_eq]
    refine le_trans (add_le_add (mul_le_mul_of_nonneg_left m2 (by norm_num)) le_rfl) (by norm_num)
  have r3 : |rnd32 (da * wa) + rnd32 (db * wb)| ≤ 2 ^ 127 :=
    le_trans (abs_add_le _ _) (le_trans (add_le_add r1 r2) (by norm_num))
  have hWl : (wa + wb) / 2 ≤ rnd32 (wa + wb) := by
    have h1 := (abs_le.1 gW).1
    rw [u_eq] at h1
    linarith
  have hWp : 0 < rnd32 (wa + wb) := by linarith
  have eW := rnd_fin_nonneg hV0.le (le_trans hhi (by norm_num))
  have e1 := rnd_fin (x := da * wa) (le_trans m1 (by norm_num))
  have e2 := rnd_fin (x := db * wb) (le_trans m2 (by norm_num))
  have e3 := rnd_fin r3
  have r4 : |rnd32 (rnd32 (da * wa) + rnd32 (db * wb)) / rnd32 (wa + wb)| ≤ 4 * T := by
    rw [abs_div, abs_of_pos hWp, div_le_iff₀ hWp]
    refine le_trans gc ?_
    have := mul_le_mul_of_nonneg_left hWl (by linarith : 0 ≤ 4 * T)
    linarith
  have e4 := rnd_fin (x := rnd32 (rnd32 (da * wa) + rnd32 (db * wb)) / rnd32 (wa + wb))
    (le_trans r4 (le_trans (mul_le_mul_of_nonneg_left hT2 (by norm_num)) (by norm_num)))
  obtain ⟨c, hc, hbc⟩ := blend32 hwa hwb (le_trans (by norm_num) hlo) (le_trans hhi (by norm_num)) a.color b.color
  refine ⟨{ distance := .fin _, weight := .fin (rnd32 (wa + wb)), color := c }, _, ?_, rfl, rfl, hbc, gW, gD⟩
  simp only [mergeTsdf, ea, eb, hda, hdb, Arith.add, eW, Fl.lt, decide_eq_true_eq, if_pos hWp, Arith.mul, e1, e2, e3, Arith.div, if_neg hWp.ne', e4, hc,
    Outcome.bind_ok, Outcome.pure_eq]

/-- A merge that finds no weight leaves the voxel as it is. -/
theorem merge32_zero {a b : TsdfVoxel Fl} (ha : a.weight = .fin 0) (hb : b.weight = .fin 0) : mergeTsdf float32 a b = .ok b := by
  unfold mergeTsdf
  simp [ha, hb, Arith.add, float32_faithful.zero, Fl.lt]

/-- The distance kept by a sequence of merges stays close to the range of the inputs. -/
theorem kept_range {T d W S U k : ℚ} (hT : 0 < T) (hU : 0 < U) (hk : k * u ≤ 1 / 64) (hS : |S| ≤ T * U) (h1 : |W - U| ≤ 5 / 4 * k * u * U)
    (h2 : |d * W - S| ≤ 4 * k * u * (T * U)) : |d| ≤ 9 / 8 * T := by
  have hTU : 0 < T * U := mul_pos hT hU
  have e1 : k * u * U ≤ 1 / 64 * U := mul_le_mul_of_nonneg_right hk hU.le
  have e2 : k * u * (T * U) ≤ 1 / 64 * (T * U) := mul_le_mul_of_nonneg_right hk hTU.le
  have hW : 251 / 256 * U ≤ W := by
    have := (abs_le.1 h1).1
    linarith
  have hW0 : 0 < W := by linarith
  have h3 : |d| * W ≤ 17 / 16 * (T * U) := by
    have := abs_add_le (d * W - S) S
    rw [sub_add_cancel, abs_mul, abs_of_pos hW0] at this
    linarith
  by_contra hcon
  push Not at hcon
  have h4 : 9 / 8 * T * (251 / 256 * U) ≤ |d| * W := mul_le_mul hcon.le hW (by linarith) (abs_nonneg _)
  linarith

/-- The invariant of a sequence of merges: after `k` of them with sum of weights `U` and weighted sum `S`. -/
theorem merges32 {T : ℚ} (hT1 : 1 / 2 ^ 20 ≤ T) (hT2 : T ≤ 2 ^ 40) (s w : TsdfVoxel Fl → ℚ) (vs : List (TsdfVoxel Fl)) :
    (∀ x ∈ vs, x.distance = .fin (s x) ∧ x.weight = .fin (w x) ∧ |s x| ≤ T ∧ (w x = 0 ∨ 1 / 100000 ≤ w x)) →
    ∀ (k : ℕ) (v : TsdfVoxel Fl) (d W S U : ℚ), v.distance = .fin d → v.weight = .fin W → 0 ≤ W → (U = 0 ∧ |d| ≤ T ∨ 1 / 100000 ≤ U) → |S| ≤ T * U →
      |W - U| ≤ 5 / 4 * k * u * U → |d * W - S| ≤ 4 * k * u * (T * U) → k + vs.length ≤ 2 ^ 18 → U + total w vs ≤ 2 ^ 40 →
      ∃ v' d' W', vs.foldlM (fun b a => mergeTsdf float32 a b) v = .ok v' ∧ v'.distance = .fin d' ∧ v'.weight = .fin W' ∧ 0 ≤ W' ∧
        |S + total (fun x => w x * s x) vs| ≤ T * (U + total w vs) ∧
        |W' - (U + total w vs)| ≤ 5 / 4 * (k + vs.length) * u * (U + total w vs) ∧
        |d' * W' - (S + total (fun x => w x * s x) vs)| ≤ 4 * (k + vs.length) * u * (T * (U + total w vs)) := by
  have hT0 : 0 < T := lt_of_lt_of_le (by positivity) hT1
  have hu0 : (0 : ℚ) < u := by rw [u_eq]; positivity
  induction vs with
  | nil =>
    intro _ k v d W S U hvd hvw hW _ hS h1 h2 _ _
    refine ⟨v, d, W, rfl, hvd, hvw, hW, ?_, ?_, ?_⟩
    · simpa [total] using hS
    · simpa [total] using h1
    · simpa [total] using h2
  | cons x vs ih =>
    intro hxs k v d W S U hvd hvw hW hU hS h1 h2 hk hcap
    obtain ⟨xd, xw, xs, xp⟩ := hxs x (by simp)
    have hw0 : 0 ≤ w x := by
      rcases xp with h | h
      · rw [h]
      · linarith
    have hU0 : 0 ≤ U := by
      rcases hU with h | h
      · rw [h.1]
      · linarith
    have hrest : 0 ≤ total w vs := by
      unfold total
      apply List.sum_nonneg
      intro y hy
      obtain ⟨o, ho, rfl⟩ := List.mem_map.1 hy
      rcases (hxs o (by simp [ho])).2.2.2 with h | h
      · rw [h]
      · linarith
    have tw : total w (x :: vs) = w x + total w vs := by simp [total]
    have ts : total (fun x => w x * s x) (x :: vs) = w x * s x + total (fun x => w x * s x) vs := by simp [total]
    rw [tw] at hcap
    rw [tw, ts]
    simp only [List.length_cons] at hk ⊢
    have hkq : (k : ℚ) + 1 ≤ 2 ^ 18 := by exact_mod_cast (by omega : k + 1 ≤ 2 ^ 18)
    have hk0 : (0 : ℚ) ≤ k := by positivity
    have hku : (k : ℚ) * u ≤ 1 / 64 := by
      rw [u_eq]
      linarith
    have hkuU : (k : ℚ) * u * U ≤ 1 / 64 * U := mul_le_mul_of_nonneg_right hku hU0
    obtain ⟨W1, W2⟩ := abs_le.1 h1
    have hV : w x + W ≤ 261 / 256 * (U + w x) := by linarith
    have hU' : 0 ≤ U + w x := by linarith
    have hS' : |S + w x * s x| ≤ T * (U + w x) := by
      refine le_trans (abs_add_le _ _) ?_
      rw [abs_mul, abs_of_nonneg hw0]
      have := mul_le_mul_of_nonneg_left xs hw0
      linarith
    have key : ∃ v1 D1 Wn, mergeTsdf float32 x v = .ok v1 ∧ v1.distance = .fin D1 ∧ v1.weight = .fin Wn ∧ 0 ≤ Wn ∧
        (U + w x = 0 ∧ |D1| ≤ T ∨ 1 / 100000 ≤ U + w x) ∧
        |Wn - (U + w x)| ≤ 5 / 4 * (k + 1 : ℕ) * u * (U + w x) ∧
        |D1 * Wn - (S + w x * s x)| ≤ 4 * (k + 1 : ℕ) * u * (T * (U + w x)) := by
      by_cases hz : U = 0 ∧ w x = 0
      · obtain ⟨z1, z2⟩ := hz
        have hWz : W = 0 := by
          rw [z1] at W1 W2
          linarith
        have hd : |d| ≤ T := by
          rcases hU with h | h
          · exact h.2
          · rw [z1] at h
            norm_num at h
        have hSz : S = 0 := by
          rw [z1, mul_zero] at hS
          exact abs_eq_zero.1 (le_antisymm hS (abs_nonneg _))
        refine ⟨v, d, W, merge32_zero (by rw [xw, z2]) (by rw [hvw, hWz]), hvd, hvw, hW, Or.inl ⟨by rw [z1, z2, add_zero], hd⟩, ?_, ?_⟩
        · simp [z1, z2, hWz]
        · simp [z1, z2, hWz, hSz]
      · have hlo : 1 / 100000 ≤ U + w x := by
          rcases hU with h | h
          · rcases xp with g | g
            · exact absurd ⟨h.1, g⟩ hz
            · linarith
          · linarith
        have hlo' : 1 / 200000 ≤ w x + W := by linarith
        have hd : |d| ≤ 9 / 8 * T := by
          rcases hU with h | h
          · linarith [h.2]
          · exact kept_range hT0 (by linarith) hku hS h1 h2
        obtain ⟨v1, D1, hv1, hd1, hw1, -, gW, gD⟩ := merge32 (T := 9 / 8 * T) (by linarith) (by linarith) (by linarith : |s x| ≤ 9 / 8 * T) hd hw0 hW hlo'
          (by linarith) xd hvd xw hvw
        have e1 : 17 / 16 * u * (w x + W) ≤ 5 / 4 * u * (U + w x) := by
          have := mul_le_mul_of_nonneg_left hV (by linarith : 0 ≤ 17 / 16 * u)
          have h9 : 0 ≤ u * (U + w x) := mul_nonneg hu0.le hU'
          linarith
        have e2 : 13 / 4 * u * (9 / 8 * T * (w x + W)) ≤ 4 * u * (T * (U + w x)) := by
          have h3 := mul_le_mul_of_nonneg_left hV hT0.le
          have h4 := mul_le_mul_of_nonneg_left h3 (by linarith : 0 ≤ 13 / 4 * (9 / 8) * u)
          have h9 : 0 ≤ u * (T * (U + w x)) := mul_nonneg hu0.le (mul_nonneg hT0.le hU')
          linarith
        have hmono : 5 / 4 * k * u * U ≤ 5 / 4 * k * u * (U + w x) := mul_le_mul_of_nonneg_left (by linarith) (by positivity)
        have e3 : 4 * k * u * (T * U) ≤ 4 * k * u * (T * (U + w x)) :=
          mul_le_mul_of_nonneg_left (mul_le_mul_of_nonneg_left (by linarith) hT0.le) (by positivity)
        refine ⟨v1, D1, rnd32 (w x + W), hv1, hd1, hw1, rnd32_nonneg (by linarith), Or.inr hlo, ?_, ?_⟩
        · have := abs_add_le (rnd32 (w x + W) - (w x + W)) (W - U)
          rw [show rnd32 (w x + W) - (w x + W) + (W - U) = rnd32 (w x + W) - (U + w x) by ring] at this
          push_cast
          linarith
        · have := abs_add_le (D1 * rnd32 (w x + W) - (s x * w x + d * W)) (d * W - S)
          rw [show D1 * rnd32 (w x + W) - (s x * w x + d * W) + (d * W - S) = D1 * rnd32 (w x + W) - (S + w x * s x) by ring] at this
          push_cast
          linarith
    obtain ⟨v1, D1, Wn, hv1, hd1, hw1, hWn, hUn, b1, b2⟩ := key
    obtain ⟨v', d', W', hi, hd', hw', hW'0, r0, r1, r2⟩ := ih (fun y hy => hxs y (by simp [hy])) (k + 1) v1 D1 Wn (S + w x * s x) (U + w x)
      hd1 hw1 hWn hUn hS' b1 b2 (by omega) (by rw [add_assoc]; exact hcap)
    have el : ((k + 1 : ℕ) : ℚ) + vs.length = k + (vs.length + 1 : ℕ) := by push_cast; ring
    rw [el] at r1 r2
    refine ⟨v', d', W', ?_, hd', hw', hW'0, ?_, ?_, ?_⟩
    · simp only [List.foldlM_cons, hv1, Outcome.bind_ok]
      exact hi
    · rw [← add_assoc, ← add_assoc]; exact r0
    · rw [← add_assoc]; exact r1
    · rw [← add_assoc, ← add_assoc]; exact r2

end Vox.RoundErr
