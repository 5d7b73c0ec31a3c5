/-
Property C120: merging voxels in `float`.
-/
import Verif.Lemmas.MergeError
import Verif.Model.Occupancy
import Verif.Spec.MergeRounding

namespace Vox.RoundErr

open Ieee Tsdf Spec
open IndexF (u eta rnd32_err)

/-- From the bound on the weighted sum to a bound on the mean. -/
theorem mean_of_sum {T D W X V n : ℚ} (hT : 0 < T) (hV : 0 < V) (hn : 0 ≤ n) (hn1 : n ≤ 1 / 64) (hX : |X| ≤ T * V) (h1 : |W - V| ≤ 5 / 4 * n * V)
    (h2 : |D * W - X| ≤ 4 * n * (T * V)) : |D - X / V| ≤ 6 * n * T := by
  have hTV : 0 < T * V := mul_pos hT hV
  have hD : |D| ≤ 9 / 8 * T := by
    refine kept_range (W := W) (S := X) (U := V) (k := n * 2 ^ 24) hT hV ?_ hX ?_ ?_
    · rw [u_eq]; linarith
    · rw [u_eq]; refine le_trans h1 (le_of_eq ?_); ring
    · rw [u_eq]; refine le_trans h2 (le_of_eq ?_); ring
  have e : D - X / V = ((D * W - X) + D * (V - W)) / V := by
    field_simp
    ring
  rw [e, abs_div, abs_of_pos hV, div_le_iff₀ hV]
  have h3 := abs_add_le (D * W - X) (D * (V - W))
  have h4 : |D * (V - W)| ≤ 9 / 8 * T * (5 / 4 * n * V) := by
    rw [abs_mul, abs_sub_comm]
    exact mul_le_mul hD h1 (abs_nonneg _) (by positivity)
  have h5 : 0 ≤ n * (T * V) := mul_nonneg hn hTV.le
  have h6 : 9 / 8 * T * (5 / 4 * n * V) = 45 / 32 * (n * (T * V)) := by ring
  have h7 : 6 * n * T * V = 6 * (n * (T * V)) := by ring
  have h8 : 4 * n * (T * V) = 4 * (n * (T * V)) := by ring
  rw [h7]
  rw [h6] at h4
  rw [h8] at h2
  linarith

/-- **C120.** Merging two TSDF voxels in `float`: no undefined behaviour, the weight is the sum of the weights and the distance their weighted
mean, up to 6 rounding units of the largest distance; so it lies between the two distances up to that; the colour lies between the colours. -/
theorem C120_merge {T da db wa wb : ℚ} (hT1 : 1 / 2 ^ 20 ≤ T) (hT2 : T ≤ 2 ^ 40) (ha : |da| ≤ T) (hb : |db| ≤ T) (hwa : 0 ≤ wa) (hwb : 0 ≤ wb)
    (hlo : 1 / 100000 ≤ wa + wb) (hhi : wa + wb ≤ 2 ^ 40) {a b : TsdfVoxel Fl} (hda : a.distance = .fin da) (hdb : b.distance = .fin db)
    (ea : a.weight = .fin wa) (eb : b.weight = .fin wb) :
    ∃ v D W, mergeTsdf float32 a b = .ok v ∧ v.distance = .fin D ∧ v.weight = .fin W ∧ |W - (wa + wb)| ≤ 5 / 4 * (1 / 2 ^ 24) * (wa + wb) ∧
      |D - (wa * da + wb * db) / (wa + wb)| ≤ 6 * (1 / 2 ^ 24) * T ∧ min da db - 6 * (1 / 2 ^ 24) * T ≤ D ∧ D ≤ max da db + 6 * (1 / 2 ^ 24) * T ∧
      ColorBetween v.color a.color b.color := by
  have hT0 : 0 < T := lt_of_lt_of_le (by positivity) hT1
  have hV : 0 < wa + wb := lt_of_lt_of_le (by norm_num) hlo
  obtain ⟨v, D, h1, h2, h3, h4, h5, h6⟩ := merge32 hT1 (le_trans hT2 (by norm_num)) ha hb hwa hwb (le_trans (by norm_num) hlo)
    (le_trans hhi (by norm_num)) hda hdb ea eb
  rw [u_eq] at h5 h6
  have hTV : 0 ≤ T * (wa + wb) := mul_nonneg hT0.le hV.le
  have hw : |rnd32 (wa + wb) - (wa + wb)| ≤ 5 / 4 * (1 / 2 ^ 24) * (wa + wb) := by linarith
  have hX : |wa * da + wb * db| ≤ T * (wa + wb) := by
    refine le_trans (abs_add_le _ _) ?_
    rw [abs_mul, abs_mul, abs_of_nonneg hwa, abs_of_nonneg hwb]
    have k1 := mul_le_mul_of_nonneg_left ha hwa
    have k2 := mul_le_mul_of_nonneg_left hb hwb
    linarith
  have hm : |D - (wa * da + wb * db) / (wa + wb)| ≤ 6 * (1 / 2 ^ 24) * T := by
    refine mean_of_sum hT0 hV (by norm_num) (by norm_num) hX hw ?_
    rw [show wa * da + wb * db = da * wa + db * wb by ring]
    linarith
  have hlow : min da db ≤ (wa * da + wb * db) / (wa + wb) := by
    rw [le_div_iff₀ hV]
    have k1 := mul_le_mul_of_nonneg_left (min_le_left da db) hwa
    have k2 := mul_le_mul_of_nonneg_left (min_le_right da db) hwb
    linarith
  have hup : (wa * da + wb * db) / (wa + wb) ≤ max da db := by
    rw [div_le_iff₀ hV]
    have k1 := mul_le_mul_of_nonneg_left (le_max_left da db) hwa
    have k2 := mul_le_mul_of_nonneg_left (le_max_right da db) hwb
    linarith
  obtain ⟨g1, g2⟩ := abs_le.1 hm
  exact ⟨v, D, _, h1, h2, h3, hw, hm, by linarith, by linarith, h4⟩

/-- The hypotheses hold for two voxels of a map, one of them never observed. -/
example : |(1 / 16 : ℚ)| ≤ 1 / 4 ∧ |(0 : ℚ)| ≤ 1 / 4 ∧ (1 : ℚ) / 100000 ≤ 3 + 0 ∧
    mergeTsdf float32 ⟨.fin (1 / 16), .fin 3, ⟨10#8, 20#8, 30#8, 255#8⟩⟩ ⟨.fin 0, .fin 0, Color.default⟩ =
      .ok ⟨.fin (1 / 16), .fin 3, ⟨10#8, 20#8, 30#8, 255#8⟩⟩ := by
  refine ⟨by norm_num, by norm_num, by norm_num, by decide +kernel⟩

/-- **C120.** Merging up to 2^18 - 1 voxels one after the other into a voxel, observed or not: the result is the weighted mean of all of them, up
to 6 rounding units of the largest distance per voxel, and its weight the sum of the weights, up to 5/4 rounding units of that sum per voxel. -/
theorem C120_sequence {T : ℚ} (hT1 : 1 / 2 ^ 20 ≤ T) (hT2 : T ≤ 2 ^ 40) (s w : TsdfVoxel Fl → ℚ) (v : TsdfVoxel Fl) (vs : List (TsdfVoxel Fl))
    (hx : ∀ x ∈ v :: vs, x.distance = .fin (s x) ∧ x.weight = .fin (w x) ∧ |s x| ≤ T ∧ (w x = 0 ∨ 1 / 100000 ≤ w x))
    (hlen : (v :: vs).length ≤ 2 ^ 18) (hpos : 0 < total w (v :: vs)) (hcap : total w (v :: vs) ≤ 2 ^ 40) :
    ∃ r D W, vs.foldlM (fun b a => mergeTsdf float32 a b) v = .ok r ∧ r.distance = .fin D ∧ r.weight = .fin W ∧
      |D - weightedMean w s (v :: vs)| ≤ 6 * vs.length * (1 / 2 ^ 24) * T ∧
      |W - total w (v :: vs)| ≤ 5 / 4 * vs.length * (1 / 2 ^ 24) * total w (v :: vs) := by
  have hT0 : 0 < T := lt_of_lt_of_le (by positivity) hT1
  obtain ⟨vd, vw, vT, vp⟩ := hx v (by simp)
  have hv0 : 0 ≤ w v := by
    rcases vp with h | h
    · rw [h]
    · linarith
  have tw : total w (v :: vs) = w v + total w vs := by simp [total]
  have ts : total (fun x => w x * s x) (v :: vs) = w v * s v + total (fun x => w x * s x) vs := by simp [total]
  simp only [List.length_cons] at hlen
  obtain ⟨r, D, W, h1, h2, h3, -, r0, r1, r2⟩ := merges32 hT1 hT2 s w vs (fun x h => hx x (by simp [h])) 0 v (s v) (w v) (w v * s v) (w v) vd vw hv0
    (vp.imp (fun h => ⟨h, vT⟩) id)
    (by rw [abs_mul, abs_of_nonneg hv0, mul_comm]; exact mul_le_mul_of_nonneg_right vT hv0)
    (by simp) (by simp [mul_comm]) (by omega) (by rw [← tw]; exact hcap)
  rw [← tw] at r0 r1 r2
  rw [← ts] at r0 r2
  rw [u_eq, Nat.cast_zero, zero_add] at r1 r2
  have hn : ((vs.length : ℚ)) ≤ 2 ^ 18 := by exact_mod_cast (by omega : vs.length ≤ 2 ^ 18)
  refine ⟨r, D, W, h1, h2, h3, ?_, r1⟩
  have := mean_of_sum (D := D) (n := vs.length * (1 / 2 ^ 24)) hT0 hpos (by positivity) (by linarith) r0 (by rw [← mul_assoc]; exact r1)
    (by rw [← mul_assoc 4]; exact r2)
  rw [← mul_assoc] at this
  exact this

/-- **C120.** Hence the order in which maps are merged, and which one they are merged into, matters at most by 12 rounding units of the largest
distance per voxel. -/
theorem C120_order {T : ℚ} (hT1 : 1 / 2 ^ 20 ≤ T) (hT2 : T ≤ 2 ^ 40) (s w : TsdfVoxel Fl → ℚ) (v v' : TsdfVoxel Fl) (vs vs' : List (TsdfVoxel Fl))
    (hperm : (v :: vs).Perm (v' :: vs'))
    (hx : ∀ x ∈ v :: vs, x.distance = .fin (s x) ∧ x.weight = .fin (w x) ∧ |s x| ≤ T ∧ (w x = 0 ∨ 1 / 100000 ≤ w x))
    (hlen : (v :: vs).length ≤ 2 ^ 18) (hpos : 0 < total w (v :: vs)) (hcap : total w (v :: vs) ≤ 2 ^ 40) :
    ∃ r D r' D', vs.foldlM (fun b a => mergeTsdf float32 a b) v = .ok r ∧ vs'.foldlM (fun b a => mergeTsdf float32 a b) v' = .ok r' ∧
      r.distance = .fin D ∧ r'.distance = .fin D' ∧ |D - D'| ≤ 12 * vs.length * (1 / 2 ^ 24) * T := by
  have hp : ∀ f : TsdfVoxel Fl → ℚ, total f (v' :: vs') = total f (v :: vs) := fun f => ((hperm.map f).sum_eq).symm
  obtain ⟨r, D, W, h1, h2, -, h3, -⟩ := C120_sequence hT1 hT2 s w v vs hx hlen hpos hcap
  obtain ⟨r', D', W', h1', h2', -, h3', -⟩ := C120_sequence hT1 hT2 s w v' vs' (fun x h => hx x (hperm.mem_iff.2 h)) (by rw [← hperm.length_eq]; exact hlen)
    (by rw [hp]; exact hpos) (by rw [hp]; exact hcap)
  have hl : vs'.length = vs.length := by
    have := hperm.length_eq
    simp only [List.length_cons] at this
    omega
  refine ⟨r, D, r', D', h1, h1', h2, h2', ?_⟩
  have hm : weightedMean w s (v' :: vs') = weightedMean w s (v :: vs) := by
    unfold weightedMean
    rw [hp, hp]
  rw [hm, hl, abs_sub_comm] at h3'
  have := abs_add_le (D - weightedMean w s (v :: vs)) (weightedMean w s (v :: vs) - D')
  rw [sub_add_sub_cancel] at this
  have e : 12 * (vs.length : ℚ) * (1 / 2 ^ 24) * T = 6 * vs.length * (1 / 2 ^ 24) * T + 6 * vs.length * (1 / 2 ^ 24) * T := by ring
  rw [e]
  linarith

/-- The hypotheses hold for three voxels, one of them unobserved, and the results of two orders. -/
example : let a : TsdfVoxel Fl := ⟨.fin (1 / 8), .fin 1, Color.default⟩
    let b : TsdfVoxel Fl := ⟨.fin (-1 / 16), .fin 2, Color.default⟩
    let c : TsdfVoxel Fl := ⟨.fin 0, .fin 0, Color.default⟩
    (∀ x ∈ [a, b, c], x.distance = .fin (finValue x.distance) ∧ x.weight = .fin (finValue x.weight) ∧ |finValue x.distance| ≤ 1 / 8 ∧
      (finValue x.weight = 0 ∨ 1 / 100000 ≤ finValue x.weight)) ∧ total (fun x => finValue x.weight) [a, b, c] = 3 ∧
    [b, c].foldlM (fun b a => mergeTsdf float32 a b) a = .ok ⟨.fin 0, .fin 3, Color.default⟩ := by
  refine ⟨?_, ?_, ?_⟩
  · decide +kernel
  · decide +kernel
  · decide +kernel

/-- **C120.** The mean of two observed ESDF distances, of type `float` and not beyond 2^125, lies between them — exactly, in spite of the
rounding; a single observed distance is kept, and the result is observed iff one of the inputs is. -/
theorem C120_esdf {da db : ℚ} (fa : rnd32 da = da) (fb : rnd32 db = db) (ha : |da| ≤ 2 ^ 125) (hb : |db| ≤ 2 ^ 125) (a b : EsdfVoxel Fl)
    (hda : a.distance = .fin da) (hdb : b.distance = .fin db) :
    ∃ D, (mergeEsdf float32 a b).distance = .fin D ∧
      (a.observed = true → b.observed = true → min da db ≤ D ∧ D ≤ max da db ∧ |D - (da + db) / 2| ≤ 3 * (1 / 2 ^ 24) * max |da| |db| + 1 / 2 ^ 149) ∧
      (a.observed = true → b.observed = false → D = da) ∧ (a.observed = false → D = db) ∧
      ((mergeEsdf float32 a b).observed = true ↔ a.observed = true ∨ b.observed = true) := by
  have hobs : (mergeEsdf float32 a b).observed = true ↔ a.observed = true ∨ b.observed = true := by
    simp only [mergeEsdf, Bool.or_eq_true]; tauto
  cases oa : a.observed with
  | false => exact ⟨db, by simp [mergeEsdf, oa, hdb], by simp, by simp, by simp, by rw [hobs]; simp [oa]⟩
  | true =>
    cases ob : b.observed with
    | false => exact ⟨da, by simp [mergeEsdf, oa, ob, hda], by simp, by simp, by simp, by rw [hobs]; simp [oa]⟩
    | true =>
      have hs : |da + db| ≤ 2 ^ 126 := le_trans (abs_add_le _ _) (by linarith)
      have e1 := rnd_fin (x := da + db) (le_trans hs (by norm_num))
      have hlo : 2 * min da db ≤ rnd32 (da + db) := by
        have hf : rnd32 (min da db) = min da db := by
          rcases min_choice da db with h | h <;> rw [h] <;> assumption
        rw [← rnd32_double hf]
        exact rnd32_mono (by linarith [min_le_left da db, min_le_right da db])
      have hup : rnd32 (da + db) ≤ 2 * max da db := by
        have hf : rnd32 (max da db) = max da db := by
          rcases max_choice da db with h | h <;> rw [h] <;> assumption
        rw [← rnd32_double hf]
        exact rnd32_mono (by linarith [le_max_left da db, le_max_right da db])
      have hr : |rnd32 (da + db)| ≤ 2 ^ 127 := by
        refine le_trans rnd32_le ?_
        rw [u_eq, eta_eq]
        linarith
      have e2 := rnd_fin (x := rnd32 (da + db) / 2) (by rw [abs_div, abs_two]; linarith [abs_nonneg (rnd32 (da + db))])
      have hl2 : min da db ≤ rnd32 (rnd32 (da + db) / 2) := by
        have hf : rnd32 (min da db) = min da db := by
          rcases min_choice da db with h | h <;> rw [h] <;> assumption
        rw [← hf]
        exact rnd32_mono (by linarith)
      have hu2 : rnd32 (rnd32 (da + db) / 2) ≤ max da db := by
        have hf : rnd32 (max da db) = max da db := by
          rcases max_choice da db with h | h <;> rw [h] <;> assumption
        rw [← hf]
        exact rnd32_mono (by linarith)
      have hM : |da + db| ≤ 2 * max |da| |db| := by
        refine le_trans (abs_add_le _ _) ?_
        linarith [le_max_left |da| |db|, le_max_right |da| |db|]
      have herr : |rnd32 (rnd32 (da + db) / 2) - (da + db) / 2| ≤ 3 * (1 / 2 ^ 24) * max |da| |db| + 1 / 2 ^ 149 := by
        have g1 := rnd32_err (da + db)
        have g2 := rnd32_err (rnd32 (da + db) / 2)
        have g3 : |rnd32 (da + db)| ≤ (1 + u) * |da + db| + eta := rnd32_le
        rw [abs_div, abs_two] at g2
        have g4 := abs_add_le (rnd32 (rnd32 (da + db) / 2) - rnd32 (da + db) / 2) ((rnd32 (da + db) - (da + db)) / 2)
        rw [show rnd32 (rnd32 (da + db) / 2) - rnd32 (da + db) / 2 + (rnd32 (da + db) - (da + db)) / 2 = rnd32 (rnd32 (da + db) / 2) - (da + db) / 2 by ring,
          abs_div, abs_two] at g4
        rw [u_eq, eta_eq] at g1 g2 g3
        have hm0 : 0 ≤ max |da| |db| := le_trans (abs_nonneg _) (le_max_left _ _)
        linarith
      refine ⟨_, ?_, fun _ _ => ⟨hl2, hu2, herr⟩, by simp, by simp, by rw [hobs]; simp [oa]⟩
      simp [mergeEsdf, oa, ob, hda, hdb, Arith.add, e1, Arith.div, e2]

example : rnd32 (1 / 8) = 1 / 8 ∧ rnd32 (3 / 8) = 3 / 8 ∧
    mergeEsdf float32 ⟨.fin (1 / 8), true, false, false, true, ⟨0, 0, 1⟩⟩ ⟨.fin (3 / 8), true, true, false, false, ⟨1, 0, 0⟩⟩ =
      ⟨.fin (1 / 4), true, true, false, false, ⟨1, 0, 0⟩⟩ := by decide +kernel

/-- **C120.** The full statement is that voxels within the limits of the integrators are merged into a voxel within these limits. Proved is that they
are exceeded at most twofold: a merged TSDF weight is at most twice the limit, and merged log-odds lie between twice the limits; and the log-odds
are the sum of the log-odds up to rounding. See `C120_limits_violated`. -/
theorem C120_limits_partial {M lo hi : ℚ} (fM : rnd32 M = M) (flo : rnd32 lo = lo) (fhi : rnd32 hi = hi) (hM : M ≤ 2 ^ 126) (hlo : |lo| ≤ 2 ^ 126)
    (hhi : |hi| ≤ 2 ^ 126) :
    (∀ a b v : TsdfVoxel Fl, WeightWithin M a → WeightWithin M b → mergeTsdf float32 a b = .ok v → WeightWithin (2 * M) v) ∧
    (∀ a b : OccVoxel Fl, OddsWithin lo hi a → OddsWithin lo hi b → OddsWithin (2 * lo) (2 * hi) (mergeOcc float32 a b) ∧
      mergeOcc float32 a b = mergeOcc float32 b a ∧
      ∀ pa pb, a.probabilityLog = .fin pa → b.probabilityLog = .fin pb →
        ∃ p, (mergeOcc float32 a b).probabilityLog = .fin p ∧ |p - (pa + pb)| ≤ 1 / 2 ^ 24 * |pa + pb| + 1 / 2 ^ 150) := by
  refine ⟨?_, ?_⟩
  · rintro a b v ⟨wa, ea, a0, a1⟩ ⟨wb, eb, b0, b1⟩ hv
    have e := rnd_fin_nonneg (add_nonneg a0 b0) (by linarith)
    have hup : rnd32 (wa + wb) ≤ 2 * M := by
      rw [← rnd32_double fM]
      exact rnd32_mono (by linarith)
    unfold mergeTsdf at hv
    simp only [ea, eb, Arith.add, e] at hv
    split at hv
    · obtain ⟨c, -, h⟩ := Outcome.bind_eq_ok.1 hv
      simp only [Outcome.pure_eq, Outcome.ok.injEq] at h
      subst h
      exact ⟨_, rfl, rnd32_nonneg (add_nonneg a0 b0), hup⟩
    · simp only [Outcome.ok.injEq] at hv
      subst hv
      exact ⟨wb, eb, b0, by linarith⟩
  · rintro a b ⟨pa, ea, a0, a1⟩ ⟨pb, eb, b0, b1⟩
    obtain ⟨l1, l2⟩ := abs_le.1 hlo
    obtain ⟨u1, u2⟩ := abs_le.1 hhi
    have e := rnd_fin (x := pb + pa) (abs_le.2 ⟨by linarith, by linarith⟩)
    have em : (mergeOcc float32 a b).probabilityLog = .fin (rnd32 (pb + pa)) := by
      simp [mergeOcc, ea, eb, Arith.add, e]
    refine ⟨⟨_, em, ?_, ?_⟩, ?_, ?_⟩
    · rw [← rnd32_double flo]
      exact rnd32_mono (by linarith)
    · rw [← rnd32_double fhi]
      exact rnd32_mono (by linarith)
    · simp only [mergeOcc, add_comm' _ b.probabilityLog, Bool.or_comm b.observed]
    · intro qa qb h1 h2
      rw [ea, Fl.fin.injEq] at h1
      rw [eb, Fl.fin.injEq] at h2
      subst h1 h2
      refine ⟨_, em, ?_⟩
      have := rnd32_err (pb + pa)
      rw [u_eq, eta_eq, add_comm pb pa] at this
      rw [add_comm pb pa]
      exact this

/-- The hypotheses hold for the default limit of the weight, 10000, and for log-odds between -2 and 7/2. -/
example : rnd32 10000 = 10000 ∧ rnd32 (-2) = -2 ∧ rnd32 (7 / 2) = 7 / 2 ∧ WeightWithin 10000 ⟨.fin 1, .fin 10000, Color.default⟩ ∧
    OddsWithin (-2) (7 / 2) ⟨.fin (7 / 2), true⟩ :=
  ⟨by decide +kernel, by decide +kernel, by decide +kernel, ⟨10000, rfl, by norm_num, le_rfl⟩, ⟨7 / 2, rfl, by norm_num, le_rfl⟩⟩

/-- **C120.** Merging breaks the limits: two voxels at the limit of the weight, 10000, give weight 20000; two voxels at the upper limit of the log-odds
give twice the limit, which no further hit takes back. -/
theorem C120_limits_violated :
    (∃ a b v : TsdfVoxel Fl, WeightWithin 10000 a ∧ WeightWithin 10000 b ∧ mergeTsdf float32 a b = .ok v ∧ ¬ WeightWithin 10000 v) ∧
    (∃ (cfg : Occ.Config) (a b : OccVoxel Fl), cfg.clampMin = .fin (-2) ∧ cfg.clampMax = .fin (7 / 2) ∧ OddsWithin (-2) (7 / 2) a ∧ OddsWithin (-2) (7 / 2) b ∧
      ¬ OddsWithin (-2) (7 / 2) (mergeOcc float32 a b) ∧ ¬ OddsWithin (-2) (7 / 2) (Occ.updateVoxel float32 cfg true (mergeOcc float32 a b))) := by
  refine ⟨⟨⟨.fin (1 / 8), .fin 10000, Color.default⟩, ⟨.fin (1 / 8), .fin 10000, Color.default⟩, ⟨.fin (1 / 8), .fin 20000, Color.default⟩,
      ⟨10000, rfl, by norm_num, le_rfl⟩, ⟨10000, rfl, by norm_num, le_rfl⟩, by decide +kernel, ?_⟩,
    ⟨⟨.fin (7 / 8), .fin (-1 / 2), .fin (-2), .fin (7 / 2), .fin (1 / 2), .fin 5⟩, ⟨.fin (7 / 2), true⟩, ⟨.fin (7 / 2), true⟩, rfl, rfl,
      ⟨7 / 2, rfl, by norm_num, le_rfl⟩, ⟨7 / 2, rfl, by norm_num, le_rfl⟩, ?_, ?_⟩⟩
  · rintro ⟨w, h, -, h2⟩
    simp only [Fl.fin.injEq] at h
    rw [← h] at h2
    norm_num at h2
  · rintro ⟨p, h, -, h2⟩
    rw [show (mergeOcc float32 ⟨.fin (7 / 2), true⟩ ⟨.fin (7 / 2), true⟩).probabilityLog = .fin 7 by decide +kernel, Fl.fin.injEq] at h
    rw [← h] at h2
    norm_num at h2
  · rintro ⟨p, h, -, h2⟩
    rw [show (Occ.updateVoxel float32 ⟨.fin (7 / 8), .fin (-1 / 2), .fin (-2), .fin (7 / 2), .fin (1 / 2), .fin 5⟩ true
      (mergeOcc float32 ⟨.fin (7 / 2), true⟩ ⟨.fin (7 / 2), true⟩)).probabilityLog = .fin 7 by decide +kernel, Fl.fin.injEq] at h
    rw [← h] at h2
    norm_num at h2

/-- **C120.** In `float`, merging is not exact where it could be: merging a voxel that was never observed changes the distance (the `float` next to
0.03 with weight 5), and the mean of two voxels with the same distance (the `float` next to 0.01, weights 1 and 5) is another distance, smaller than
both. -/
theorem C120_exact_violated :
    mergeTsdf float32 ⟨.fin 0, .fin 0, Color.default⟩ ⟨.fin (16106127 / 2 ^ 29), .fin 5, Color.default⟩ =
      .ok ⟨.fin (16106126 / 2 ^ 29), .fin 5, Color.default⟩ ∧
    mergeTsdf float32 ⟨.fin (10737418 / 2 ^ 30), .fin 1, Color.default⟩ ⟨.fin (10737418 / 2 ^ 30), .fin 5, Color.default⟩ =
      .ok ⟨.fin (10737417 / 2 ^ 30), .fin 6, Color.default⟩ ∧
    rnd32 (3 / 100) = 16106127 / 2 ^ 29 ∧ rnd32 (1 / 100) = 10737418 / 2 ^ 30 := by decide +kernel

/-- **C120.** With weights far below any observed one the products underflow: two voxels at a distance of 0.1 m become a surface. -/
theorem C120_underflow_violated :
    mergeTsdf float32 ⟨.fin (rnd32 (1 / 10)), .fin (1 / 2 ^ 148), Color.default⟩ ⟨.fin (rnd32 (1 / 10)), .fin (1 / 2 ^ 148), Color.default⟩ =
      .ok ⟨.fin 0, .fin (1 / 2 ^ 147), Color.default⟩ := by decide +kernel

end Vox.RoundErr
