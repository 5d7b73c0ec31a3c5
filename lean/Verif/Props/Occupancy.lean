/-
Properties C40 and C41: occupancy log-odds and scans.
-/
import Verif.Model.Occupancy
import Verif.Spec.Tsdf
import Verif.Lemmas.Tsdf
import Verif.Props.RayCaster
import Mathlib.Analysis.SpecialFunctions.Log.Basic

namespace Vox.Occ

open Fl Spec Ray

/-! ### C40 -/

def exOcc : Config :=
  { hit := .fin (17 / 20), miss := .fin (-2 / 5), clampMin := .fin (-2), clampMax := .fin (7 / 2),
    minRay := .fin (1 / 10), maxRay := .fin 5 }

theorem stdClamp {lo hi : ℚ} (h : lo ≤ hi) {x : Fl} (hx : x ≠ .nan) :
    ∃ q, Fl.stdMin (Fl.stdMax x (.fin lo)) (.fin hi) = .fin q ∧ lo ≤ q ∧ q ≤ hi ∧
      (x = .fin q ∨ q = lo ∨ q = hi) ∧ (∀ p, x = .fin p → min p hi ≤ q ∧ q ≤ max p lo) ∧ (x = .pinf → q = hi) ∧
      (x = .ninf → q = lo) := by
  cases x with
  | nan => exact absurd rfl hx
  | ninf =>
    refine ⟨lo, ?_, le_rfl, h, Or.inr (Or.inl rfl), ?_, ?_, fun _ => rfl⟩
    · simp [Fl.stdMax, Fl.stdMin, Fl.lt, not_lt.2 h]
    · intro p hp; cases hp
    · intro hp; cases hp
  | pinf =>
    refine ⟨hi, ?_, h, le_rfl, Or.inr (Or.inr rfl), ?_, fun _ => rfl, ?_⟩
    · simp [Fl.stdMax, Fl.stdMin, Fl.lt]
    · intro p hp; cases hp
    · intro hp; cases hp
  | fin p =>
    simp only [Fl.stdMax, Fl.lt, decide_eq_true_eq]
    by_cases h1 : p < lo
    · rw [if_pos h1]
      simp only [Fl.stdMin, Fl.lt, decide_eq_true_eq, if_neg (not_lt.2 h)]
      refine ⟨lo, rfl, le_rfl, h, Or.inr (Or.inl rfl), ?_, fun h => (by cases h), fun h => (by cases h)⟩
      intro p' hp'
      simp only [Fl.fin.injEq] at hp'
      subst hp'
      exact ⟨le_trans (min_le_left _ _) h1.le, le_max_right _ _⟩
    · rw [if_neg h1]
      push Not at h1
      simp only [Fl.stdMin, Fl.lt, decide_eq_true_eq]
      by_cases h2 : hi < p
      · rw [if_pos h2]
        refine ⟨hi, rfl, h, le_rfl, Or.inr (Or.inr rfl), ?_, fun h => (by cases h), fun h => (by cases h)⟩
        intro p' hp'
        simp only [Fl.fin.injEq] at hp'
        subst hp'
        exact ⟨min_le_right _ _, le_trans h2.le (le_max_left _ _)⟩
      · rw [if_neg h2]
        push Not at h2
        refine ⟨p, rfl, h1, h2, Or.inl rfl, ?_, fun h => (by cases h), fun h => (by cases h)⟩
        intro p' hp'
        simp only [Fl.fin.injEq] at hp'
        subst hp'
        exact ⟨min_le_left _ _, le_max_left _ _⟩

/-- **C40.** Whatever the hits and misses, with any rounding that does not produce NaN, the log-odds stay
within the clamping limits. -/
theorem C40_limits (A : Arith) (hA : ∀ q, A.rnd q ≠ .nan) (cfg : Config) (lo hi : ℚ) (hlo : cfg.clampMin = .fin lo)
    (hhi : cfg.clampMax = .fin hi) (hle : lo ≤ hi) (hh : cfg.hit ≠ .nan) (hm : cfg.miss ≠ .nan) (os : List Bool) :
    ∀ v : OccVoxel Fl, Within lo hi v.probabilityLog → Within lo hi (updates A cfg os v).probabilityLog := by
  induction os with
  | nil => intro v h; exact h
  | cons o os ih =>
    intro v h
    refine ih _ ?_
    unfold updateVoxel
    have hu : (if o = true then cfg.hit else cfg.miss) ≠ .nan := by split <;> assumption
    generalize (if o = true then cfg.hit else cfg.miss) = u at hu
    simp only
    split
    · exact h
    · obtain ⟨q, hq, h1, h2⟩ := h
      rw [hlo, hhi]
      have hx : A.add v.probabilityLog u ≠ .nan := by
        rw [hq]
        cases u with
        | nan => exact absurd rfl hu
        | fin p => exact hA _
        | _ => simp [Arith.add]
      obtain ⟨r, hr, h3, h4, -⟩ := stdClamp hle hx
      exact ⟨r, hr, h3, h4⟩

example : (updates (Arith.exact fun q => .fin q) { exOcc with clampMax := .fin 3 }
      [true, true, true, true, true, true, true, true, true, false] ⟨.fin 0, false⟩).probabilityLog ≠ .nan ∧
    Within (-2) 3 (.fin 0) := ⟨by decide +kernel, 0, rfl, by norm_num, by norm_num⟩

/-- The voxel is observed after an update, and observed is never cleared. -/
theorem C40_observed (A : Arith) (cfg : Config) (os : List Bool) :
    ∀ v : OccVoxel Fl, (v.observed = true ∨ os ≠ []) → (updates A cfg os v).observed = true := by
  induction os with
  | nil => intro v h; rcases h with h | h; exact h; exact absurd rfl h
  | cons o os ih =>
    intro v _
    refine ih _ (Or.inl ?_)
    unfold updateVoxel
    generalize (if o = true then cfg.hit else cfg.miss) = u
    simp only
    split <;> rfl

example : (updates (Arith.exact fun q => .fin q) exOcc [false] ⟨.fin 0, false⟩).observed = true := by decide +kernel

/-- **C40.** A hit with a non-negative log-odds never lowers the value, a miss with a non-positive one
never raises it — for every monotone, idempotent rounding and representable limits. Representability is
kept, so this applies along any sequence. -/
theorem C40_direction (A : Arith) (hA : A.Faithful) (cfg : Config) (lo hi : ℚ) (hlo : cfg.clampMin = .fin lo)
    (hhi : cfg.clampMax = .fin hi) (hle : lo ≤ hi) (rlo : A.rnd lo = .fin lo) (rhi : A.rnd hi = .fin hi)
    (hh : Fl.le (.fin 0) cfg.hit = true) (hm : Fl.le cfg.miss (.fin 0) = true) (o : Bool) (v : OccVoxel Fl) (q : ℚ)
    (hv : v.probabilityLog = .fin q) (h1 : lo ≤ q) (h2 : q ≤ hi) (hr : A.rnd q = .fin q) :
    ∃ q', (updateVoxel A cfg o v).probabilityLog = .fin q' ∧ A.rnd q' = .fin q' ∧ lo ≤ q' ∧ q' ≤ hi ∧
      (if o then q ≤ q' else q' ≤ q) := by
  have hnan : ∀ p, A.rnd p ≠ .nan := by
    intro p hp
    have := hA.mono p p le_rfl
    rw [hp] at this
    simp [Fl.le] at this
  unfold updateVoxel
  generalize hU : (if o = true then cfg.hit else cfg.miss) = U
  simp only
  split
  · exact ⟨q, hv, hr, h1, h2, by cases o <;> simp⟩
  · rw [hlo, hhi, hv]
    have repr : ∀ x q', (x = .fin q' ∨ q' = lo ∨ q' = hi) → (x = A.rnd (q + 0) ∨ ∃ p, x = A.rnd p ∨ x = .pinf ∨ x = .ninf) →
        A.rnd q' = .fin q' := by
      intro x q' h hx
      rcases h with h | rfl | rfl
      · rcases hx with hx | ⟨p, hx | hx | hx⟩
        · exact hA.idem (q + 0) q' (by rw [← hx, h])
        · exact hA.idem p q' (by rw [← hx, h])
        · rw [hx] at h; cases h
        · rw [hx] at h; cases h
      · exact rlo
      · exact rhi
    cases o with
    | true =>
      simp only [if_true] at hU ⊢
      subst hU
      rcases Tsdf.le_fin_cases hh with ⟨u, hu, hu0⟩ | hu
      · rw [hu]
        have hx : A.add (.fin q) (.fin u) ≠ .nan := hnan _
        obtain ⟨r, hr', h3, h4, h5, h6, h7, h8⟩ := stdClamp hle hx
        refine ⟨r, hr', repr _ r h5 (Or.inr ⟨q + u, Or.inl rfl⟩), h3, h4, ?_⟩
        have hmono := hA.mono q (q + u) (by linarith)
        rw [hr] at hmono
        rcases Tsdf.le_fin_cases hmono with ⟨p, hp, hp0⟩ | hp
        · have := (h6 p hp).1
          rcases min_le_iff.1 this with h | h <;> linarith
        · have := h7 hp; linarith
      · rw [hu]
        obtain ⟨r, hr', h3, h4, h5, h6, h7, h8⟩ := stdClamp hle (x := A.add (.fin q) .pinf) (by simp [Arith.add])
        have := h7 rfl
        refine ⟨r, hr', by rw [this]; exact rhi, h3, h4, by linarith⟩
    | false =>
      simp only [Bool.false_eq_true, if_false] at hU ⊢
      subst hU
      have hm' : (∃ u, cfg.miss = .fin u ∧ u ≤ 0) ∨ cfg.miss = .ninf := by
        cases hc : cfg.miss with
        | nan => rw [hc] at hm; simp [Fl.le] at hm
        | ninf => exact Or.inr rfl
        | fin u => rw [hc] at hm; exact Or.inl ⟨u, rfl, by simpa [Fl.le] using hm⟩
        | pinf => rw [hc] at hm; simp [Fl.le] at hm
      rcases hm' with ⟨u, hu, hu0⟩ | hu
      · rw [hu]
        have hx : A.add (.fin q) (.fin u) ≠ .nan := hnan _
        obtain ⟨r, hr', h3, h4, h5, h6, h7, h8⟩ := stdClamp hle hx
        refine ⟨r, hr', repr _ r h5 (Or.inr ⟨q + u, Or.inl rfl⟩), h3, h4, ?_⟩
        have hmono := hA.mono (q + u) q (by linarith)
        rw [hr] at hmono
        cases hp : A.rnd (q + u) with
        | nan => exact absurd hp (hnan _)
        | ninf => have := h8 hp; linarith
        | pinf => rw [hp] at hmono; simp [Fl.le] at hmono
        | fin p =>
          rw [hp] at hmono
          have hp0 : p ≤ q := by simpa [Fl.le] using hmono
          have := (h6 p hp).2
          rcases le_max_iff.1 this with h | h <;> linarith
      · rw [hu]
        obtain ⟨r, hr', h3, h4, h5, h6, h7, h8⟩ := stdClamp hle (x := A.add (.fin q) .ninf) (by simp [Arith.add])
        have := h8 rfl
        refine ⟨r, hr', by rw [this]; exact rlo, h3, h4, by linarith⟩

example : Fl.le (.fin 0) exOcc.hit = true ∧ Fl.le exOcc.miss (.fin 0) = true ∧
    (updates exactA exOcc [true, true, false, true, true, true, true] ⟨.fin 0, false⟩) = ⟨.fin (7 / 2), true⟩ ∧
    (updates exactA exOcc [true, false] ⟨.fin 0, false⟩) = ⟨.fin (9 / 20), true⟩ := by decide +kernel

/-- **C40.** Closed form of repeated hits in exact arithmetic: enough hits saturate at the upper limit. -/
theorem C40_saturation (sq : ℚ → Fl) (cfg : Config) (lo hi u : ℚ) (hlo : cfg.clampMin = .fin lo)
    (hhi : cfg.clampMax = .fin hi) (hh : cfg.hit = .fin u) (hu : 0 < u) (n : ℕ) :
    ∀ (v : OccVoxel Fl) (q : ℚ), v.probabilityLog = .fin q → lo ≤ q → q ≤ hi →
      (updates (Arith.exact sq) cfg (List.replicate n true) v).probabilityLog = .fin (min hi (q + n * u)) := by
  induction n with
  | zero => intro v q hv _ h2; simp [updates, hv, h2]
  | succ n ih =>
    intro v q hv h1 h2
    rw [List.replicate_succ, updates]
    have hstep : (updateVoxel (Arith.exact sq) cfg true v).probabilityLog = .fin (min hi (q + u)) := by
      unfold updateVoxel
      simp only [if_true, hh, hhi, hlo, hv, Fl.le, Tsdf.exact_add, Bool.or_eq_true, Bool.and_eq_true, decide_eq_true_eq]
      split
      · rename_i h
        rcases h with ⟨_, h⟩ | ⟨h, _⟩
        · have : q = hi := le_antisymm h2 h
          rw [min_eq_left (by linarith)]
          simp [this]
        · linarith
      · have h3 : ¬ q + u < lo := by linarith
        simp only [Fl.stdMax, Fl.lt, decide_eq_true_eq, if_neg h3, Fl.stdMin]
        split
        · rename_i h; rw [min_eq_left h.le]
        · rename_i h; rw [min_eq_right (not_lt.1 h)]
    rw [ih _ (min hi (q + u)) hstep (le_min (by linarith) (by linarith)) (min_le_left _ _)]
    congr 1
    have hn : (0 : ℚ) ≤ n * u := by positivity
    push_cast
    rcases le_total hi (q + u) with h | h
    · rw [min_eq_left h, min_eq_left (by linarith), min_eq_left (by linarith)]
    · rw [min_eq_right h]; congr 1; ring

example : exOcc.hit = .fin (17 / 20) ∧ min (7 / 2 : ℚ) (0 + (5 : ℕ) * (17 / 20)) = 7 / 2 := by
  constructor
  · rfl
  · norm_num

/-! The log-odds function itself, over the reals. -/

/-- voxblox/include/voxblox/core/common.h:261-264 `logOddsFromProbability` (over the reals, for
probabilities strictly between 0 and 1; `CHECK` rejects values outside [0, 1]). -/
noncomputable def logOdds (p : ℝ) : ℝ := Real.log (p / (1 - p))

/-- voxblox/include/voxblox/core/common.h:266-268 `probabilityFromLogOdds` (over the reals). -/
noncomputable def probability (l : ℝ) : ℝ := 1 - 1 / (1 + Real.exp l)

/-- **C40.** Hit probabilities of at least one half have non-negative log-odds, miss probabilities of at
most one half non-positive ones, so the directions above are the right ones. -/
theorem C40_logodds_sign (p : ℝ) (h0 : 0 < p) (h1 : p < 1) :
    (1 / 2 ≤ p → 0 ≤ logOdds p) ∧ (p ≤ 1 / 2 → logOdds p ≤ 0) := by
  have hd : 0 < 1 - p := by linarith
  constructor
  · intro h
    apply Real.log_nonneg
    rw [le_div_iff₀ hd]; linarith
  · intro h
    apply Real.log_nonpos (div_nonneg h0.le hd.le)
    rw [div_le_one hd]; linarith

/-- **C40.** Log-odds are strictly increasing and converting back gives the probability. -/
theorem C40_logodds_roundtrip (p : ℝ) (h0 : 0 < p) (h1 : p < 1) : probability (logOdds p) = p := by
  have hd : 0 < 1 - p := by linarith
  unfold probability logOdds
  rw [Real.exp_log (div_pos h0 hd)]
  field_simp
  ring

theorem C40_logodds_mono (p q : ℝ) (h0 : 0 < p) (hpq : p < q) (h1 : q < 1) : logOdds p < logOdds q := by
  have hd : 0 < 1 - p := by linarith
  have hd' : 0 < 1 - q := by linarith
  apply Real.log_lt_log (div_pos h0 hd)
  rw [div_lt_div_iff₀ hd hd']
  nlinarith

example : (0 : ℝ) < 7 / 10 ∧ (7 / 10 : ℝ) < 1 ∧ (1 / 2 : ℝ) ≤ 7 / 10 := by norm_num

/-! ### C41 -/

theorem updateAll_apply (A : Arith) (cfg : Config) (o : Bool) (l : List Idx) :
    ∀ (m : VoxMap), l.Nodup → ∀ i, updateAll A cfg o l m i = if i ∈ l then updateVoxel A cfg o (m i) else m i := by
  induction l with
  | nil => intro m _ i; simp [updateAll]
  | cons j l ih =>
    intro m hnd i
    obtain ⟨hj, hnd⟩ := List.nodup_cons.1 hnd
    rw [updateAll, ih _ hnd]
    by_cases hij : i = j
    · subst hij
      simp [hj]
    · simp [hij]

/-- **C41.** Whatever the iteration orders of the two hash sets, a scan changes every voxel at most once:
an occupied cell receives exactly one hit (even if it is also in the free set), any other free cell exactly
one miss, and all other voxels are untouched. -/
theorem C41_once_hits_win (A : Arith) (cfg : Config) (c : Cells) (lf lo : List Idx) (hf : lf.Nodup) (ho : lo.Nodup)
    (hmf : ∀ i, i ∈ lf ↔ i ∈ (cleanup c).free) (hmo : ∀ i, i ∈ lo ↔ i ∈ (cleanup c).occupied) (m : VoxMap) (i : Idx) :
    updateAll A cfg true lo (updateAll A cfg false lf m) i =
      if i ∈ c.occupied then updateVoxel A cfg true (m i)
      else if i ∈ c.free then updateVoxel A cfg false (m i) else m i := by
  rw [updateAll_apply _ _ _ _ _ ho, updateAll_apply _ _ _ _ _ hf]
  have h1 : i ∈ lo ↔ i ∈ c.occupied := hmo i
  have h2 : i ∈ lf ↔ i ∈ c.free ∧ i ∉ c.occupied := by rw [hmf]; simp [cleanup]
  by_cases ho : i ∈ c.occupied
  · simp [h1, h2, ho]
  · simp [h1, h2, ho]

/-- The hypotheses can be met for every pair of sets. -/
example (c : Cells) : ∃ lf lo : List Idx, lf.Nodup ∧ lo.Nodup ∧ (∀ i, i ∈ lf ↔ i ∈ (cleanup c).free) ∧
    (∀ i, i ∈ lo ↔ i ∈ (cleanup c).occupied) :=
  ⟨(cleanup c).free.toList, (cleanup c).occupied.toList, Finset.nodup_toList _, Finset.nodup_toList _, by simp, by simp⟩

theorem scanPoint_mono {A : Arith} {cfg : Config} {inv : Fl} {o p : Vec3 Fl} {c c' : Cells}
    (h : scanPoint A cfg inv o p c = .ok c') : c.free ⊆ c'.free ∧ c.occupied ⊆ c'.occupied := by
  unfold scanPoint at h
  simp only at h
  split at h
  · simp only [Outcome.ok.injEq] at h; rw [h]; exact ⟨subset_rfl, subset_rfl⟩
  · split at h
    · unfold longPoint at h
      obtain ⟨i, -, h⟩ := Outcome.bind_eq_ok.1 h
      split at h
      · simp only [Outcome.pure_eq, Outcome.ok.injEq] at h; rw [h]; exact ⟨subset_rfl, subset_rfl⟩
      · obtain ⟨l, -, h⟩ := Outcome.bind_eq_ok.1 h
        simp only [Outcome.pure_eq, Outcome.ok.injEq] at h
        rw [← h]; exact ⟨Finset.subset_union_left, subset_rfl⟩
    · unfold normalPoint at h
      obtain ⟨i, -, h⟩ := Outcome.bind_eq_ok.1 h
      split at h
      · simp only [Outcome.pure_eq, Outcome.ok.injEq] at h; rw [h]; exact ⟨subset_rfl, subset_rfl⟩
      · obtain ⟨l, -, h⟩ := Outcome.bind_eq_ok.1 h
        split at h
        · simp only [Outcome.pure_eq, Outcome.ok.injEq] at h
          rw [← h]; exact ⟨Finset.subset_union_left, Finset.subset_union_left⟩
        · simp only [Outcome.pure_eq, Outcome.ok.injEq] at h; rw [h]; exact ⟨subset_rfl, subset_rfl⟩

theorem scanPoints_mono {A : Arith} {cfg : Config} {inv : Fl} {o : Vec3 Fl} (ps : List (Vec3 Fl)) :
    ∀ {c c' : Cells}, scanPoints A cfg inv o ps c = .ok c' → c.free ⊆ c'.free ∧ c.occupied ⊆ c'.occupied := by
  induction ps with
  | nil => intro c c' h; simp only [scanPoints, Outcome.ok.injEq] at h; rw [h]; exact ⟨subset_rfl, subset_rfl⟩
  | cons p ps ih =>
    intro c c' h
    obtain ⟨c1, h1, h⟩ := Outcome.bind_eq_ok.1 (show (scanPoint A cfg inv o p c >>= scanPoints A cfg inv o ps) = _ from h)
    exact ⟨(scanPoint_mono h1).1.trans (ih h).1, (scanPoint_mono h1).2.trans (ih h).2⟩

/-- **C41 (hits), for rays of more than two voxels.** The voxel of a measured end point of a ray within
the length limits is an occupied cell of the scan — it receives the hit — provided the ray visits more than
two voxels and ends in that voxel (`C34_ends_in_end_voxel_partial`), whatever the other points of the scan.
The full statement has no condition on the number of voxels; it is false (`C41_short_ray_violated`). -/
theorem C41_end_point_hit_partial (A : Arith) (cfg : Config) (inv : Fl) (o : Vec3 Fl) (ps : List (Vec3 Fl)) (c0 c : Cells)
    (h : scanPoints A cfg inv o ps c0 = .ok c) (p : Vec3 Fl) (hp : p ∈ ps)
    (hmin : Fl.lt (A.norm (A.vsub p o)) cfg.minRay = false) (hmax : Fl.lt cfg.maxRay (A.norm (A.vsub p o)) = false)
    (i : Idx) (hi : gridFl A (A.vscale p inv) = .ok i) (l : List Idx)
    (hl : castAll A (A.vscale o inv) (A.vscale p inv) = .ok l) (hlen : 2 < l.length) (hlast : l.getLast? = some i) :
    i ∈ (cleanup c).occupied := by
  show i ∈ c.occupied
  induction ps generalizing c0 with
  | nil => simp at hp
  | cons q ps ih =>
    obtain ⟨c1, h1, h2⟩ := Outcome.bind_eq_ok.1 (show (scanPoint A cfg inv o q c0 >>= scanPoints A cfg inv o ps) = _ from h)
    rcases List.mem_cons.1 hp with rfl | hp
    · apply (scanPoints_mono ps h2).2
      unfold scanPoint at h1
      simp only [hmin, hmax, Bool.false_eq_true, if_false] at h1
      unfold normalPoint at h1
      simp only [hi, Outcome.bind_ok] at h1
      split at h1
      · rename_i hin
        simp only [Outcome.pure_eq, Outcome.ok.injEq] at h1
        rw [← h1]; exact hin
      · rw [hl, Outcome.bind_ok, if_pos hlen] at h1
        simp only [Outcome.pure_eq, Outcome.ok.injEq] at h1
        rw [← h1]
        simp [hlast]
    · exact ih c1 h2 hp

/-- **C41 (soundness).** Only voxels on some ray of the scan are touched: every free cell lies on the
traversal of a point of the scan, and every occupied cell is the last voxel of the traversal of a point
within the length limits. -/
theorem C41_only_traversed (A : Arith) (cfg : Config) (inv : Fl) (o : Vec3 Fl) (ps : List (Vec3 Fl)) (c0 c : Cells)
    (h : scanPoints A cfg inv o ps c0 = .ok c) :
    (∀ i ∈ c.free, i ∈ c0.free ∨ ∃ p ∈ ps, ∃ e l, castAll A (A.vscale o inv) e = .ok l ∧ i ∈ l ∧
      (e = A.vscale p inv ∨
        e = A.vscale (A.vadd o (A.vscale (normalized A (A.vsub p o)) cfg.maxRay)) inv)) ∧
    (∀ i ∈ c.occupied, i ∈ c0.occupied ∨ ∃ p ∈ ps, ∃ l, castAll A (A.vscale o inv) (A.vscale p inv) = .ok l ∧
      l.getLast? = some i ∧ Fl.lt (A.norm (A.vsub p o)) cfg.minRay = false ∧
      Fl.lt cfg.maxRay (A.norm (A.vsub p o)) = false) := by
  induction ps generalizing c0 with
  | nil =>
    simp only [scanPoints, Outcome.ok.injEq] at h
    rw [h]
    exact ⟨fun i hi => Or.inl hi, fun i hi => Or.inl hi⟩
  | cons q ps ih =>
    obtain ⟨c1, h1, h2⟩ := Outcome.bind_eq_ok.1 (show (scanPoint A cfg inv o q c0 >>= scanPoints A cfg inv o ps) = _ from h)
    obtain ⟨ihf, iho⟩ := ih c1 h2
    have step : (∀ i ∈ c1.free, i ∈ c0.free ∨ ∃ e l, castAll A (A.vscale o inv) e = .ok l ∧ i ∈ l ∧
          (e = A.vscale q inv ∨
            e = A.vscale (A.vadd o (A.vscale (normalized A (A.vsub q o)) cfg.maxRay)) inv)) ∧
        (∀ i ∈ c1.occupied, i ∈ c0.occupied ∨ ∃ l, castAll A (A.vscale o inv) (A.vscale q inv) = .ok l ∧
          l.getLast? = some i ∧ Fl.lt (A.norm (A.vsub q o)) cfg.minRay = false ∧
          Fl.lt cfg.maxRay (A.norm (A.vsub q o)) = false) := by
      unfold scanPoint at h1
      simp only at h1
      split at h1
      · simp only [Outcome.ok.injEq] at h1
        rw [h1]; exact ⟨fun i hi => Or.inl hi, fun i hi => Or.inl hi⟩
      · rename_i hmin
        split at h1
        · unfold longPoint at h1
          obtain ⟨i, -, h1⟩ := Outcome.bind_eq_ok.1 h1
          split at h1
          · simp only [Outcome.pure_eq, Outcome.ok.injEq] at h1
            rw [h1]; exact ⟨fun i hi => Or.inl hi, fun i hi => Or.inl hi⟩
          · obtain ⟨l, hl, h1⟩ := Outcome.bind_eq_ok.1 h1
            simp only [Outcome.pure_eq, Outcome.ok.injEq] at h1
            rw [← h1]
            refine ⟨fun i hi => ?_, fun i hi => Or.inl hi⟩
            rcases Finset.mem_union.1 hi with hi | hi
            · exact Or.inl hi
            · exact Or.inr ⟨_, l, hl, List.mem_toFinset.1 hi, Or.inr rfl⟩
        · rename_i hmax
          unfold normalPoint at h1
          obtain ⟨i, -, h1⟩ := Outcome.bind_eq_ok.1 h1
          split at h1
          · simp only [Outcome.pure_eq, Outcome.ok.injEq] at h1
            rw [h1]; exact ⟨fun i hi => Or.inl hi, fun i hi => Or.inl hi⟩
          · obtain ⟨l, hl, h1⟩ := Outcome.bind_eq_ok.1 h1
            split at h1
            · simp only [Outcome.pure_eq, Outcome.ok.injEq] at h1
              rw [← h1]
              refine ⟨fun i hi => ?_, fun i hi => ?_⟩
              · rcases Finset.mem_union.1 hi with hi | hi
                · exact Or.inl hi
                · exact Or.inr ⟨_, l, hl, List.mem_of_mem_dropLast (List.mem_toFinset.1 hi), Or.inl rfl⟩
              · rcases Finset.mem_union.1 hi with hi | hi
                · exact Or.inl hi
                · right
                  refine ⟨l, hl, ?_, by simpa using hmin, by simpa using hmax⟩
                  have : i ∈ l.getLast?.toList := List.mem_toFinset.1 hi
                  simpa using this
            · simp only [Outcome.pure_eq, Outcome.ok.injEq] at h1
              rw [h1]; exact ⟨fun i hi => Or.inl hi, fun i hi => Or.inl hi⟩
    constructor
    · intro i hi
      rcases ihf i hi with hi | ⟨p, hp, rest⟩
      · rcases step.1 i hi with hi | rest
        · exact Or.inl hi
        · exact Or.inr ⟨q, by simp, rest⟩
      · exact Or.inr ⟨p, by simp [hp], rest⟩
    · intro i hi
      rcases iho i hi with hi | ⟨p, hp, rest⟩
      · rcases step.2 i hi with hi | rest
        · exact Or.inl hi
        · exact Or.inr ⟨q, by simp, rest⟩
      · exact Or.inr ⟨p, by simp [hp], rest⟩

/-- A square root good enough for the length comparisons of the examples. -/
def occA : Arith := Arith.exact fun q => if q < 25 then .fin (min q 4) else .fin 6

/-- A scan in which all hypotheses of the theorems are met (two points, two hits, three misses). -/
example :
    scanPoints occA exOcc (.fin 1) ⟨.fin (1 / 2), .fin (1 / 2), .fin (1 / 2)⟩
      [⟨.fin (27 / 10), .fin (3 / 5), .fin (7 / 10)⟩, ⟨.fin (3 / 5), .fin (29 / 10), .fin (2 / 5)⟩] ⟨∅, ∅⟩ =
    .ok ⟨{⟨1, 0, 0⟩, ⟨0, 0, 0⟩, ⟨0, 1, 0⟩}, {⟨2, 0, 0⟩, ⟨0, 2, 0⟩}⟩ := by decide +kernel

/-- **C41 is violated for short rays**: a measured point in a voxel next to the sensor's voxel is dropped
although it is within the ray-length limits; its voxel receives no hit. -/
theorem C41_short_ray_violated :
    gridFl occA (occA.vscale ⟨.fin (3 / 2), .fin (3 / 5), .fin (7 / 10)⟩ (.fin 1)) = .ok ⟨1, 0, 0⟩ ∧
    scanPoints occA exOcc (.fin 1) ⟨.fin (1 / 2), .fin (1 / 2), .fin (1 / 2)⟩
      [⟨.fin (3 / 2), .fin (3 / 5), .fin (7 / 10)⟩] ⟨∅, ∅⟩ = .ok ⟨∅, ∅⟩ := by decide +kernel

/-- **C41 is violated for repeated end voxels**: of two rays that end in the same voxel only the first is
traversed, so voxels passed only by the second one receive no miss. Here the second ray passes (1, 1, 0). -/
theorem C41_repeated_end_violated :
    castAll occA ⟨.fin (1 / 2), .fin (1 / 2), .fin (1 / 2)⟩ ⟨.fin (21 / 10), .fin (19 / 10), .fin (7 / 10)⟩ =
      .ok [⟨0, 0, 0⟩, ⟨1, 0, 0⟩, ⟨1, 1, 0⟩, ⟨2, 1, 0⟩] ∧
    scanPoints occA exOcc (.fin 1) ⟨.fin (1 / 2), .fin (1 / 2), .fin (1 / 2)⟩
      [⟨.fin (12 / 5), .fin (11 / 10), .fin (7 / 10)⟩, ⟨.fin (21 / 10), .fin (19 / 10), .fin (7 / 10)⟩] ⟨∅, ∅⟩ =
      .ok ⟨{⟨0, 0, 0⟩, ⟨1, 0, 0⟩, ⟨2, 0, 0⟩}, {⟨2, 1, 0⟩}⟩ := by decide +kernel

end Vox.Occ
