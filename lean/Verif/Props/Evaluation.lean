/-
Property C58: evaluation of a map against ground truth.
-/
import Verif.Lemmas.Evaluation
import Mathlib.Algebra.Order.Floor.Ring
import Mathlib.Data.Rat.Floor

namespace Vox.Eval

open Layer Grid Spec

variable {V : Type}

/-- One block of one TSDF voxel. -/
def exOne (s : ℚ) (i : Idx) (d w : ℚ) : VLayer (TsdfVoxel ℚ) := ⟨⟨s, 1⟩, [(i, ⟨1, s, ⟨i.x * (s * 1), i.y * (s * 1), i.z * (s * 1)⟩, false, Flags.setAll, [⟨d, w, Color.default⟩]⟩)]⟩

theorem exOne_wf {s : ℚ} (hs : 0 < s) (i : Idx) (d w : ℚ) : WellFormed (exOne s i d w) := by
  refine ⟨hs, by simp [exOne], by simp [exOne], ?_⟩
  intro j b h
  unfold exOne at h
  rw [lookup_cons_ite] at h
  split_ifs at h with h1
  · obtain rfl := Option.some.inj h
    rw [h1]
    exact ⟨rfl, rfl, by simp [exOne], rfl⟩
  · cases h

/-- Two blocks of one voxel each: one at the index of `exOne 1 0`, one elsewhere. -/
def exTwo : VLayer (TsdfVoxel ℚ) := ⟨⟨1, 1⟩, [(⟨0, 0, 0⟩, ⟨1, 1, ⟨0, 0, 0⟩, false, Flags.setAll, [⟨5, 1, Color.default⟩]⟩),
  (⟨3, 0, 0⟩, ⟨1, 1, ⟨3, 0, 0⟩, false, Flags.setAll, [⟨2, 1, Color.default⟩]⟩)]⟩

theorem exTwo_wf : WellFormed exTwo := by
  refine ⟨by norm_num [exTwo], by decide, by decide, ?_⟩
  intro i b h
  unfold exTwo at h
  rw [lookup_cons_ite, lookup_cons_ite] at h
  split_ifs at h with h1 h2
  · obtain rfl := Option.some.inj h
    rw [h1]
    exact ⟨rfl, rfl, by norm_num [exTwo], rfl⟩
  · obtain rfl := Option.some.inj h
    rw [h2]
    exact ⟨rfl, rfl, by norm_num [exTwo], rfl⟩
  · cases h

/-- No rounding; the square root is the identity here. -/
def exNum : Num := ⟨id, id, id⟩

example : WellFormed (exOne 1 0 2 1) ∧ WellFormed exTwo ∧ (exOne 1 0 2 1).cfg.vps = exTwo.cfg.vps ∧ ((exOne 1 0 2 1).blocks.map (·.1)).Nodup ∧
    (exTwo.blocks.map (·.1)).Nodup ∧ (match evaluateLayersRmse exNum tsdf (exOne 1 0 2 1) exTwo .all (some ⟨⟨1, 1⟩, []⟩) with
      | .ok (d, some E) => decide (d = ⟨9, 3, 0, 1, 0, 1, 1, 9⟩ ∧ E.blocks.map (·.2.voxels) = [[⟨3, 1, Color.default⟩]])
      | _ => false) = true :=
  ⟨exOne_wf (by norm_num) _ _ _, exTwo_wf, rfl, by simp [exOne], by decide, by decide +kernel⟩

open Classical in
/-- **C58**, counts: for every pair of layers with one side, every mode, every rounding and every listing of the stored voxels, the
reported counts are the numbers of voxels evaluated, ignored, overlapping, and considered without overlap; hence they
partition the voxels considered. -/
theorem C58_counts (N : Num) (S : Sdf V) (m : Mode) {gt test : VLayer V} (wg : WellFormed gt) (wt : WellFormed test) (hv : gt.cfg.vps = test.cfg.vps)
    (ng : (gt.blocks.map (·.1)).Nodup) (nt : (test.blocks.map (·.1)).Nodup) {L : List Idx} (hL : Lists gt test L) :
    ∃ d, evaluateLayersRmse N S gt test m none = .ok (d, none) ∧
      d.numEvaluated = L.countP (fun g => decide (Overlaps S gt test g ∧ ¬ Behind S m gt test g)) ∧
      d.numIgnored = L.countP (fun g => decide (Overlaps S gt test g ∧ Behind S m gt test g)) ∧
      d.numOverlapping = L.countP (fun g => decide (Overlaps S gt test g)) ∧
      d.numNonOverlapping = L.countP (fun g => decide (Considered S gt test g ∧ ¬ Overlaps S gt test g)) ∧
      d.numEvaluated + d.numIgnored = d.numOverlapping ∧
      d.numOverlapping + d.numNonOverlapping = L.countP (fun g => decide (Considered S gt test g)) := by
  obtain ⟨E', h1, h2, _⟩ := evaluate_ok N S m wg wt hv nt none nofun
  rw [h2 rfl] at h1
  obtain ⟨c1, c2, c3, c4⟩ := counts N S m gt test (visited gt test) Details.init
  have hp := lists_perm (visited_lists wg wt hv ng nt) hL
  rw [hp.countP_eq] at c1 c2 c3 c4
  have e0 : Details.init.numEvaluated = 0 ∧ Details.init.numIgnored = 0 ∧ Details.init.numOverlapping = 0 ∧ Details.init.numNonOverlapping = 0 := ⟨rfl, rfl, rfl, rfl⟩
  rw [e0.1, zero_add] at c1
  rw [e0.2.1, zero_add] at c2
  rw [e0.2.2.1, zero_add] at c3
  rw [e0.2.2.2, zero_add] at c4
  refine ⟨_, h1, c1, c2, c3, c4, ?_, ?_⟩
  · show _ + _ = _
    simp only [finish]
    rw [c1, c2, c3, List.countP_eq_countP_filter_add L (fun g => decide (Overlaps S gt test g)) (fun g => decide (Behind S m gt test g)),
      List.countP_filter, List.countP_filter, Nat.add_comm]
    congr 1 <;> refine List.countP_congr fun g _ => ?_ <;> simp [and_comm]
  · show _ + _ = _
    simp only [finish]
    rw [c3, c4, List.countP_eq_countP_filter_add L (fun g => decide (Considered S gt test g)) (fun g => decide (Overlaps S gt test g)),
      List.countP_filter, List.countP_filter]
    congr 1 <;> refine List.countP_congr fun g _ => ?_
    · simp only [Bool.and_eq_true, decide_eq_true_eq]
      refine ⟨fun h => ⟨?_, h⟩, fun h => h.2⟩
      obtain ⟨a, b, h1, h2, _⟩ := h
      exact Or.inl ⟨a, b, h1, h2⟩
    · simp

/-- **C58**, largest error: `max_error` bounds every evaluated absolute error, and is one of them (or zero if none is evaluated). -/
theorem C58_max (N : Num) (S : Sdf V) (m : Mode) {gt test : VLayer V} (wg : WellFormed gt) (wt : WellFormed test) (hv : gt.cfg.vps = test.cfg.vps)
    (ng : (gt.blocks.map (·.1)).Nodup) (nt : (test.blocks.map (·.1)).Nodup) :
    ∃ d, evaluateLayersRmse N S gt test m none = .ok (d, none) ∧
      (∀ g e, Evaluated S N.rnd m gt test g e → |e| ≤ d.maxError) ∧
      ((∃ g e, Evaluated S N.rnd m gt test g e ∧ d.maxError = |e|) ∨ d.maxError = 0 ∧ ∀ g e, Evaluated S N.rnd m gt test g e → e = 0) := by
  obtain ⟨E', h1, h2, _⟩ := evaluate_ok N S m wg wt hv nt none nofun
  rw [h2 rfl] at h1
  obtain ⟨_, c2, c3, _⟩ := extremes N S m gt test (visited gt test) Details.init
  have hmem : ∀ g e, Evaluated S N.rnd m gt test g e → g ∈ visited gt test := by
    rintro g e ⟨_, _, a, b, h, _⟩
    rw [(visited_lists wg wt hv ng nt).2, h]
    exact Or.inl rfl
  have hle : ∀ g e, Evaluated S N.rnd m gt test g e → |e| ≤ ((visited gt test).foldl (item N S m gt test) Details.init).maxError :=
    fun g e h => c2 g (hmem g e h) e h
  refine ⟨_, h1, hle, ?_⟩
  rcases c3 with c3 | ⟨g, _, e, he, c3⟩
  · refine Or.inr ⟨c3, fun g e he => ?_⟩
    have := hle g e he
    rw [c3] at this
    exact abs_eq_zero.1 (le_antisymm this (abs_nonneg e))
  · exact Or.inl ⟨g, e, he, c3⟩

example : Evaluated tsdf exNum.rnd .all (exOne 1 0 2 1) exTwo 0 3 := by
  refine ⟨⟨⟨2, 1, Color.default⟩, ⟨5, 1, Color.default⟩, by decide +kernel, by decide +kernel, by decide +kernel, by decide +kernel⟩, ?_,
    ⟨2, 1, Color.default⟩, ⟨5, 1, Color.default⟩, by decide +kernel, by decide +kernel, by norm_num [exNum, tsdf]⟩
  rintro (⟨h | h, _⟩ | ⟨h | h, _⟩) <;> cases h

/-- **C58** is violated: `min_error` is zero for every pair of layers, since it starts at zero. -/
theorem C58_min_zero (N : Num) (S : Sdf V) (m : Mode) {gt test : VLayer V} (wg : WellFormed gt) (wt : WellFormed test) (hv : gt.cfg.vps = test.cfg.vps)
    (nt : (test.blocks.map (·.1)).Nodup) :
    ∃ d, evaluateLayersRmse N S gt test m none = .ok (d, none) ∧ d.minError = 0 := by
  obtain ⟨E', h1, h2, _⟩ := evaluate_ok N S m wg wt hv nt none nofun
  rw [h2 rfl] at h1
  exact ⟨_, h1, (extremes N S m gt test (visited gt test) Details.init).2.2.2 rfl⟩

/-- Full claim: `min_error` is the smallest evaluated absolute error. What holds: it is a lower bound, and is attained iff some
evaluated error is zero (`C58_min_violated` is a pair of maps where none is). -/
theorem C58_min_partial (N : Num) (S : Sdf V) (m : Mode) {gt test : VLayer V} (wg : WellFormed gt) (wt : WellFormed test) (hv : gt.cfg.vps = test.cfg.vps)
    (nt : (test.blocks.map (·.1)).Nodup) :
    ∃ d, evaluateLayersRmse N S gt test m none = .ok (d, none) ∧ (∀ g e, Evaluated S N.rnd m gt test g e → d.minError ≤ |e|) ∧
      ((∃ g e, Evaluated S N.rnd m gt test g e ∧ d.minError = |e|) ↔ ∃ g, Evaluated S N.rnd m gt test g 0) := by
  obtain ⟨d, h1, h2⟩ := C58_min_zero N S m wg wt hv nt
  refine ⟨d, h1, fun g e _ => by rw [h2]; exact abs_nonneg e, ?_, ?_⟩
  · rintro ⟨g, e, he, h⟩
    rw [h2] at h
    rw [abs_eq_zero.1 h.symm] at he
    exact ⟨g, he⟩
  · rintro ⟨g, he⟩
    exact ⟨g, 0, he, by rw [h2, abs_zero]⟩

/-- The smallest error of a concrete pair of maps is 3, the reported one 0. -/
theorem C58_min_violated : ∃ (gt test : VLayer (TsdfVoxel ℚ)) (d : Details), evaluateLayersRmse exNum tsdf gt test .all none = .ok (d, none) ∧
    (∃ g e, Evaluated tsdf exNum.rnd .all gt test g e) ∧ (∀ g e, Evaluated tsdf exNum.rnd .all gt test g e → 3 ≤ |e|) ∧ d.minError = 0 := by
  refine ⟨exOne 1 0 2 1, exTwo, ⟨9, 3, 0, 1, 0, 1, 1, 9⟩, by decide +kernel, ?_, ?_, rfl⟩
  · refine ⟨0, 3, ⟨⟨2, 1, Color.default⟩, ⟨5, 1, Color.default⟩, by decide +kernel, by decide +kernel, by decide +kernel, by decide +kernel⟩, ?_,
      ⟨2, 1, Color.default⟩, ⟨5, 1, Color.default⟩, by decide +kernel, by decide +kernel, by norm_num [exNum, tsdf]⟩
    rintro (⟨h | h, _⟩ | ⟨h | h, _⟩) <;> cases h
  · rintro g e ⟨_, _, a, b, h1, h2, h3⟩
    rw [content_eq (exOne_wf (by norm_num) _ _ _)] at h1
    rw [content_eq exTwo_wf] at h2
    have hg : blockOf 1 g = 0 := by
      by_contra hne
      have : block? (exOne 1 0 2 1) (blockOf 1 g) = none := by
        unfold block? exOne
        rw [lookup_cons_ite, if_neg (fun h => hne h)]
        rfl
      have e1 : (exOne 1 0 2 1).cfg.vps = 1 := rfl
      rw [e1, this] at h1
      cases h1
    have e1 : (exOne 1 0 2 1).cfg.vps = 1 := rfl
    have e2 : exTwo.cfg.vps = 1 := rfl
    rw [e1, hg] at h1
    rw [e2, hg] at h2
    have ha : a = ⟨2, 1, Color.default⟩ := by
      have hm := List.mem_of_getElem? (show ([⟨2, 1, Color.default⟩] : List (TsdfVoxel ℚ))[linearIndex 1 (localOf 1 g)]? = some a from h1)
      simpa using hm
    have hb : b = ⟨5, 1, Color.default⟩ := by
      have hm := List.mem_of_getElem? (show ([⟨5, 1, Color.default⟩] : List (TsdfVoxel ℚ))[linearIndex 1 (localOf 1 g)]? = some b from h2)
      simpa using hm
    rw [h3, ha, hb]
    norm_num [exNum, tsdf]

/-! ## RMSE -/

/-- **C58**, RMSE: without rounding of the squares and of the sum, the RMSE is the (rounded) root of the mean of the squared evaluated errors. -/
theorem C58_rmse_exact (N : Num) (hs : ∀ q, N.rndD q = q) (S : Sdf V) (m : Mode) {gt test : VLayer V} (wg : WellFormed gt) (wt : WellFormed test)
    (hv : gt.cfg.vps = test.cfg.vps) (ng : (gt.blocks.map (·.1)).Nodup) (nt : (test.blocks.map (·.1)).Nodup) {L : List Idx} (hL : Lists gt test L)
    {f : Idx → ℚ} (hf : ∀ g e, Evaluated S N.rnd m gt test g e → f g = N.rnd (e * e)) (h0 : ∀ g, (¬ ∃ e, Evaluated S N.rnd m gt test g e) → f g = 0) :
    ∃ d, evaluateLayersRmse N S gt test m none = .ok (d, none) ∧
      d.rmse = if d.numEvaluated = 0 then 0 else N.rnd (N.sqrt ((L.map f).sum / d.numEvaluated)) := by
  obtain ⟨E', h1, h2, _⟩ := evaluate_ok N S m wg wt hv nt none nofun
  rw [h2 rfl] at h1
  refine ⟨_, h1, ?_⟩
  have ht := total_exact N hs S m gt test (visited gt test) Details.init
  have hp := lists_perm (visited_lists wg wt hv ng nt) hL
  rw [(hp.map _).sum_eq] at ht
  have hm : (L.map fun g => ((errorAt N S m gt test g).map fun e => N.rnd (e * e)).getD 0) = L.map f := by
    refine List.map_congr_left fun g _ => ?_
    cases he : errorAt N S m gt test g with
    | none =>
      refine (h0 g ?_).symm
      rintro ⟨e, h⟩
      rw [(errorAt_iff N S m gt test g e).2 h] at he
      cases he
    | some e => exact (hf g e ((errorAt_iff N S m gt test g e).1 he)).symm
  rw [hm] at ht
  have h00 : Details.init.total = 0 := rfl
  rw [h00, zero_add] at ht
  simp only [finish, hs]
  rw [ht]

/-- **C58**, RMSE under rounding: for every monotone rounding, the RMSE is zero iff the (rounded) squares of all evaluated errors are. -/
theorem C58_rmse_zero {N : Num} (m1 : Monotone N.rnd) (m2 : Monotone N.rndD) (z1 : N.rnd 0 = 0) (i2 : ∀ q, N.rndD (N.rnd q) = N.rnd q)
    (i3 : ∀ q, N.rndD (N.rndD q) = N.rndD q) (hz : N.sqrt 0 = 0) (hpos : ∀ q (n : ℕ), 0 < q → 0 < n → N.rnd (N.sqrt (N.rndD (q / n))) ≠ 0)
    (S : Sdf V) (m : Mode) {gt test : VLayer V} (wg : WellFormed gt) (wt : WellFormed test)
    (hv : gt.cfg.vps = test.cfg.vps) (ng : (gt.blocks.map (·.1)).Nodup) (nt : (test.blocks.map (·.1)).Nodup) :
    ∃ d, evaluateLayersRmse N S gt test m none = .ok (d, none) ∧
      (d.rmse = 0 → ∀ g e, Evaluated S N.rnd m gt test g e → N.rnd (e * e) = 0) ∧
      ((∀ g e, Evaluated S N.rnd m gt test g e → e = 0) → d.rmse = 0) := by
  obtain ⟨E', h1, h2, _⟩ := evaluate_ok N S m wg wt hv nt none nofun
  rw [h2 rfl] at h1
  have z2 : N.rndD 0 = 0 := by
    have := i2 0
    rwa [z1] at this
  obtain ⟨t1, t2, t3⟩ := total_rounded m1 m2 z1 i2 i3 S m gt test (visited gt test) Details.init (le_refl (0 : ℚ)) z2
  have c1 := (counts N S m gt test (visited gt test) Details.init).1
  set d := (visited gt test).foldl (item N S m gt test) Details.init with hd
  have t1 : 0 ≤ d.total := t1
  have hmem : ∀ g e, Evaluated S N.rnd m gt test g e → g ∈ visited gt test := by
    rintro g e ⟨_, _, a, b, h, _⟩
    rw [(visited_lists wg wt hv ng nt).2, h]
    exact Or.inl rfl
  refine ⟨_, h1, ?_, ?_⟩
  · intro hr g e he
    have hle := t2 g (hmem g e he) e he
    have hnn : 0 ≤ N.rnd (e * e) := by
      have := m1 (mul_self_nonneg e)
      rwa [z1] at this
    have hne : 0 < d.numEvaluated := by
      rw [c1]
      refine Nat.lt_of_lt_of_le ?_ (Nat.le_add_left _ _)
      exact List.countP_pos_iff.2 ⟨g, hmem g e he, by simpa using ⟨he.1, he.2.1⟩⟩
    by_contra hn
    have hpos' : 0 < d.total := lt_of_lt_of_le (lt_of_le_of_ne hnn (Ne.symm hn)) hle
    have hr' : N.rnd (N.sqrt (N.rndD (d.total / d.numEvaluated))) = 0 := by
      simpa only [finish, if_neg hne.ne'] using hr
    exact hpos _ _ hpos' hne hr'
  · intro hall
    have ht := t3 fun g _ => hall g
    show (finish N d).rmse = 0
    unfold finish
    simp only
    split_ifs
    · rfl
    · rw [ht]
      show N.rnd (N.sqrt (N.rndD (0 / _))) = 0
      rw [zero_div, z2, hz, z1]

example : Monotone exNum.rnd ∧ Monotone exNum.rndD ∧ exNum.rnd 0 = 0 ∧ (∀ q, exNum.rndD (exNum.rnd q) = exNum.rnd q) ∧ exNum.sqrt 0 = 0 ∧
    ∀ q (n : ℕ), 0 < q → 0 < n → exNum.rnd (exNum.sqrt (exNum.rndD (q / n))) ≠ 0 :=
  ⟨monotone_id, monotone_id, rfl, fun _ => rfl, rfl, fun q n hq hn => (div_pos hq (by exact_mod_cast hn)).ne'⟩

/-- Rounding to the grid of the subnormal `float` numbers, which is what `float` does near zero. -/
def subnormal (q : ℚ) : ℚ := ⌊q * 2 ^ 149 + 1 / 2⌋ / 2 ^ 149

/-- **C58** is violated for tiny errors: the square of an error of 2⁻¹⁰⁰ underflows in `float`, and the RMSE of two different maps is zero. -/
theorem C58_rmse_underflow : ∃ (gt test : VLayer (TsdfVoxel ℚ)) (d : Details), evaluateLayersRmse ⟨subnormal, id, id⟩ tsdf gt test .all none = .ok (d, none) ∧
    d.numEvaluated = 1 ∧ d.maxError = 1 / 2 ^ 100 ∧ d.rmse = 0 :=
  ⟨exOne 1 0 0 1, exOne 1 0 (1 / 2 ^ 100) 1, ⟨0, 1 / 2 ^ 100, 0, 1, 0, 1, 0, 0⟩, by decide +kernel, rfl, rfl, rfl⟩

/-! ## The error layer, symmetry, and what is not checked -/

open Classical in
/-- The error layer holds the absolute error, with weight one, at exactly the evaluated voxels; voxels of common blocks that are not
evaluated keep their content (default if new), everything else is untouched. -/
theorem C58_error_layer (N : Num) (S : Sdf V) (m : Mode) {gt test E : VLayer V} (wg : WellFormed gt) (wt : WellFormed test) (we : WellFormed E)
    (hv : gt.cfg.vps = test.cfg.vps) (he : E.cfg.vps = test.cfg.vps) (nt : (test.blocks.map (·.1)).Nodup) :
    ∃ d E', evaluateLayersRmse N S gt test m (some E) = .ok (d, some E') ∧ E'.cfg = E.cfg ∧ WellFormed E' ∧
      (∀ g e, Evaluated S N.rnd m gt test g e → content E' g = some (S.setWeight (S.setSdf |e| ((content E g).getD S.dflt)))) ∧
      ∀ g, (¬ ∃ e, Evaluated S N.rnd m gt test g e) →
        content E' g = if (content gt g).isSome = true ∧ (content test g).isSome = true then some ((content E g).getD S.dflt) else content E g := by
  obtain ⟨E', h1, _, h3⟩ := evaluate_ok N S m wg wt hv nt (some E) (fun l h => by rw [← Option.some.inj h]; exact ⟨we, he⟩)
  obtain ⟨l', rfl, w', c', g'⟩ := h3 E rfl
  have hc : ∀ g, (Allocated test (blockOf test.cfg.vps g) ∧ Allocated gt (blockOf test.cfg.vps g)) ↔ ((content gt g).isSome = true ∧ (content test g).isSome = true) := by
    intro g
    rw [content_isSome wg, content_isSome wt, hv]
    exact and_comm
  refine ⟨_, l', h1, c', w', ?_, ?_⟩
  · intro g e hev
    have h := (errorAt_iff N S m gt test g e).2 hev
    obtain ⟨_, _, a, b, k1, k2, _⟩ := hev
    rw [g', if_pos ((hc g).2 ⟨by rw [k1]; rfl, by rw [k2]; rfl⟩)]
    unfold errContent
    rw [h]
    rfl
  · intro g hne
    have h : errorAt N S m gt test g = none := by
      cases hh : errorAt N S m gt test g with
      | none => rfl
      | some e => exact absurd ⟨e, (errorAt_iff N S m gt test g e).1 hh⟩ hne
    rw [g']
    simp only [hc, errContent, h]

/-- In a new error layer a voxel is observed exactly if it was evaluated, and then holds the absolute error: `C58_error_layer` for TSDF voxels. -/
theorem C58_error_tsdf (N : Num) (m : Mode) {gt test : VLayer (TsdfVoxel ℚ)} (wg : WellFormed gt) (wt : WellFormed test)
    (hv : gt.cfg.vps = test.cfg.vps) (nt : (test.blocks.map (·.1)).Nodup) :
    ∃ d E', evaluateLayersRmse N tsdf gt test m (some ⟨test.cfg, []⟩) = .ok (d, some E') ∧
      ∀ g x, content E' g = some x → ((1 / 10 ^ 6 < x.weight) ↔ ∃ e, Evaluated tsdf N.rnd m gt test g e) ∧
        (∀ e, Evaluated tsdf N.rnd m gt test g e → x.distance = |e| ∧ x.weight = 1) ∧
        ((¬ ∃ e, Evaluated tsdf N.rnd m gt test g e) → x.distance = 0 ∧ x.weight = 0) := by
  obtain ⟨d, E', h, -, -, h1, h2⟩ := C58_error_layer N tsdf m wg wt (E := ⟨test.cfg, []⟩) ⟨wt.size_pos, wt.side_pos, wt.side_le, by simp⟩ hv rfl nt
  have h0 : ∀ g, content (⟨test.cfg, []⟩ : VLayer (TsdfVoxel ℚ)) g = none := fun g => by simp [content]
  refine ⟨d, E', h, fun g x hx => ?_⟩
  by_cases hev : ∃ e, Evaluated tsdf N.rnd m gt test g e
  · obtain ⟨e, he⟩ := hev
    have hw : ∀ e, Evaluated tsdf N.rnd m gt test g e → x.distance = |e| ∧ x.weight = 1 := by
      intro e he
      have := h1 g e he
      rw [hx, h0] at this
      obtain rfl := Option.some.inj this
      exact ⟨rfl, rfl⟩
    exact ⟨⟨fun _ => ⟨e, he⟩, fun _ => by rw [(hw e he).2]; norm_num⟩, hw, fun c => absurd ⟨e, he⟩ c⟩
  · have := h2 g hev
    rw [hx, h0] at this
    have hxd : x = tsdf.dflt := by
      split at this
      · exact Option.some.inj this
      · cases this
    refine ⟨⟨fun hw => ?_, fun c => absurd c hev⟩, fun e he => absurd ⟨e, he⟩ hev, fun _ => by rw [hxd]; exact ⟨rfl, rfl⟩⟩
    rw [hxd] at hw
    exact absurd hw (by simp [tsdf])

example : (match evaluateLayersRmse exNum tsdf (exOne 1 0 2 0) (exOne 1 0 5 1) .all (some ⟨⟨1, 1⟩, []⟩) with
    | .ok (_, some E) => decide (E.blocks.map (·.2.voxels) = [[⟨0, 0, Color.default⟩]])
    | _ => false) = true := by decide +kernel

/-- The same for ESDF voxels. -/
theorem C58_error_esdf (N : Num) (m : Mode) {gt test : VLayer (EsdfVoxel ℚ)} (wg : WellFormed gt) (wt : WellFormed test)
    (hv : gt.cfg.vps = test.cfg.vps) (nt : (test.blocks.map (·.1)).Nodup) :
    ∃ d E', evaluateLayersRmse N esdf gt test m (some ⟨test.cfg, []⟩) = .ok (d, some E') ∧
      ∀ g x, content E' g = some x → (x.observed = true ↔ ∃ e, Evaluated esdf N.rnd m gt test g e) ∧
        (∀ e, Evaluated esdf N.rnd m gt test g e → x.distance = |e|) ∧ ((¬ ∃ e, Evaluated esdf N.rnd m gt test g e) → x.distance = 0) ∧ x.hallucinated = false ∧ x.inQueue = false ∧ x.fixed = false := by
  obtain ⟨d, E', h, -, -, h1, h2⟩ := C58_error_layer N esdf m wg wt (E := ⟨test.cfg, []⟩) ⟨wt.size_pos, wt.side_pos, wt.side_le, by simp⟩ hv rfl nt
  have h0 : ∀ g, content (⟨test.cfg, []⟩ : VLayer (EsdfVoxel ℚ)) g = none := fun g => by simp [content]
  refine ⟨d, E', h, fun g x hx => ?_⟩
  by_cases hev : ∃ e, Evaluated esdf N.rnd m gt test g e
  · obtain ⟨e, he⟩ := hev
    have hw : ∀ e, Evaluated esdf N.rnd m gt test g e → x = { esdf.dflt with distance := |e|, observed := true } := by
      intro e he
      have := h1 g e he
      rw [hx, h0] at this
      exact Option.some.inj this
    refine ⟨⟨fun _ => ⟨e, he⟩, fun _ => by rw [hw e he]⟩, fun e he => by rw [hw e he], fun c => absurd ⟨e, he⟩ c, ?_, ?_, ?_⟩ <;> rw [hw e he] <;> rfl
  · have := h2 g hev
    rw [hx, h0] at this
    have hxd : x = esdf.dflt := by
      split at this
      · exact Option.some.inj this
      · cases this
    refine ⟨⟨fun hw => ?_, fun c => absurd c hev⟩, fun e he => absurd ⟨e, he⟩ hev, fun _ => by rw [hxd]; rfl, ?_, ?_, ?_⟩
    · rw [hxd] at hw
      exact absurd hw (by simp [esdf])
    all_goals rw [hxd]; rfl

example : (match evaluateLayersRmse exNum esdf ⟨⟨1, 1⟩, [(0, ⟨1, 1, 0, false, Flags.setAll, [⟨2, true, false, false, true, 0⟩]⟩)]⟩
      ⟨⟨1, 1⟩, [(0, ⟨1, 1, 0, false, Flags.setAll, [⟨5, true, true, false, false, 0⟩]⟩)]⟩ .all (some ⟨⟨1, 1⟩, []⟩) with
    | .ok (_, some E) => decide (E.blocks.map (·.2.voxels) = [[⟨3, true, false, false, false, 0⟩]])
    | _ => false) = true := by decide +kernel

/-- The mode with the roles of test and ground truth exchanged. -/
def Mode.swap : Mode → Mode
  | .behindTest => .behindGt
  | .behindGt => .behindTest
  | m => m

/-- The comparison is symmetrical, as documented (for a rounding that treats both signs alike): exchanging the layers, and the
surface not looked behind, gives the same counts and the same largest error. -/
theorem C58_symmetric (N : Num) (hodd : ∀ q, N.rnd (-q) = -N.rnd q) (S : Sdf V) (m : Mode) {gt test : VLayer V} (wg : WellFormed gt) (wt : WellFormed test)
    (hv : gt.cfg.vps = test.cfg.vps) (ng : (gt.blocks.map (·.1)).Nodup) (nt : (test.blocks.map (·.1)).Nodup) :
    ∃ d d', evaluateLayersRmse N S gt test m none = .ok (d, none) ∧ evaluateLayersRmse N S test gt m.swap none = .ok (d', none) ∧
      d.numEvaluated = d'.numEvaluated ∧ d.numIgnored = d'.numIgnored ∧ d.numOverlapping = d'.numOverlapping ∧
      d.numNonOverlapping = d'.numNonOverlapping ∧ d.maxError = d'.maxError := by
  classical
  have hL := visited_lists wg wt hv ng nt
  have hL' : Lists test gt (visited gt test) := ⟨hL.1, fun g => by rw [hL.2, or_comm]⟩
  obtain ⟨d, h1, a1, a2, a3, a4, _⟩ := C58_counts N S m wg wt hv ng nt hL
  obtain ⟨d', h2, b1, b2, b3, b4, _⟩ := C58_counts N S m.swap wt wg hv.symm nt ng hL'
  have ov : ∀ g, Overlaps S gt test g ↔ Overlaps S test gt g := by
    intro g
    constructor <;> rintro ⟨a, b, k1, k2, k3, k4⟩ <;> exact ⟨b, a, k2, k1, k4, k3⟩
  have bh : ∀ g, Behind S m gt test g ↔ Behind S m.swap test gt g := by
    intro g
    unfold Behind
    cases m <;> simp [Mode.swap, or_comm]
  have cs : ∀ g, Considered S gt test g ↔ Considered S test gt g := by
    intro g
    unfold Considered
    constructor
    · rintro (⟨a, b, k1, k2⟩ | h | h)
      · exact Or.inl ⟨b, a, k2, k1⟩
      · exact Or.inr (Or.inr h)
      · exact Or.inr (Or.inl h)
    · rintro (⟨a, b, k1, k2⟩ | h | h)
      · exact Or.inl ⟨b, a, k2, k1⟩
      · exact Or.inr (Or.inr h)
      · exact Or.inr (Or.inl h)
  have ev : ∀ g e, Evaluated S N.rnd m gt test g e ↔ Evaluated S N.rnd m.swap test gt g (-e) := by
    intro g e
    unfold Evaluated
    rw [ov, bh]
    refine and_congr_right fun _ => and_congr_right fun _ => ?_
    constructor
    · rintro ⟨a, b, k1, k2, rfl⟩
      exact ⟨b, a, k2, k1, by rw [← hodd, neg_sub]⟩
    · rintro ⟨a, b, k1, k2, h⟩
      exact ⟨b, a, k2, k1, by rw [← neg_neg e, h, ← hodd, neg_sub]⟩
  refine ⟨d, d', h1, h2, ?_, ?_, ?_, ?_, ?_⟩
  · rw [a1, b1]
    exact List.countP_congr fun g _ => by rw [decide_eq_true_iff, decide_eq_true_iff, ov, bh]
  · rw [a2, b2]
    exact List.countP_congr fun g _ => by rw [decide_eq_true_iff, decide_eq_true_iff, ov, bh]
  · rw [a3, b3]
    exact List.countP_congr fun g _ => by rw [decide_eq_true_iff, decide_eq_true_iff, ov]
  · rw [a4, b4]
    exact List.countP_congr fun g _ => by rw [decide_eq_true_iff, decide_eq_true_iff, ov, cs]
  · obtain ⟨x, k1, k2, k3⟩ := C58_max N S m wg wt hv ng nt
    obtain ⟨y, j1, j2, j3⟩ := C58_max N S m.swap wt wg hv.symm nt ng
    rw [h1] at k1
    rw [h2] at j1
    obtain rfl : d = x := congrArg Prod.fst (Outcome.ok.inj k1)
    obtain rfl : d' = y := congrArg Prod.fst (Outcome.ok.inj j1)
    have ev' : ∀ g e, Evaluated S N.rnd m.swap test gt g e ↔ Evaluated S N.rnd m gt test g (-e) := fun g e => by rw [ev, neg_neg]
    have n1 : 0 ≤ d.maxError := by
      rcases k3 with ⟨g, e, _, h⟩ | ⟨h, _⟩
      · rw [h]; exact abs_nonneg e
      · rw [h]
    have n2 : 0 ≤ d'.maxError := by
      rcases j3 with ⟨g, e, _, h⟩ | ⟨h, _⟩
      · rw [h]; exact abs_nonneg e
      · rw [h]
    refine le_antisymm ?_ ?_
    · rcases k3 with ⟨g, e, he, h⟩ | ⟨h, _⟩
      · rw [h, ← abs_neg]
        exact j2 g _ ((ev g e).1 he)
      · rw [h]; exact n2
    · rcases j3 with ⟨g, e, he, h⟩ | ⟨h, _⟩
      · rw [h, ← abs_neg]
        exact k2 g _ ((ev' g e).1 he)
      · rw [h]; exact n1

example : ∀ q, exNum.rnd (-q) = -exNum.rnd q := fun _ => rfl

/-- Voxels never observed in either map are counted as non-overlapping if both maps have allocated their block, and not counted if only
one has. -/
theorem C58_unobserved_counted :
    (∃ d, evaluateLayersRmse exNum tsdf (exOne 1 0 0 0) (exOne 1 0 0 0) .all none = .ok (d, none) ∧ d.numNonOverlapping = 1) ∧
    ∃ d, evaluateLayersRmse exNum tsdf (exOne 1 0 0 0) (exOne 1 ⟨1, 0, 0⟩ 0 0) .all none = .ok (d, none) ∧ d.numNonOverlapping = 0 :=
  ⟨⟨⟨0, 0, 0, 0, 0, 0, 1, 0⟩, by decide +kernel, rfl⟩, ⟨0, 0, 0, 0, 0, 0, 0, 0⟩, by decide +kernel, rfl⟩

/-- Voxel sizes are not compared: voxels at different places (centres 5.5 and 2.75) are evaluated against each other. -/
theorem C58_size_unchecked : ∃ d, evaluateLayersRmse exNum tsdf (exOne 1 ⟨5, 0, 0⟩ 2 1) (exOne (1 / 2) ⟨5, 0, 0⟩ 3 1) .all none = .ok (d, none) ∧ d.numEvaluated = 1 ∧
    voxelCenter 1 ⟨5, 0, 0⟩ ≠ voxelCenter (1 / 2) ⟨5, 0, 0⟩ :=
  ⟨⟨1, 1, 0, 1, 0, 1, 0, 1⟩, by decide +kernel, rfl, by decide +kernel⟩

/-- Neither are sides: a test layer with larger blocks makes the evaluation read outside the ground truth's blocks. -/
theorem C58_side_unchecked : ∃ gt test : VLayer (TsdfVoxel ℚ), WellFormed gt ∧ WellFormed test ∧ evaluateLayersRmse exNum tsdf gt test .all none = .ub := by
  refine ⟨exOne 1 0 2 1, ⟨⟨1, 2⟩, [(0, Block.new ⟨0, 0, Color.default⟩ 2 1 0)]⟩, exOne_wf (by norm_num) _ _ _, ?_, by decide +kernel⟩
  refine ⟨by norm_num, by decide, by decide, ?_⟩
  intro j b h
  rw [lookup_cons_ite] at h
  split_ifs at h with h1
  · obtain rfl := Option.some.inj h
    rw [h1]
    refine ⟨rfl, rfl, ?_, by decide⟩
    refine Vec3.ext ?_ ?_ ?_ <;> simp [Block.new]
  · cases h

end Vox.Eval
