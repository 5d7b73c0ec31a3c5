/-
Property C59: slices of a map along a coordinate plane.
-/
import Verif.Lemmas.Slice

namespace Vox.Slice

open Layer Grid Spec

variable {V : Type}

/-- A block of eight TSDF voxels; the upper ones have distance 7. -/
def exBlock (hasData : Bool) : Block ℚ (TsdfVoxel ℚ) := ⟨2, 1, ⟨0, 0, 0⟩, hasData, Flags.setAll,
  [⟨3, 1, Color.default⟩, ⟨3, 1, Color.default⟩, ⟨3, 1, Color.default⟩, ⟨3, 1, Color.default⟩,
   ⟨7, 1, Color.default⟩, ⟨7, 1, Color.default⟩, ⟨7, 1, Color.default⟩, ⟨7, 1, Color.default⟩]⟩

/-- A map of one block. -/
def exMap (hasData : Bool) : VLayer (TsdfVoxel ℚ) := ⟨⟨1, 2⟩, [(⟨0, 0, 0⟩, exBlock hasData)]⟩

theorem exMap_wf (hasData : Bool) : WellFormed (exMap hasData) := by
  refine ⟨by norm_num [exMap], by simp [exMap], by simp [exMap], ?_⟩
  intro j b h
  unfold exMap at h
  rw [lookup_cons_ite] at h
  split_ifs at h with h1
  · obtain rfl := Option.some.inj h
    rw [h1]
    exact ⟨rfl, rfl, by simp [exMap, exBlock], rfl⟩
  · cases h

/-- The same block with ESDF voxels. -/
def exEsdf : VLayer (EsdfVoxel ℚ) := ⟨⟨1, 2⟩, [(⟨0, 0, 0⟩, ⟨2, 1, ⟨0, 0, 0⟩, false, Flags.setAll,
  [⟨3, true, false, false, false, 0⟩, ⟨3, true, false, false, false, 0⟩, ⟨3, true, false, false, false, 0⟩, ⟨3, false, false, false, false, 0⟩,
   ⟨7, true, false, false, false, 0⟩, ⟨7, true, false, false, false, 0⟩, ⟨7, true, false, false, false, 0⟩, ⟨7, true, false, false, false, 0⟩]⟩)]⟩

theorem exEsdf_wf : WellFormed exEsdf := by
  refine ⟨by norm_num [exEsdf], by simp [exEsdf], by simp [exEsdf], ?_⟩
  intro j b h
  unfold exEsdf at h
  rw [lookup_cons_ite] at h
  split_ifs at h with h1
  · obtain rfl := Option.some.inj h
    rw [h1]
    exact ⟨rfl, rfl, by simp [exEsdf], rfl⟩
  · cases h

/-- The list `E` names, once each, the centre, distance (and weight) of the voxels with a reading in blocks not skipped, within one
voxel size of the plane, whose block does not lie entirely below the plane. -/
def Selects (K : Kind V) (a : Fin 3) (val : ℚ) (l : VLayer V) (E : List (Pt × ℚ × Option ℚ)) : Prop :=
  (E.map (·.1)).Nodup ∧ ∀ e, e ∈ E ↔ ∃ g b v r, block? l (blockOf l.cfg.vps g) = some b ∧ K.skips b = false ∧ content l g = some v ∧
    K.reading v = some r ∧ OnSlice l.cfg.voxelSize a val g ∧ NotAboveBlock l.cfg.voxelSize l.cfg.vps a val g ∧ e = (voxelCenter l.cfg.voxelSize g, r)

/-- How a slice query ends, for every map, plane, maximum and sizes of the caller's arrays: with the selected voxels `E` in some
order, it stops at the maximum (but never before the first voxel) and returns, even if the arrays were too short; or it
reports all, if they fit; or it throws. -/
theorem C59_outcome (K : Kind V) (c : Caps) (M : ℕ) (a : Fin 3) (val : ℚ) {l : VLayer V} (wf : WellFormed l) (nd : (l.blocks.map (·.1)).Nodup)
    (hw : c.distances ≤ c.weights ∨ ∀ v r, K.reading v = some r → r.2 = none) :
    ∃ E, Selects K a val l E ∧
      (max M 1 ≤ E.length → ∃ st, slice K c M a val l = .ok (.returned st) ∧ st.count = max M 1 ∧
        st.positions = ((E.take (max M 1)).map (·.1)).take c.positions ∧ st.distances = ((E.take (max M 1)).map (·.2.1)).take c.distances ∧
        st.weights = ((E.take (max M 1)).take c.distances).filterMap (·.2.2)) ∧
      (E.length < max M 1 → E.length ≤ c.positions ∧ E.length ≤ c.distances → ∃ st, slice K c M a val l = .ok (.returned st) ∧ st.count = E.length ∧
        st.positions = E.map (·.1) ∧ st.distances = E.map (·.2.1) ∧ st.weights = E.filterMap (·.2.2)) ∧
      (E.length < max M 1 → c.positions < E.length ∨ c.distances < E.length → ∃ st, slice K c M a val l = .ok (.thrown st)) := by
  have hs := slice_ok (K := K) (c := c) (M := M) (a := a) (val := val) wf (hw.imp_right fun h e he => by
    obtain ⟨g, b, v, r, _, _, _, h4, _, _, rfl⟩ := (mem_entries wf e).1 he
    exact h v r h4)
  refine ⟨entries K a val l, ⟨entries_nodup wf nd, mem_entries wf⟩, ?_, ?_, ?_⟩
  · intro h
    have hl : ((entries K a val l).take (max M 1)).length = max M 1 := List.length_take_of_le h
    have hd : (stateOf c M ((entries K a val l).take (max M 1))).done = true := by
      simp only [stateOf, decide_eq_true_eq]
      refine ⟨?_, by omega⟩
      rw [← List.length_pos_iff]
      omega
    refine ⟨stateOf c M ((entries K a val l).take (max M 1)), ?_, hl, rfl, rfl, rfl⟩
    rw [hs]
    unfold finish
    rw [if_pos hd]
  · intro h hf
    have ht : (entries K a val l).take (max M 1) = entries K a val l := List.take_of_length_le h.le
    rw [ht] at hs
    have hfit : (stateOf c M (entries K a val l)).fit = true := by simpa [stateOf] using hf
    refine ⟨stateOf c M (entries K a val l), ?_, rfl, List.take_of_length_le (by simpa using hf.1), List.take_of_length_le (by simpa using hf.2), ?_⟩
    · rw [hs]
      unfold finish
      rw [hfit]
      simp
    · show ((entries K a val l).take c.distances).filterMap _ = _
      rw [List.take_of_length_le hf.2]
  · intro h hf
    have ht : (entries K a val l).take (max M 1) = entries K a val l := List.take_of_length_le h.le
    rw [ht] at hs
    have hfit : (stateOf c M (entries K a val l)).fit = false := by
      simp only [stateOf, decide_eq_false_iff_not]
      omega
    have hd : (stateOf c M (entries K a val l)).done = false := by
      simp only [stateOf, decide_eq_false_iff_not]
      rintro ⟨h1, h2⟩
      have := List.length_pos_iff.2 h1
      omega
    refine ⟨stateOf c M (entries K a val l), ?_⟩
    rw [hs]
    unfold finish
    rw [hfit, hd]
    simp

example : WellFormed (exMap true) ∧ ((exMap true).blocks.map (·.1)).Nodup ∧
    (match slice tsdf ⟨9, 9, 9⟩ 9 2 (1 / 4) (exMap true) with
      | .ok (.returned st) => decide (st.count = 4 ∧ st.distances = [3, 3, 3, 3])
      | _ => false) = true ∧
    (match slice tsdf ⟨3, 9, 9⟩ 9 2 (1 / 4) (exMap true) with
      | .ok (.thrown st) => decide (st.count = 4)
      | _ => false) = true ∧
    (match slice tsdf ⟨1, 9, 9⟩ 2 2 (1 / 4) (exMap true) with
      | .ok (.returned st) => decide (st.count = 2 ∧ st.positions.length = 1)
      | _ => false) = true :=
  ⟨exMap_wf _, by simp [exMap], by decide +kernel, by decide +kernel, by decide +kernel⟩

/-- **C59** for the ESDF. Full claim: every observed voxel within one voxel size of the plane is returned. What holds, if the arrays
and the maximum are large enough: exactly those are returned whose block does not lie entirely below the plane; each once. -/
theorem C59_esdf_partial (a : Fin 3) (val : ℚ) {l : VLayer (EsdfVoxel ℚ)} (wf : WellFormed l) (nd : (l.blocks.map (·.1)).Nodup) :
    ∃ n, ∀ c M, n ≤ c.positions → n ≤ c.distances → n < M → ∃ st, slice esdf c M a val l = .ok (.returned st) ∧ st.count = n ∧
      st.positions.length = n ∧ st.distances.length = n ∧ st.positions.Nodup ∧
      ∀ p d, (p, d) ∈ st.positions.zip st.distances ↔ ∃ g v, content l g = some v ∧ v.observed = true ∧ OnSlice l.cfg.voxelSize a val g ∧
        NotAboveBlock l.cfg.voxelSize l.cfg.vps a val g ∧ p = voxelCenter l.cfg.voxelSize g ∧ d = v.distance := by
  have hr : ∀ v r, esdf.reading v = some r → r.2 = none := by
    intro v r h
    simp only [esdf] at h
    split_ifs at h
    rw [← Option.some.inj h]
  refine ⟨(entries esdf a val l).length, ?_⟩
  intro c M h1 h2 h3
  have hs := slice_ok (K := esdf) (c := c) (M := M) (a := a) (val := val) wf (Or.inr fun e he => by
    obtain ⟨g, b, v, r, _, _, _, h4, _, _, rfl⟩ := (mem_entries wf e).1 he
    exact hr v r h4)
  rw [List.take_of_length_le (by omega)] at hs
  have e1 : (stateOf c M (entries esdf a val l)).positions = (entries esdf a val l).map (·.1) := List.take_of_length_le (by simpa using h1)
  have e2 : (stateOf c M (entries esdf a val l)).distances = (entries esdf a val l).map (·.2.1) := List.take_of_length_le (by simpa using h2)
  have hfit : (stateOf c M (entries esdf a val l)).fit = true := by simpa [stateOf] using And.intro h1 h2
  refine ⟨stateOf c M (entries esdf a val l), ?_, rfl, by rw [e1, List.length_map], by rw [e2, List.length_map], by rw [e1]; exact entries_nodup wf nd, ?_⟩
  · rw [hs]
    unfold finish
    rw [hfit]
    simp
  · intro p d
    rw [e1, e2, List.zip_map', List.mem_map]
    constructor
    · rintro ⟨e, he, h⟩
      obtain ⟨g, b, v, r, k1, k2, k3, k4, k5, k6, rfl⟩ := (mem_entries wf e).1 he
      have hp := (Prod.mk.inj h).1
      have hd := (Prod.mk.inj h).2
      simp only [esdf] at k4
      split_ifs at k4 with ho
      refine ⟨g, v, k3, ho, k5, k6, hp.symm, ?_⟩
      rw [← hd, ← Option.some.inj k4]
    · rintro ⟨g, v, k3, ho, k5, k6, rfl, rfl⟩
      have hb : (block? l (blockOf l.cfg.vps g)).isSome = true := by rw [← content_isSome wf, k3]; rfl
      obtain ⟨b, hb⟩ := Option.isSome_iff_exists.1 hb
      exact ⟨_, (mem_entries wf _).2 ⟨g, b, v, (v.distance, none), hb, rfl, k3, by simp [esdf, ho], k5, k6, rfl⟩, rfl⟩

example : WellFormed exEsdf ∧ (exEsdf.blocks.map (·.1)).Nodup ∧
    (match slice esdf ⟨9, 9, 0⟩ 9 2 (1 / 4) exEsdf with
      | .ok (.returned st) => decide (st.positions.zip st.distances = [(⟨1 / 2, 1 / 2, 1 / 2⟩, 3), (⟨3 / 2, 1 / 2, 1 / 2⟩, 3), (⟨1 / 2, 3 / 2, 1 / 2⟩, 3)])
      | _ => false) = true :=
  ⟨exEsdf_wf, by simp [exEsdf], by decide +kernel⟩

/-- **C59** for the TSDF. Full claim: as for the ESDF, with the weights (whatever they are: unobserved voxels are returned as well).
What holds: exactly the voxels of blocks marked as having data, and not entirely below the plane, are returned. -/
theorem C59_tsdf_partial (a : Fin 3) (val : ℚ) {l : VLayer (TsdfVoxel ℚ)} (wf : WellFormed l) (nd : (l.blocks.map (·.1)).Nodup) :
    ∃ n, ∀ c M, n ≤ c.positions → n ≤ c.distances → c.distances ≤ c.weights → n < M → ∃ st, slice tsdf c M a val l = .ok (.returned st) ∧ st.count = n ∧
      st.positions.length = n ∧ st.distances.length = n ∧ st.weights.length = n ∧ st.positions.Nodup ∧
      ∀ p d w, (p, d, w) ∈ st.positions.zip (st.distances.zip st.weights) ↔ ∃ g v u, content l g = some v ∧
        status l (blockOf l.cfg.vps g) = some (true, u) ∧ OnSlice l.cfg.voxelSize a val g ∧
        NotAboveBlock l.cfg.voxelSize l.cfg.vps a val g ∧ p = voxelCenter l.cfg.voxelSize g ∧ d = v.distance ∧ w = v.weight := by
  refine ⟨(entries tsdf a val l).length, ?_⟩
  intro c M h1 h2 hw h3
  have hs := slice_ok (K := tsdf) (c := c) (M := M) (a := a) (val := val) wf (Or.inl hw)
  rw [List.take_of_length_le (by omega)] at hs
  have e1 : (stateOf c M (entries tsdf a val l)).positions = (entries tsdf a val l).map (·.1) := List.take_of_length_le (by simpa using h1)
  have e2 : (stateOf c M (entries tsdf a val l)).distances = (entries tsdf a val l).map (·.2.1) := List.take_of_length_le (by simpa using h2)
  have e3 : (stateOf c M (entries tsdf a val l)).weights = (entries tsdf a val l).map fun e => e.2.2.getD 0 := by
    show ((entries tsdf a val l).take c.distances).filterMap _ = _
    rw [List.take_of_length_le h2, ← List.filterMap_eq_map]
    refine List.filterMap_congr fun e he => ?_
    obtain ⟨g, b, v, r, _, _, _, k4, _, _, rfl⟩ := (mem_entries wf e).1 he
    rw [← Option.some.inj (show some (v.distance, some v.weight) = some r from k4)]
    rfl
  have hfit : (stateOf c M (entries tsdf a val l)).fit = true := by simpa [stateOf] using And.intro h1 h2
  refine ⟨stateOf c M (entries tsdf a val l), ?_, rfl, by rw [e1, List.length_map], by rw [e2, List.length_map], by rw [e3, List.length_map],
    by rw [e1]; exact entries_nodup wf nd, ?_⟩
  · rw [hs]
    unfold finish
    rw [hfit]
    simp
  · intro p d w
    rw [e1, e2, e3, List.zip_map', List.zip_map', List.mem_map]
    constructor
    · rintro ⟨e, he, h⟩
      obtain ⟨g, b, v, r, k1, k2, k3, k4, k5, k6, rfl⟩ := (mem_entries wf e).1 he
      obtain ⟨hp, h⟩ := Prod.mk.inj h
      obtain ⟨hd, hw'⟩ := Prod.mk.inj h
      have hr := Option.some.inj (show some (v.distance, some v.weight) = some r from k4)
      have hdat : b.hasData = true := by simpa [tsdf] using k2
      refine ⟨g, v, b.updated, k3, ?_, k5, k6, hp.symm, by rw [← hd, ← hr], by rw [← hw', ← hr]; rfl⟩
      unfold status
      rw [show l.blocks.lookup (blockOf l.cfg.vps g) = some b from k1, ← hdat]
      rfl
    · rintro ⟨g, v, u, k3, hu, k5, k6, rfl, rfl, rfl⟩
      have hb : (block? l (blockOf l.cfg.vps g)).isSome = true := by rw [← content_isSome wf, k3]; rfl
      obtain ⟨b, hb⟩ := Option.isSome_iff_exists.1 hb
      have hdat : b.hasData = true := by
        unfold status at hu
        rw [show l.blocks.lookup (blockOf l.cfg.vps g) = some b from hb] at hu
        exact (Prod.mk.inj (Option.some.inj hu)).1
      exact ⟨_, (mem_entries wf _).2 ⟨g, b, v, (v.distance, some v.weight), hb, by simp [tsdf, hdat], k3, rfl, k5, k6, rfl⟩, rfl⟩

example : WellFormed (exMap true) ∧ ((exMap true).blocks.map (·.1)).Nodup := ⟨exMap_wf _, by simp [exMap]⟩

/-- The condition on blocks only matters for a plane less than half a voxel above a block's upper face: elsewhere every voxel on the
slice counts. -/
theorem C59_only_below_face {s : ℚ} (hs : 0 < s) {n : ℕ} (h0 : 0 < n) (a : Fin 3) (val : ℚ) (g : Idx) (hon : OnSlice s a val g)
    (hna : ¬ NotAboveBlock s n a val g) :
    axial a g = (axial a (blockOf n g) + 1) * n - 1 ∧ ((axial a (blockOf n g) : ℤ) + 1 : ℚ) * (s * n) < val ∧
      val ≤ ((axial a (blockOf n g) : ℤ) + 1 : ℚ) * (s * n) + s / 2 := by
  unfold OnSlice at hon
  rw [axial_center] at hon
  unfold NotAboveBlock at hna
  rw [not_le] at hna
  obtain ⟨d1, d2⟩ := axial_div_le n h0 a g
  have h2 := (abs_le.1 hon).1
  have d2' : ((axial a g : ℤ) : ℚ) + 1 ≤ ((axial a (blockOf n g) : ℤ) + 1) * n := by exact_mod_cast d2
  have hlt : (((axial a (blockOf n g) + 1) * n - 1 : ℤ) : ℚ) < ((axial a g : ℤ) : ℚ) + 1 := by
    push_cast
    by_contra hc
    rw [not_lt] at hc
    have := mul_le_mul_of_nonneg_right hc hs.le
    nlinarith
  have hlt' : (axial a (blockOf n g) + 1) * n - 1 < axial a g + 1 := by exact_mod_cast hlt
  refine ⟨by omega, hna, ?_⟩
  have := mul_le_mul_of_nonneg_right d2' hs.le
  nlinarith

example : OnSlice 1 2 (9 / 4) ⟨0, 0, 1⟩ ∧ ¬ NotAboveBlock 1 2 2 (9 / 4) ⟨0, 0, 1⟩ := by
  unfold OnSlice NotAboveBlock
  refine ⟨?_, ?_⟩
  · rw [axial_center]
    norm_num [axial, abs_le]
  · norm_num [axial, blockOf, Vec3.map]

/-- **C59** is violated: a plane a quarter voxel above the block returns nothing, though the upper voxels are within one voxel size. -/
theorem C59_skip_violated : ∃ (l : VLayer (EsdfVoxel ℚ)) (val : ℚ) (g : Idx) (v : EsdfVoxel ℚ), WellFormed l ∧ content l g = some v ∧ v.observed = true ∧
    OnSlice l.cfg.voxelSize 2 val g ∧ slice esdf ⟨99, 99, 0⟩ 99 2 val l = .ok (.returned ⟨0, true, [], [], [], false⟩) := by
  refine ⟨exEsdf, 9 / 4, ⟨0, 0, 1⟩, ⟨7, true, false, false, false, 0⟩, exEsdf_wf, by decide +kernel, rfl, ?_, by decide +kernel⟩
  unfold OnSlice
  rw [axial_center]
  norm_num [axial, abs_le, exEsdf]

/-- **C59** is violated: a TSDF map whose blocks lack the has-data mark (as the integrators leave them, C46) returns nothing. -/
theorem C59_no_data_violated : ∃ (l : VLayer (TsdfVoxel ℚ)) (val : ℚ) (g : Idx) (v : TsdfVoxel ℚ), WellFormed l ∧ content l g = some v ∧ 0 < v.weight ∧
    OnSlice l.cfg.voxelSize 2 val g ∧ NotAboveBlock l.cfg.voxelSize l.cfg.vps 2 val g ∧
    slice tsdf ⟨99, 99, 99⟩ 99 2 val l = .ok (.returned ⟨0, true, [], [], [], false⟩) := by
  refine ⟨exMap false, 1 / 4, ⟨0, 0, 0⟩, ⟨3, 1, Color.default⟩, exMap_wf _, by decide +kernel, by norm_num, ?_, ?_, by decide +kernel⟩
  · unfold OnSlice
    rw [axial_center]
    norm_num [axial, abs_le, exMap]
  · norm_num [NotAboveBlock, axial, blockOf, Vec3.map, exMap]

/-- A maximum of zero points still yields one. -/
theorem C59_max_zero : ∃ st, slice tsdf ⟨9, 9, 9⟩ 0 2 (1 / 4) (exMap true) = .ok (.returned st) ∧ st.count = 1 :=
  ⟨⟨1, true, [⟨1 / 2, 1 / 2, 1 / 2⟩], [3], [1], true⟩, by decide +kernel, rfl⟩

/-- The array of weights is written without a check of its own size. -/
theorem C59_weights_overrun : slice tsdf ⟨9, 9, 1⟩ 9 2 (1 / 4) (exMap true) = .ub := by decide +kernel

/-- An axis other than 0, 1, 2 reads outside the vectors. -/
theorem C59_bad_axis : slice esdf ⟨9, 9, 0⟩ 9 3 (1 / 4) exEsdf = .ub := by decide +kernel

end Vox.Slice
