/-
Property C76: the point cloud of a layer coloured by distance.
-/
import Verif.Lemmas.SdfCloud
import Verif.Props.PtCloud

namespace Vox.PtCloud

open Layer Grid Spec Eval Ieee

/-- A TSDF voxel becomes a point if its weight is above the tolerance and its distance within the maximum, when this is positive. This is
decided, and the colour computed, without an abort for every distance that is a number (an infinite one too). -/
theorem C76_tsdf_shown {r : ℚ} (hr : 0 < r) (maxValue : Fl) {v : TsdfVoxel Fl} (hd : v.distance ≠ .nan) :
    ∃ o, tsdfColor (.fin r) maxValue v = .ok o ∧
      (o.isSome = true ↔ ¬ Fl.le v.weight (.fin (rnd32 (1 / 1000000))) = true ∧
        ¬ (Fl.lt (.fin 0) maxValue = true ∧ Fl.lt maxValue (Fl.abs v.distance) = true)) := by
  have e : float32.rnd (1 / 1000000) = .fin (rnd32 (1 / 1000000)) := by decide +kernel
  unfold tsdfColor
  rw [e]
  by_cases hw : Fl.le v.weight (.fin (rnd32 (1 / 1000000))) = true
  · rw [if_pos hw]
    exact ⟨none, rfl, ⟨fun h => (by cases h), fun h => absurd hw h.1⟩⟩
  · rw [if_neg hw]
    obtain ⟨o, ho, h⟩ := distanceColor_total hr maxValue hd
    refine ⟨o, ho, ?_⟩
    rw [← Option.ne_none_iff_isSome, ne_eq, h]
    constructor
    · exact fun h => ⟨hw, fun ⟨a, b⟩ => h ⟨b, a⟩⟩
    · exact fun h ⟨a, b⟩ => h.2 ⟨b, a⟩

/-- The same for an ESDF voxel, which has to be observed. -/
theorem C76_esdf_shown {r : ℚ} (hr : 0 < r) (maxValue : Fl) {v : EsdfVoxel Fl} (hd : v.distance ≠ .nan) :
    ∃ o, esdfColor (.fin r) maxValue v = .ok o ∧
      (o.isSome = true ↔ v.observed = true ∧ ¬ (Fl.lt (.fin 0) maxValue = true ∧ Fl.lt maxValue (Fl.abs v.distance) = true)) := by
  unfold esdfColor
  by_cases hw : v.observed = true
  · rw [if_neg (by simp [hw])]
    obtain ⟨o, ho, h⟩ := distanceColor_total hr maxValue hd
    refine ⟨o, ho, ?_⟩
    rw [← Option.ne_none_iff_isSome, ne_eq, h]
    constructor
    · exact fun h => ⟨hw, fun ⟨a, b⟩ => h ⟨b, a⟩⟩
    · exact fun h ⟨a, b⟩ => h.2 ⟨b, a⟩
  · rw [if_pos (by simpa using hw)]
    exact ⟨none, rfl, by simp [hw]⟩

example : (0 : ℚ) < 2 ∧ (exBlock.voxels.map fun v => tsdfColor (.fin 2) (.fin 5) v) =
    [.ok none, .ok (some ⟨5, 255, 0, 255⟩), .ok (some ⟨255, 252, 0, 255⟩), .ok (some ⟨0, 10, 255, 255⟩), .ok none, .ok none, .ok none, .fatal] ∧
    esdfColor (.fin 2) (.fin 5) ⟨.pinf, true, false, false, false, 0⟩ = .ok none ∧
    esdfColor (.fin 2) (.fin (-1)) ⟨.pinf, true, false, false, false, 0⟩ = .ok (some ⟨255, 0, 0, 255⟩) := by
  refine ⟨by norm_num, by decide +kernel, by decide +kernel, by decide +kernel⟩

/-- What is appended to the mesh: for every map and range the points are, once each, the centres of the voxels that are shown, with
their colours, provided no distance is NaN. What the mesh held before stays in front. -/
theorem C76_tsdf_cloud {r : ℚ} (hr : 0 < r) (maxValue : Fl) {l : VLayer (TsdfVoxel Fl)} (wf : WellFormed l) (nd : (l.blocks.map (·.1)).Nodup)
    (hd : ∀ g v, content l g = some v → v.distance ≠ .nan) (points : List (Pt × Color)) :
    ∃ (f : TsdfVoxel Fl → Option Color) (E : List (Pt × Color)), (∀ v, v.distance ≠ .nan → tsdfColor (.fin r) maxValue v = .ok (f v)) ∧ Shows f l E ∧
      voxelGridToPointCloud tsdfColor (.fin r) maxValue l points = .ok (points ++ E, !(points ++ E).isEmpty) := by
  have ht : ∀ v : TsdfVoxel Fl, v.distance ≠ .nan →
      tsdfColor (.fin r) maxValue v = .ok ((fun v => match tsdfColor (.fin r) maxValue v with | .ok o => o | _ => none) v) := by
    intro v hv
    obtain ⟨o, ho, _⟩ := C76_tsdf_shown hr maxValue hv
    simp only [ho]
  refine ⟨_, _, ht, ⟨entries_nodup wf (visited_cover wf nd), entries_mem wf (visited_cover wf nd)⟩, ?_⟩
  unfold voxelGridToPointCloud Outcome.check
  rw [if_pos (by simpa [Fl.lt] using hr), Outcome.bind_ok, points_ok wf (fun g v h => ht v (hd g v h))]
  rfl

/-- The same for an ESDF. -/
theorem C76_esdf_cloud {r : ℚ} (hr : 0 < r) (maxValue : Fl) {l : VLayer (EsdfVoxel Fl)} (wf : WellFormed l) (nd : (l.blocks.map (·.1)).Nodup)
    (hd : ∀ g v, content l g = some v → v.distance ≠ .nan) (points : List (Pt × Color)) :
    ∃ (f : EsdfVoxel Fl → Option Color) (E : List (Pt × Color)), (∀ v, v.distance ≠ .nan → esdfColor (.fin r) maxValue v = .ok (f v)) ∧ Shows f l E ∧
      voxelGridToPointCloud esdfColor (.fin r) maxValue l points = .ok (points ++ E, !(points ++ E).isEmpty) := by
  have ht : ∀ v : EsdfVoxel Fl, v.distance ≠ .nan →
      esdfColor (.fin r) maxValue v = .ok ((fun v => match esdfColor (.fin r) maxValue v with | .ok o => o | _ => none) v) := by
    intro v hv
    obtain ⟨o, ho, _⟩ := C76_esdf_shown hr maxValue hv
    simp only [ho]
  refine ⟨_, _, ht, ⟨entries_nodup wf (visited_cover wf nd), entries_mem wf (visited_cover wf nd)⟩, ?_⟩
  unfold voxelGridToPointCloud Outcome.check
  rw [if_pos (by simpa [Fl.lt] using hr), Outcome.bind_ok, points_ok wf (fun g v h => ht v (hd g v h))]
  rfl

/-- A map of one TSDF voxel. -/
def exOne (d : Fl) : VLayer (TsdfVoxel Fl) := ⟨⟨1, 1⟩, [(⟨0, 0, 0⟩, ⟨1, 1, ⟨0, 0, 0⟩, true, Flags.setAll, [⟨d, .fin 1, ⟨0, 0, 0, 0⟩⟩]⟩)]⟩

theorem exOne_wf (d : Fl) : WellFormed (exOne d) := by
  refine ⟨by norm_num [exOne], by simp [exOne], by simp [exOne], ?_⟩
  intro j b h
  unfold exOne at h
  rw [lookup_cons_ite] at h
  split_ifs at h with h1
  · obtain rfl := Option.some.inj h
    rw [h1]
    exact ⟨rfl, rfl, by simp [exOne], rfl⟩
  · cases h

theorem exOne_content {d : Fl} {g : Idx} {v : TsdfVoxel Fl} (h : content (exOne d) g = some v) : v = ⟨d, .fin 1, ⟨0, 0, 0, 0⟩⟩ := by
  unfold content at h
  obtain ⟨b, hb, hv⟩ := Option.bind_eq_some_iff.1 h
  unfold exOne at hb
  rw [lookup_cons_ite] at hb
  split_ifs at hb with h1
  · obtain rfl := Option.some.inj hb
    have := List.mem_of_getElem? hv
    rwa [List.mem_singleton] at this
  · cases hb

example : WellFormed (exOne (.fin 1)) ∧ (∀ g v, content (exOne (.fin 1)) g = some v → v.distance ≠ .nan) ∧
    voxelGridToPointCloud tsdfColor (.fin 2) (.fin (-1)) (exOne (.fin 1)) [(⟨9, 9, 9⟩, ⟨1, 1, 1, 1⟩)] =
      .ok ([(⟨9, 9, 9⟩, ⟨1, 1, 1, 1⟩), (⟨1 / 2, 1 / 2, 1 / 2⟩, ⟨255, 252, 0, 255⟩)], true) := by
  refine ⟨exOne_wf _, fun g v h => ?_, by decide +kernel⟩
  rw [exOne_content h]
  simp

/-! ### The colours -/

/-- The larger the distance, the more red and the less blue: for every range, in the `float` and `double` arithmetic of the code. -/
theorem C76_monotone {r : ℚ} (hr : 0 < r) {m m' : Fl} {d d' : Fl} (h : Fl.le d d' = true) {c c' : Color}
    (hc : distanceColor (.fin r) m d = .ok (some c)) (hc' : distanceColor (.fin r) m' d' = .ok (some c')) :
    c.r.toNat ≤ c'.r.toNat ∧ c'.b.toNat ≤ c.b.toNat ∧ c.a = 255 := by
  have hd : d ≠ .nan := by rintro rfl; simp [Fl.le] at h
  have hd' : d' ≠ .nan := by rintro rfl; cases d <;> simp [Fl.le] at h
  rw [distanceColor_eq hr _ hd] at hc
  rw [distanceColor_eq hr _ hd'] at hc'
  split_ifs at hc hc'
  · cases Outcome.ok.inj hc
  · cases Outcome.ok.inj hc
  · cases Outcome.ok.inj hc'
  · obtain ⟨x, hx, hxc⟩ := Outcome.bind_eq_ok.1 hc
    obtain ⟨y, hy, hyc⟩ := Outcome.bind_eq_ok.1 hc'
    obtain rfl := Option.some.inj (Outcome.ok.inj hxc)
    obtain rfl := Option.some.inj (Outcome.ok.inj hyc)
    obtain ⟨b0, b1⟩ := cut_bounds hr d
    obtain ⟨b0', b1'⟩ := cut_bounds hr d'
    obtain ⟨-, -, u1⟩ := hue_steps hr b0 b1
    obtain ⟨-, u0', -⟩ := hue_steps hr b0' b1'
    have hcut := hue_anti hr (cut_mono hr h)
    have c66lt := c66_bounds.2
    have h4 : rnd64 (rnd64 (hue r (cut r d)) * 6) < 4 :=
      lt_of_le_of_lt (rnd64_mono (by linarith [rnd64_mono u1])) hue_four
    obtain ⟨k1, k2⟩ := rainbow_mono rnd64_mono hint64 u0' hcut (by linarith) h4 hy hx
    obtain ⟨z, hz, ha, -⟩ := ColorMap.rainbow_rounded rnd64_mono hint64 (hue r (cut r d))
    obtain rfl := Outcome.ok.inj (hz.symm.trans hx)
    exact ⟨k1, k2, ha⟩

example : Fl.le (.fin (-3)) .pinf = true ∧ distanceColor (.fin 2) (.fin (-1)) (.fin (-3)) = .ok (some ⟨0, 10, 255, 255⟩) ∧
    distanceColor (.fin 2) (.fin (-1)) .pinf = .ok (some ⟨255, 0, 0, 255⟩) :=
  ⟨rfl, by decide +kernel, by decide +kernel⟩

/-- All distances at or above the range have the colour red. -/
theorem C76_above_range {r : ℚ} (hr : 0 < r) {m d : Fl} (h : Fl.le (.fin r) d = true) {c : Color}
    (hc : distanceColor (.fin r) m d = .ok (some c)) : c = ⟨255, 0, 0, 255⟩ := by
  have hd : d ≠ .nan := by rintro rfl; simp [Fl.le] at h
  have e : cut r d = r := by
    cases d with
    | nan => exact absurd rfl hd
    | ninf => simp [Fl.le] at h
    | pinf => rfl
    | fin q =>
      simp only [Fl.le, decide_eq_true_eq] at h
      show min (max q (-r)) r = _
      rw [max_eq_left (by linarith), min_eq_right h]
  have hh : hue r r = hue 1 1 := by
    unfold hue factor
    rw [div_self hr.ne', div_self one_ne_zero]
  rw [distanceColor_eq hr _ hd, e, hh, show ColorMap.rainbow rnd64 (hue 1 1) = .ok ⟨255, 0, 0, 255⟩ by decide +kernel] at hc
  split_ifs at hc
  · cases Outcome.ok.inj hc
  · exact (Option.some.inj (Outcome.ok.inj hc)).symm

/-- All distances at or below minus the range have one blue. -/
theorem C76_below_range {r : ℚ} (hr : 0 < r) {m d : Fl} (h : Fl.le d (.fin (-r)) = true) {c : Color}
    (hc : distanceColor (.fin r) m d = .ok (some c)) : c = ⟨0, 10, 255, 255⟩ := by
  have hd : d ≠ .nan := by rintro rfl; simp [Fl.le] at h
  have e : cut r d = -r := by
    cases d with
    | nan => exact absurd rfl hd
    | pinf => simp [Fl.le] at h
    | ninf => rfl
    | fin q =>
      simp only [Fl.le, decide_eq_true_eq] at h
      show min (max q (-r)) r = _
      rw [max_eq_right h, min_eq_left (by linarith)]
  have hh : hue r (-r) = hue 1 (-1) := by
    unfold hue factor
    rw [neg_div, neg_div, div_self hr.ne', div_self one_ne_zero]
  rw [distanceColor_eq hr _ hd, e, hh, show ColorMap.rainbow rnd64 (hue 1 (-1)) = .ok ⟨0, 10, 255, 255⟩ by decide +kernel] at hc
  split_ifs at hc
  · cases Outcome.ok.inj hc
  · exact (Option.some.inj (Outcome.ok.inj hc)).symm

example : Fl.le (.fin 2) (.fin 7) = true ∧ distanceColor (.fin 2) (.fin 9) (.fin 7) = .ok (some ⟨255, 0, 0, 255⟩) ∧
    Fl.le .ninf (.fin (-2)) = true ∧ distanceColor (.fin 2) .pinf .ninf = .ok (some ⟨0, 10, 255, 255⟩) :=
  ⟨by decide +kernel, by decide +kernel, rfl, by decide +kernel⟩

/-! ### What the documentation does not say -/

/-- One observed voxel whose distance is NaN aborts the whole export, whatever the range and the maximum. -/
theorem C76_nan_aborts (r : ℚ) (maxValue : Fl) {v : TsdfVoxel Fl} (hd : v.distance = .nan)
    (hw : Fl.le v.weight (.fin (rnd32 (1 / 1000000))) = false) : tsdfColor (.fin r) maxValue v = .fatal := by
  have e : float32.rnd (1 / 1000000) = .fin (rnd32 (1 / 1000000)) := by decide +kernel
  unfold tsdfColor distanceColor
  rw [e, hd, hw, if_neg (by decide)]
  have h1 : Fl.lt maxValue (Fl.abs .nan) = false := by cases maxValue <;> rfl
  have h2 : Fl.stdMin (Fl.stdMax .nan (Fl.neg (.fin r))) (.fin r) = .nan := rfl
  dsimp only
  rw [h1, h2]
  rfl

example : Fl.le (Fl.fin 1) (.fin (rnd32 (1 / 1000000))) = false ∧ voxelGridToPointCloud tsdfColor (.fin 2) (.fin 5) exMap [] = .fatal :=
  ⟨by decide +kernel, by decide +kernel⟩

/-- With a maximum of zero not only the voxels within it are exported, but all, as with a negative one. -/
theorem C76_zero_maximum_violated : ∃ (l : VLayer (TsdfVoxel Fl)) (r : ℚ), WellFormed l ∧ 0 < r ∧
    (∀ g v, content l g = some v → Fl.lt (.fin 0) (Fl.abs v.distance) = true) ∧
    ∃ E, voxelGridToPointCloud tsdfColor (.fin r) (.fin 0) l [] = .ok (E, true) ∧ E.length = 1 := by
  refine ⟨exOne (.fin 3), 2, exOne_wf _, by norm_num, fun g v h => ?_, [(⟨1 / 2, 1 / 2, 1 / 2⟩, ⟨255, 0, 0, 255⟩)], by decide +kernel, rfl⟩
  rw [exOne_content h]
  decide +kernel

/-- The returned flag does not tell whether any voxel was converted: it is true if the mesh was not empty before. -/
theorem C76_flag_violated : ∃ (l : VLayer (TsdfVoxel Fl)) (ps : List (Pt × Color)), l.blocks = [] ∧
    voxelGridToPointCloud tsdfColor (.fin 2) (.fin 5) l ps = .ok (ps, true) :=
  ⟨⟨⟨1, 1⟩, []⟩, [(⟨9, 9, 9⟩, ⟨1, 1, 1, 1⟩)], rfl, by decide +kernel⟩

end Vox.PtCloud
