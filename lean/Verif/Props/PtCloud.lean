/-
Property C75: what the point clouds of a layer show.
-/
import Verif.Lemmas.PtCloud

namespace Vox.PtCloud

open Layer Grid Spec Eval Ieee

variable {V R : Type}

/-! ### Examples -/

/-- A block of eight TSDF voxels: not observed, hardly observed, observed at several distances. -/
def exBlock : Block ℚ (TsdfVoxel Fl) := ⟨2, 1, ⟨0, 0, 0⟩, true, Flags.setAll,
  [⟨.fin 0, .fin 0, ⟨0, 0, 0, 0⟩⟩, ⟨.fin 0, .fin (1 / 2000), ⟨1, 2, 3, 255⟩⟩, ⟨.fin 1, .fin 1, ⟨9, 9, 9, 255⟩⟩, ⟨.fin (-3), .fin 1, ⟨8, 8, 8, 255⟩⟩,
   ⟨.fin 7, .fin 1, ⟨0, 0, 0, 0⟩⟩, ⟨.fin 7, .fin 1, ⟨0, 0, 0, 0⟩⟩, ⟨.fin 7, .fin 1, ⟨0, 0, 0, 0⟩⟩, ⟨.nan, .fin 1, ⟨7, 7, 7, 255⟩⟩]⟩

/-- A map of one block. -/
def exMap : VLayer (TsdfVoxel Fl) := ⟨⟨1, 2⟩, [(⟨0, 0, 0⟩, exBlock)]⟩

theorem exMap_wf : WellFormed exMap := by
  refine ⟨by norm_num [exMap], by simp [exMap], by simp [exMap], ?_⟩
  intro j b h
  unfold exMap at h
  rw [lookup_cons_ite] at h
  split_ifs at h with h1
  · obtain rfl := Option.some.inj h
    rw [h1]
    exact ⟨rfl, rfl, by simp [exMap, exBlock], rfl⟩
  · cases h

/-- The same for an ESDF. -/
def exEsdf : VLayer (EsdfVoxel Fl) := ⟨⟨1, 2⟩, [(⟨0, 0, 0⟩, ⟨2, 1, ⟨0, 0, 0⟩, true, Flags.setAll,
  [⟨.fin 3, true, false, false, false, 0⟩, ⟨.fin 3, false, false, false, false, 0⟩, ⟨.fin 1, true, false, false, false, 0⟩,
   ⟨.nan, true, false, false, false, 0⟩, ⟨.fin 7, true, false, false, false, 0⟩, ⟨.fin 7, true, false, false, false, 0⟩,
   ⟨.fin 7, true, false, false, false, 0⟩, ⟨.fin 7, true, false, false, false, 0⟩]⟩)]⟩

theorem exEsdf_wf : WellFormed exEsdf := by
  refine ⟨by norm_num [exEsdf], by simp [exEsdf], by simp [exEsdf], ?_⟩
  intro j b h
  unfold exEsdf at h
  rw [lookup_cons_ite] at h
  split_ifs at h with h1
  · obtain rfl := Option.some.inj h
    rw [h1]
    exact ⟨rfl, rfl, by simp [exEsdf], rfl⟩
  · cases h

/-! ### Clouds of whole layers -/

/-- The colour cloud shows every voxel of positive weight, once, at its centre, with its colour. -/
theorem C75_color {l : VLayer (TsdfVoxel Fl)} (wf : WellFormed l) (nd : (l.blocks.map (·.1)).Nodup) :
    ∃ E, cloud tsdfVoxels l = .ok E ∧ Shows (fun v => if Fl.lt (.fin 0) v.weight then some v.color else none) l E :=
  cloud_shows wf nd fun _ _ => rfl

/-- The surface cloud shows those closer to the surface than the given distance only. -/
theorem C75_near_surface (dist : Fl) {l : VLayer (TsdfVoxel Fl)} (wf : WellFormed l) (nd : (l.blocks.map (·.1)).Nodup) :
    ∃ E, cloud (nearSurface dist) l = .ok E ∧
      Shows (fun v => if Fl.lt (.fin 0) v.weight = true ∧ Fl.lt (Fl.abs v.distance) dist = true then some v.color else none) l E := by
  refine cloud_shows wf nd fun v p => ?_
  unfold nearSurface
  congr 1
  simp only [Bool.and_eq_true]

/-- The least weight of the distance clouds is 0.001, up to rounding. -/
theorem minWeight_eq : ∃ w : ℚ, minWeight = .fin w ∧ |w - 1 / 1000| < 1 / 10 ^ 9 :=
  ⟨rnd32 (1 / 1000), by decide +kernel, by decide +kernel⟩

/-- The distance cloud of a TSDF shows the voxels of weight above 0.001 (as a `float`), with their distances. -/
theorem C75_distance {l : VLayer (TsdfVoxel Fl)} (wf : WellFormed l) (nd : (l.blocks.map (·.1)).Nodup) :
    ∃ w : ℚ, |w - 1 / 1000| < 1 / 10 ^ 9 ∧ ∃ E, cloud tsdfDistance l = .ok E ∧
      Shows (fun v => if Fl.lt (.fin w) v.weight then some v.distance else none) l E := by
  obtain ⟨w, hw, h⟩ := minWeight_eq
  refine ⟨w, h, cloud_shows wf nd fun v p => ?_⟩
  rw [← hw]
  rfl

/-- The same near the surface. -/
theorem C75_distance_near (dist : Fl) {l : VLayer (TsdfVoxel Fl)} (wf : WellFormed l) (nd : (l.blocks.map (·.1)).Nodup) :
    ∃ w : ℚ, |w - 1 / 1000| < 1 / 10 ^ 9 ∧ ∃ E, cloud (tsdfDistanceNear dist) l = .ok E ∧
      Shows (fun v => if Fl.lt (.fin w) v.weight = true ∧ Fl.lt (Fl.abs v.distance) dist = true then some v.distance else none) l E := by
  obtain ⟨w, hw, h⟩ := minWeight_eq
  refine ⟨w, h, cloud_shows wf nd fun v p => ?_⟩
  rw [← hw]
  unfold tsdfDistanceNear
  congr 1
  simp only [Bool.and_eq_true]

/-- The occupied cells of a TSDF are the voxels of weight above 0.001 with distance at most one voxel size: those behind the surface and
the first one in front of it. -/
theorem C75_occupied_tsdf {l : VLayer (TsdfVoxel Fl)} (wf : WellFormed l) (nd : (l.blocks.map (·.1)).Nodup) :
    ∃ w : ℚ, |w - 1 / 1000| < 1 / 10 ^ 9 ∧ ∃ E, occupancyBlocksTsdf l = .ok E ∧
      Shows (fun v => if Fl.lt (.fin w) v.weight = true ∧ Fl.le v.distance (.fin l.cfg.voxelSize) = true then some () else none) l E := by
  obtain ⟨w, hw, h⟩ := minWeight_eq
  refine ⟨w, h, cloud_shows wf nd fun v p => ?_⟩
  rw [← hw]
  unfold occupiedTsdf
  congr 1
  simp only [Bool.and_eq_true]

example : WellFormed exMap ∧ (exMap.blocks.map (·.1)).Nodup ∧
    (match cloud tsdfVoxels exMap with | .ok E => decide (E.length = 7 ∧ E.head? = some (⟨3 / 2, 1 / 2, 1 / 2⟩, ⟨1, 2, 3, 255⟩)) | _ => false) = true ∧
    (match cloud (nearSurface (.fin 2)) exMap with
      | .ok E => decide (E = [(⟨3 / 2, 1 / 2, 1 / 2⟩, ⟨1, 2, 3, 255⟩), (⟨1 / 2, 3 / 2, 1 / 2⟩, ⟨9, 9, 9, 255⟩)]) | _ => false) = true ∧
    (match cloud tsdfDistance exMap with | .ok E => decide (E.length = 6) | _ => false) = true ∧
    (match cloud (tsdfDistanceNear (.fin 2)) exMap with | .ok E => decide (E = [(⟨1 / 2, 3 / 2, 1 / 2⟩, .fin 1)]) | _ => false) = true ∧
    (match occupancyBlocksTsdf exMap with
      | .ok E => decide (E.map (·.1) = [⟨1 / 2, 3 / 2, 1 / 2⟩, ⟨3 / 2, 3 / 2, 1 / 2⟩]) | _ => false) = true :=
  ⟨exMap_wf, by simp [exMap], by decide +kernel, by decide +kernel, by decide +kernel, by decide +kernel, by decide +kernel⟩

/-- The distance cloud of an ESDF shows the observed voxels with their distances. -/
theorem C75_esdf {l : VLayer (EsdfVoxel Fl)} (wf : WellFormed l) (nd : (l.blocks.map (·.1)).Nodup) :
    ∃ E, cloud esdfDistance l = .ok E ∧ Shows (fun v => if v.observed then some v.distance else none) l E :=
  cloud_shows wf nd fun _ _ => rfl

/-- The free cloud shows the observed voxels at least as far from obstacles as the given distance. -/
theorem C75_free_esdf (dist : Fl) {l : VLayer (EsdfVoxel Fl)} (wf : WellFormed l) (nd : (l.blocks.map (·.1)).Nodup) :
    ∃ E, cloud (freeEsdf dist) l = .ok E ∧
      Shows (fun v => if v.observed = true ∧ Fl.le dist v.distance = true then some v.distance else none) l E := by
  refine cloud_shows wf nd fun v p => ?_
  unfold freeEsdf
  congr 1
  simp only [Bool.and_eq_true]

example : WellFormed exEsdf ∧ (exEsdf.blocks.map (·.1)).Nodup ∧
    (match cloud esdfDistance exEsdf with | .ok E => decide (E.length = 7) | _ => false) = true ∧
    (match cloud (freeEsdf (.fin 3)) exEsdf with | .ok E => decide (E.length = 5 ∧ E.head? = some (⟨1 / 2, 1 / 2, 1 / 2⟩, .fin 3)) | _ => false) = true :=
  ⟨exEsdf_wf, by simp [exEsdf], by decide +kernel, by decide +kernel⟩

/-- The intensity cloud shows the voxels of weight above 0.001 with their intensities. -/
theorem C75_intensity {l : VLayer (IntensityVoxel Fl)} (wf : WellFormed l) (nd : (l.blocks.map (·.1)).Nodup) :
    ∃ w : ℚ, |w - 1 / 1000| < 1 / 10 ^ 9 ∧ ∃ E, cloud intensity l = .ok E ∧
      Shows (fun v => if Fl.lt (.fin w) v.weight then some v.intensity else none) l E := by
  obtain ⟨w, hw, h⟩ := minWeight_eq
  refine ⟨w, h, cloud_shows wf nd fun v p => ?_⟩
  rw [← hw]
  rfl

/-- A map of one intensity voxel. -/
def exIntensity : VLayer (IntensityVoxel Fl) := ⟨⟨1, 1⟩, [(⟨0, 0, 0⟩, ⟨1, 1, ⟨0, 0, 0⟩, true, Flags.setAll, [⟨.fin 42, .fin 1⟩]⟩)]⟩

example : WellFormed exIntensity ∧ (exIntensity.blocks.map (·.1)).Nodup ∧
    (match cloud intensity exIntensity with | .ok E => decide (E = [(⟨1 / 2, 1 / 2, 1 / 2⟩, .fin 42)]) | _ => false) = true := by
  refine ⟨⟨by norm_num [exIntensity], by simp [exIntensity], by simp [exIntensity], ?_⟩, by simp [exIntensity], by decide +kernel⟩
  intro j b h
  unfold exIntensity at h
  rw [lookup_cons_ite] at h
  split_ifs at h with h1
  · obtain rfl := Option.some.inj h
    rw [h1]
    exact ⟨rfl, rfl, by simp [exIntensity], rfl⟩
  · cases h

/-- The occupied cells of an occupancy map are the voxels above the threshold, whether they are observed or not. -/
theorem C75_occupied (threshold : Fl) {l : VLayer (OccVoxel Fl)} (wf : WellFormed l) (nd : (l.blocks.map (·.1)).Nodup) :
    ∃ E, cloud (occupiedOcc threshold) l = .ok E ∧ Shows (fun v => if Fl.lt threshold v.probabilityLog then some () else none) l E :=
  cloud_shows wf nd fun _ _ => rfl

/-- An occupancy map of one voxel. -/
def exOcc (observed : Bool) : VLayer (OccVoxel Fl) := ⟨⟨1, 1⟩, [(⟨0, 0, 0⟩, ⟨1, 1, ⟨0, 0, 0⟩, true, Flags.setAll, [⟨.fin 2, observed⟩]⟩)]⟩

theorem exOcc_wf (observed : Bool) : WellFormed (exOcc observed) := by
  refine ⟨by norm_num [exOcc], by simp [exOcc], by simp [exOcc], ?_⟩
  intro j b h
  unfold exOcc at h
  rw [lookup_cons_ite] at h
  split_ifs at h with h1
  · obtain rfl := Option.some.inj h
    rw [h1]
    exact ⟨rfl, rfl, by simp [exOcc], rfl⟩
  · cases h

example : WellFormed (exOcc true) ∧ ((exOcc true).blocks.map (·.1)).Nodup ∧
    (match cloud (occupiedOcc (.fin 1)) (exOcc true) with | .ok E => decide (E.length = 1) | _ => false) = true :=
  ⟨exOcc_wf _, by simp [exOcc], by decide +kernel⟩

/-! ### How the clouds relate -/

/-- Whatever the distance cloud shows, the colour cloud shows. -/
theorem C75_distance_within_color {l : VLayer (TsdfVoxel Fl)} (wf : WellFormed l) (nd : (l.blocks.map (·.1)).Nodup) {D : List (Pt × Fl)}
    {C : List (Pt × Color)} (hD : cloud tsdfDistance l = .ok D) (hC : cloud tsdfVoxels l = .ok C) : ∀ p ∈ D.map (·.1), p ∈ C.map (·.1) := by
  obtain ⟨w, hw, E, h1, -, h2⟩ := C75_distance wf nd
  obtain ⟨E', h3, -, h4⟩ := C75_color wf nd
  obtain rfl := Outcome.ok.inj (hD.symm.trans h1)
  obtain rfl := Outcome.ok.inj (hC.symm.trans h3)
  intro p hp
  obtain ⟨e, he, rfl⟩ := List.mem_map.1 hp
  obtain ⟨g, v, r, hc, hr, rfl⟩ := (h2 e).1 he
  have hlt : Fl.lt (.fin w) v.weight = true := by
    by_contra h
    simp [h] at hr
  have hw0 : 0 < w := by
    have := (abs_lt.1 hw).1
    have n : (1 : ℚ) / 10 ^ 9 < 1 / 1000 := by norm_num
    linarith
  have hpos : Fl.lt (.fin 0) v.weight = true := by
    cases hv : v.weight with
    | nan => rw [hv] at hlt; simp [Fl.lt] at hlt
    | ninf => rw [hv] at hlt; simp [Fl.lt] at hlt
    | pinf => rfl
    | fin q =>
      rw [hv] at hlt
      simp only [Fl.lt, decide_eq_true_eq] at hlt ⊢
      linarith
  exact List.mem_map.2 ⟨(voxelCenter l.cfg.voxelSize g, v.color), (h4 _).2 ⟨g, v, v.color, hc, by simp [hpos], rfl⟩, rfl⟩

example : ∃ D C, cloud tsdfDistance exMap = .ok D ∧ cloud tsdfVoxels exMap = .ok C := by
  obtain ⟨_, _, D, h, _⟩ := C75_distance exMap_wf (by simp [exMap])
  obtain ⟨C, h', _⟩ := C75_color exMap_wf (by simp [exMap])
  exact ⟨D, C, h, h'⟩

/-- The converse fails: the two clouds do not show the same voxels, since one asks for a weight above 0 and the other above 0.001. -/
theorem C75_same_voxels_violated : ∃ l : VLayer (TsdfVoxel Fl), WellFormed l ∧ ∃ D C, cloud tsdfDistance l = .ok D ∧ cloud tsdfVoxels l = .ok C ∧
    ∃ p ∈ C.map (·.1), p ∉ D.map (·.1) := by
  refine ⟨exMap, exMap_wf, ?_⟩
  obtain ⟨_, _, D, h, _⟩ := C75_distance exMap_wf (by simp [exMap])
  obtain ⟨C, h', _⟩ := C75_color exMap_wf (by simp [exMap])
  refine ⟨D, C, h, h', ⟨3 / 2, 1 / 2, 1 / 2⟩, ?_, ?_⟩
  · have t : (match cloud tsdfVoxels exMap with | .ok E => decide ((⟨3 / 2, 1 / 2, 1 / 2⟩ : Pt) ∈ E.map (·.1)) | _ => false) = true := by decide +kernel
    rw [h'] at t
    simpa using t
  · have t : (match cloud tsdfDistance exMap with | .ok E => decide ((⟨3 / 2, 1 / 2, 1 / 2⟩ : Pt) ∉ E.map (·.1)) | _ => false) = true := by decide +kernel
    rw [h] at t
    simpa using t

/-- A voxel that was never observed is shown as occupied if its log-odds say so. -/
theorem C75_unobserved_occupied : ∃ l : VLayer (OccVoxel Fl), WellFormed l ∧ (∀ g v, content l g = some v → v.observed = false) ∧
    ∃ E, cloud (occupiedOcc (.fin 1)) l = .ok E ∧ E ≠ [] := by
  refine ⟨exOcc false, exOcc_wf _, ?_, ?_⟩
  · intro g v h
    unfold content at h
    obtain ⟨b, hb, hv⟩ := Option.bind_eq_some_iff.1 h
    unfold exOcc at hb
    rw [lookup_cons_ite] at hb
    split_ifs at hb with h1
    · obtain rfl := Option.some.inj hb
      have := List.mem_of_getElem? hv
      rw [List.mem_singleton] at this
      rw [this]
    · cases hb
  · obtain ⟨E, h, _⟩ := C75_occupied (.fin 1) (exOcc_wf false) (by simp [exOcc])
    refine ⟨E, h, ?_⟩
    have t : (match cloud (occupiedOcc (.fin 1)) (exOcc false) with | .ok E => decide (E.length = 1) | _ => false) = true := by decide +kernel
    rw [h] at t
    rintro rfl
    simp at t

/-! ### Slices -/

theorem tsdfSlice_eq (a : ℕ) (p s : ℚ) (v : TsdfVoxel Fl) (c : Pt) : tsdfSlice a p s v c = (do
    let on ← onPlane a p s c
    pure (if on then (if Fl.lt minWeight v.weight then some v.distance else none) else none)) := by
  unfold tsdfSlice
  congr 1
  funext on
  cases on <;> simp

theorem esdfSlice_eq (a : ℕ) (p s : ℚ) (v : EsdfVoxel Fl) (c : Pt) : esdfSlice a p s v c = (do
    let on ← onPlane a p s c
    pure (if on then (if v.observed then some v.distance else none) else none)) := by
  unfold esdfSlice
  congr 1
  funext on
  cases on <;> simp

/-- A slice of a TSDF should show, of the voxels of the distance cloud, those the plane passes through. It does for a plane in the lower
half of the voxels. -/
theorem C75_slice_tsdf_partial (a : Fin 3) (val : ℚ) {l : VLayer (TsdfVoxel Fl)} (wf : WellFormed l) (nd : (l.blocks.map (·.1)).Nodup)
    (hs : 4 * kFloatEpsilon < l.cfg.voxelSize) (h : above l.cfg.voxelSize val < l.cfg.voxelSize / 2) (hne : above l.cfg.voxelSize val ≠ kFloatEpsilon) :
    ∃ w : ℚ, |w - 1 / 1000| < 1 / 10 ^ 9 ∧ ∃ E, tsdfLayerSlice a val l = .ok E ∧
      ShowsOn (PassesThrough l.cfg.voxelSize a val) (fun v => if Fl.lt (.fin w) v.weight then some v.distance else none) l E := by
  classical
  obtain ⟨w, hw, hw'⟩ := minWeight_eq
  refine ⟨w, hw', slice_shows wf nd (fun b p s v c => ?_) a val fun g => ?_⟩
  · rw [← hw]
    exact tsdfSlice_eq _ _ _ _ _
  · rw [passes_iff wf.size_pos]
    exact slice_low hs h hne _

/-- The same for an ESDF. -/
theorem C75_slice_esdf_partial (a : Fin 3) (val : ℚ) {l : VLayer (EsdfVoxel Fl)} (wf : WellFormed l) (nd : (l.blocks.map (·.1)).Nodup)
    (hs : 4 * kFloatEpsilon < l.cfg.voxelSize) (h : above l.cfg.voxelSize val < l.cfg.voxelSize / 2) (hne : above l.cfg.voxelSize val ≠ kFloatEpsilon) :
    ∃ E, esdfLayerSlice a val l = .ok E ∧
      ShowsOn (PassesThrough l.cfg.voxelSize a val) (fun v => if v.observed then some v.distance else none) l E := by
  classical
  have e := esdfSlice_eq
  refine slice_shows (vis := esdfSlice) wf nd (fun b p s v c => e b p s v c) a val fun g => ?_
  rw [passes_iff wf.size_pos]
  exact slice_low hs h hne _

theorem eps_small : ∃ ε, ε = kFloatEpsilon ∧ ε < 1 / 100 := ⟨_, rfl, by decide +kernel⟩

theorem above_quarter : above 1 (1 / 4) = 1 / 4 := by
  unfold above
  rw [show ⌊(1 / 4 : ℚ) / 1⌋ = 0 by rw [Int.floor_eq_zero_iff]; constructor <;> norm_num]
  norm_num

theorem above_three : above 1 (3 / 4) = 3 / 4 := by
  unfold above
  rw [show ⌊(3 / 4 : ℚ) / 1⌋ = 0 by rw [Int.floor_eq_zero_iff]; constructor <;> norm_num]
  norm_num

theorem above_mid : ⌊(3 / 2 : ℚ) / 1⌋ = 1 ∧ above 1 (3 / 2) = 1 / 2 := by
  have e : ⌊(3 / 2 : ℚ) / 1⌋ = 1 := by rw [Int.floor_eq_iff]; constructor <;> norm_num
  refine ⟨e, ?_⟩
  unfold above
  rw [e]
  norm_num

example : 4 * kFloatEpsilon < exMap.cfg.voxelSize ∧ above exMap.cfg.voxelSize (1 / 4) < exMap.cfg.voxelSize / 2 ∧
    above exMap.cfg.voxelSize (1 / 4) ≠ kFloatEpsilon ∧
    (match tsdfLayerSlice 2 (1 / 4) exMap with | .ok E => decide (E = [(⟨1 / 2, 3 / 2, 1 / 2⟩, .fin 1), (⟨3 / 2, 3 / 2, 1 / 2⟩, .fin (-3))]) | _ => false) = true ∧
    (match esdfLayerSlice 2 (1 / 4) exEsdf with | .ok E => decide (E.length = 3) | _ => false) = true := by
  obtain ⟨ε, e, he⟩ := eps_small
  show 4 * kFloatEpsilon < 1 ∧ above 1 (1 / 4) < 1 / 2 ∧ above 1 (1 / 4) ≠ kFloatEpsilon ∧ _
  rw [above_quarter, ← e]
  refine ⟨by linarith, by norm_num, fun e => ?_, by decide +kernel, by decide +kernel⟩
  linarith

/-- For a plane in the upper half of the voxels the remainder is negative, so the plane is moved up by half a voxel: the slice shows the layer
above, and nothing of the voxels the plane passes through. -/
theorem C75_slice_upper_tsdf (a : Fin 3) (val : ℚ) {l : VLayer (TsdfVoxel Fl)} (wf : WellFormed l) (nd : (l.blocks.map (·.1)).Nodup)
    (hs : 4 * kFloatEpsilon < l.cfg.voxelSize) (h : l.cfg.voxelSize / 2 + kFloatEpsilon < above l.cfg.voxelSize val) :
    ∃ w : ℚ, |w - 1 / 1000| < 1 / 10 ^ 9 ∧ ∃ E, tsdfLayerSlice a val l = .ok E ∧
      ShowsOn (PassesThrough l.cfg.voxelSize a (val + l.cfg.voxelSize)) (fun v => if Fl.lt (.fin w) v.weight then some v.distance else none) l E := by
  classical
  obtain ⟨w, hw, hw'⟩ := minWeight_eq
  refine ⟨w, hw', slice_shows wf nd (fun b p s v c => ?_) a val fun g => ?_⟩
  · rw [← hw]
    exact tsdfSlice_eq _ _ _ _ _
  · have hp := wf.size_pos
    rw [passes_iff hp, add_div, div_self hp.ne', Int.floor_add_one]
    exact slice_high hs h _

/-- The same for an ESDF. -/
theorem C75_slice_upper_esdf (a : Fin 3) (val : ℚ) {l : VLayer (EsdfVoxel Fl)} (wf : WellFormed l) (nd : (l.blocks.map (·.1)).Nodup)
    (hs : 4 * kFloatEpsilon < l.cfg.voxelSize) (h : l.cfg.voxelSize / 2 + kFloatEpsilon < above l.cfg.voxelSize val) :
    ∃ E, esdfLayerSlice a val l = .ok E ∧
      ShowsOn (PassesThrough l.cfg.voxelSize a (val + l.cfg.voxelSize)) (fun v => if v.observed then some v.distance else none) l E := by
  classical
  have e := esdfSlice_eq
  refine slice_shows (vis := esdfSlice) wf nd (fun b p s v c => e b p s v c) a val fun g => ?_
  have hp := wf.size_pos
  rw [passes_iff hp, add_div, div_self hp.ne', Int.floor_add_one]
  exact slice_high hs h _

/-- A plane through the centres of voxels: theirs is shown, and if their index is odd the layer above as well. -/
theorem C75_slice_centre_tsdf (a : Fin 3) (val : ℚ) {l : VLayer (TsdfVoxel Fl)} (wf : WellFormed l) (nd : (l.blocks.map (·.1)).Nodup)
    (hs : 4 * kFloatEpsilon < l.cfg.voxelSize) (h : above l.cfg.voxelSize val = l.cfg.voxelSize / 2) :
    ∃ w : ℚ, |w - 1 / 1000| < 1 / 10 ^ 9 ∧ ∃ E, tsdfLayerSlice a val l = .ok E ∧
      ShowsOn (fun g => PassesThrough l.cfg.voxelSize a val g ∨ (⌊val / l.cfg.voxelSize⌋ % 2 ≠ 0 ∧ PassesThrough l.cfg.voxelSize a (val + l.cfg.voxelSize) g))
        (fun v => if Fl.lt (.fin w) v.weight then some v.distance else none) l E := by
  classical
  obtain ⟨w, hw, hw'⟩ := minWeight_eq
  refine ⟨w, hw', slice_shows wf nd (fun b p s v c => ?_) a val fun g => ?_⟩
  · rw [← hw]
    exact tsdfSlice_eq _ _ _ _ _
  · have hp := wf.size_pos
    rw [passes_iff hp, passes_iff hp, add_div, div_self hp.ne', Int.floor_add_one]
    exact slice_mid hs h _

example : 4 * kFloatEpsilon < exMap.cfg.voxelSize ∧ exMap.cfg.voxelSize / 2 + kFloatEpsilon < above exMap.cfg.voxelSize (3 / 4) ∧
    above exMap.cfg.voxelSize (3 / 2) = exMap.cfg.voxelSize / 2 ∧ ⌊(3 / 2) / exMap.cfg.voxelSize⌋ % 2 ≠ 0 ∧
    (match tsdfLayerSlice 2 (3 / 4) exMap with | .ok E => decide (E.map (·.2) = [.fin 7, .fin 7, .fin 7, .nan]) | _ => false) = true := by
  obtain ⟨ε, e, he⟩ := eps_small
  show 4 * kFloatEpsilon < 1 ∧ 1 / 2 + kFloatEpsilon < above 1 (3 / 4) ∧ above 1 (3 / 2) = 1 / 2 ∧ ⌊(3 / 2 : ℚ) / 1⌋ % 2 ≠ 0 ∧ _
  rw [above_three, above_mid.1, above_mid.2, ← e]
  exact ⟨by linarith, by linarith, rfl, by decide, by decide +kernel⟩

/-- So a slice does not show the voxels the plane passes through: here it shows four, none of them on the plane, and misses two that are. -/
theorem C75_slice_violated : ∃ (l : VLayer (TsdfVoxel Fl)) (val : ℚ) (E : List (Pt × Fl)), WellFormed l ∧ tsdfLayerSlice 2 val l = .ok E ∧ E.length = 4 ∧
    (∀ e ∈ E, ∀ g, e.1 = voxelCenter l.cfg.voxelSize g → ¬ PassesThrough l.cfg.voxelSize 2 val g) ∧
    PassesThrough l.cfg.voxelSize 2 val ⟨0, 1, 0⟩ ∧ content l ⟨0, 1, 0⟩ = some ⟨.fin 1, .fin 1, ⟨9, 9, 9, 255⟩⟩ := by
  obtain ⟨ε, e, he⟩ := eps_small
  have hs : 4 * kFloatEpsilon < exMap.cfg.voxelSize := by
    show 4 * kFloatEpsilon < 1
    rw [← e]
    linarith
  have hu : exMap.cfg.voxelSize / 2 + kFloatEpsilon < above exMap.cfg.voxelSize (3 / 4) := by
    show 1 / 2 + kFloatEpsilon < above 1 (3 / 4)
    rw [above_three, ← e]
    linarith
  obtain ⟨w, _, E, hE, _, hmem⟩ := C75_slice_upper_tsdf 2 (3 / 4) exMap_wf (by simp [exMap]) hs hu
  refine ⟨exMap, 3 / 4, E, exMap_wf, hE, ?_, ?_, ?_, by decide +kernel⟩
  · have t : (match tsdfLayerSlice 2 (3 / 4) exMap with | .ok E => decide (E.length = 4) | _ => false) = true := by decide +kernel
    have hE' : tsdfLayerSlice 2 (3 / 4) exMap = .ok E := hE
    rw [hE'] at t
    simpa using t
  · intro e he' g hg hp
    obtain ⟨g', v, r, hp', _, _, rfl⟩ := (hmem e).1 he'
    have := Slice.voxelCenter_inj exMap_wf.size_pos hg
    subst this
    rw [passes_iff exMap_wf.size_pos] at hp hp'
    rw [add_div, div_self exMap_wf.size_pos.ne', Int.floor_add_one] at hp'
    omega
  · constructor <;> norm_num [exMap, axial]

end Vox.PtCloud
