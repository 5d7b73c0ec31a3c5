/-
Property C67: intensity measurements.
-/
import Verif.Lemmas.Intensity
import Verif.Props.RaySearch

namespace Vox.Intensity

open Layer Grid Spec RaySearch

theorem gIdx_of_clear {l : VLayer IV} (wf : WellFormed l) {g : Idx} {p : Pt} (h : ClearIn l g p) : gIdx l p = g := by
  obtain ⟨⟨x1, x2⟩, ⟨y1, y2⟩, ⟨z1, z2⟩⟩ := h
  unfold gIdx
  ext
  · exact vAx_eq wf.side_pos wf.side_le wf.size_pos x1 (by unfold kEpsilon; exact x2)
  · exact vAx_eq wf.side_pos wf.side_le wf.size_pos y1 (by unfold kEpsilon; exact y2)
  · exact vAx_eq wf.side_pos wf.side_le wf.size_pos z1 (by unfold kEpsilon; exact z2)

theorem blockOf_gIdx {l : VLayer IV} (wf : WellFormed l) (p : Pt) : blockOf l.cfg.vps (gIdx l p) = bIdx l p :=
  blockOf_globalIndex (i := bIdx l p) (v := vIdx l p) (vIdx_inBlock wf p)

theorem beside_zero (hit bearing : Pt) (s : ℚ) : beside hit bearing s 0 = hit := by
  unfold beside
  ext <;> simp

/-! ## Examples -/

/-- A layer of blocks of 4 x 4 x 4 voxels of size 1 with one block. -/
def exLayer : VLayer IV where
  cfg := ⟨1, 4⟩
  blocks := [(⟨0, 0, 0⟩, ⟨4, 1, ⟨0, 0, 0⟩, false, Flags.ofBool false, ⟨10, 2⟩ :: ⟨20, 1⟩ :: List.replicate 62 fresh⟩)]

theorem exLayer_wf : WellFormed exLayer := by
  refine ⟨by norm_num [exLayer], by decide, by decide, ?_⟩
  intro i b h
  unfold exLayer at h
  rw [Layer.lookup_cons_ite] at h
  split_ifs at h with h1
  · subst h1
    cases h
    exact ⟨rfl, rfl, by decide +kernel, rfl⟩
  · cases h

theorem exLayer_voxels (g : Idx) (v : IV) (h : content exLayer g = some v) : v = ⟨10, 2⟩ ∨ v = ⟨20, 1⟩ ∨ v = ⟨0, 0⟩ := by
  have key : ∀ (i : Idx) (b : Block ℚ IV), exLayer.blocks.lookup i = some b → ∀ v ∈ b.voxels, v = ⟨10, 2⟩ ∨ v = ⟨20, 1⟩ ∨ v = ⟨0, 0⟩ := by
    intro i b hb
    unfold exLayer at hb
    rw [Layer.lookup_cons_ite] at hb
    split_ifs at hb with h1
    · cases hb
      intro v hv
      simp only [List.mem_cons, List.mem_replicate] at hv
      rcases hv with rfl | rfl | ⟨-, rfl⟩
      · exact Or.inl rfl
      · exact Or.inr (Or.inl rfl)
      · exact Or.inr (Or.inr rfl)
    · cases hb
  unfold content at h
  rw [Option.bind_eq_some_iff] at h
  obtain ⟨b, hb, hv⟩ := h
  exact key _ b hb v (List.mem_of_getElem? hv)

theorem exLayer_nonneg (g : Idx) (v : IV) (h : content exLayer g = some v) : 0 ≤ v.weight := by
  rcases exLayer_voxels g v h with rfl | rfl | rfl <;> norm_num

theorem exLayer_ray (k : ℤ) (hk : |k| ≤ 1) : ClearIn exLayer ⟨k + 1, 0, 0⟩ (beside ⟨3 / 2, 1 / 2, 1 / 2⟩ ⟨1, 0, 0⟩ 1 k) ∧
    Addressable exLayer (beside ⟨3 / 2, 1 / 2, 1 / 2⟩ ⟨1, 0, 0⟩ 1 k) ∧ blockOf 4 ⟨k + 1, 0, 0⟩ = blockOf 4 ⟨0 + 1, 0, 0⟩ := by
  rw [abs_le] at hk
  have : k = -1 ∨ k = 0 ∨ k = 1 := by omega
  rcases this with rfl | rfl | rfl <;> norm_num [ClearIn, Vec3.All₂, beside, exLayer, Addressable, Vec3.All, blockOf, Vec3.map]

/-! ## One hit -/

section

variable {P : Params} (hcap : 1 ≤ P.maxWeight) (hrad : P.radius ≤ 1000) {l : VLayer IV} (wf : WellFormed l)
  (nn : ∀ g v, content l g = some v → 0 ≤ v.weight) {bearing hit : Pt} (hb : bearing.All fun c => |c| ≤ 1)
  (hadd : ∀ k : ℤ, |k| ≤ P.radius → Addressable l (beside hit bearing l.cfg.voxelSize k)) (x : ℚ)

include hcap hrad wf nn hb hadd

/-- **C67**, the voxel at the hit: the measurement is averaged into it, for every hit position, near a block border or not. -/
theorem C67_center {g : Idx} (hg : ClearIn l g hit) : ∃ l', addHit P l.cfg.voxelSize bearing x hit l = .ok l' ∧
    content l' g = some (averaged P.maxWeight x (voxelOrNew l g)) := by
  classical
  obtain ⟨l', e, -, -, -, hc⟩ := addHit_spec hcap hrad wf nn hb hadd x
  refine ⟨l', e, ?_⟩
  rw [hc, if_pos (gIdx_of_clear wf hg).symm]

/-- **C67**, neighbours. Full claim: every unobserved neighbour takes over the measurement at its own position. What holds: every
neighbour in the same block as the hit. -/
theorem C67_neighbour_partial {g0 g : Idx} (h0 : ClearIn l g0 hit) {k : ℤ} (hk : |k| ≤ P.radius)
    (hg : ClearIn l g (beside hit bearing l.cfg.voxelSize k)) (hne : g ≠ g0) (hsame : blockOf l.cfg.vps g = blockOf l.cfg.vps g0) :
    ∃ l', addHit P l.cfg.voxelSize bearing x hit l = .ok l' ∧ content l' g = some (takenOver x (voxelOrNew l g)) := by
  classical
  obtain ⟨l', e, -, -, -, hc⟩ := addHit_spec hcap hrad wf nn hb hadd x
  refine ⟨l', e, ?_⟩
  have eg := gIdx_of_clear wf hg
  have eb : bIdx l hit = bIdx l (beside hit bearing l.cfg.voxelSize k) := by
    rw [← blockOf_gIdx wf hit, ← blockOf_gIdx wf (beside hit bearing l.cfg.voxelSize k), gIdx_of_clear wf h0, eg, hsame]
  rw [hc, if_neg (by rw [gIdx_of_clear wf h0]; exact hne), if_pos ⟨k, hk, by rw [eb, target_self, eg]⟩]

/-- **C67** if the hit and all its neighbours lie in one block: exactly the voxel at the hit and the unobserved neighbours change. -/
theorem C67_hit_partial {g : ℤ → Idx} (hg : ∀ k : ℤ, |k| ≤ P.radius → ClearIn l (g k) (beside hit bearing l.cfg.voxelSize k))
    (hsame : ∀ k : ℤ, |k| ≤ P.radius → blockOf l.cfg.vps (g k) = blockOf l.cfg.vps (g 0)) :
    ∃ l', addHit P l.cfg.voxelSize bearing x hit l = .ok l' ∧ content l' (g 0) = some (averaged P.maxWeight x (voxelOrNew l (g 0))) ∧
      (∀ k : ℤ, |k| ≤ P.radius → g k ≠ g 0 → content l' (g k) = some (takenOver x (voxelOrNew l (g k)))) ∧
      ∀ h, (∀ k : ℤ, |k| ≤ P.radius → h ≠ g k) → content l' h = content l h ∨
        (content l h = none ∧ blockOf l.cfg.vps h = blockOf l.cfg.vps (g 0) ∧ content l' h = some ⟨0, 0⟩) := by
  classical
  obtain ⟨l', e, -, -, -, hc⟩ := addHit_spec hcap hrad wf nn hb hadd x
  have e0 := beside_zero hit bearing l.cfg.voxelSize
  have g0 : gIdx l hit = g 0 := gIdx_of_clear wf (by have := hg 0 (by simp); rwa [e0] at this)
  have hgk : ∀ k : ℤ, |k| ≤ P.radius → gIdx l (beside hit bearing l.cfg.voxelSize k) = g k := fun k hk => gIdx_of_clear wf (hg k hk)
  have hbk : ∀ k : ℤ, |k| ≤ P.radius → bIdx l (beside hit bearing l.cfg.voxelSize k) = bIdx l hit := by
    intro k hk
    rw [← blockOf_gIdx wf, ← blockOf_gIdx wf, hgk k hk, g0, hsame k hk]
  have htk : ∀ k : ℤ, |k| ≤ P.radius → target l.cfg (bIdx l hit) (beside hit bearing l.cfg.voxelSize k) = g k := by
    intro k hk
    rw [← hbk k hk, target_self, hgk k hk]
  refine ⟨l', e, ?_, ?_, ?_⟩
  · rw [hc, if_pos g0.symm]
  · intro k hk hne
    rw [hc, if_neg (by rw [g0]; exact hne), if_pos ⟨k, hk, htk k hk⟩]
  · intro h hh
    rw [hc, if_neg (by rw [g0]; exact hh 0 (by simp)), if_neg]
    · split_ifs with h3
      · obtain ⟨k, hk, hk'⟩ := h3
        unfold voxelOrNew
        cases hq : content l h with
        | some u => exact Or.inl rfl
        | none =>
          refine Or.inr ⟨rfl, ?_, rfl⟩
          rw [← hk', hbk k hk, ← blockOf_gIdx wf, g0]
      · exact Or.inl rfl
    · rintro ⟨k, hk, hk'⟩
      exact hh k hk (by rw [← hk', htk k hk])

/-- **C67** is violated for every neighbour in another block than the hit: its block is allocated, but the voxel is not written. -/
theorem C67_other_block {g0 g : Idx} (h0 : ClearIn l g0 hit) {k : ℤ} (hk : |k| ≤ P.radius)
    (hg : ClearIn l g (beside hit bearing l.cfg.voxelSize k)) (hother : blockOf l.cfg.vps g ≠ blockOf l.cfg.vps g0) :
    ∃ l', addHit P l.cfg.voxelSize bearing x hit l = .ok l' ∧ content l' g = some (voxelOrNew l g) := by
  classical
  obtain ⟨l', e, -, -, -, hc⟩ := addHit_spec hcap hrad wf nn hb hadd x
  refine ⟨l', e, ?_⟩
  have e0 := gIdx_of_clear wf h0
  have eg := gIdx_of_clear wf hg
  rw [hc, if_neg, if_neg, if_pos ⟨k, hk, by rw [← blockOf_gIdx wf, eg]⟩]
  · rintro ⟨j, -, hj⟩
    apply hother
    rw [← hj, ← e0, blockOf_gIdx wf]
    unfold target
    apply blockOf_globalIndex
    have := wf.side_pos
    refine ⟨?_, ?_, ?_⟩ <;> simp only [clampAx] <;> omega
  · rw [e0]
    rintro rfl
    exact hother rfl

end

example : (1 : ℚ) ≤ ({ radius := 1 } : Params).maxWeight ∧ WellFormed exLayer ∧ (∀ g v, content exLayer g = some v → 0 ≤ v.weight) ∧
    (⟨1, 0, 0⟩ : Pt).All (fun c => |c| ≤ 1) ∧ (∀ k : ℤ, |k| ≤ 1 → Addressable exLayer (beside ⟨3 / 2, 1 / 2, 1 / 2⟩ ⟨1, 0, 0⟩ 1 k)) ∧
    (∀ k : ℤ, |k| ≤ 1 → ClearIn exLayer ⟨k + 1, 0, 0⟩ (beside ⟨3 / 2, 1 / 2, 1 / 2⟩ ⟨1, 0, 0⟩ 1 k)) ∧
    (∀ k : ℤ, |k| ≤ 1 → blockOf 4 ⟨k + 1, 0, 0⟩ = blockOf 4 ⟨0 + 1, 0, 0⟩) :=
  ⟨by norm_num, exLayer_wf, exLayer_nonneg, by norm_num [Vec3.All], fun k h => (exLayer_ray k h).2.1, fun k h => (exLayer_ray k h).1, fun k h => (exLayer_ray k h).2.2⟩

/-- **C67** is violated: an oblique hit near a block border, in a layer where nothing else is observed. The next voxel along the bearing
vector, behind the border, stays unobserved; instead a voxel takes over the measurement that no neighbour lies in. -/
theorem C67_violated : ∃ l' : VLayer IV, addHit {} exLayer.cfg.voxelSize ⟨3 / 5, 4 / 5, 0⟩ 7 ⟨39 / 10, 1 / 2, 1 / 2⟩ exLayer = .ok l' ∧
    ClearIn exLayer ⟨4, 1, 0⟩ (beside ⟨39 / 10, 1 / 2, 1 / 2⟩ ⟨3 / 5, 4 / 5, 0⟩ exLayer.cfg.voxelSize 1) ∧ content l' ⟨4, 1, 0⟩ = some ⟨0, 0⟩ ∧
    (∀ k : ℤ, |k| ≤ 2 → ¬ VoxelAt exLayer ⟨3, 1, 0⟩ (beside ⟨39 / 10, 1 / 2, 1 / 2⟩ ⟨3 / 5, 4 / 5, 0⟩ exLayer.cfg.voxelSize k)) ∧
    content exLayer ⟨3, 1, 0⟩ = some ⟨0, 0⟩ ∧ content l' ⟨3, 1, 0⟩ = some ⟨7, 1⟩ := by
  have run : (match addHit {} exLayer.cfg.voxelSize ⟨3 / 5, 4 / 5, 0⟩ 7 ⟨39 / 10, 1 / 2, 1 / 2⟩ exLayer with
    | .ok l' => decide (content l' ⟨4, 1, 0⟩ = some ⟨0, 0⟩ ∧ content l' ⟨3, 1, 0⟩ = some ⟨7, 1⟩)
    | _ => false) = true := by decide +kernel
  cases h : addHit {} exLayer.cfg.voxelSize ⟨3 / 5, 4 / 5, 0⟩ 7 ⟨39 / 10, 1 / 2, 1 / 2⟩ exLayer with
  | ok l' =>
    rw [h] at run
    obtain ⟨r1, r2⟩ := of_decide_eq_true run
    refine ⟨l', rfl, by norm_num [ClearIn, Vec3.All₂, beside, exLayer], r1, ?_, by decide +kernel, r2⟩
    intro k hk
    rw [abs_le] at hk
    have : k = -2 ∨ k = -1 ∨ k = 0 ∨ k = 1 ∨ k = 2 := by omega
    rcases this with rfl | rfl | rfl | rfl | rfl <;> norm_num [VoxelAt, Vec3.All₂, NearAxis, beside, exLayer]
  | fatal => rw [h] at run; cases run
  | ub => rw [h] at run; cases run

/-! ## All rays -/

/-- Different numbers of bearing vectors and intensities abort. -/
theorem C67_sizes (rnd : ℚ → ℚ) (unit : Pt → Pt) (P : Params) (tsdf : VLayer (TsdfVoxel ℚ)) (origin : Pt) (bearings : List Pt) (xs : List ℚ) (fuel : ℕ)
    (l : VLayer IV) (h : bearings.length ≠ xs.length) : addIntensityBearingVectors rnd unit P tsdf origin bearings xs fuel l = .fatal := by
  unfold addIntensityBearingVectors
  rw [if_pos h]

/-- Rays that meet no surface leave the layer as it is. -/
theorem C67_miss {rnd : ℚ → ℚ} {unit : Pt → Pt} {P : Params} {tsdf : VLayer (TsdfVoxel ℚ)} {origin : Pt} {bearings : List Pt} {xs : List ℚ} {fuel : ℕ}
    (l : VLayer IV) (h : bearings.length = xs.length)
    (hmiss : ∀ b ∈ bearings, surfaceAlongRay rnd unit tsdf origin b P.maxDistance fuel = .ok (some none)) :
    addIntensityBearingVectors rnd unit P tsdf origin bearings xs fuel l = .ok (some l) := by
  unfold addIntensityBearingVectors
  rw [if_neg (not_not.2 h)]
  have key : ∀ rs : List (Pt × ℚ), (∀ r ∈ rs, r.1 ∈ bearings) → rs.foldlM (addRay rnd unit P tsdf origin fuel) (some l) = .ok (some l) := by
    intro rs
    induction rs with
    | nil => exact fun _ => rfl
    | cons r rs ih =>
      intro hr
      rw [List.foldlM_cons]
      have : addRay rnd unit P tsdf origin fuel (some l) r = .ok (some l) := by
        unfold addRay
        simp only [hmiss _ (hr r (List.mem_cons_self ..)), Outcome.bind_ok]
        rfl
      rw [this]
      exact ih fun r' h' => hr r' (List.mem_cons_of_mem _ h')
  exact key _ fun r hr => (List.of_mem_zip hr).1

example : surfaceAlongRay id id RaySearch.exMap ⟨1 / 2, 1 / 2, 1 / 2⟩ ⟨0, 1, 0⟩ ({} : Params).maxDistance 9 = .ok (some none) := by decide +kernel

/-- A voxel as the integrator leaves it: weight between 0 and the cap, and an intensity within the limits unless it is unobserved. -/
def Sound (cap lo hi : ℚ) (v : IV) : Prop := 0 ≤ v.weight ∧ v.weight ≤ cap ∧ (v.weight = 0 ∨ (lo ≤ v.intensity ∧ v.intensity ≤ hi))

theorem averaged_sound {cap lo hi x : ℚ} (hcap : 2 ≤ cap) (h0 : lo ≤ x) (h1 : x ≤ hi) {v : IV} (hv : Sound cap lo hi v) : Sound cap lo hi (updateCenter cap x v) := by
  obtain ⟨w0, w1, hi'⟩ := hv
  rw [updateCenter_eq _ _ w0]
  refine ⟨le_min (by linarith) (by linarith), min_le_right _ _, Or.inr ?_⟩
  have hpos : 0 < v.weight + 1 := by linarith
  simp only [averaged]
  rcases hi' with hw | ⟨i0, i1⟩
  · rw [hw]
    norm_num
    exact ⟨h0, h1⟩
  · have e : v.intensity + (x - v.intensity) / (v.weight + 1) = (v.weight * v.intensity + x) / (v.weight + 1) := by
      field_simp
      ring
    rw [e]
    constructor
    · rw [le_div_iff₀ hpos]
      have := mul_le_mul_of_nonneg_left i0 w0
      linarith
    · rw [div_le_iff₀ hpos]
      have := mul_le_mul_of_nonneg_left i1 w0
      linarith

theorem fill_sound {cap lo hi x : ℚ} (hcap : 2 ≤ cap) (h0 : lo ≤ x) (h1 : x ≤ hi) {v : IV} (hv : Sound cap lo hi v) : Sound cap lo hi (fill x v) := by
  unfold fill
  split_ifs with h
  · obtain ⟨w0, w1, -⟩ := hv
    exact ⟨by simp only; linarith, by simp only; linarith, Or.inr ⟨h0, h1⟩⟩
  · exact hv

/-- All voxels of the layer are sound. -/
def AllSound (cap lo hi : ℚ) (l : VLayer IV) : Prop := WellFormed l ∧ ∀ g v, content l g = some v → Sound cap lo hi v

theorem allocate_sound {cap lo hi : ℚ} (hcap : 2 ≤ cap) {l : VLayer IV} (h : AllSound cap lo hi l) (i : Idx) : AllSound cap lo hi (allocateBlock fresh l i) := by
  refine ⟨allocateBlock_wf h.1 _ _, fun g v hv => ?_⟩
  rw [allocateBlock_content h.1] at hv
  split_ifs at hv with hg
  · cases hc : content l g with
    | none => rw [hc] at hv; cases hv; exact ⟨le_rfl, show (0 : ℚ) ≤ cap by linarith, Or.inl rfl⟩
    | some u => rw [hc] at hv; cases hv; exact h.2 g u hc
  · exact h.2 g v hv

theorem change_sound {cap lo hi : ℚ} {l l' : VLayer IV} (h : AllSound cap lo hi l) {i : Idx} {p : Pt} {f : IV → IV} (hf : ∀ v, Sound cap lo hi v → Sound cap lo hi (f v))
    (e : change l i p f = .ok l') : AllSound cap lo hi l' := by
  obtain ⟨wf, h0, hc⟩ := change_inv h.1 e
  refine ⟨wf, fun g v hv => ?_⟩
  rw [hc] at hv
  split_ifs at hv
  · cases hq : content l g with
    | none => rw [hq] at hv; cases hv
    | some u => rw [hq] at hv; cases hv; exact hf u (h.2 g u hq)
  · exact h.2 g v hv

theorem foldlM_inv {α β : Type} {f : α → β → Outcome α} {I : α → Prop} {xs : List β} (h : ∀ a, I a → ∀ x ∈ xs, ∀ a', f a x = .ok a' → I a') :
    ∀ a, I a → ∀ a', xs.foldlM f a = .ok a' → I a' := by
  induction xs with
  | nil => intro a ha a' e; cases e; exact ha
  | cons x xs ih =>
    intro a ha a' e
    rw [List.foldlM_cons, Outcome.bind_eq_ok] at e
    obtain ⟨b, e1, e2⟩ := e
    exact ih (fun a ha y hy => h a ha y (List.mem_cons_of_mem _ hy)) b (h a ha x (List.mem_cons_self ..) b e1) a' e2

/-- Over any sequence of measurements the weights stay between 0 and the cap and the intensities of observed voxels stay within the range of the
measurements, wherever the writes go. -/
theorem C67_bounds {rnd : ℚ → ℚ} {unit : Pt → Pt} {P : Params} (hcap : 2 ≤ P.maxWeight) {tsdf : VLayer (TsdfVoxel ℚ)} {origin : Pt} {bearings : List Pt}
    {xs : List ℚ} {fuel : ℕ} {l l' : VLayer IV} {lo hi : ℚ} (wf : WellFormed l) (hl : ∀ g v, content l g = some v → Sound P.maxWeight lo hi v)
    (hx : ∀ x ∈ xs, lo ≤ x ∧ x ≤ hi) (h : addIntensityBearingVectors rnd unit P tsdf origin bearings xs fuel l = .ok (some l')) :
    WellFormed l' ∧ ∀ g v, content l' g = some v → Sound P.maxWeight lo hi v := by
  unfold addIntensityBearingVectors at h
  split_ifs at h with hlen
  have := foldlM_inv (I := fun o : Option (VLayer IV) => ∀ l, o = some l → AllSound P.maxWeight lo hi l) ?_ (some l) (by rintro _ ⟨⟩; exact ⟨wf, hl⟩) _ h
  · exact this l' rfl
  · intro o ho r hr o' e l2 hl2
    obtain ⟨h0, h1⟩ := hx r.2 (List.of_mem_zip hr).2
    subst hl2
    unfold addRay at e
    cases o with
    | none => cases e
    | some l0 =>
      simp only at e
      rw [Outcome.bind_eq_ok] at e
      obtain ⟨s, -, e⟩ := e
      match s, e with
      | none, e => cases e
      | some none, e => cases e; exact ho _ rfl
      | some (some hit), e =>
        simp only at e
        rw [Outcome.bind_eq_ok] at e
        obtain ⟨l3, e3, e⟩ := e
        cases e
        unfold addHit at e3
        rw [Outcome.bind_eq_ok] at e3
        obtain ⟨i, -, e3⟩ := e3
        rw [Outcome.bind_eq_ok] at e3
        obtain ⟨l4, e4, e3⟩ := e3
        have s4 := change_sound (allocate_sound hcap (ho _ rfl) i) (fun v hv => averaged_sound hcap h0 h1 hv) e4
        refine foldlM_inv (I := AllSound P.maxWeight lo hi) ?_ l4 s4 _ e3
        intro a ha k _ a' ea
        unfold fillStep at ea
        simp only at ea
        rw [Outcome.bind_eq_ok] at ea
        obtain ⟨j, -, ea⟩ := ea
        exact change_sound (allocate_sound hcap ha j) (fun v hv => fill_sound hcap h0 h1 hv) ea

example : (∀ g v, content exLayer g = some v → Sound ({} : Params).maxWeight 5 20 v) ∧ (2 : ℚ) ≤ ({} : Params).maxWeight ∧
    (match addIntensityBearingVectors id id {} RaySearch.exMap ⟨1 / 2, 1 / 2, 1 / 2⟩ [⟨1, 0, 0⟩, ⟨0, 1, 0⟩] [7, 9] 99 exLayer with
      | .ok (some l') => decide (content l' ⟨3, 0, 0⟩ = some ⟨7, 1⟩ ∧ content l' ⟨1, 0, 0⟩ = some ⟨20, 1⟩)
      | _ => false) = true := 
  ⟨fun g v h => by rcases exLayer_voxels g v h with rfl | rfl | rfl <;> norm_num [Sound], by norm_num, by decide +kernel⟩

end Vox.Intensity
