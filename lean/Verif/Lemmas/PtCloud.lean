/-
Point clouds: closed form of the loops, and which voxels a slice shows.
-/
import Verif.Model.PtCloud
import Verif.Spec.PtCloud
import Verif.Lemmas.Slice

namespace Vox.PtCloud

open Layer Grid Spec Eval Slice

variable {V R : Type}

/-- What a voxel contributes. -/
def entryAt (f : Idx → V → Option R) (l : VLayer V) (g : Idx) : Option (Pt × R) :=
  (content l g).bind fun v => (f g v).map fun r => (voxelCenter l.cfg.voxelSize g, r)

theorem entryAt_iff {f : Idx → V → Option R} {l : VLayer V} {g : Idx} {e : Pt × R} :
    entryAt f l g = some e ↔ ∃ v r, content l g = some v ∧ f g v = some r ∧ e = (voxelCenter l.cfg.voxelSize g, r) := by
  unfold entryAt
  cases content l g with
  | none => simp
  | some v =>
    simp only [Option.bind_some, Option.map_eq_some_iff]
    constructor
    · rintro ⟨r, h1, h2⟩
      exact ⟨v, r, rfl, h1, h2.symm⟩
    · rintro ⟨v', r, h1, h2, h3⟩
      obtain rfl := Option.some.inj h1
      exact ⟨r, h2, h3.symm⟩

theorem push_all {α : Type} (E : List α) : ∀ acc : List α, E.foldlM (fun acc e => (.ok (acc ++ [e]) : Outcome (List α))) acc = .ok (acc ++ E) := by
  induction E with
  | nil => intro acc; simp
  | cons e E ih =>
    intro acc
    rw [List.foldlM_cons, Outcome.bind_ok, ih]
    simp

/-- A list of positions names every allocated voxel once. -/
structure Covers (l : VLayer V) (L : List Idx) : Prop where
  nodup : L.Nodup
  mem : ∀ g, g ∈ L ↔ blockOf l.cfg.vps g ∈ l.blocks.map (·.1)

theorem entries_mem {f : Idx → V → Option R} {l : VLayer V} (wf : WellFormed l) {L : List Idx} (hL : Covers l L) (e : Pt × R) :
    e ∈ L.filterMap (entryAt f l) ↔ ∃ g v r, content l g = some v ∧ f g v = some r ∧ e = (voxelCenter l.cfg.voxelSize g, r) := by
  rw [List.mem_filterMap]
  constructor
  · rintro ⟨g, _, h⟩
    exact ⟨g, entryAt_iff.1 h⟩
  · rintro ⟨g, v, r, h1, h2, h3⟩
    refine ⟨g, ?_, entryAt_iff.2 ⟨v, r, h1, h2, h3⟩⟩
    rw [hL.mem]
    refine allocated_iff_mem.1 ?_
    have := content_isSome wf g
    rw [h1] at this
    exact this.symm

theorem entries_nodup {f : Idx → V → Option R} {l : VLayer V} (wf : WellFormed l) {L : List Idx} (hL : Covers l L) :
    ((L.filterMap (entryAt f l)).map (·.1)).Nodup := by
  rw [List.map_filterMap]
  refine List.Nodup.filterMap ?_ hL.nodup
  intro g h p hg hh
  obtain ⟨e, he, h1⟩ := Option.map_eq_some_iff.1 (show Option.map _ _ = some p from hg)
  obtain ⟨f', hf, h2⟩ := Option.map_eq_some_iff.1 (show Option.map _ _ = some p from hh)
  obtain ⟨_, _, _, _, e1⟩ := entryAt_iff.1 he
  obtain ⟨_, _, _, _, e2⟩ := entryAt_iff.1 hf
  rw [e1] at h1
  rw [e2] at h2
  exact voxelCenter_inj wf.size_pos (h1.trans h2.symm)

/-! ### The loop over linear indices -/

theorem cloudVoxel_ok {vis : Vis V R} {f : Idx → V → Option R} {l : VLayer V} (wf : WellFormed l)
    (hv : ∀ g v, content l g = some v → vis v (voxelCenter l.cfg.voxelSize g) = .ok (f g v)) {i : Idx} {b : Block ℚ V} (hb : block? l i = some b)
    {k : ℕ} (hk : k < l.cfg.vps * l.cfg.vps * l.cfg.vps) (acc : List (Pt × R)) :
    cloudVoxel vis b acc k = match entryAt f l (pos l.cfg.vps i k) with | none => .ok acc | some e => .ok (acc ++ [e]) := by
  obtain ⟨w1, w2, w3, w4⟩ := wf.block _ _ hb
  obtain ⟨x, h1, h2⟩ := Merge.voxelAt_ok (b := b) (k := k) (by rw [w4]; exact hk)
  have hc : content l (pos l.cfg.vps i k) = some x := by rw [content_pos wf hk, hb]; exact h2
  have hsz : numVoxels l.cfg.vps ≤ 2 ^ 31 := by
    have a2 : l.cfg.vps * l.cfg.vps ≤ 1290 * 1290 := Nat.mul_le_mul wf.side_le wf.side_le
    have a3 : l.cfg.vps * l.cfg.vps * l.cfg.vps ≤ 1290 * 1290 * 1290 := Nat.mul_le_mul a2 wf.side_le
    unfold numVoxels
    omega
  obtain ⟨v, v1, v2, v3⟩ := Props.C01_linear_to_voxel_to_linear hsz (l := k) (by
    unfold isValidLinearIndex numVoxels
    rw [if_neg (by omega)])
  have hv' : v = loc l.cfg.vps k := linearIndex_inj wf.side_le v2 (loc_spec wf.side_le hk).1 (by rw [v3, (loc_spec wf.side_le hk).2])
  have hcen : centerOf b v = voxelCenter l.cfg.voxelSize (pos l.cfg.vps i k) := by
    rw [centerOf_eq wf hb, hv']
    rfl
  unfold cloudVoxel entryAt
  rw [w1, v1, h1]
  simp only [Outcome.bind_ok, hcen, hc, Option.bind_some, hv _ _ hc]
  cases f (pos l.cfg.vps i k) x <;> rfl

theorem positions_cover {l : VLayer V} (wf : WellFormed l) (nd : (l.blocks.map (·.1)).Nodup) :
    Covers l (positions l.cfg.vps (l.blocks.map (·.1))) :=
  ⟨positions_nodup wf.side_le nd, fun _ => mem_positions wf.side_pos wf.side_le⟩

theorem cloud_ok {vis : Vis V R} {f : Idx → V → Option R} {l : VLayer V} (wf : WellFormed l)
    (hv : ∀ g v, content l g = some v → vis v (voxelCenter l.cfg.voxelSize g) = .ok (f g v)) :
    cloud vis l = .ok ((positions l.cfg.vps (l.blocks.map (·.1))).filterMap (entryAt f l)) := by
  unfold cloud positions
  rw [List.filterMap_flatMap, foldlM_flatMap (k := fun acc e => .ok (acc ++ [e]))
    (h := fun i => ((List.range (l.cfg.vps * l.cfg.vps * l.cfg.vps)).map (pos l.cfg.vps i)).filterMap (entryAt f l)), push_all]
  · simp
  intro i hi s
  obtain ⟨e, he, rfl⟩ := List.mem_map.1 hi
  have : (block? l e.1).isSome = true := allocated_iff_mem.2 (List.mem_map.2 ⟨e, he, rfl⟩)
  obtain ⟨b, hb⟩ := Option.isSome_iff_exists.1 this
  unfold cloudBlock
  rw [hb, List.filterMap_map]
  refine foldlM_filterMap _ _ fun k hk s => ?_
  have := cloudVoxel_ok wf hv hb (List.mem_range.1 hk) s
  rw [this, Function.comp_apply]
  cases entryAt f l (pos l.cfg.vps e.1 k) <;> rfl

/-- All clouds of functions that do not look at the position. -/
theorem cloud_shows {vis : Vis V R} {f : V → Option R} {l : VLayer V} (wf : WellFormed l) (nd : (l.blocks.map (·.1)).Nodup)
    (hv : ∀ v p, vis v p = .ok (f v)) : ∃ E, cloud vis l = .ok E ∧ Shows f l E :=
  ⟨_, cloud_ok (f := fun _ v => f v) wf (fun _ _ _ => hv _ _), entries_nodup wf (positions_cover wf nd), entries_mem wf (positions_cover wf nd)⟩

/-! ### Slices -/

/-- A plane inside a layer of voxels, away from its faces, is near the centres of this layer only. -/
theorem near_iff {s ε r : ℚ} (h0 : 0 ≤ ε) (k c : ℤ) (h1 : ε < r) (h2 : r < s - ε) : |((c : ℚ) + 1 / 2) * s - (k * s + r)| ≤ s / 2 + ε ↔ c = k := by
  have hs : 0 < s := by linarith
  constructor
  · intro h
    rw [abs_le] at h
    by_contra hne
    rcases lt_or_gt_of_ne hne with hlt | hgt
    · have : (c : ℚ) + 1 ≤ k := by exact_mod_cast hlt
      nlinarith [mul_le_mul_of_nonneg_right this hs.le]
    · have : (k : ℚ) + 1 ≤ c := by exact_mod_cast hgt
      nlinarith [mul_le_mul_of_nonneg_right this hs.le]
  · rintro rfl
    rw [abs_le]
    constructor <;> nlinarith

/-- A plane on a face is near the centres of both layers. -/
theorem face_iff {s ε : ℚ} (h0 : 0 ≤ ε) (h1 : ε < s) (k c : ℤ) : |((c : ℚ) + 1 / 2) * s - (k + 1) * s| ≤ s / 2 + ε ↔ c = k ∨ c = k + 1 := by
  have hs : 0 < s := by linarith
  constructor
  · intro h
    rw [abs_le] at h
    by_contra hne
    push Not at hne
    rcases lt_or_gt_of_ne hne.1 with hlt | hgt
    · have : (c : ℚ) + 1 ≤ k := by exact_mod_cast hlt
      nlinarith [mul_le_mul_of_nonneg_right this hs.le]
    · have hgt' : k + 1 < c := by omega
      have : (k : ℚ) + 1 + 1 ≤ c := by exact_mod_cast hgt'
      nlinarith [mul_le_mul_of_nonneg_right this hs.le]
  · rintro (rfl | rfl)
    · rw [abs_le]
      constructor <;> nlinarith
    · rw [abs_le]
      push_cast
      constructor <;> nlinarith

theorem eps_pos : 0 < kFloatEpsilon := by decide +kernel

theorem above_bounds {s : ℚ} (hs : 0 < s) (val : ℚ) : 0 ≤ above s val ∧ above s val < s := by
  unfold above
  have h1 := Int.floor_le (val / s)
  have h2 := Int.lt_floor_add_one (val / s)
  rw [le_div_iff₀ hs] at h1
  rw [div_lt_iff₀ hs] at h2
  constructor <;> linarith

theorem val_eq (s val : ℚ) : val = ⌊val / s⌋ * s + above s val := by
  unfold above
  ring

theorem frac_eq {s : ℚ} (hs : 0 < s) (val : ℚ) : val / s - ⌊val / s⌋ = above s val / s := by
  unfold above
  field_simp

theorem remainder_low {s : ℚ} (hs : 0 < s) {val : ℚ} (h : above s val < s / 2) : remainder val s = above s val := by
  unfold remainder Ieee.roundEven
  dsimp only
  rw [frac_eq hs, if_pos (by rw [div_lt_iff₀ hs]; linarith)]
  rfl

theorem remainder_high {s : ℚ} (hs : 0 < s) {val : ℚ} (h : s / 2 < above s val) : remainder val s = above s val - s := by
  unfold remainder Ieee.roundEven
  dsimp only
  rw [frac_eq hs, if_neg (by rw [div_lt_iff₀ hs]; linarith), if_pos (by rw [lt_div_iff₀ hs]; linarith)]
  unfold above
  push_cast
  ring

theorem remainder_mid {s : ℚ} (hs : 0 < s) {val : ℚ} (h : above s val = s / 2) :
    remainder val s = if ⌊val / s⌋ % 2 = 0 then s / 2 else -(s / 2) := by
  unfold remainder Ieee.roundEven
  dsimp only
  have e : above s val / s = 1 / 2 := by rw [h]; field_simp
  rw [frac_eq hs, e, if_neg (by norm_num), if_neg (by norm_num)]
  have hv := val_eq s val
  rw [h] at hv
  split_ifs
  · linarith
  · push_cast
    linarith

/-- Which layers of voxels a slice shows, by the place of the plane. -/
theorem slice_low {s : ℚ} (hs : 4 * kFloatEpsilon < s) {val : ℚ} (h : above s val < s / 2) (hne : above s val ≠ kFloatEpsilon) (c : ℤ) :
    |((c : ℚ) + 1 / 2) * s - slicePlane s val| ≤ s / 2 + kFloatEpsilon ↔ c = ⌊val / s⌋ := by
  have he := eps_pos
  have hs0 : 0 < s := by linarith
  have h0 := (above_bounds hs0 val).1
  unfold slicePlane
  rw [remainder_low hs0 h]
  split_ifs with hlt
  · rw [show val + s / 2 = ⌊val / s⌋ * s + (above s val + s / 2) by rw [← add_assoc, ← val_eq]]
    exact near_iff he.le _ _ (by linarith) (by linarith)
  · have hgt : kFloatEpsilon < above s val := lt_of_le_of_ne (not_lt.1 hlt) (Ne.symm hne)
    conv_lhs => rw [val_eq s val]
    exact near_iff he.le _ _ hgt (by linarith)

theorem slice_high {s : ℚ} (hs : 4 * kFloatEpsilon < s) {val : ℚ} (h : s / 2 + kFloatEpsilon < above s val) (c : ℤ) :
    |((c : ℚ) + 1 / 2) * s - slicePlane s val| ≤ s / 2 + kFloatEpsilon ↔ c = ⌊val / s⌋ + 1 := by
  have he := eps_pos
  have hs0 : 0 < s := by linarith
  have h1 := (above_bounds hs0 val).2
  unfold slicePlane
  rw [remainder_high hs0 (by linarith), if_pos (by linarith),
    show val + s / 2 = ((⌊val / s⌋ + 1 : ℤ) : ℚ) * s + (above s val - s / 2) by
      have := val_eq s val
      push_cast
      linarith]
  exact near_iff he.le _ _ (by linarith) (by linarith)

theorem slice_mid {s : ℚ} (hs : 4 * kFloatEpsilon < s) {val : ℚ} (h : above s val = s / 2) (c : ℤ) :
    |((c : ℚ) + 1 / 2) * s - slicePlane s val| ≤ s / 2 + kFloatEpsilon ↔ c = ⌊val / s⌋ ∨ (⌊val / s⌋ % 2 ≠ 0 ∧ c = ⌊val / s⌋ + 1) := by
  have he := eps_pos
  have hs0 : 0 < s := by linarith
  unfold slicePlane
  rw [remainder_mid hs0 h]
  by_cases hpar : ⌊val / s⌋ % 2 = 0
  · rw [if_pos hpar, if_neg (by linarith)]
    conv_lhs => rw [val_eq s val]
    rw [near_iff he.le _ _ (by rw [h]; linarith) (by rw [h]; linarith)]
    simp [hpar]
  · rw [if_neg hpar, if_pos (by linarith), show val + s / 2 = ((⌊val / s⌋ : ℚ) + 1) * s by
      have := val_eq s val
      rw [h] at this
      linarith]
    rw [face_iff he.le (by linarith)]
    simp [hpar]

theorem passes_iff {s : ℚ} (hs : 0 < s) (a : Fin 3) (val : ℚ) (g : Idx) : PassesThrough s a val g ↔ (axial a g : ℤ) = ⌊val / s⌋ := by
  unfold PassesThrough
  rw [eq_comm, Int.floor_eq_iff, le_div_iff₀ hs, div_lt_iff₀ hs]

/-- A slice shows the voxels on the layers `P`. -/
theorem slice_shows {vis : ℕ → ℚ → ℚ → Vis V R} {f : V → Option R} {l : VLayer V} (wf : WellFormed l) (nd : (l.blocks.map (·.1)).Nodup)
    (hvis : ∀ (a : ℕ) p s v c, vis a p s v c = (do
      let on ← onPlane a p s c
      pure (if on then f v else none))) (a : Fin 3) (val : ℚ) {P : Idx → Prop} [DecidablePred P]
    (hP : ∀ g : Idx, |((axial a g : ℤ) + 1 / 2) * l.cfg.voxelSize - slicePlane l.cfg.voxelSize val| ≤ l.cfg.voxelSize / 2 + kFloatEpsilon ↔ P g) :
    ∃ E, cloud (vis a (slicePlane l.cfg.voxelSize val) l.cfg.voxelSize) l = .ok E ∧ ShowsOn P f l E := by
  have hv : ∀ g v, content l g = some v → vis a (slicePlane l.cfg.voxelSize val) l.cfg.voxelSize v (voxelCenter l.cfg.voxelSize g) =
      .ok ((fun (g : Idx) (v : V) => if P g then f v else none) g v) := by
    intro g v _
    rw [hvis]
    unfold onPlane
    rw [axis_ok, Outcome.bind_ok, axial_center]
    simp only [Outcome.pure_eq, Outcome.bind_ok, decide_eq_true_eq, hP]
  refine ⟨_, cloud_ok (f := fun g v => if P g then f v else none) wf hv, entries_nodup wf (positions_cover wf nd), fun e => ?_⟩
  rw [entries_mem wf (positions_cover wf nd)]
  constructor
  · rintro ⟨g, v, r, h1, h2, h3⟩
    split_ifs at h2 with hp
    exact ⟨g, v, r, hp, h1, h2, h3⟩
  · rintro ⟨g, v, r, hp, h1, h2, h3⟩
    exact ⟨g, v, r, h1, by rw [if_pos hp]; exact h2, h3⟩

end Vox.PtCloud
