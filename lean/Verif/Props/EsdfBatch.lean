/-
C91: the distances of a batch ESDF. C92: updates from an unchanged TSDF.
-/
import Verif.Lemmas.EsdfSame
import Verif.Props.Esdf

namespace Vox.Esdf

open Layer Grid Spec

variable {A : Flt} {cfg : Config} {L : Limits} {tsdf : VLayer (TsdfVoxel ℚ)}

/-- What a batch update is run with: quasi-Euclidean distances, a band of positive width, a default distance that is not
below the maximum. -/
structure QuasiBatch (cfg : Config) : Prop where
  quasi : cfg.fullEuclidean = false
  band : 0 < cfg.minDistance
  default : 0 < cfg.defaultDistance
  max : cfg.maxDistance ≤ cfg.defaultDistance

/-! ### C91 -/

/-- **C91.** After a batch update in quasi-Euclidean mode from a TSDF in which no voxel off the band touches the other
side, band voxels hold the TSDF distance, and every other known voxel is on its side and holds the default distance or
the length of a path on its side that starts in the band. No path with `min_diff_m` added to every step is shorter. -/
theorem C91_batch (F : CopyFits A cfg L) (Q : QuasiBatch cfg) (sep : Separated (viewOf cfg) tsdf) {s : State} (h : Ready A L [] s)
    (hr : s.raise = []) (T : TsdfFits A cfg L s.layer.cfg.vps tsdf) (set : List Idx → List Idx) :
    ∃ N s', (∀ fuel, N ≤ fuel → updateBatch A cfg fuel set tsdf s = .ok (some s')) ∧
      (∀ g t, InBand (viewOf cfg) tsdf g t → ∃ y, content s'.layer g = some y ∧ y.distance = t ∧ y.observed = true ∧ y.fixed = true) ∧
      ∀ out g, FreeOn (viewOf cfg) tsdf out g → ∃ y, content s'.layer g = some y ∧ y.observed = true ∧ y.fixed = false ∧
        OnSide out y.distance ∧ |y.distance| ≤ cfg.defaultDistance ∧
        (|y.distance| = cfg.defaultDistance ∨
          SurfacePath A.rnd s.layer.cfg.voxelSize cfg.maxDistance 0 (viewOf cfg) tsdf out g |y.distance|) ∧
        ∀ x, SurfacePath A.rnd s.layer.cfg.voxelSize cfg.maxDistance cfg.minDiff (viewOf cfg) tsdf out g x → |y.distance| ≤ x := by
  obtain ⟨N, s', a1, -, a3⟩ := updateBatch_inv F Q.quasi Q.band Q.default Q.max sep h hr T set
  refine ⟨N, s', a1, ?_, ?_⟩
  · intro g t ht
    obtain ⟨q, hq⟩ := a3.band g t ht
    exact ⟨_, hq, rfl, rfl, rfl⟩
  · intro out g hg
    obtain ⟨d, hh, q, p, b1, b2, b3, b4⟩ := a3.free out g hg
    refine ⟨_, b1, rfl, rfl, b2, b3, b4.imp (·.1) (·.1), ?_⟩
    intro x hx
    obtain ⟨v, v1, -, v3⟩ := a3.le_path F.toFits hx
    rw [b1] at v1
    injection v1 with v1
    rw [← v1] at v3
    exact v3

/-- **C91 (exact).** With `min_diff_m` zero, the magnitude of every known voxel off the band is the least of the default
distance and the lengths of the paths on its side from the band. -/
theorem C91_exact (F : CopyFits A cfg L) (Q : QuasiBatch cfg) (hm : cfg.minDiff = 0) (sep : Separated (viewOf cfg) tsdf) {s : State}
    (h : Ready A L [] s) (hr : s.raise = []) (T : TsdfFits A cfg L s.layer.cfg.vps tsdf) (set : List Idx → List Idx) :
    ∃ N s', (∀ fuel, N ≤ fuel → updateBatch A cfg fuel set tsdf s = .ok (some s')) ∧
      ∀ out g, FreeOn (viewOf cfg) tsdf out g → ∃ y, content s'.layer g = some y ∧ OnSide out y.distance ∧
        IsLeast {x | x = cfg.defaultDistance ∨
          SurfacePath A.rnd s.layer.cfg.voxelSize cfg.maxDistance 0 (viewOf cfg) tsdf out g x} |y.distance| := by
  obtain ⟨N, s', a1, -, a3⟩ := C91_batch F Q sep h hr T set
  refine ⟨N, s', a1, fun out g hg => ?_⟩
  obtain ⟨y, y1, -, -, y4, y5, y6, y7⟩ := a3 out g hg
  refine ⟨y, y1, y4, y6, ?_⟩
  rintro x (rfl | hx)
  · exact y5
  · exact y7 x (by rw [hm]; exact hx)

/-- **C91 (parents).** After such an update the parent of a voxel off the band that does not hold the default distance is a
neighbour on the same side, in the band or off it, and the distance is at least that of the parent plus the step. -/
theorem C91_parents (F : CopyFits A cfg L) (Q : QuasiBatch cfg) (sep : Separated (viewOf cfg) tsdf) {s : State} (h : Ready A L [] s)
    (hr : s.raise = []) (T : TsdfFits A cfg L s.layer.cfg.vps tsdf) (set : List Idx → List Idx) :
    ∃ N s', (∀ fuel, N ≤ fuel → updateBatch A cfg fuel set tsdf s = .ok (some s')) ∧
      ∀ out g, FreeOn (viewOf cfg) tsdf out g → ∃ y, content s'.layer g = some y ∧
        ((|y.distance| = cfg.defaultDistance ∧ y.parent = 0) ∨ (IsNeighborOffset y.parent ∧
          (FreeOn (viewOf cfg) tsdf out (g + y.parent) ∨ ∃ t, InBand (viewOf cfg) tsdf (g + y.parent) t ∧ OnSide out t) ∧
          ∃ w, content s'.layer (g + y.parent) = some w ∧
            A.rnd (|w.distance| + A.rnd (unitLength y.parent * s.layer.cfg.voxelSize)) ≤ |y.distance|)) := by
  obtain ⟨N, s', a1, -, a3⟩ := updateBatch_inv F Q.quasi Q.band Q.default Q.max sep h hr T set
  refine ⟨N, s', a1, fun out g hg => ?_⟩
  obtain ⟨d, hh, q, p, b1, -, -, b4⟩ := a3.free out g hg
  exact ⟨_, b1, b4.imp id fun h => ⟨h.2.1, h.2.2.1, h.2.2.2⟩⟩

/-- **C91 (smooth fields).** Without a crust, no voxel off the band touches the other side if the distances of neighbouring
observed voxels differ by less than the width of the band. -/
theorem C91_smooth {V : SurfaceView} (hc : V.crust = false)
    (hs : ∀ g d τ τ', IsNeighborOffset d → content tsdf g = some τ → content tsdf (g + d) = some τ' → V.minWeight ≤ τ.weight →
      V.minWeight ≤ τ'.weight → |τ.distance - τ'.distance| < V.width) : Separated V tsdf := by
  rintro out g d hd (⟨τ', b1, b2, b3, b4⟩ | ⟨-, h, -⟩)
  swap
  · rw [hc] at h; cases h
  refine ⟨?_, ?_⟩
  · rintro (⟨τ, a1, a2, a3, a4⟩ | ⟨-, h, -⟩)
    · have := hs g d τ τ' hd a1 b1 a2 b2
      rw [abs_lt] at this
      cases out
      · have h1 : 0 < τ.distance := a4
        have h2 : τ'.distance ≤ 0 := b4
        rw [abs_of_nonpos h2] at b3
        rw [abs_of_pos h1] at a3
        linarith [this.2]
      · have h1 : τ.distance ≤ 0 := a4
        have h2 : 0 < τ'.distance := b4
        rw [abs_of_pos h2] at b3
        rw [abs_of_nonpos h1] at a3
        linarith [this.1]
    · rw [hc] at h; cases h
  · rintro t ⟨τ, a1, a2, rfl, a4⟩
    have := hs g d τ τ' hd a1 b1 a2 b2
    rw [abs_lt] at this
    cases out
    · have h2 : τ'.distance ≤ 0 := b4
      rw [abs_of_nonpos h2] at b3
      show τ.distance ≤ 0
      linarith [this.2]
    · have h2 : 0 < τ'.distance := b4
      rw [abs_of_pos h2] at b3
      show 0 < τ.distance
      linarith [this.1]

/-! ### Examples -/

/-- Voxels of a layer with one voxel per block. -/
def cells (l : VLayer (TsdfVoxel ℚ)) : List (Idx × TsdfVoxel ℚ) := l.blocks.flatMap fun e => e.2.voxels.map fun t => (e.1, t)

theorem unit_content {l : VLayer (TsdfVoxel ℚ)} (hl : l.cfg.vps = 1) {g : Idx} {t : TsdfVoxel ℚ} (h : content l g = some t) :
    (g, t) ∈ cells l := by
  unfold content at h
  have hone : g.map (· / ((1 : ℕ) : ℤ)) = g := by ext <;> simp
  rw [hl, hone] at h
  obtain ⟨b, h1, h2⟩ := Option.bind_eq_some_iff.1 h
  have hm : (g, b) ∈ l.blocks := by
    obtain ⟨l1, l2, h3, -⟩ := List.lookup_eq_some_iff.1 h1
    rw [h3]; simp
  exact List.mem_flatMap.2 ⟨_, hm, List.mem_map.2 ⟨t, List.mem_of_getElem? h2, rfl⟩⟩

theorem unit_fits {l : VLayer (TsdfVoxel ℚ)} (hl : l.cfg = unitCfg)
    (hb : ∀ e ∈ l.blocks, e.2.vps = 1 ∧ e.2.voxelSize = 1 ∧ e.2.origin = ⟨e.1.x * (1 * 1), e.1.y * (1 * 1), e.1.z * (1 * 1)⟩ ∧ e.2.voxels.length = 1)
    (hv : ∀ e ∈ cells l, e.1.All (fun c => |c| < 2 ^ 24) ∧ fixedPoint.rnd e.2.distance = e.2.distance ∧ |e.2.distance| ≤ sampleLimits.B) :
    TsdfFits fixedPoint cfg sampleLimits unitCfg.vps l := by
  have hmem : ∀ i b, l.blocks.lookup i = some b → (i, b) ∈ l.blocks := by
    intro i b h
    obtain ⟨l1, l2, h1, -⟩ := List.lookup_eq_some_iff.1 h
    rw [h1]; simp
  refine ⟨⟨by rw [hl]; norm_num [unitCfg], by rw [hl]; norm_num [unitCfg], by rw [hl]; norm_num [unitCfg], ?_⟩, by rw [hl], ?_, ?_⟩
  · intro i b h
    obtain ⟨h1, h2, h3, h4⟩ := hb _ (hmem i b h)
    rw [hl]
    refine ⟨h1, h2, ?_, h4⟩
    rw [h3]
    simp [unitCfg]
  · intro g h
    obtain ⟨t, ht⟩ := Option.isSome_iff_exists.1 h
    exact (hv _ (unit_content (by rw [hl]; rfl) ht)).1
  · intro g t h _
    exact (hv _ (unit_content (by rw [hl]; rfl) h)).2

/-- A wall seen from both sides. -/
def wallTsdf : VLayer (TsdfVoxel ℚ) :=
  ⟨unitCfg, [tsdfCell ⟨-2, 0, 0⟩ (-1) 1 Flags.setAll, tsdfCell ⟨-1, 0, 0⟩ (-1 / 4) 1 Flags.setAll, tsdfCell ⟨0, 0, 0⟩ (1 / 2) 1 Flags.setAll,
    tsdfCell ⟨1, 0, 0⟩ (5 / 4) 1 Flags.setAll, tsdfCell ⟨2, 0, 0⟩ 2 1 Flags.setAll]⟩

theorem wall_fits : TsdfFits fixedPoint sampleCfg sampleLimits unitCfg.vps wallTsdf :=
  unit_fits rfl (by decide +kernel) (by decide +kernel)

theorem wall_separated : Separated (viewOf sampleCfg) wallTsdf := by
  refine C91_smooth rfl ?_
  intro g d τ τ' hd h1 h2 _ _
  have key : ∀ e ∈ cells wallTsdf, ∀ e' ∈ cells wallTsdf, |e.1.x - e'.1.x| ≤ 1 → |e.2.distance - e'.2.distance| < 1 := by decide +kernel
  have hw : (viewOf sampleCfg).width = 1 := rfl
  have m1 := unit_content (l := wallTsdf) rfl h1
  have m2 := unit_content (l := wallTsdf) rfl h2
  have k := key (g, τ) m1 (g + d, τ') m2
  rw [hw]
  refine k ?_
  obtain ⟨⟨⟨a1, a2⟩, -, -⟩, -⟩ := hd
  show |g.x - (g.x + d.x)| ≤ 1
  rw [abs_le]
  constructor <;> linarith

theorem sample_quasi : QuasiBatch sampleCfg := ⟨rfl, by norm_num [sampleCfg], by norm_num [sampleCfg], by norm_num [sampleCfg]⟩

theorem sample_ready : Ready fixedPoint sampleLimits [] (init sampleCfg ⟨unitCfg, []⟩) :=
  ready_init (by norm_num [unitCfg]) ⟨0, by norm_num, rfl⟩ rfl rfl (by norm_num [sampleLimits]) (by norm_num [sampleLimits])
    (by norm_num [sampleLimits])

example : ∃ N s', (∀ fuel, N ≤ fuel → updateBatch fixedPoint sampleCfg fuel id wallTsdf (init sampleCfg ⟨unitCfg, []⟩) = .ok (some s')) ∧
    ∃ y, content s'.layer ⟨1, 0, 0⟩ = some y ∧ 0 < y.distance := by
  obtain ⟨N, s', h1, -, h3⟩ := C91_batch sample_fits sample_quasi wall_separated sample_ready rfl wall_fits id
  obtain ⟨y, y1, -, -, y4, -⟩ := h3 true ⟨1, 0, 0⟩ (Or.inl ⟨⟨5 / 4, 1, ⟨0, 0, 0, 0⟩⟩, by decide +kernel, by decide +kernel, by decide +kernel, by
    show (0 : ℚ) < 5 / 4
    norm_num⟩)
  exact ⟨N, s', h1, y, y1, y4⟩

/-- The sample configuration with a minimal difference of zero. -/
def exactCfg : Config := ⟨false, 4, 1, 4, 0, 1 / 8, 3, false, false, 1, 2⟩

theorem exact_fits : CopyFits fixedPoint exactCfg sampleLimits where
  R := fixedPoint_rounding
  minDiff := by norm_num [exactCfg]
  default_rep := by unfold Rep; decide +kernel
  default_nonneg := by norm_num [exactCfg]
  default_le := by norm_num [exactCfg, sampleLimits]
  mx_pos := by norm_num [sampleLimits]
  n_pos := by norm_num [sampleLimits]
  buckets := by norm_num [sampleLimits]
  near := by decide +kernel

example : CopyFits fixedPoint exactCfg sampleLimits ∧ QuasiBatch exactCfg ∧ exactCfg.minDiff = 0 ∧ Separated (viewOf exactCfg) wallTsdf ∧
    (match updateBatch fixedPoint exactCfg 30 id wallTsdf (init exactCfg ⟨unitCfg, []⟩) with
      | .ok (some s) => decide ((content s.layer ⟨1, 0, 0⟩).map (·.distance) = some (3 / 2) ∧ (content s.layer ⟨2, 0, 0⟩).map (·.distance) = some (5 / 2) ∧
          (content s.layer ⟨-2, 0, 0⟩).map (·.distance) = some (-5 / 4) ∧ (content s.layer ⟨2, 0, 0⟩).map (·.parent) = some ⟨-1, 0, 0⟩)
      | _ => false) = true :=
  ⟨exact_fits, ⟨rfl, by norm_num [exactCfg], by norm_num [exactCfg], by norm_num [exactCfg]⟩, rfl, wall_separated, by decide +kernel⟩

/-- A voxel deep inside beside a band voxel of the outside and one of the inside. -/
def jumpTsdf : VLayer (TsdfVoxel ℚ) :=
  ⟨unitCfg, [tsdfCell ⟨0, 0, 0⟩ (1 / 2) 1 Flags.setAll, tsdfCell ⟨1, 0, 0⟩ (-2) 1 Flags.setAll, tsdfCell ⟨2, 0, 0⟩ (-1 / 4) 1 Flags.setAll]⟩

theorem jump_fits : TsdfFits fixedPoint exactCfg sampleLimits unitCfg.vps jumpTsdf :=
  unit_fits rfl (by decide +kernel) (by decide +kernel)

theorem jump_paths {g : Idx} {x : ℚ} (h : SurfacePath fixedPoint.rnd 1 4 0 (viewOf exactCfg) jumpTsdf false g x) :
    (g = ⟨2, 0, 0⟩ ∧ x = 1 / 4) ∨ (g = ⟨1, 0, 0⟩ ∧ x = 5 / 4) := by
  have hband : ∀ e ∈ cells jumpTsdf, |e.2.distance| < 1 → e.2.distance ≤ 0 → e.1 = ⟨2, 0, 0⟩ ∧ |e.2.distance| = 1 / 4 := by decide +kernel
  have hfree : ∀ e ∈ cells jumpTsdf, 1 ≤ |e.2.distance| → e.1 = ⟨1, 0, 0⟩ := by decide +kernel
  have hcell : ∀ {g τ}, content jumpTsdf g = some τ → (g, τ) ∈ cells jumpTsdf := fun h => unit_content rfl h
  induction h with
  | start hb ho =>
    obtain ⟨τ, h1, -, rfl, h4⟩ := hb
    exact Or.inl (hband (_, τ) (hcell h1) h4 ho)
  | @step g d x _ _ hd hf ih =>
    have hg : g + d = ⟨1, 0, 0⟩ := by
      rcases hf with ⟨τ, h1, -, h3, -⟩ | ⟨-, h, -⟩
      · exact hfree (_, τ) (hcell h1) h3
      · cases h
    rcases ih with ⟨rfl, rfl⟩ | ⟨rfl, rfl⟩
    · refine Or.inr ⟨hg, ?_⟩
      have : d = ⟨-1, 0, 0⟩ := by
        have hx := congrArg Vec3.x hg
        have hy := congrArg Vec3.y hg
        have hz := congrArg Vec3.z hg
        simp only [Vec3.add_x, Vec3.add_y, Vec3.add_z] at hx hy hz
        ext
        · show d.x = -1; omega
        · show d.y = 0; omega
        · show d.z = 0; omega
      rw [this]
      decide +kernel
    · exact absurd hg (neighbor_ne hd)

/-- **C91 fails across a jump**: where a voxel deep inside touches a band voxel of the outside, its distance is set to minus
the length of the step, 1, although the only path on its side has length 5/4. -/
theorem C91_jump_violated :
    ∃ s', updateBatch fixedPoint exactCfg 30 id jumpTsdf (init exactCfg ⟨unitCfg, []⟩) = .ok (some s') ∧
      FreeOn (viewOf exactCfg) jumpTsdf false ⟨1, 0, 0⟩ ∧
      (∃ y, content s'.layer ⟨1, 0, 0⟩ = some y ∧ y.distance = -1) ∧ exactCfg.defaultDistance = 4 ∧
      SurfacePath fixedPoint.rnd 1 4 0 (viewOf exactCfg) jumpTsdf false ⟨1, 0, 0⟩ (5 / 4) ∧
      ∀ x, SurfacePath fixedPoint.rnd 1 4 0 (viewOf exactCfg) jumpTsdf false ⟨1, 0, 0⟩ x → x = 5 / 4 := by
  have hrun : (match updateBatch fixedPoint exactCfg 30 id jumpTsdf (init exactCfg ⟨unitCfg, []⟩) with
    | .ok (some s) => (content s.layer ⟨1, 0, 0⟩).map (·.distance)
    | _ => none) = some (-1) := by decide +kernel
  have hfree : FreeOn (viewOf exactCfg) jumpTsdf false ⟨1, 0, 0⟩ :=
    Or.inl ⟨⟨-2, 1, ⟨0, 0, 0, 0⟩⟩, by decide +kernel, by decide +kernel, by decide +kernel, by
      show (-2 : ℚ) ≤ 0
      norm_num⟩
  split at hrun
  · rename_i s e
    obtain ⟨y, y1, y2⟩ := Option.map_eq_some_iff.1 hrun
    refine ⟨s, e, hfree, ⟨y, y1, y2⟩, rfl, ?_, ?_⟩
    · have h0 : SurfacePath fixedPoint.rnd 1 4 0 (viewOf exactCfg) jumpTsdf false ⟨2, 0, 0⟩ |(-1 / 4)| :=
        .start ⟨⟨-1 / 4, 1, ⟨0, 0, 0, 0⟩⟩, by decide +kernel, by decide +kernel, rfl, by decide +kernel⟩ (by
          show (-1 / 4 : ℚ) ≤ 0
          norm_num)
      have e0 : (⟨2, 0, 0⟩ : Idx) + ⟨-1, 0, 0⟩ = ⟨1, 0, 0⟩ := by decide +kernel
      have h1 := SurfacePath.step h0 (by norm_num [abs_of_neg]) (d := ⟨-1, 0, 0⟩) (by unfold IsNeighborOffset; decide +kernel) (e0 ▸ hfree)
      rw [e0] at h1
      have e1 : fixedPoint.rnd (fixedPoint.rnd (|(-1 / 4)| + fixedPoint.rnd (unitLength ⟨-1, 0, 0⟩ * 1)) + 0) = 5 / 4 := by decide +kernel
      rw [e1] at h1
      exact h1
    · intro x hx
      rcases jump_paths hx with ⟨h, -⟩ | ⟨-, h⟩
      · cases h
      · exact h
  · cases hrun

/-! ### C92 -/

theorem path_pos {size : ℚ} (F : Fits A cfg L) (hs : 0 ≤ size) (hpos : 0 < A.rnd size) {out : Bool} {g : Idx} {x : ℚ}
    (h : SurfacePath A.rnd size cfg.maxDistance 0 (viewOf cfg) tsdf out g x) :
    0 ≤ x ∧ (FreeOn (viewOf cfg) tsdf out g → 0 < x) := by
  induction h with
  | start hb _ =>
    refine ⟨abs_nonneg _, ?_⟩
    obtain ⟨τ, h1, h2, rfl, h4⟩ := hb
    rintro (⟨τ', a1, -, a3, -⟩ | ⟨-, -, τ', a1, a2⟩)
    · rw [h1] at a1
      injection a1 with a1
      subst a1
      exact absurd h4 (not_lt.2 a3)
    · rw [h1] at a1
      injection a1 with a1
      subst a1
      exact absurd a2 (not_lt.2 h2)
  | @step g d x _ _ hd hf ih =>
    have h1 : 1 ≤ unitLength d := by
      unfold unitLength
      split_ifs <;> norm_num
    have h2 : 0 < A.rnd (unitLength d * size) := lt_of_lt_of_le hpos (F.R.mono _ _ (by nlinarith))
    have h3 : 0 < A.rnd (x + A.rnd (unitLength d * size)) :=
      lt_of_lt_of_le h2 (F.R.ge_of_ge (by linarith [ih.1]) (F.R.rep _))
    rw [add_zero, F.R.idem]
    exact ⟨h3.le, fun _ => h3⟩

/-- **C92 (partial).** The property is that an incremental update leaves the distances a batch update gives. Shown here for a TSDF
that did not change; for changes see the theorems below. After a batch update in quasi-Euclidean mode from a TSDF without jumps, an incremental update from the same
TSDF, with any update flags, changes no voxel. -/
theorem C92_unchanged_partial (F : CopyFits A cfg L) (Q : QuasiBatch cfg) (sep : Separated (viewOf cfg) tsdf) {s : State} (h : Ready A L [] s)
    (hr : s.raise = []) (hpos : 0 < A.rnd s.layer.cfg.voxelSize) (T : TsdfFits A cfg L s.layer.cfg.vps tsdf)
    (set set' : List Idx → List Idx) (clear : Bool) :
    ∃ N s', (∀ fuel, N ≤ fuel → updateBatch A cfg fuel set tsdf s = .ok (some s')) ∧
      ∀ fuel, ∃ s'' tsdf', updateIncremental A cfg (fuel + 1) set' clear tsdf s' = .ok (some (s'', tsdf')) ∧
        ∀ g, content s''.layer g = content s'.layer g := by
  obtain ⟨N1, s1, a1, a2, a3⟩ := updateBatch_inv F Q.quasi Q.band Q.default Q.max sep h hr T set
  obtain ⟨N2, s2, b1, b2⟩ := C44_batch F h hr T set
  have h' : Ready A L [] { s with layer := { s.layer with blocks := [] }, updated := [] } := by
    obtain ⟨S, G, -⟩ := h
    refine ⟨∅, ⟨⟨G.wf.size_pos, G.wf.side_pos, G.wf.side_le, by simp⟩, G.power, ?_, by simp, ?_, G.queue, by simp⟩, by simp [hr]⟩
    · intro g; simp [content]
    · intro g v hv; simp [content] at hv
  obtain ⟨N3, s3, c, c1, c2, c3, c4, -⟩ := updateFromTsdfBlocks_ok F (tsdf := tsdf) false (fun _ _ _ => True) (fun _ _ _ _ => trivial)
    (fun _ _ _ _ _ _ => trivial) (tsdf.blocks.map (·.1) ++ set s.updated) h' T
  have e1 := a1 (max N1 (max N2 N3)) (by omega)
  have e2 := b1 (max N1 (max N2 N3)) (by omega)
  have e3 := c1 (max N1 (max N2 N3)) (by omega)
  have e12 : s2 = s1 := Option.some.inj (Outcome.ok.inj (e2.symm.trans e1))
  have e13 : s3 = s1 := Option.some.inj (Outcome.ok.inj (e3.symm.trans e1))
  subst e12 e13
  refine ⟨N1, s3, a1, fun fuel => ?_⟩
  have hs : 0 ≤ s.layer.cfg.voxelSize := by
    obtain ⟨S, G, -⟩ := h
    exact G.wf.size_pos.le
  have hcfg : s3.layer.cfg = s.layer.cfg := c4.cfg
  refine updateIncremental_same F c2 c3 (by rw [hcfg]; exact T) ?_ set' clear fuel
  intro g τ hτ
  obtain ⟨y, y1, y2⟩ := (b2 g).2 τ hτ
  refine ⟨y, y1, fun hw => ?_⟩
  obtain ⟨o1, o2, o3⟩ := y2.observed (not_lt.1 hw)
  refine ⟨o1, o2, ?_⟩
  unfold seed
  rw [if_neg (by simp [o1, o2])]
  by_cases hb : |τ.distance| < cfg.minDistance
  · have hf : isFixed cfg τ.distance = true := by unfold isFixed; simpa using hb
    have hrep := (T.vals g τ hτ hf).1
    have ed := y2.band (not_lt.1 hw) hb
    have r1 : τ.distance ≤ A.rnd (τ.distance + cfg.minDiff) := F.R.ge_of_ge (by linarith [F.minDiff]) hrep
    have r2 : A.rnd (τ.distance - cfg.minDiff) ≤ τ.distance := F.R.le_of_le (by linarith [F.minDiff]) hrep
    unfold seedOld
    rw [if_pos (by simp [hf]), if_neg (by simp [hf]), if_neg (by rintro (⟨-, h⟩ | ⟨-, h⟩) <;> rw [ed] at h <;> linarith),
      if_neg (by rintro (⟨-, h⟩ | ⟨-, h⟩) <;> rw [ed] at h <;> linarith)]
  · have hf : isFixed cfg τ.distance = false := by unfold isFixed; simpa using hb
    have hfx : y.fixed = false := by
      by_contra hne
      exact hb (o3.1 (by simpa using hne))
    have h0 : τ.distance ≠ 0 := by
      intro e
      rw [e, abs_zero] at hb
      exact hb Q.band
    have hside : ∀ out, OnSide out τ.distance → OnSide out y.distance ∧ y.distance ≠ 0 := by
      intro out ho
      have hfree : FreeOn (viewOf cfg) tsdf out g := Or.inl ⟨τ, hτ, not_lt.1 hw, not_lt.1 hb, ho⟩
      obtain ⟨d, hh, q, p, d1, d2, d3, d4⟩ := a3.free out g hfree
      rw [y1] at d1
      injection d1 with d1
      have ed : y.distance = d := by rw [d1]
      rw [ed]
      refine ⟨d2, fun e0 => ?_⟩
      rcases d4 with ⟨d4, -⟩ | ⟨d4, -⟩
      · rw [e0, abs_zero] at d4
        exact absurd Q.default (by rw [← d4]; exact lt_irrefl _)
      · have := (path_pos F.toFits hs hpos d4).2 hfree
        rw [e0, abs_zero] at this
        exact lt_irrefl _ this
    have hsg : signum τ.distance = signum y.distance := by
      rcases lt_or_gt_of_ne h0 with hlt | hgt
      · obtain ⟨k1, k2⟩ := hside false hlt.le
        rw [signum_neg hlt, signum_neg (lt_of_le_of_ne k1 k2)]
      · obtain ⟨k1, -⟩ := hside true hgt
        rw [signum_pos hgt, signum_pos k1]
    unfold seedOld
    rw [if_neg (by simp [hf, hfx]), if_neg (by simp [hsg])]

example : 0 < fixedPoint.rnd (init sampleCfg ⟨unitCfg, []⟩).layer.cfg.voxelSize ∧ QuasiBatch sampleCfg ∧ Separated (viewOf sampleCfg) wallTsdf ∧
    esdfUpdated wallTsdf = [⟨-2, 0, 0⟩, ⟨-1, 0, 0⟩, ⟨0, 0, 0⟩, ⟨1, 0, 0⟩, ⟨2, 0, 0⟩] :=
  ⟨by decide +kernel, sample_quasi, wall_separated, by decide +kernel⟩

/-- A free voxel between two band voxels; the distance of the second may change. -/
def gapTsdf (t : ℚ) : VLayer (TsdfVoxel ℚ) :=
  ⟨unitCfg, [tsdfCell ⟨0, 0, 0⟩ (1 / 2) 1 Flags.setAll, tsdfCell ⟨1, 0, 0⟩ 2 1 Flags.setAll, tsdfCell ⟨2, 0, 0⟩ t 1 Flags.setAll]⟩

/-- A batch update from `gapTsdf (1 / 4)`, then an incremental update from `gapTsdf 2`. -/
def gapUpdates : Outcome (Option (State × VLayer (TsdfVoxel ℚ))) := do
  let r ← updateBatch fixedPoint sampleCfg 30 id (gapTsdf (1 / 4)) (init sampleCfg ⟨unitCfg, []⟩)
  match r with
  | none => pure none
  | some s => updateIncremental fixedPoint sampleCfg 30 id true (gapTsdf 2) s

/-- **C92 fails when the TSDF changes**: raising does not look at fixed neighbours, so a voxel whose nearest band voxel left the band
stays at the default distance 4, although the other band voxel is a step away and a batch update gives 3/2. -/
theorem C92_raise_violated :
    (∃ s t y, gapUpdates = .ok (some (s, t)) ∧ content s.layer ⟨1, 0, 0⟩ = some y ∧ y.distance = 4 ∧ y.observed = true) ∧
    (∃ s y, updateBatch fixedPoint sampleCfg 30 id (gapTsdf 2) (init sampleCfg ⟨unitCfg, []⟩) = .ok (some s) ∧
      content s.layer ⟨1, 0, 0⟩ = some y ∧ y.distance = 3 / 2 ∧ y.observed = true) := by
  have h1 : (match gapUpdates with
    | .ok (some (s, _)) => (content s.layer ⟨1, 0, 0⟩).map fun y => (y.distance, y.observed)
    | _ => none) = some (4, true) := by decide +kernel
  have h2 : (match updateBatch fixedPoint sampleCfg 30 id (gapTsdf 2) (init sampleCfg ⟨unitCfg, []⟩) with
    | .ok (some s) => (content s.layer ⟨1, 0, 0⟩).map fun y => (y.distance, y.observed)
    | _ => none) = some (3 / 2, true) := by decide +kernel
  constructor
  · split at h1
    · rename_i s t e
      obtain ⟨y, y1, y2⟩ := Option.map_eq_some_iff.1 h1
      simp only [Prod.mk.injEq] at y2
      exact ⟨s, t, y, e, y1, y2.1, y2.2⟩
    · cases h1
  · split at h2
    · rename_i s e
      obtain ⟨y, y1, y2⟩ := Option.map_eq_some_iff.1 h2
      simp only [Prod.mk.injEq] at y2
      exact ⟨s, y, e, y1, y2.1, y2.2⟩
    · cases h2

/-- Blocks of one voxel of half a metre. -/
def halfRow (l : List (ℤ × ℚ)) : VLayer (TsdfVoxel ℚ) :=
  ⟨⟨1 / 2, 1⟩, l.map fun e => (⟨e.1, 0, 0⟩, ⟨1, 1 / 2, originPoint ⟨e.1, 0, 0⟩ (1 / 2), false, Flags.setAll, [⟨e.2, 1, ⟨0, 0, 0, 0⟩⟩]⟩)⟩

/-- Blocks of one voxel of one metre. -/
def rowTsdf (l : List (ℤ × ℚ)) : VLayer (TsdfVoxel ℚ) :=
  ⟨unitCfg, l.map fun e => tsdfCell ⟨e.1, 0, 0⟩ e.2 1 Flags.setAll⟩

/-- A batch update from the first TSDF, then an incremental update from the second: the distance of the voxel `g`, if it is observed. -/
def grownDistance (t t' : VLayer (TsdfVoxel ℚ)) (g : Idx) : Outcome (Option ℚ) := do
  let r ← updateBatch fixedPoint sampleCfg 30 id t (init sampleCfg ⟨t.cfg, []⟩)
  match r with
  | none => pure none
  | some s => do
    let r' ← updateIncremental fixedPoint sampleCfg 30 id true t' s
    match r' with
    | none => pure none
    | some (s', _) => pure (((content s'.layer g).filter (·.observed)).map (·.distance))

/-- A batch update: the distance of the voxel `g`, if it is observed. -/
def batchDistance (t : VLayer (TsdfVoxel ℚ)) (g : Idx) : Outcome (Option ℚ) := do
  let r ← updateBatch fixedPoint sampleCfg 30 id t (init sampleCfg ⟨t.cfg, []⟩)
  match r with
  | none => pure none
  | some s => pure (((content s.layer g).filter (·.observed)).map (·.distance))

/-- **C92 fails when the TSDF grows**: the distance a new voxel takes from a neighbour is not scaled by the voxel size
(esdf_integrator.cc:508, 522-523). A new voxel half a metre beside a band voxel at 1/4 gets 5/4; a batch update gives 3/4. Nothing that
the TSDF held before changed. -/
theorem C92_step_violated :
    grownDistance (halfRow [(0, 1 / 4)]) (halfRow [(0, 1 / 4), (1, 2)]) ⟨1, 0, 0⟩ = .ok (some (5 / 4)) ∧
      batchDistance (halfRow [(0, 1 / 4), (1, 2)]) ⟨1, 0, 0⟩ = .ok (some (3 / 4)) := by
  decide +kernel

/-- **C92 fails when the TSDF grows, with voxels of one metre too**: a new voxel takes the distance of the first neighbour that has
one and never looks at a nearer one (esdf_integrator.cc:506-527). The new voxel at 0 is a step from the band voxel at 1 but counts its distance from the
voxel at -1. -/
theorem C92_first_neighbor_violated :
    grownDistance (rowTsdf [(-3, 1 / 2), (-2, 2), (-1, 2), (1, 1 / 2)]) (rowTsdf [(-3, 1 / 2), (-2, 2), (-1, 2), (0, 2), (1, 1 / 2)]) 0 =
        .ok (some (7 / 2)) ∧
      batchDistance (rowTsdf [(-3, 1 / 2), (-2, 2), (-1, 2), (0, 2), (1, 1 / 2)]) 0 = .ok (some (3 / 2)) := by
  decide +kernel

end Vox.Esdf
