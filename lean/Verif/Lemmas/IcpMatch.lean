/-
Matching points with a TSDF layer: what the distance and gradient queries return.
-/
import Verif.Lemmas.Icp
import Verif.Props.Interp

namespace Vox.Icp

open Geo Layer Grid Spec Interp

/-- The distance stored in voxel `g` if the voxel exists and is observed. -/
def seenDistance (l : VLayer (TsdfVoxel ℚ)) (g : Idx) : Option ℚ := ((content l g).filter obsTsdf).map (·.distance)

/-- The difference quotient at voxel `g` along an axis, if both neighbours are observed. -/
def quotient (l : VLayer (TsdfVoxel ℚ)) (g : Idx) (i : Fin 3) : Option ℚ :=
  match seenDistance l (g + unitIdx i (-1)), seenDistance l (g + unitIdx i 1) with
  | some n, some p => some ((p - n) / (2 * l.cfg.voxelSize))
  | _, _ => none

/-- The gradient at voxel `g`, if all neighbours are observed. -/
def slope (l : VLayer (TsdfVoxel ℚ)) (g : Idx) : Option Pt :=
  match quotient l g 0, quotient l g 1, quotient l g 2 with
  | some x, some y, some z => some ⟨x, y, z⟩
  | _, _, _ => none

theorem distance_spec {l : VLayer (TsdfVoxel ℚ)} (wf : WellFormed l) {q : Pt} (hq : Addressable l q) {g : Idx} (hg : ClearInVoxel l g q) :
    getDistance l obsTsdf (·.distance) false q = .ok (seenDistance l g) := by
  have e := nearest_spec wf obsTsdf (·.distance) hq
  rw [Interp.gIdx_eq wf hg] at e
  exact e

theorem axis_spec {l : VLayer (TsdfVoxel ℚ)} (wf : WellFormed l) {q : Pt} (hq : Interior l q) {g : Idx} (hg : ClearInVoxel l g q) (i : Fin 3) :
    ∃ r, gradientAxis l obsTsdf (·.distance) false q l.cfg.voxelSize i = .ok r ∧
      r.map (· / (2 * l.cfg.voxelSize)) = quotient l g i := by
  obtain ⟨-, hadd⟩ := addressable_of_interior wf hq
  have hpl := clear_shift hg i 1
  have hmi := clear_shift hg i (-1)
  have e1 : ((1 : ℤ) : ℚ) * l.cfg.voxelSize = l.cfg.voxelSize := by push_cast; ring
  have e2 : ((-1 : ℤ) : ℚ) * l.cfg.voxelSize = -l.cfg.voxelSize := by push_cast; ring
  rw [e1] at hpl
  rw [e2] at hmi
  have dp := distance_spec wf (hadd i).1 hpl
  have dn := distance_spec wf (hadd i).2.1 hmi
  unfold gradientAxis quotient
  rw [dn, Outcome.bind_ok]
  cases h1 : seenDistance l (g + unitIdx i (-1)) with
  | none => exact ⟨none, rfl, rfl⟩
  | some n =>
    simp only [dp, Outcome.bind_ok]
    cases h2 : seenDistance l (g + unitIdx i 1) with
    | none => exact ⟨none, rfl, rfl⟩
    | some p =>
      refine ⟨_, rfl, ?_⟩
      simp only [Option.map_some, Option.some.injEq]
      congr 1
      ring

theorem gradient_spec {l : VLayer (TsdfVoxel ℚ)} (wf : WellFormed l) {q : Pt} (hq : Interior l q) {g : Idx} (hg : ClearInVoxel l g q)
    {d : ℚ} (hd : seenDistance l g = some d) :
    getGradient l obsTsdf (·.distance) false q = .ok (slope l g) := by
  have ha := (addressable_of_interior wf hq).1
  have hb := blockIndexOf_ok wf ha
  have eg : gIdx l q = globalIndex l.cfg.vps (bIdx l q) (vIdx l q) := rfl
  unfold getGradient blockAtCoords
  rw [hb]
  simp only [Outcome.bind_ok, Outcome.pure_eq]
  cases hblk : block? l (bIdx l q) with
  | none =>
    exfalso
    have c := content_none hblk (vIdx_inBlock wf q)
    rw [← eg, Interp.gIdx_eq wf hg] at c
    unfold seenDistance at hd
    rw [c] at hd
    cases hd
  | some b =>
    obtain ⟨-, h2, -, -⟩ := wf.block _ _ hblk
    dsimp only
    rw [h2]
    obtain ⟨r0, e0, q0⟩ := axis_spec wf hq hg 0
    obtain ⟨r1, e1, q1⟩ := axis_spec wf hq hg 1
    obtain ⟨r2, e2, q2⟩ := axis_spec wf hq hg 2
    simp only [e0, e1, e2, Outcome.bind_ok]
    unfold slope
    rw [← q0, ← q1, ← q2]
    cases r0 <;> cases r1 <;> cases r2 <;> rfl

/-- The voxel whose centre is used. -/
theorem voxel_spec {l : VLayer (TsdfVoxel ℚ)} (wf : WellFormed l) {q : Pt} (hq : Addressable l q) {g : Idx} (hg : ClearInVoxel l g q) :
    gridIndex32 q (1 / l.cfg.voxelSize) = .ok g := by
  have hs := wf.size_pos
  have hn : (1 : ℚ) ≤ l.cfg.vps := by exact_mod_cast wf.side_pos
  have ax : ∀ (c : ℤ) (x : ℚ), (c : ℚ) * l.cfg.voxelSize ≤ x → x < ((c : ℚ) + 1 - l.cfg.vps * (1 / 1000000)) * l.cfg.voxelSize →
      -2 ^ 30 * l.cfg.voxelSize ≤ x → x ≤ 2 ^ 30 * l.cfg.voxelSize →
      ⌊x * (1 / l.cfg.voxelSize) + kEpsilon⌋ = c ∧ -2 ^ 31 ≤ c ∧ c < 2 ^ 31 := by
    intro c x h1 h2 h3 h4
    have l1 : (c : ℚ) ≤ x / l.cfg.voxelSize := by rw [le_div_iff₀ hs]; exact h1
    have l2 : x / l.cfg.voxelSize < (c : ℚ) + 1 - l.cfg.vps * (1 / 1000000) := by rw [div_lt_iff₀ hs]; exact h2
    have l3 : -2 ^ 30 ≤ x / l.cfg.voxelSize := by rw [le_div_iff₀ hs]; exact h3
    have l4 : x / l.cfg.voxelSize ≤ 2 ^ 30 := by rw [div_le_iff₀ hs]; exact h4
    refine ⟨?_, ?_, ?_⟩
    · rw [Int.floor_eq_iff, mul_one_div]
      unfold kEpsilon
      constructor <;> linarith
    · have : ((-2 ^ 31 : ℤ) : ℚ) ≤ c := by push_cast; linarith
      exact_mod_cast this
    · have : (c : ℚ) < ((2 ^ 31 : ℤ) : ℚ) := by push_cast; linarith
      exact_mod_cast this
  obtain ⟨⟨x1, x2⟩, ⟨y1, y2⟩, ⟨z1, z2⟩⟩ := hq
  obtain ⟨⟨x3, x4⟩, ⟨y3, y4⟩, ⟨z3, z4⟩⟩ := hg
  obtain ⟨ex, rx⟩ := ax _ _ x3 x4 x1 x2
  obtain ⟨ey, ry⟩ := ax _ _ y3 y4 y1 y2
  obtain ⟨ez, rz⟩ := ax _ _ z3 z4 z1 z2
  have e : gridIndex q (1 / l.cfg.voxelSize) = g := by
    ext
    · exact ex
    · exact ey
    · exact ez
  unfold gridIndex32 toIdx32
  rw [e, if_pos]
  refine ⟨?_, ?_, ?_⟩ <;> unfold IsI32 <;> omega

/-- The match of a point clear of the slivers. -/
theorem matchPoint_spec (sqrt : ℚ → ℚ) {l : VLayer (TsdfVoxel ℚ)} (wf : WellFormed l) {T : Pose ℚ} {p : Pt}
    (hq : Interior l (T.apply p)) {g : Idx} (hg : ClearInVoxel l g (T.apply p)) :
    matchPoint sqrt l T p = .ok (match seenDistance l g, slope l g with
      | some d, some a =>
        if kMinGradMag < Geo.sqNorm a then some (matchOf sqrt l.cfg.voxelSize g (T.apply p) d a) else none
      | _, _ => none) := by
  have ha := (addressable_of_interior wf hq).1
  unfold matchPoint
  simp only [voxel_spec wf ha hg, distance_spec wf ha hg, Outcome.bind_ok]
  cases hd : seenDistance l g with
  | none => rfl
  | some d =>
    simp only [gradient_spec wf hq hg hd, Outcome.bind_ok]
    cases slope l g <;> rfl

end Vox.Icp
