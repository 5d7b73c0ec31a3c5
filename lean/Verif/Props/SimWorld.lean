/-
C71: ground-truth maps of a simulated world.
-/
import Verif.Lemmas.SimWorld
import Mathlib.Tactic.NormNum

namespace Vox.C71

open Layer Grid Spec Sim

variable {V : Type}

/-- Bounds for which no index overflows. -/
def Moderate (l : VLayer V) (p : Pt) : Prop := p.All fun c => -2 ^ 29 * l.cfg.voxelSize ≤ c ∧ c ≤ 2 ^ 29 * l.cfg.voxelSize

/-- What generating a map does to a layer; `good p old new` says that `new` is right at `p` when `old` was there. -/
structure Generated (dflt : V) (good : Pt → V → V → Prop) (lo hi : Pt) (l l' : VLayer V) : Prop where
  cfg : l'.cfg = l.cfg
  wf : WellFormed l'
  inside : ∀ g, InBox lo hi (voxelCenter l.cfg.voxelSize g) → Sampled (l.cfg.voxelSize * l.cfg.vps) lo hi (blockOf l.cfg.vps g) →
    ∃ x, content l' g = some x ∧ good (voxelCenter l.cfg.voxelSize g) ((content l g).getD dflt) x
  outside : ∀ g, ¬ InBox lo hi (voxelCenter l.cfg.voxelSize g) → content l' g = content l g ∨ content l g = none ∧ content l' g = some dflt
  others : ∀ g, ¬ Sampled (l.cfg.voxelSize * l.cfg.vps) lo hi (blockOf l.cfg.vps g) → content l' g = content l g
  allocated : ∀ i, Allocated l' i ↔ Allocated l i ∨ Sampled (l.cfg.voxelSize * l.cfg.vps) lo hi i
  kept : ∀ i st, status l i = some st → status l' i = some st
  new : ∀ i, ¬ Allocated l i → Allocated l' i → status l' i = some (false, Flags.ofBool false)

theorem generated (dflt : V) (set : ℚ → Color → V → V) (hset : ∀ d c x, set d c (set d c x) = set d c x) (w : List Thing) {lo hi : Pt} {M : ℚ}
    (hM : 0 ≤ M) {l : VLayer V} (wf : WellFormed l) (hlo : Moderate l lo) (hhi : Moderate l hi) :
    ∃ l', generateSdf dflt set w lo hi M l = .ok l' ∧ Generated dflt (fun p old new => ∃ d c, new = set d c old ∧
      IsTruncatedDistance w M p d ∧ IsNearestColor w M p c) lo hi l l' := by
  obtain ⟨is, e, hm⟩ := sdf_blocks wf hlo hhi
  obtain ⟨l', e', hc, wf', h1, h2⟩ := sdfSteps_ok dflt set hset w lo hi M is wf
  refine ⟨l', ?_, hc, wf', ?_, ?_, ?_, ?_, ?_, ?_⟩
  · unfold generateSdf; rw [e]; exact e'
  · intro g hg hs
    refine ⟨_, by rw [h1, if_pos ((hm _).2 hs)], ?_⟩
    unfold sdfVoxel
    rw [if_pos ((inBounds_iff _ _ _).2 hg)]
    refine ⟨_, _, rfl, ?_, ?_⟩
    · rcases leastDistance_spec w M (voxelCenter l.cfg.voxelSize g) with ⟨e, h⟩ | ⟨before, o, after, ew, e, h3, h4, h5⟩
      · rw [e]
        simp only
        rw [max_eq_left (by linarith)]
        exact ⟨by linarith, le_rfl, fun o ho => .inl (h o ho), .inl rfl⟩
      · rw [e]
        simp only
        rcases le_total (o.dist (voxelCenter l.cfg.voxelSize g)) (-M) with hle | hle
        · rw [max_eq_right hle]
          refine ⟨le_rfl, by linarith, fun _ _ => .inr rfl, .inr ⟨o, by simp [ew], ?_⟩⟩
          rcases hle.eq_or_lt with h | h
          · exact .inl h.symm
          · exact .inr ⟨rfl, h⟩
        · rw [max_eq_left hle]
          refine ⟨hle, h3.le, fun q hq => .inl ?_, .inr ⟨o, by simp [ew], .inl rfl⟩⟩
          rw [ew] at hq
          rcases List.mem_append.1 hq with hq | hq
          · exact (h4 q hq).le
          · rcases List.mem_cons.1 hq with rfl | hq
            · exact le_rfl
            · exact h5 q hq
    · rcases leastDistance_spec w M (voxelCenter l.cfg.voxelSize g) with ⟨e, h⟩ | ⟨before, o, after, ew, e, h3, h4, h5⟩
      · rw [e]; exact .inl ⟨rfl, h⟩
      · rw [e]; exact .inr ⟨before, o, after, ew, rfl, h3, h4, h5⟩
  · intro g hg
    have hf : inBounds lo hi (voxelCenter l.cfg.voxelSize g) = false := by
      rw [Bool.eq_false_iff]; exact fun h => hg ((inBounds_iff _ _ _).1 h)
    rw [h1]
    split_ifs
    · unfold sdfVoxel
      rw [hf]
      cases hcg : content l g with
      | none => right; exact ⟨rfl, rfl⟩
      | some x => left; rfl
    · left; rfl
  · intro g hg
    rw [h1, if_neg fun h => hg ((hm _).1 h)]
  · intro i
    rw [allocated_iff_status, h2, ← hm]
    split_ifs with hi
    · simp [hi]
    · rw [← allocated_iff_status]; simp [hi]
  · intro i st hst
    rw [h2, hst]
    split_ifs <;> rfl
  · intro i hn ha
    have hst : status l i = none := by
      rw [allocated_iff_status] at hn
      simpa using hn
    rw [allocated_iff_status, h2] at ha
    rw [h2]
    split_ifs at ha ⊢
    · rw [hst]; rfl
    · rw [hst] at ha; cases ha

/-- The TSDF of a world: every voxel within the bounds, if its block is sampled, gets the truncated distance to the nearest object, its
colour and weight one; all other voxels keep their content; no block is removed or loses its status. Full statement: without the condition on
the block; refuted by `C71_missed`. -/
theorem C71_tsdf_partial (w : List Thing) {lo hi : Pt} {M : ℚ} (hM : 0 ≤ M) {l : VLayer (TsdfVoxel ℚ)} (wf : WellFormed l)
    (hlo : Moderate l lo) (hhi : Moderate l hi) :
    ∃ l', generateSdf ⟨0, 0, Color.default⟩ setTsdf w lo hi M l = .ok l' ∧
      Generated ⟨0, 0, Color.default⟩ (fun p _ x => x.weight = 1 ∧ IsTruncatedDistance w M p x.distance ∧ IsNearestColor w M p x.color)
        lo hi l l' := by
  obtain ⟨l', e, h⟩ := generated ⟨0, 0, Color.default⟩ setTsdf (fun _ _ _ => rfl) w hM wf hlo hhi
  refine ⟨l', e, h.cfg, h.wf, ?_, h.outside, h.others, h.allocated, h.kept, h.new⟩
  intro g hg hs
  obtain ⟨x, hx, d, c, rfl, hd, hc⟩ := h.inside g hg hs
  exact ⟨_, hx, rfl, hd, hc⟩

/-- The ESDF of a world: as for the TSDF; the voxels are marked as observed and keep their other marks. -/
theorem C71_esdf_partial (w : List Thing) {lo hi : Pt} {M : ℚ} (hM : 0 ≤ M) {l : VLayer (EsdfVoxel ℚ)} (wf : WellFormed l)
    (hlo : Moderate l lo) (hhi : Moderate l hi) :
    ∃ l', generateSdf ⟨0, false, false, false, false, 0⟩ setEsdf w lo hi M l = .ok l' ∧
      Generated ⟨0, false, false, false, false, 0⟩ (fun p old x => IsTruncatedDistance w M p x.distance ∧
        x = { old with distance := x.distance, observed := true }) lo hi l l' := by
  obtain ⟨l', e, h⟩ := generated ⟨0, false, false, false, false, 0⟩ setEsdf (fun _ _ _ => rfl) w hM wf hlo hhi
  refine ⟨l', e, h.cfg, h.wf, ?_, h.outside, h.others, h.allocated, h.kept, h.new⟩
  intro g hg hs
  obtain ⟨x, hx, d, c, rfl, hd, hc⟩ := h.inside g hg hs
  exact ⟨_, hx, hd, rfl⟩

example : WellFormed (⟨⟨1 / 10, 16⟩, []⟩ : VLayer (TsdfVoxel ℚ)) ∧ Moderate (⟨⟨1 / 10, 16⟩, []⟩ : VLayer (TsdfVoxel ℚ)) ⟨-5, -5, -1⟩ ∧
    Moderate (⟨⟨1 / 10, 16⟩, []⟩ : VLayer (TsdfVoxel ℚ)) ⟨5, 5, 9⟩ := by
  refine ⟨⟨by norm_num, by norm_num, by norm_num, by simp⟩, ?_, ?_⟩ <;> unfold Moderate Vec3.All <;> norm_num

/-- The condition holds for every voxel within the bounds that is, on each axis, at least half a block below the upper bound, or whose axis
has bounds a whole number of blocks apart. -/
theorem C71_reached {s : ℚ} (hs : 0 < s) {n : ℕ} (hn : 0 < n) {lo hi : Pt} {g : Idx} (hg : InBox lo hi (voxelCenter s g))
    (hx : (voxelCenter s g).x ≤ hi.x - s * n / 2 ∨ ∃ k : ℕ, hi.x - lo.x = k * (s * n))
    (hy : (voxelCenter s g).y ≤ hi.y - s * n / 2 ∨ ∃ k : ℕ, hi.y - lo.y = k * (s * n))
    (hz : (voxelCenter s g).z ≤ hi.z - s * n / 2 ∨ ∃ k : ℕ, hi.z - lo.z = k * (s * n)) : Sampled (s * n) lo hi (blockOf n g) := by
  have hn' : (0 : ℤ) < n := by exact_mod_cast hn
  have hB : 0 < s * n := by have : (0 : ℚ) < n := by exact_mod_cast hn
                            positivity
  have ax : ∀ c : ℤ, ((c / (n : ℤ) : ℤ) : ℚ) * (s * n) ≤ (c + 1 / 2) * s ∧ (c + 1 / 2) * s < ((c / (n : ℤ) : ℤ) + 1) * (s * n) := by
    intro c
    have h1 := Int.mul_ediv_add_emod c n
    have h2 := Int.emod_nonneg c hn'.ne'
    have h3 := Int.emod_lt_of_pos c hn'
    have a : (c / (n : ℤ) : ℤ) * (n : ℤ) ≤ c := by rw [mul_comm]; omega
    have b : c + 1 ≤ ((c / (n : ℤ) : ℤ) + 1) * (n : ℤ) := by rw [add_mul, mul_comm (c / (n : ℤ))]; omega
    have a' : ((c / (n : ℤ) : ℤ) : ℚ) * n ≤ c := by exact_mod_cast a
    have b' : (c : ℚ) + 1 ≤ (((c / (n : ℤ) : ℤ) : ℚ) + 1) * n := by exact_mod_cast b
    have a2 := mul_le_mul_of_nonneg_right a' hs.le
    have b2 := mul_le_mul_of_nonneg_right b' hs.le
    constructor <;> linarith
  obtain ⟨⟨x1, x2⟩, ⟨y1, y2⟩, ⟨z1, z2⟩⟩ := hg
  exact ⟨sampled_axis hB (ax g.x).1 (ax g.x).2 x1 (hx.imp id fun h => ⟨x2, h⟩),
    sampled_axis hB (ax g.y).1 (ax g.y).2 y1 (hy.imp id fun h => ⟨y2, h⟩),
    sampled_axis hB (ax g.z).1 (ax g.z).2 z1 (hz.imp id fun h => ⟨z2, h⟩)⟩

example : InBox ⟨-5, -5, -1⟩ ⟨5, 5, 9⟩ (voxelCenter (1 / 10) ⟨30, -50, 3⟩) ∧
    (voxelCenter (1 / 10) ⟨30, -50, 3⟩).x ≤ 5 - 1 / 10 * 16 / 2 ∧ (9 - -1 : ℚ) = (10 : ℕ) * (1 / 10 * (10 : ℕ)) := by
  unfold InBox voxelCenter
  norm_num

/-- A world with nothing in it, an empty map with blocks of one unit and bounds from 2/5 to 53/10 along x. -/
def short : Outcome (VLayer (TsdfVoxel ℚ)) :=
  generateSdf ⟨0, 0, Color.default⟩ setTsdf [] ⟨2 / 5, 2 / 5, 2 / 5⟩ ⟨53 / 10, 4 / 5, 4 / 5⟩ 1 ⟨⟨1 / 2, 2⟩, []⟩

/-- A voxel within the bounds is not written, its block not even allocated, because no sample falls into that block. -/
theorem C71_missed : (∃ l, short = .ok l ∧ content l ⟨9, 1, 1⟩ = some ⟨1, 1, Color.default⟩ ∧ content l ⟨10, 1, 1⟩ = none) ∧
    InBox ⟨2 / 5, 2 / 5, 2 / 5⟩ ⟨53 / 10, 4 / 5, 4 / 5⟩ (voxelCenter (1 / 2) ⟨10, 1, 1⟩) := by
  constructor
  · have h : (match short with
        | .ok l => decide (content l ⟨9, 1, 1⟩ = some ⟨1, 1, Color.default⟩ ∧ content l ⟨10, 1, 1⟩ = none)
        | _ => false) = true := by decide +kernel
    split at h
    · rename_i l e
      exact ⟨l, e, of_decide_eq_true h⟩
    · cases h
  · unfold InBox voxelCenter
    norm_num

/-- A negative truncation distance turns the limits around: every voxel gets the same value, whatever the world. -/
theorem C71_negative_truncation (w : List Thing) {M : ℚ} (hM : M < 0) (p : Pt) : max (leastDistance w M p).1 (-M) = -M := by
  apply max_eq_right
  rcases leastDistance_spec w M p with ⟨e, -⟩ | ⟨_, o, _, -, e, h, -⟩
  · rw [e]; simp only; linarith
  · rw [e]; simp only; linarith

example : (-1 : ℚ) < 0 := by norm_num

end Vox.C71
