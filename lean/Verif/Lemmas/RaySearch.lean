import Verif.Model.RaySearch
import Verif.Spec.RaySearch
import Verif.Lemmas.GridWrite

namespace Vox.RaySearch

open Layer Grid Spec

theorem nearAxis_of {n : ℕ} {s p : ℚ} (hn : 0 < n) (hn' : n ≤ 1290) (hs : 0 < s) : NearAxis n s (bAx n s p * n + vAx n s p) p := by
  obtain ⟨h1, h2⟩ := bAx_bounds (p := p) hn hs
  obtain ⟨r1, r2⟩ := raw_bounds (p := p) hn hn' hs
  have e : (p - bAx n s p * (s * n)) * (1 / s) = p / s - bAx n s p * n := by field_simp
  have f1 := Int.floor_le ((p - bAx n s p * (s * n)) * (1 / s) + kEpsilon)
  have f2 := Int.lt_floor_add_one ((p - bAx n s p * (s * n)) * (1 / s) + kEpsilon)
  have hn1 : (1 : ℚ) ≤ n := by exact_mod_cast hn
  have hv : vAx n s p = max ⌊(p - bAx n s p * (s * n)) * (1 / s) + kEpsilon⌋ 0 := by
    unfold vAx
    rw [min_eq_left r2]
  rw [e] at f1 f2 hv
  have key : ((bAx n s p * n + vAx n s p : ℤ) : ℚ) - n / 1000000 ≤ p / s ∧ p / s < ((bAx n s p * n + vAx n s p : ℤ) : ℚ) + 1 := by
    unfold kEpsilon at *
    rcases le_total 0 ⌊p / s - bAx n s p * n + 1 / 1000000⌋ with hc | hc
    · rw [hv, max_eq_left hc]
      push_cast
      constructor <;> linarith
    · rw [hv, max_eq_right hc]
      have hc' : ((⌊p / s - bAx n s p * n + 1 / 1000000⌋ : ℤ) : ℚ) ≤ 0 := by exact_mod_cast hc
      push_cast
      constructor <;> linarith
  exact ⟨by rw [← le_div_iff₀ hs]; exact key.1, by rw [← div_lt_iff₀ hs]; exact key.2⟩

theorem voxelAt_gIdx {V : Type} {l : VLayer V} (wf : WellFormed l) (p : Pt) : VoxelAt l (gIdx l p) p :=
  ⟨nearAxis_of wf.side_pos wf.side_le wf.size_pos, nearAxis_of wf.side_pos wf.side_le wf.size_pos, nearAxis_of wf.side_pos wf.side_le wf.size_pos⟩

/-- A pass is a justified step or finds a surface. -/
theorem pass_spec (rnd : ℚ → ℚ) {l : VLayer (TsdfVoxel ℚ)} (wf : WellFormed l) (origin dir : Pt) (t : ℚ)
    (hp : Addressable l (position rnd origin dir t)) :
    (∃ d, FreeStep l (position rnd origin dir t) d ∧ pass rnd l origin dir t = .ok (.on (rnd (t + d)))) ∨
    ∃ d, SurfaceAt l (position rnd origin dir t) d ∧ pass rnd l origin dir t = .ok (.found (if d < 0 then t else rnd (t + d))) := by
  have hv := vIdx_inBlock wf (position rnd origin dir t)
  have hg := voxelAt_gIdx wf (position rnd origin dir t)
  have eg : globalIndex l.cfg.vps (bIdx l (position rnd origin dir t)) (vIdx l (position rnd origin dir t)) = gIdx l (position rnd origin dir t) := rfl
  unfold pass blockAtCoords
  simp only [blockIndexOf_ok wf hp, Outcome.bind_ok, Outcome.pure_eq]
  cases hb : block? l (bIdx l (position rnd origin dir t)) with
  | none =>
    have hc := content_none hb hv
    rw [eg] at hc
    exact Or.inl ⟨_, ⟨_, hg, Or.inl ⟨rfl, fun v h => by rw [hc] at h; cases h⟩⟩, rfl⟩
  | some b =>
    obtain ⟨v, h1, h2⟩ := voxelByIndex_content wf hb hv
    rw [eg] at h2
    simp only [voxelByCoords, truncated_ok wf hb, Outcome.bind_ok, h1]
    unfold judge
    split_ifs with c1 c2 c3 c4
    · exact Or.inl ⟨_, ⟨_, hg, Or.inl ⟨rfl, fun v' h => by rw [h2] at h; cases h; exact not_le.2 c1⟩⟩, rfl⟩
    · exact Or.inl ⟨_, ⟨_, hg, Or.inr ⟨v, h2, not_lt.1 c1, c2.le, rfl⟩⟩, rfl⟩
    · exact Or.inr ⟨v.distance, ⟨_, v, hg, h2, not_lt.1 c1, c3.trans wf.size_pos, rfl⟩, by rw [if_pos c3]⟩
    · exact Or.inr ⟨v.distance, ⟨_, v, hg, h2, not_lt.1 c1, c4, rfl⟩, by rw [if_neg c3]⟩
    · have e : v.distance = l.cfg.voxelSize := le_antisymm (not_lt.1 c2) (not_lt.1 c4)
      exact Or.inl ⟨v.distance, ⟨_, hg, Or.inr ⟨v, h2, not_lt.1 c1, e.ge, rfl⟩⟩, by rw [e]⟩

theorem freeStep_ge {l : VLayer (TsdfVoxel ℚ)} {p : Pt} {d : ℚ} (h : FreeStep l p d) : l.cfg.voxelSize ≤ d := by
  obtain ⟨g, -, ⟨h, -⟩ | ⟨v, -, -, h, h'⟩⟩ := h
  · exact h.ge
  · rw [h']; exact h

/-- What is known about the result of the loop. -/
def Explained (l : VLayer (TsdfVoxel ℚ)) (rnd : ℚ → ℚ) (pos : ℚ → Pt) (max : ℚ) : Search → Prop
  | .hit T => ∃ t d, Walk l rnd pos max t ∧ t < max ∧ SurfaceAt l (pos t) d ∧ T = if d < 0 then t else rnd (t + d)
  | .miss => ∃ t, Walk l rnd pos max t ∧ max ≤ t
  | .running t => Walk l rnd pos max t

theorem loop_spec (rnd : ℚ → ℚ) {l : VLayer (TsdfVoxel ℚ)} (wf : WellFormed l) (origin dir : Pt) (max : ℚ)
    (hp : ∀ t, Walk l rnd (position rnd origin dir) max t → t < max → Addressable l (position rnd origin dir t)) (fuel : ℕ) :
    ∀ t, Walk l rnd (position rnd origin dir) max t → ∃ r, loop rnd l origin dir max fuel t = .ok r ∧ Explained l rnd (position rnd origin dir) max r := by
  induction fuel with
  | zero => exact fun t ht => ⟨_, rfl, ht⟩
  | succ n ih =>
    intro t ht
    unfold loop
    by_cases hm : t < max
    · rw [if_pos hm]
      rcases pass_spec rnd wf origin dir t (hp t ht hm) with ⟨d, hd, e⟩ | ⟨d, hd, e⟩
      · simp only [e, Outcome.bind_ok]
        exact ih _ (Walk.step ht hm hd)
      · simp only [e, Outcome.bind_ok]
        exact ⟨_, rfl, t, d, ht, hm, hd, rfl⟩
    · rw [if_neg hm]
      exact ⟨_, rfl, t, ht, not_lt.1 hm⟩

/-- The loop is left as soon as the steps have covered the maximum distance. -/
theorem loop_ends (rnd : ℚ → ℚ) {l : VLayer (TsdfVoxel ℚ)} (wf : WellFormed l) (origin dir : Pt) (max : ℚ)
    (hp : ∀ t, Walk l rnd (position rnd origin dir) max t → t < max → Addressable l (position rnd origin dir t)) {δ : ℚ} (hδ : 0 ≤ δ)
    (hr : ∀ t d, 0 ≤ t → t < max → l.cfg.voxelSize ≤ d → t + δ ≤ rnd (t + d)) (fuel : ℕ) :
    ∀ t, Walk l rnd (position rnd origin dir) max t → 0 ≤ t → max ≤ t + fuel * δ → ∀ t', loop rnd l origin dir max (fuel + 1) t ≠ .ok (.running t') := by
  induction fuel with
  | zero =>
    intro t ht h0 hm t'
    unfold loop
    rw [if_neg (by push_cast at hm; linarith)]
    nofun
  | succ n ih =>
    intro t ht h0 hle t'
    unfold loop
    by_cases hm : t < max
    · rw [if_pos hm]
      rcases pass_spec rnd wf origin dir t (hp t ht hm) with ⟨d, hd, e⟩ | ⟨d, hd, e⟩
      · simp only [e, Outcome.bind_ok]
        have hs := hr t d h0 hm (freeStep_ge hd)
        exact ih _ (Walk.step ht hm hd) (by linarith) (by push_cast at hle; linarith) t'
      · simp only [e, Outcome.bind_ok]
        nofun
    · rw [if_neg hm]
      nofun

theorem walk_nonneg {l : VLayer (TsdfVoxel ℚ)} (hs : 0 ≤ l.cfg.voxelSize) {pos : ℚ → Pt} {max : ℚ} {t : ℚ} (h : Walk l id pos max t) : 0 ≤ t := by
  induction h with
  | start => exact le_rfl
  | step _ _ hd ih =>
    have := freeStep_ge hd
    simp only [id]
    linarith

/-- The steps leave no gap. -/
theorem walk_covers {l : VLayer (TsdfVoxel ℚ)} {rnd : ℚ → ℚ} {pos : ℚ → Pt} {max : ℚ} {t : ℚ} (h : Walk l rnd pos max t) :
    ∀ τ, 0 ≤ τ → τ < t → ∃ t0 d, Walk l rnd pos max t0 ∧ t0 < max ∧ t0 ≤ τ ∧ FreeStep l (pos t0) d ∧ τ < rnd (t0 + d) := by
  induction h with
  | start => intro τ h0 h1; linarith
  | @step t d hw hm hd ih =>
    intro τ h0 h1
    by_cases hc : τ < t
    · exact ih τ h0 hc
    · exact ⟨t, d, hw, hm, not_lt.1 hc, hd, h1⟩

/-- Where the map knows of a surface, no sample lies behind it by more than the error. -/
theorem walk_before {l : VLayer (TsdfVoxel ℚ)} (hs : 0 ≤ l.cfg.voxelSize) {pos : ℚ → Pt} {max τ e : ℚ} (hk : KnowsSurface l pos max τ e) (h0 : 0 ≤ τ + e)
    {t : ℚ} (h : Walk l id pos max t) : t ≤ τ + e := by
  induction h with
  | start => exact h0
  | @step t d hw hm hd ih =>
    obtain ⟨g, hg, hd⟩ := hd
    obtain ⟨k1, k2⟩ := hk t (walk_nonneg hs hw) hm g hg
    simp only [id]
    rcases hd with ⟨rfl, hu⟩ | ⟨v, hv, hsn, -, rfl⟩
    · exact k2 hu
    · have := (k1 v hv hsn).1
      linarith

end Vox.RaySearch
