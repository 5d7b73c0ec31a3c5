/-
Resampling a layer through a rigid transformation.
-/
import Verif.Lemmas.Merge
import Verif.Lemmas.Layer
import Verif.Props.Interp

namespace Vox.Merge

open Layer Grid Spec Interp

variable {V : Type}

theorem linear_global {n : ℕ} (hn' : n ≤ 1290) (i : Idx) {k : ℕ} (hk : k < n * n * n) :
    ∃ v, voxelIndexFromLinear n k = .ok v ∧ InBlock n v ∧ linearIndex n v = k ∧ blockOf n (globalIndex n i v) = i ∧
      localOf n (globalIndex n i v) = v := by
  have hsz : numVoxels n ≤ 2 ^ 31 := by
    unfold numVoxels
    calc n * n * n ≤ 1290 * 1290 * 1290 := Nat.mul_le_mul (Nat.mul_le_mul hn' hn') hn'
      _ ≤ _ := by norm_num
  obtain ⟨v, v1, v2, v3⟩ := Props.C01_linear_to_voxel_to_linear hsz (l := k) (by
    unfold isValidLinearIndex numVoxels
    simp [hk])
  exact ⟨v, v1, v2, v3, blockOf_globalIndex v2, localOf_globalIndex v2⟩

/-- Removing a block. -/
theorem remove_wf {l : VLayer V} (wf : WellFormed l) (i : Idx) :
    WellFormed { l with blocks := l.blocks.filter fun e => e.1 ≠ i } := by
  refine ⟨wf.size_pos, wf.side_pos, wf.side_le, ?_⟩
  intro j b hb
  simp only [lookup_filter_key] at hb
  split_ifs at hb
  exact wf.block _ _ hb

/-- The blocks after one output block has been computed; `ρ g` is the sampled value of voxel `g` and whether it counts as
data. -/
theorem transformStep_ok (ops : Ops V) (A : VLayer V) (T : Rigid) {out : VLayer V} (wo : WellFormed out) (i : Idx) (ρ : Idx → V × Bool)
    (hρ : ∀ g, blockOf out.cfg.vps g = i → sampleVoxel ops A (T.unapply (voxelCenter out.cfg.voxelSize g)) ((content out g).getD ops.dflt) =
      .ok (ρ g)) :
    ∃ out', transformStep ops A T out i = .ok out' ∧ out'.cfg = out.cfg ∧ WellFormed out' ∧
      (∀ g, blockOf out.cfg.vps g ≠ i → content out' g = content out g) ∧ (∀ j, j ≠ i → status out' j = status out j) ∧
      ((Marked out i ∨ ∃ g, blockOf out.cfg.vps g = i ∧ (ρ g).2 = true) →
        Marked out' i ∧ ∀ g, blockOf out.cfg.vps g = i → content out' g = some (ρ g).1) ∧
      (¬ (Marked out i ∨ ∃ g, blockOf out.cfg.vps g = i ∧ (ρ g).2 = true) → ¬ Allocated out' i) := by
  have wa := allocateBlock_wf wo ops.dflt i
  have ca := fun g => allocateBlock_content wo ops.dflt i g
  have sa := fun j => allocateBlock_status ops.dflt out i j
  have ea := allocateBlock_cfg ops.dflt out i
  obtain ⟨b, hb⟩ : ∃ b, block? (allocateBlock ops.dflt out i) i = some b := by
    rw [allocateBlock_block?, if_pos rfl]
    exact ⟨_, rfl⟩
  unfold transformStep
  set d := allocateBlock ops.dflt out i with hd
  simp only [hb]
  obtain ⟨b1, b2, b3, b4⟩ := wa.block _ _ hb
  rw [ea] at b1 b2 b3 b4
  have hal : Allocated d i := by
    show (block? d i).isSome = true
    rw [hb]; rfl
  have hst : status d i = some (b.hasData, b.updated) := by
    show (block? d i).map _ = _
    rw [hb]; rfl
  have hmk : b.hasData = true ↔ Marked out i := by
    rw [sa, if_pos rfl] at hst
    injection hst with hst
    unfold Marked
    constructor
    · intro h
      cases h' : status out i with
      | none => rw [h'] at hst; rw [← (Prod.mk.inj hst).1] at h; cases h
      | some st =>
        rw [h'] at hst
        simp only [Option.getD_some] at hst
        exact ⟨b.updated, by rw [hst, h]⟩
    · rintro ⟨u, hu⟩
      rw [hu] at hst
      exact (Prod.mk.inj hst).1.symm
  obtain ⟨r, r1, r2, r3⟩ := mapM_range (f := fun k => do
      let x ← voxelAt b k
      let v ← voxelIndexFromLinear b.vps k
      sampleVoxel ops A (T.unapply (centerOf b v)) x)
    (P := fun k y => ∃ v, InBlock out.cfg.vps v ∧ linearIndex out.cfg.vps v = k ∧ y = ρ (globalIndex out.cfg.vps i v)) b.voxels.length (by
      intro k hk
      obtain ⟨x, hx, hx'⟩ := voxelAt_ok hk
      rw [b4] at hk
      obtain ⟨v, v1, v2, v3, v4, v5⟩ := linear_global wo.side_le i hk
      refine ⟨_, ?_, v, v2, v3, rfl⟩
      rw [hx, b1, v1]
      simp only [Outcome.bind_ok]
      rw [centerOf_eq wa hb, ea]
      have := hρ _ v4
      have hc := ca (globalIndex out.cfg.vps i v)
      rw [if_pos v4, content_eq wa, ea, v4, v5, hb, v3] at hc
      simp only [Option.bind_some] at hc
      rw [hx'] at hc
      have hc := Option.some.inj hc
      rw [hc]
      exact this)
  have hany : r.any (·.2) = true ↔ ∃ g, blockOf out.cfg.vps g = i ∧ (ρ g).2 = true := by
    rw [List.any_eq_true]
    constructor
    · rintro ⟨y, hy, hy2⟩
      obtain ⟨k, hk, rfl⟩ := List.mem_iff_getElem.1 hy
      obtain ⟨z, z1, v, z2, -, rfl⟩ := r3 k (by omega)
      rw [List.getElem?_eq_getElem hk] at z1
      injection z1 with z1
      rw [z1] at hy2
      exact ⟨_, blockOf_globalIndex z2, hy2⟩
    · rintro ⟨g, hg, hg2⟩
      have hlt := (linearIndex_eq wo.side_le (localOf_inBlock wo.side_pos g)).2
      obtain ⟨z, z1, v, z2, z3, rfl⟩ := r3 _ (show linearIndex out.cfg.vps (localOf out.cfg.vps g) < b.voxels.length by rw [b4]; exact hlt)
      have hv := linearIndex_inj wo.side_le z2 (localOf_inBlock wo.side_pos g) z3
      have : globalIndex out.cfg.vps i v = g := by rw [hv, ← hg, globalIndex_split]
      rw [this] at z1
      exact ⟨_, List.mem_of_getElem? z1, hg2⟩
  have hval : ∀ g, blockOf out.cfg.vps g = i → (r.map (·.1))[linearIndex out.cfg.vps (localOf out.cfg.vps g)]? = some (ρ g).1 := by
    intro g hg
    have hlt := (linearIndex_eq wo.side_le (localOf_inBlock wo.side_pos g)).2
    obtain ⟨z, z1, v, z2, z3, rfl⟩ := r3 _ (show linearIndex out.cfg.vps (localOf out.cfg.vps g) < b.voxels.length by rw [b4]; exact hlt)
    have hv := linearIndex_inj wo.side_le z2 (localOf_inBlock wo.side_pos g) z3
    have : globalIndex out.cfg.vps i v = g := by rw [hv, ← hg, globalIndex_split]
    rw [List.getElem?_map, z1, this]
    rfl
  rw [show sampleBlock ops A T b = .ok r from r1]
  simp only [Outcome.bind_ok, Outcome.pure_eq]
  have hcond : (b.hasData || r.any (·.2)) = true ↔ (Marked out i ∨ ∃ g, blockOf out.cfg.vps g = i ∧ (ρ g).2 = true) := by
    rw [Bool.or_eq_true, hmk, hany]
  by_cases hc : (b.hasData || r.any (·.2)) = true
  · rw [if_pos hc]
    have hgeo : b.vps = d.cfg.vps ∧ b.voxelSize = d.cfg.voxelSize ∧ b.origin = ⟨i.x * (d.cfg.voxelSize * d.cfg.vps),
        i.y * (d.cfg.voxelSize * d.cfg.vps), i.z * (d.cfg.voxelSize * d.cfg.vps)⟩ ∧
        (r.map (·.1)).length = d.cfg.vps * d.cfg.vps * d.cfg.vps := by
      rw [ea, List.length_map, r2]; exact ⟨b1, b2, b3, b4⟩
    refine ⟨_, rfl, ea, replace_wf wa hgeo, ?_, ?_, fun _ => ⟨⟨b.updated, ?_⟩, ?_⟩, fun h => absurd (hcond.1 hc) h⟩
    · intro g hg
      rw [replace_content wa hgeo hal, ea, if_neg hg, ca, if_neg hg]
    · intro j hj
      rw [replace_status hal, if_neg hj, sa, if_neg hj]
    · rw [replace_status hal, if_pos rfl]
      simp only [hc]
    · intro g hg
      rw [replace_content wa hgeo hal, ea, if_pos hg]
      exact hval g hg
  · rw [if_neg hc]
    have hrm : ∀ c j, block? ⟨c, d.blocks.filter fun e => e.1 ≠ i⟩ j = if j = i then none else block? d j := fun _ j =>
      lookup_filter_key _ _ _
    refine ⟨_, rfl, ea, remove_wf wa i, ?_, ?_, fun h => absurd (hcond.2 h) hc, ?_⟩
    · intro g hg
      rw [← (ca g).trans (if_neg hg), content_eq (remove_wf wa i), content_eq wa]
      simp only [ea]
      rw [hrm, if_neg hg]
    · intro j hj
      show (block? _ j).map _ = _
      rw [hrm, if_neg hj]
      show status d j = _
      rw [sa, if_neg hj]
    · intro _ h
      have h : (block? ⟨d.cfg, d.blocks.filter fun e => e.1 ≠ i⟩ i).isSome = true := h
      rw [hrm, if_pos rfl] at h
      cases h

/-- The loop over distinct output blocks. -/
theorem transformSteps_ok (ops : Ops V) (A : VLayer V) (T : Rigid) {out : VLayer V} (wo : WellFormed out) (is : List Idx) (hn : is.Nodup)
    (ρ : Idx → V × Bool)
    (hρ : ∀ g, blockOf out.cfg.vps g ∈ is → sampleVoxel ops A (T.unapply (voxelCenter out.cfg.voxelSize g)) ((content out g).getD ops.dflt) =
      .ok (ρ g)) :
    ∃ out', is.foldlM (transformStep ops A T) out = .ok out' ∧ out'.cfg = out.cfg ∧ WellFormed out' ∧
      (∀ g, blockOf out.cfg.vps g ∉ is → content out' g = content out g) ∧ (∀ j, j ∉ is → status out' j = status out j) ∧
      ∀ i ∈ is, ((Marked out i ∨ ∃ g, blockOf out.cfg.vps g = i ∧ (ρ g).2 = true) →
        Marked out' i ∧ ∀ g, blockOf out.cfg.vps g = i → content out' g = some (ρ g).1) ∧
      (¬ (Marked out i ∨ ∃ g, blockOf out.cfg.vps g = i ∧ (ρ g).2 = true) → ¬ Allocated out' i) := by
  induction is generalizing out with
  | nil => exact ⟨out, rfl, rfl, wo, fun _ _ => rfl, fun _ _ => rfl, by simp⟩
  | cons i is ih =>
    obtain ⟨hi, hn⟩ := List.nodup_cons.1 hn
    obtain ⟨o1, h1, h2, h3, h4, h5, h6, h7⟩ := transformStep_ok ops A T wo i ρ fun g hg => hρ g (by rw [hg]; simp)
    obtain ⟨o2, k1, k2, k3, k4, k5, k6⟩ := ih h3 hn (by
      intro g hg
      rw [h2] at hg ⊢
      rw [h4 g (by intro h; rw [h] at hg; exact hi hg)]
      exact hρ g (by simp [hg]))
    rw [h2] at k4 k6
    have hmark : ∀ {a b : VLayer V} {j : Idx}, status a j = status b j → (Marked a j ↔ Marked b j) := by
      intro a b j h
      unfold Marked
      rw [h]
    have halloc : ∀ {a b : VLayer V} {j : Idx}, status a j = status b j → (Allocated a j ↔ Allocated b j) := by
      intro a b j h
      rw [allocated_iff_status, allocated_iff_status, h]
    refine ⟨o2, by rw [List.foldlM_cons, h1]; exact k1, k2.trans h2, k3, ?_, ?_, ?_⟩
    · intro g hg
      rw [List.mem_cons, not_or] at hg
      rw [k4 g hg.2, h4 g hg.1]
    · intro j hj
      rw [List.mem_cons, not_or] at hj
      rw [k5 j hj.2, h5 j hj.1]
    · intro j hj
      rcases List.mem_cons.1 hj with h | h
      · subst h
        refine ⟨fun hc => ?_, fun hc => ?_⟩
        · obtain ⟨m1, m2⟩ := h6 hc
          refine ⟨(hmark (k5 j hi)).2 m1, fun g hg => ?_⟩
          rw [k4 g (by rw [hg]; exact hi)]
          exact m2 g hg
        · rw [halloc (k5 j hi)]
          exact h7 hc
      · have hm := hmark (h5 j (by rintro rfl; exact hi h))
        have := k6 j h
        rw [hm] at this
        exact this

/-- A coordinate covered by the samples `lo, lo + s, …` below `hi`: some sample falls in the same cell. -/
theorem samples_cover {lo hi s p : ℚ} (hs : 0 < s) (h1 : lo ≤ p) (h2 : p ≤ hi - s) {e : ℚ} :
    ∃ x ∈ samples lo hi s, ⌊x * (1 / s) + e⌋ = ⌊p * (1 / s) + e⌋ := by
  have hmem : ∀ k : ℕ, lo + k * s < hi → lo + k * s ∈ samples lo hi s := by
    intro k hk
    unfold samples
    rw [List.mem_map]
    refine ⟨k, List.mem_range.2 ?_, rfl⟩
    rw [Int.lt_toNat, Int.lt_ceil, lt_div_iff₀ hs]
    push_cast
    linarith
  set k := ⌊(p - lo) / s⌋ with hk
  have k0 : 0 ≤ k := Int.floor_nonneg.2 (div_nonneg (by linarith) hs.le)
  have f1 := Int.floor_le ((p - lo) / s)
  have f2 := Int.lt_floor_add_one ((p - lo) / s)
  rw [← hk] at f1 f2
  rw [le_div_iff₀ hs] at f1
  rw [div_lt_iff₀ hs] at f2
  have kc : ((k.toNat : ℕ) : ℚ) = (k : ℚ) := by
    have : ((k.toNat : ℤ) : ℚ) = (k : ℚ) := by rw [Int.toNat_of_nonneg k0]
    exact_mod_cast this
  have hx : lo + (k.toNat : ℕ) * s ≤ p := by rw [kc]; linarith
  by_cases hc : ⌊(lo + (k.toNat : ℕ) * s) * (1 / s) + e⌋ = ⌊p * (1 / s) + e⌋
  · exact ⟨_, hmem _ (by linarith), hc⟩
  · have hlt : lo + (k.toNat : ℕ) * s < p := lt_of_le_of_ne hx fun h => hc (by rw [h])
    refine ⟨_, hmem (k.toNat + 1) (by push_cast; linarith), ?_⟩
    have e1 : (lo + ((k.toNat + 1 : ℕ) : ℚ) * s) * (1 / s) + e = (lo + (k.toNat : ℕ) * s) * (1 / s) + e + 1 := by
      push_cast
      field_simp
      ring
    rw [e1, Int.floor_add_one]
    have m1 : ⌊(lo + (k.toNat : ℕ) * s) * (1 / s) + e⌋ ≤ ⌊p * (1 / s) + e⌋ := Int.floor_mono (by
      have := mul_le_mul_of_nonneg_right hx (show 0 ≤ 1 / s by positivity)
      linarith)
    have m2 : p * (1 / s) + e < (lo + (k.toNat : ℕ) * s) * (1 / s) + e + 1 := by
      have : p * (1 / s) < (lo + (k.toNat : ℕ) * s + s) * (1 / s) := mul_lt_mul_of_pos_right (by rw [kc]; linarith) (by positivity)
      have e2 : (lo + (k.toNat : ℕ) * s + s) * (1 / s) = (lo + (k.toNat : ℕ) * s) * (1 / s) + 1 := by field_simp
      linarith
    have m3 : ⌊p * (1 / s) + e⌋ ≤ ⌊(lo + (k.toNat : ℕ) * s) * (1 / s) + e⌋ + 1 := by
      rw [← Int.floor_add_one]
      exact Int.floor_mono m2.le
    omega

/-- Every sample lies in the sampled range. -/
theorem samples_range {lo hi s x : ℚ} (hs : 0 < s) (h : x ∈ samples lo hi s) : lo ≤ x ∧ x < hi := by
  unfold samples at h
  obtain ⟨k, hk, rfl⟩ := List.mem_map.1 h
  rw [List.mem_range, Int.lt_toNat, Int.lt_ceil, lt_div_iff₀ hs] at hk
  push_cast at hk
  exact ⟨le_add_of_nonneg_right (by positivity), by linarith⟩

end Vox.Merge
