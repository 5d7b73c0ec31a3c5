import Verif.Model.Intensity
import Verif.Lemmas.RaySearch
import Verif.Spec.Intensity

namespace Vox.Intensity

open Layer Grid Spec RaySearch

abbrev IV := IntensityVoxel ℚ

theorem truncated_inBlock {n : ℕ} (hn : 0 < n) (hn' : n ≤ 1290) {o : Pt} {s : ℚ} {p : Pt} {v : Idx} (h : truncatedVoxelIndex n o s p = .ok v) : InBlock n v := by
  unfold truncatedVoxelIndex at h
  rw [Outcome.bind_eq_ok] at h
  obtain ⟨i, -, h⟩ := h
  have hw : wrap32 ((n : ℤ) - 1) = n - 1 := wrap32_of_range ⟨by omega, by omega⟩
  have h' := Outcome.ok.inj h
  rw [← h', hw]
  refine ⟨?_, ?_, ?_⟩ <;> simp only [Vec3.map_x, Vec3.map_y, Vec3.map_z] <;> omega

/-- Changing a voxel through a block pointer. -/
theorem change_ok {l : VLayer IV} (wf : WellFormed l) {i : Idx} {b : Block ℚ IV} (hb : block? l i = some b) {p : Pt} {v : Idx}
    (hv : truncatedVoxelIndex b.vps b.origin b.voxelSize p = .ok v) (f : IV → IV) :
    ∃ l', change l i p f = .ok l' ∧ l'.cfg = l.cfg ∧ WellFormed l' ∧
      (∀ g, content l' g = if g = globalIndex l.cfg.vps i v then (content l g).map f else content l g) ∧ ∀ j, Allocated l' j ↔ Allocated l j := by
  obtain ⟨h1, -, -, -⟩ := wf.block _ _ hb
  have hin : InBlock l.cfg.vps v := truncated_inBlock wf.side_pos wf.side_le (h1 ▸ hv)
  have ha : Allocated l i := by unfold Allocated; rw [show l.blocks.lookup i = some b from hb]; rfl
  obtain ⟨x, r1, r2⟩ := readVoxel_ok wf hin ha
  obtain ⟨l', w1, w2, w3, w4, w5, -⟩ := writeVoxel_ok wf hin ha (f x)
  refine ⟨l', ?_, w2, w3, ?_, ?_⟩
  · unfold change
    simp only [hb, hv, Outcome.bind_ok, r1, w1]
  · intro g
    rw [w4 g]
    split_ifs with hg
    · rw [hg, r2]; rfl
    · rfl
  · intro j
    rw [allocated_iff_status, allocated_iff_status, w5]

/-- Whatever the outcome, a change that succeeds changes one voxel. -/
theorem change_inv {l l' : VLayer IV} (wf : WellFormed l) {i : Idx} {p : Pt} {f : IV → IV} (h : change l i p f = .ok l') :
    WellFormed l' ∧ ∃ h0, ∀ g, content l' g = if g = h0 then (content l g).map f else content l g := by
  have h' := h
  unfold change at h'
  cases hb : block? l i with
  | none => rw [hb] at h'; cases h'
  | some b =>
    simp only [hb] at h'
    rw [Outcome.bind_eq_ok] at h'
    obtain ⟨v, hv, -⟩ := h'
    obtain ⟨l1, e, -, w, c, -⟩ := change_ok wf hb hv f
    rw [h] at e
    cases e
    exact ⟨w, _, c⟩

/-- The voxel index of a coordinate, truncated to block `b`, along one axis. -/
def clampAx (n : ℕ) (s : ℚ) (b : ℤ) (q : ℚ) : ℤ := max (min ⌊(q - b * (s * n)) * (1 / s) + kEpsilon⌋ ((n : ℤ) - 1)) 0

/-- The voxel of block `i` that is found for position `p`, as a global index. -/
def target (c : Cfg) (i : Idx) (p : Pt) : Idx :=
  globalIndex c.vps i ⟨clampAx c.vps c.voxelSize i.x p.x, clampAx c.vps c.voxelSize i.y p.y, clampAx c.vps c.voxelSize i.z p.z⟩

theorem target_self (l : VLayer IV) (p : Pt) : target l.cfg (bIdx l p) p = gIdx l p := rfl

/-- The neighbours of a hit are looked up without overflow. -/
theorem truncated_near {l : VLayer IV} (wf : WellFormed l) {hit p : Pt} {b : Block ℚ IV} (hb : block? l (bIdx l hit) = some b)
    (hx : |p.x - hit.x| ≤ 1000 * l.cfg.voxelSize) (hy : |p.y - hit.y| ≤ 1000 * l.cfg.voxelSize) (hz : |p.z - hit.z| ≤ 1000 * l.cfg.voxelSize) :
    ∃ v, truncatedVoxelIndex b.vps b.origin b.voxelSize p = .ok v ∧ globalIndex l.cfg.vps (bIdx l hit) v = target l.cfg (bIdx l hit) p := by
  have hw : wrap32 ((l.cfg.vps : ℤ) - 1) = l.cfg.vps - 1 := by
    have := wf.side_le
    have := wf.side_pos
    exact wrap32_of_range ⟨by omega, by omega⟩
  obtain ⟨h1, h2, h3, -⟩ := wf.block _ _ hb
  have hs := wf.size_pos
  have key : ∀ q c : ℚ, |q - c| ≤ 1000 * l.cfg.voxelSize →
      -2000 ≤ ⌊(q - bAx l.cfg.vps l.cfg.voxelSize c * (l.cfg.voxelSize * l.cfg.vps)) * (1 / l.cfg.voxelSize) + kEpsilon⌋ ∧
      ⌊(q - bAx l.cfg.vps l.cfg.voxelSize c * (l.cfg.voxelSize * l.cfg.vps)) * (1 / l.cfg.voxelSize) + kEpsilon⌋ ≤ 3000 := by
    intro q c hq
    obtain ⟨r1, r2⟩ := raw_bounds (p := c) wf.side_pos wf.side_le hs
    have hle := wf.side_le
    have r2' : ⌊(c - bAx l.cfg.vps l.cfg.voxelSize c * (l.cfg.voxelSize * l.cfg.vps)) * (1 / l.cfg.voxelSize) + kEpsilon⌋ < 1290 := by omega
    rw [Int.floor_lt] at r2'
    rw [Int.le_floor] at r1
    have e : (q - bAx l.cfg.vps l.cfg.voxelSize c * (l.cfg.voxelSize * l.cfg.vps)) * (1 / l.cfg.voxelSize) =
        (c - bAx l.cfg.vps l.cfg.voxelSize c * (l.cfg.voxelSize * l.cfg.vps)) * (1 / l.cfg.voxelSize) + (q - c) / l.cfg.voxelSize := by ring
    have hq' : |(q - c) / l.cfg.voxelSize| ≤ 1000 := by
      rw [abs_div, abs_of_pos hs, div_le_iff₀ hs]
      exact hq
    rw [abs_le] at hq'
    rw [e]
    push_cast at r1 r2'
    constructor
    · rw [Int.le_floor]; push_cast; linarith
    · rw [← Int.lt_add_one_iff, Int.floor_lt]; push_cast; linarith
  have X := key _ _ hx
  have Y := key _ _ hy
  have Z := key _ _ hz
  unfold truncatedVoxelIndex gridIndex32 toIdx32
  rw [if_pos]
  · refine ⟨_, rfl, ?_⟩
    rw [h1, h2, h3, hw]
    rfl
  · rw [h2, h3]
    refine ⟨?_, ?_, ?_⟩ <;> unfold IsI32
    · have e : (gridIndex (p - ⟨(bIdx l hit).x * (l.cfg.voxelSize * l.cfg.vps), (bIdx l hit).y * (l.cfg.voxelSize * l.cfg.vps),
        (bIdx l hit).z * (l.cfg.voxelSize * l.cfg.vps)⟩) (1 / l.cfg.voxelSize)).x =
        ⌊(p.x - bAx l.cfg.vps l.cfg.voxelSize hit.x * (l.cfg.voxelSize * l.cfg.vps)) * (1 / l.cfg.voxelSize) + kEpsilon⌋ := rfl
      rw [e]; omega
    · have e : (gridIndex (p - ⟨(bIdx l hit).x * (l.cfg.voxelSize * l.cfg.vps), (bIdx l hit).y * (l.cfg.voxelSize * l.cfg.vps),
        (bIdx l hit).z * (l.cfg.voxelSize * l.cfg.vps)⟩) (1 / l.cfg.voxelSize)).y =
        ⌊(p.y - bAx l.cfg.vps l.cfg.voxelSize hit.y * (l.cfg.voxelSize * l.cfg.vps)) * (1 / l.cfg.voxelSize) + kEpsilon⌋ := rfl
      rw [e]; omega
    · have e : (gridIndex (p - ⟨(bIdx l hit).x * (l.cfg.voxelSize * l.cfg.vps), (bIdx l hit).y * (l.cfg.voxelSize * l.cfg.vps),
        (bIdx l hit).z * (l.cfg.voxelSize * l.cfg.vps)⟩) (1 / l.cfg.voxelSize)).z =
        ⌊(p.z - bAx l.cfg.vps l.cfg.voxelSize hit.z * (l.cfg.voxelSize * l.cfg.vps)) * (1 / l.cfg.voxelSize) + kEpsilon⌋ := rfl
      rw [e]; omega

/-! ## The loop over the neighbours -/

/-- Voxels are never given a negative weight. -/
def NonNeg (l : VLayer IV) : Prop := ∀ g v, content l g = some v → 0 ≤ v.weight

theorem fill_idem (x : ℚ) {v : IV} (hv : 0 ≤ v.weight) : fill x (fill x v) = fill x v := by
  unfold fill
  split_ifs with h1 h2
  · simp only at h2; linarith
  · rfl
  · rfl

theorem fill_nonneg (x : ℚ) {v : IV} (hv : 0 ≤ v.weight) : 0 ≤ (fill x v).weight := by
  unfold fill
  split_ifs
  · simp only; linarith
  · exact hv

theorem allocateBlock_nonneg {l : VLayer IV} (wf : WellFormed l) (nn : NonNeg l) (i : Idx) : NonNeg (allocateBlock fresh l i) := by
  intro g v h
  rw [allocateBlock_content wf] at h
  split_ifs at h with hg
  · cases hc : content l g with
    | none => rw [hc] at h; cases h; exact le_rfl
    | some u => rw [hc] at h; cases h; exact nn g u hc
  · exact nn g v h

/-- The voxels written by the loop, and the blocks it allocates. -/
theorem fillLoop {l0 : VLayer IV} {hit bearing : Pt} {s x : ℚ} (ks : List ℤ)
    (hadd : ∀ k ∈ ks, Addressable l0 (neighbour hit bearing s k))
    (hnear : ∀ k ∈ ks, |(neighbour hit bearing s k).x - hit.x| ≤ 1000 * l0.cfg.voxelSize ∧ |(neighbour hit bearing s k).y - hit.y| ≤ 1000 * l0.cfg.voxelSize ∧
      |(neighbour hit bearing s k).z - hit.z| ≤ 1000 * l0.cfg.voxelSize) :
    ∀ l : VLayer IV, l.cfg = l0.cfg → WellFormed l → NonNeg l → Allocated l (bIdx l0 hit) →
    ∃ l', ks.foldlM (fillStep (bIdx l0 hit) hit bearing s x) l = .ok l' ∧ l'.cfg = l0.cfg ∧ WellFormed l' ∧ NonNeg l' ∧
      ∀ g, content l' g = (if ∃ k ∈ ks, target l0.cfg (bIdx l0 hit) (neighbour hit bearing s k) = g then (content l g).map (fill x)
        else if ∃ k ∈ ks, bIdx l0 (neighbour hit bearing s k) = blockOf l0.cfg.vps g then some ((content l g).getD fresh) else content l g) := by
  classical
  induction ks with
  | nil => exact fun l hc wf nn ha => ⟨l, rfl, hc, wf, nn, fun g => by simp⟩
  | cons k ks ih =>
    intro l hc wf nn ha
    have hin : ∀ q, blockIndexOf l q = blockIndexOf l0 q := fun q => by unfold blockIndexOf; rw [hc]
    have hbi : ∀ q, bIdx l q = bIdx l0 q := fun q => by unfold bIdx; rw [hc]
    have hadd0 : Addressable l (neighbour hit bearing s k) := by
      have := hadd k (List.mem_cons_self ..)
      unfold Addressable at *
      rw [hc]
      exact this
    set p := neighbour hit bearing s k with hpdef
    set l1 := allocateBlock fresh l (bIdx l0 p) with hl1
    have wf1 : WellFormed l1 := allocateBlock_wf wf _ _
    have nn1 : NonNeg l1 := allocateBlock_nonneg wf nn _
    have hc1 : l1.cfg = l0.cfg := by rw [hl1, allocateBlock_cfg, hc]
    have c1 : ∀ g, content l1 g = if blockOf l0.cfg.vps g = bIdx l0 p then some ((content l g).getD fresh) else content l g := by
      intro g
      rw [hl1, allocateBlock_content wf, hc]
    obtain ⟨b, hb⟩ : ∃ b, block? l1 (bIdx l0 hit) = some b := by
      rw [hl1, allocateBlock_block?]
      split_ifs
      · exact ⟨_, rfl⟩
      · exact Option.isSome_iff_exists.1 ha
    have hbi1 : ∀ q, bIdx l1 q = bIdx l0 q := fun q => by unfold bIdx; rw [hc1]
    obtain ⟨n1, n2, n3⟩ := hnear k (List.mem_cons_self ..)
    rw [← hc1] at n1 n2 n3
    obtain ⟨v, hv, et⟩ := truncated_near (p := p) wf1 (hbi1 hit ▸ hb) n1 n2 n3
    obtain ⟨l2, e2, hc2, wf2, cc, al⟩ := change_ok wf1 hb hv (fill x)
    rw [hbi1] at et
    rw [et, hc1] at cc
    have nn2 : NonNeg l2 := by
      intro g u h
      rw [cc] at h
      split_ifs at h
      · cases hq : content l1 g with
        | none => rw [hq] at h; cases h
        | some u' => rw [hq] at h; cases h; exact fill_nonneg x (nn1 g u' hq)
      · exact nn1 g u h
    have ha2 : Allocated l2 (bIdx l0 hit) := by
      rw [al]
      unfold Allocated
      rw [show l1.blocks.lookup (bIdx l0 hit) = some b from hb]
      rfl
    obtain ⟨l', e, hc', wf', nn', hcont⟩ := ih (fun k hk => hadd k (List.mem_cons_of_mem _ hk)) (fun k hk => hnear k (List.mem_cons_of_mem _ hk)) l2
      (hc2.trans hc1) wf2 nn2 ha2
    refine ⟨l', ?_, hc', wf', nn', ?_⟩
    · rw [List.foldlM_cons]
      have : fillStep (bIdx l0 hit) hit bearing s x l k = .ok l2 := by
        unfold fillStep
        simp only [← hpdef, blockIndexOf_ok wf hadd0, Outcome.bind_ok, hbi, ← hl1, e2]
      rw [this]
      exact e
    · intro g
      rw [hcont g, cc g, c1 g]
      simp only [List.mem_cons, exists_eq_or_imp, ← hpdef]
      -- the target lies in the block of the hit, which is allocated
      have htb : ∀ q, target l0.cfg (bIdx l0 hit) q = g → blockOf l0.cfg.vps g = bIdx l0 hit := by
        intro q hq
        rw [← hq]
        unfold target
        apply blockOf_globalIndex
        have := wf1.side_pos
        rw [hc1] at this
        refine ⟨?_, ?_, ?_⟩ <;> simp only [clampAx] <;> omega
      have hsome : blockOf l0.cfg.vps g = bIdx l0 hit → ∃ u, content l g = some u := by
        intro h
        rw [← Option.isSome_iff_exists, content_isSome wf, hc, h]
        exact ha
      by_cases h1 : target l0.cfg (bIdx l0 hit) p = g
      · obtain ⟨u, hu⟩ := hsome (htb _ h1)
        have hnn := nn g u hu
        rw [hu]
        simp only [h1, true_or, if_true, Option.getD_some, ite_self, Option.map_some]
        split_ifs <;> simp [fill_idem x hnn]
      · have h1' : g ≠ target l0.cfg (bIdx l0 hit) p := fun h => h1 h.symm
        simp only [h1, h1', false_or, if_false]
        by_cases h2 : ∃ k ∈ ks, target l0.cfg (bIdx l0 hit) (neighbour hit bearing s k) = g
        · have h2' := h2
          obtain ⟨k', hk', ht⟩ := h2'
          obtain ⟨u, hu⟩ := hsome (htb _ ht)
          simp only [if_pos h2, hu, Option.getD_some, ite_self]
        · simp only [if_neg h2]
          by_cases h3 : blockOf l0.cfg.vps g = bIdx l0 p
          · have h3' := eq_true h3.symm
            rw [if_pos h3]
            simp only [h3', true_or, if_true]
            split_ifs <;> simp
          · have h3' : ¬ bIdx l0 p = blockOf l0.cfg.vps g := fun h => h3 h.symm
            simp only [h3, h3', false_or, if_false]

end Vox.Intensity

namespace Vox.Intensity

open Layer Grid Spec RaySearch

theorem mem_offsets {r : ℕ} {k : ℤ} : k ∈ offsets r ↔ |k| ≤ r := by
  unfold offsets
  rw [List.mem_map]
  constructor
  · rintro ⟨j, hj, rfl⟩
    rw [List.mem_range] at hj
    rw [abs_le]
    omega
  · intro h
    rw [abs_le] at h
    exact ⟨(k + r).toNat, by rw [List.mem_range]; omega, by omega⟩

theorem neighbour_eq (hit bearing : Pt) (s : ℚ) (k : ℤ) : neighbour hit bearing s k = beside hit bearing s k := by
  unfold neighbour beside
  congr 1 <;> ring

theorem updateCenter_eq (cap x : ℚ) {v : IV} (hv : 0 ≤ v.weight) : updateCenter cap x v = averaged cap x v := by
  unfold updateCenter averaged
  congr 1
  · have : v.weight + 1 ≠ 0 := by linarith
    field_simp
    ring
  · split_ifs with h
    · rw [min_eq_right h.le]
    · rw [min_eq_left (not_lt.1 h)]

theorem fill_eq (x : ℚ) (v : IV) : fill x v = takenOver x v := rfl

open Classical in
theorem addHit_spec {P : Params} (hcap : 1 ≤ P.maxWeight) (hrad : P.radius ≤ 1000) {l : VLayer IV} (wf : WellFormed l) (nn : NonNeg l) {bearing hit : Pt}
    (hb : bearing.All fun c => |c| ≤ 1) (hadd : ∀ k : ℤ, |k| ≤ P.radius → Addressable l (beside hit bearing l.cfg.voxelSize k)) (x : ℚ) :
    ∃ l', addHit P l.cfg.voxelSize bearing x hit l = .ok l' ∧ l'.cfg = l.cfg ∧ WellFormed l' ∧ NonNeg l' ∧
      ∀ g, content l' g = (if g = gIdx l hit then some (averaged P.maxWeight x (voxelOrNew l g))
        else if ∃ k : ℤ, |k| ≤ P.radius ∧ target l.cfg (bIdx l hit) (beside hit bearing l.cfg.voxelSize k) = g then some (takenOver x (voxelOrNew l g))
        else if ∃ k : ℤ, |k| ≤ P.radius ∧ bIdx l (beside hit bearing l.cfg.voxelSize k) = blockOf l.cfg.vps g then some (voxelOrNew l g) else content l g) := by
  classical
  have e0 : beside hit bearing l.cfg.voxelSize 0 = hit := by
    unfold beside
    ext <;> simp
  have hadd0 : Addressable l hit := by
    have := hadd 0 (by simp)
    rwa [e0] at this
  have hs := wf.size_pos
  set l1 := allocateBlock fresh l (bIdx l hit) with hl1
  have wf1 : WellFormed l1 := allocateBlock_wf wf _ _
  have nn1 : NonNeg l1 := allocateBlock_nonneg wf nn _
  have hc1 : l1.cfg = l.cfg := by rw [hl1, allocateBlock_cfg]
  have c1 : ∀ g, content l1 g = if blockOf l.cfg.vps g = bIdx l hit then some (voxelOrNew l g) else content l g := by
    intro g
    rw [hl1, allocateBlock_content wf]
    rfl
  obtain ⟨b, hb1⟩ : ∃ b, block? l1 (bIdx l hit) = some b := by
    rw [hl1, allocateBlock_block?, if_pos rfl]
    exact ⟨_, rfl⟩
  have hbi1 : ∀ q, bIdx l1 q = bIdx l q := fun q => by unfold bIdx; rw [hc1]
  have hv := truncated_ok wf1 (p := hit) (by rw [hbi1]; exact hb1)
  have ev : globalIndex l1.cfg.vps (bIdx l hit) (vIdx l1 hit) = gIdx l hit := by
    unfold gIdx vIdx bIdx
    rw [hc1]
    rfl
  obtain ⟨l2, e2, hc2, wf2, cc, al⟩ := change_ok wf1 hb1 hv (updateCenter P.maxWeight x)
  rw [ev] at cc
  have hbg : blockOf l.cfg.vps (gIdx l hit) = bIdx l hit := by
    rw [← ev, hc1]
    exact blockOf_globalIndex (hc1 ▸ vIdx_inBlock wf1 hit)
  have vnn : ∀ g, 0 ≤ (voxelOrNew l g).weight := by
    intro g
    unfold voxelOrNew
    cases h : content l g with
    | none => exact le_rfl
    | some u => exact nn g u h
  have hw : ∀ g, 1 ≤ (averaged P.maxWeight x (voxelOrNew l g)).weight := by
    intro g
    have := vnn g
    unfold averaged
    exact le_min (by linarith) hcap
  have cc' : ∀ g, content l2 g = if g = gIdx l hit then some (averaged P.maxWeight x (voxelOrNew l g)) else
      if blockOf l.cfg.vps g = bIdx l hit then some (voxelOrNew l g) else content l g := by
    intro g
    rw [cc, c1]
    by_cases h : g = gIdx l hit
    · have hb' : blockOf l.cfg.vps g = bIdx l hit := by rw [h]; exact hbg
      simp only [if_pos h, if_pos hb', Option.map_some]
      rw [updateCenter_eq _ _ (vnn g)]
    · simp only [if_neg h]
  have nn2 : NonNeg l2 := by
    intro g u h
    rw [cc'] at h
    split_ifs at h
    · cases h
      exact le_trans zero_le_one (hw g)
    · cases h
      exact vnn g
    · exact nn g u h
  have ha2 : Allocated l2 (bIdx l hit) := by
    rw [al]
    unfold Allocated
    rw [show l1.blocks.lookup (bIdx l hit) = some b from hb1]
    rfl
  obtain ⟨l', e, hc', wf', nn', hcont⟩ := fillLoop (l0 := l) (hit := hit) (bearing := bearing) (s := l.cfg.voxelSize) (x := x) (offsets P.radius)
    (fun k hk => by rw [neighbour_eq]; exact hadd k (mem_offsets.1 hk))
    (fun k hk => by
      have hk' := mem_offsets.1 hk
      have hk1 : |(k : ℚ)| ≤ 1000 := by
        have : |k| ≤ 1000 := by omega
        exact_mod_cast this
      have key : ∀ c h : ℚ, |c| ≤ 1 → |h + c * k * l.cfg.voxelSize - h| ≤ 1000 * l.cfg.voxelSize := by
        intro c h hc
        rw [add_sub_cancel_left, abs_mul, abs_mul, abs_of_pos hs]
        exact mul_le_mul_of_nonneg_right (by simpa using mul_le_mul hc hk1 (abs_nonneg _) zero_le_one) hs.le
      exact ⟨key _ _ hb.1, key _ _ hb.2.1, key _ _ hb.2.2⟩)
    l2 (hc2.trans hc1) wf2 nn2 ha2
  refine ⟨l', ?_, hc', wf', nn', ?_⟩
  · unfold addHit
    simp only [blockIndexOf_ok wf hadd0, Outcome.bind_ok, ← hl1, e2]
    exact e
  · intro g
    have i1 : (∃ k ∈ offsets P.radius, target l.cfg (bIdx l hit) (neighbour hit bearing l.cfg.voxelSize k) = g) ↔
        ∃ k : ℤ, |k| ≤ P.radius ∧ target l.cfg (bIdx l hit) (beside hit bearing l.cfg.voxelSize k) = g := by
      simp only [mem_offsets, neighbour_eq]
    have i2 : (∃ k ∈ offsets P.radius, bIdx l (neighbour hit bearing l.cfg.voxelSize k) = blockOf l.cfg.vps g) ↔
        ∃ k : ℤ, |k| ≤ P.radius ∧ bIdx l (beside hit bearing l.cfg.voxelSize k) = blockOf l.cfg.vps g := by
      simp only [mem_offsets, neighbour_eq]
    rw [hcont g, cc' g]
    simp only [i1, i2]
    by_cases h : g = gIdx l hit
    · have hf : fill x (averaged P.maxWeight x (voxelOrNew l g)) = averaged P.maxWeight x (voxelOrNew l g) := by
        unfold fill
        rw [if_neg]
        have := hw g
        linarith
      simp only [if_pos h, Option.map_some, hf, Option.getD_some, ite_self]
    · simp only [if_neg h]
      by_cases h2 : ∃ k : ℤ, |k| ≤ P.radius ∧ target l.cfg (bIdx l hit) (beside hit bearing l.cfg.voxelSize k) = g
      · have htb : blockOf l.cfg.vps g = bIdx l hit := by
          obtain ⟨k, -, hk⟩ := h2
          rw [← hk]
          unfold target
          apply blockOf_globalIndex
          have := wf.side_pos
          refine ⟨?_, ?_, ?_⟩ <;> simp only [clampAx] <;> omega
        simp only [if_pos h2, if_pos htb, Option.map_some]
        rfl
      · simp only [if_neg h2]
        by_cases h3 : blockOf l.cfg.vps g = bIdx l hit
        · have h4 : ∃ k : ℤ, |k| ≤ P.radius ∧ bIdx l (beside hit bearing l.cfg.voxelSize k) = blockOf l.cfg.vps g := ⟨0, by simp, by rw [e0, h3]⟩
          simp only [if_pos h3, if_pos h4, Option.getD_some]
        · simp only [if_neg h3]
          rfl

end Vox.Intensity
