/-
Effect of writing to a layer, in terms of its content.
-/
import Verif.Model.GridWrite
import Verif.Lemmas.Grid
import Verif.Props.Index

namespace Vox.Grid

open Layer Spec

variable {V : Type}

theorem lookup_map_if {α β : Type} [DecidableEq α] (xs : List (α × β)) (i : α) (f : β → β) (j : α) :
    (xs.map fun e => if e.1 = i then (e.1, f e.2) else e).lookup j =
      if j = i then (xs.lookup j).map f else xs.lookup j := by
  induction xs with
  | nil => simp
  | cons e xs ih =>
    obtain ⟨a, b⟩ := e
    simp only [List.map_cons]
    by_cases ha : a = i
    · simp only [ha, if_true, List.lookup_cons]
      by_cases hj : j = i
      · simp [hj]
      · have : (j == i) = false := by simpa using hj
        simp only [this]
        rw [ih]
    · simp only [ha, if_false, List.lookup_cons]
      by_cases hj : j = a
      · have : j ≠ i := fun h => ha (hj ▸ h)
        simp [hj, ha]
      · have : (j == a) = false := by simpa using hj
        simp only [this]
        rw [ih]

theorem modifyBlock_block? (l : VLayer V) (i : Idx) (f : Block ℚ V → Block ℚ V) (j : Idx) :
    block? (modifyBlock l i f) j = if j = i then (block? l j).map f else block? l j :=
  lookup_map_if _ _ _ _

theorem modifyBlock_cfg (l : VLayer V) (i : Idx) (f : Block ℚ V → Block ℚ V) : (modifyBlock l i f).cfg = l.cfg := rfl

theorem blockOf_globalIndex {n : ℕ} {i v : Idx} (hv : InBlock n v) : blockOf n (globalIndex n i v) = i := by
  obtain ⟨⟨x0, x1⟩, ⟨y0, y1⟩, ⟨z0, z1⟩⟩ := hv
  ext
  · exact (div_mod_of (b := i.x) x0 x1 rfl).1.symm
  · exact (div_mod_of (b := i.y) y0 y1 rfl).1.symm
  · exact (div_mod_of (b := i.z) z0 z1 rfl).1.symm

theorem localOf_globalIndex {n : ℕ} {i v : Idx} (hv : InBlock n v) : localOf n (globalIndex n i v) = v := by
  obtain ⟨⟨x0, x1⟩, ⟨y0, y1⟩, ⟨z0, z1⟩⟩ := hv
  ext
  · exact (div_mod_of (b := i.x) x0 x1 rfl).2.symm
  · exact (div_mod_of (b := i.y) y0 y1 rfl).2.symm
  · exact (div_mod_of (b := i.z) z0 z1 rfl).2.symm

theorem globalIndex_split {n : ℕ} (g : Idx) : globalIndex n (blockOf n g) (localOf n g) = g := by
  ext <;> simp only [globalIndex, blockOf, localOf, Vec3.map₂_x, Vec3.map₂_y, Vec3.map₂_z, Vec3.map_x, Vec3.map_y, Vec3.map_z] <;>
    rw [mul_comm] <;> exact Int.mul_ediv_add_emod _ _

theorem localOf_inBlock {n : ℕ} (hn : 0 < n) (g : Idx) : InBlock n (localOf n g) := by
  have : (0 : ℤ) < n := by omega
  refine ⟨⟨Int.emod_nonneg _ (by omega), Int.emod_lt_of_pos _ this⟩, ⟨Int.emod_nonneg _ (by omega), Int.emod_lt_of_pos _ this⟩,
    ⟨Int.emod_nonneg _ (by omega), Int.emod_lt_of_pos _ this⟩⟩

/-- The content at `g` in terms of the block map. -/
theorem content_eq {l : VLayer V} (wf : WellFormed l) (g : Idx) :
    content l g = (block? l (blockOf l.cfg.vps g)).bind fun b => b.voxels[linearIndex l.cfg.vps (localOf l.cfg.vps g)]? := by
  have e := (linearIndex_eq wf.side_le (localOf_inBlock wf.side_pos g)).1
  unfold content
  rw [e]
  rfl

theorem content_isSome {l : VLayer V} (wf : WellFormed l) (g : Idx) :
    (content l g).isSome = (block? l (blockOf l.cfg.vps g)).isSome := by
  rw [content_eq wf]
  cases hb : block? l (blockOf l.cfg.vps g) with
  | none => rfl
  | some b =>
    have h4 := (wf.block _ _ hb).2.2.2
    have := (linearIndex_eq wf.side_le (localOf_inBlock wf.side_pos g)).2
    simp [List.getElem?_eq_getElem (h4 ▸ this)]

/-- Changing a block without touching geometry keeps the layer well formed. -/
theorem modifyBlock_wf {l : VLayer V} (wf : WellFormed l) (i : Idx) (f : Block ℚ V → Block ℚ V)
    (hf : ∀ b, (f b).vps = b.vps ∧ (f b).voxelSize = b.voxelSize ∧ (f b).origin = b.origin ∧
      (f b).voxels.length = b.voxels.length) : WellFormed (modifyBlock l i f) := by
  refine ⟨wf.size_pos, wf.side_pos, wf.side_le, ?_⟩
  intro j b hb
  have hb' : block? (modifyBlock l i f) j = some b := hb
  rw [modifyBlock_block?] at hb'
  rw [modifyBlock_cfg]
  split_ifs at hb' with hj
  · cases h0 : block? l j with
    | none => rw [h0] at hb'; cases hb'
    | some b0 =>
      rw [h0] at hb'
      simp only [Option.map_some, Option.some.injEq] at hb'
      obtain ⟨a1, a2, a3, a4⟩ := wf.block _ _ h0
      obtain ⟨f1, f2, f3, f4⟩ := hf b0
      subst hb'
      exact ⟨f1.trans a1, f2.trans a2, f3.trans a3, f4.trans a4⟩
  · exact wf.block _ _ hb'

theorem setStatus_wf {l : VLayer V} (wf : WellFormed l) (i : Idx) (h : Bool) (u : Flags) : WellFormed (setStatus l i h u) :=
  modifyBlock_wf wf _ _ fun _ => ⟨rfl, rfl, rfl, rfl⟩

theorem setStatus_content {l : VLayer V} (wf : WellFormed l) (i : Idx) (h : Bool) (u : Flags) (g : Idx) :
    content (setStatus l i h u) g = content l g := by
  rw [content_eq (setStatus_wf wf i h u), content_eq wf]
  unfold setStatus
  rw [modifyBlock_block?, modifyBlock_cfg]
  split_ifs with hj
  · rw [hj]; cases block? l i <;> rfl
  · rfl

theorem setStatus_status (l : VLayer V) (i : Idx) (h : Bool) (u : Flags) (j : Idx) :
    status (setStatus l i h u) j = if j = i then (status l j).map fun _ => (h, u) else status l j := by
  have e : ∀ l : VLayer V, status l j = (block? l j).map fun b => (b.hasData, b.updated) := fun _ => rfl
  rw [e, e, setStatus, modifyBlock_block?]
  split_ifs with hj
  · cases block? l j <;> rfl
  · rfl

theorem readVoxel_ok {l : VLayer V} (wf : WellFormed l) {i v : Idx} (hv : InBlock l.cfg.vps v) (hi : Allocated l i) :
    ∃ x, readVoxel l i v = .ok x ∧ content l (globalIndex l.cfg.vps i v) = some x := by
  obtain ⟨b, hb⟩ := Option.isSome_iff_exists.1 hi
  have hb' : block? l i = some b := hb
  obtain ⟨x, h1, h2⟩ := voxelByIndex_content wf hb' hv
  refine ⟨x, ?_, h2⟩
  unfold readVoxel
  rw [hb']
  exact h1

theorem linearIndex_inj {n : ℕ} (hn : n ≤ 1290) {v w : Idx} (hv : InBlock n v) (hw : InBlock n w)
    (h : linearIndex n v = linearIndex n w) : v = w := by
  obtain ⟨e1, -⟩ := linearIndex_eq hn hv
  obtain ⟨e2, -⟩ := linearIndex_eq hn hw
  obtain ⟨⟨x0, x1⟩, ⟨y0, y1⟩, ⟨z0, z1⟩⟩ := hv
  obtain ⟨⟨x0', x1'⟩, ⟨y0', y1'⟩, ⟨z0', z1'⟩⟩ := hw
  have hn0 : (0 : ℤ) ≤ n := by omega
  have n1 : (0 : ℤ) ≤ n * (v.y + n * v.z) := mul_nonneg hn0 (by have := mul_nonneg hn0 z0; omega)
  have n2 : (0 : ℤ) ≤ n * (w.y + n * w.z) := mul_nonneg hn0 (by have := mul_nonneg hn0 z0'; omega)
  have e : v.x + n * (v.y + n * v.z) = w.x + n * (w.y + n * w.z) := by
    rw [e1, e2] at h
    have := congrArg (Nat.cast : ℕ → ℤ) h
    rwa [Int.toNat_of_nonneg (by omega), Int.toNat_of_nonneg (by omega)] at this
  have hx : (v.y + n * v.z) = (v.x + n * (v.y + n * v.z)) / n ∧ v.x = (v.x + n * (v.y + n * v.z)) % n :=
    div_mod_of x0 x1 (by ring)
  have hx' : (w.y + n * w.z) = (w.x + n * (w.y + n * w.z)) / n ∧ w.x = (w.x + n * (w.y + n * w.z)) % n :=
    div_mod_of x0' x1' (by ring)
  rw [← e] at hx'
  have ex : v.x = w.x := hx.2.trans hx'.2.symm
  have eyz : v.y + n * v.z = w.y + n * w.z := hx.1.trans hx'.1.symm
  have hy : v.z = (v.y + n * v.z) / n ∧ v.y = (v.y + n * v.z) % n := div_mod_of y0 y1 (by ring)
  have hy' : w.z = (w.y + n * w.z) / n ∧ w.y = (w.y + n * w.z) % n := div_mod_of y0' y1' (by ring)
  rw [← eyz] at hy'
  ext
  · exact ex
  · exact hy.2.trans hy'.2.symm
  · exact hy.1.trans hy'.1.symm

theorem writeVoxel_ok {l : VLayer V} (wf : WellFormed l) {i v : Idx} (hv : InBlock l.cfg.vps v) (hi : Allocated l i) (x : V) :
    ∃ l', writeVoxel l i v x = .ok l' ∧ l'.cfg = l.cfg ∧ WellFormed l' ∧
      (∀ g, content l' g = if g = globalIndex l.cfg.vps i v then some x else content l g) ∧
      (∀ j, status l' j = status l j) ∧ l'.blocks.map (·.1) = l.blocks.map (·.1) := by
  obtain ⟨b, hb⟩ := Option.isSome_iff_exists.1 hi
  have hb' : block? l i = some b := hb
  obtain ⟨h1, -, -, h4⟩ := wf.block _ _ hb'
  have hlt := (linearIndex_eq wf.side_le hv).2
  have wf' : WellFormed (modifyBlock l i fun b => { b with voxels := b.voxels.set (linearIndex b.vps v) x }) :=
    modifyBlock_wf wf _ _ fun _ => ⟨rfl, rfl, rfl, List.length_set⟩
  refine ⟨modifyBlock l i fun b => { b with voxels := b.voxels.set (linearIndex b.vps v) x }, ?_, rfl, wf', ?_, ?_, ?_⟩
  · unfold writeVoxel
    rw [hb']
    simp only
    rw [if_pos (by rw [h1, h4]; exact hlt)]
  · intro g
    rw [content_eq wf', content_eq wf, modifyBlock_cfg, modifyBlock_block?]
    by_cases hg : blockOf l.cfg.vps g = i
    · rw [if_pos hg, hg, hb']
      simp only [Option.map_some, Option.bind_some, h1]
      by_cases hgv : localOf l.cfg.vps g = v
      · have : g = globalIndex l.cfg.vps i v := by rw [← hg, ← hgv, globalIndex_split]
        rw [if_pos this, hgv, List.getElem?_set_self (by rw [h4]; exact hlt)]
      · have : g ≠ globalIndex l.cfg.vps i v := by
          intro h
          apply hgv
          rw [h, localOf_globalIndex hv]
        rw [if_neg this, List.getElem?_set_ne]
        intro h
        exact hgv (linearIndex_inj wf.side_le hv (localOf_inBlock wf.side_pos g) h).symm
    · have : g ≠ globalIndex l.cfg.vps i v := by
        intro h
        apply hg
        rw [h, blockOf_globalIndex hv]
      rw [if_neg this, if_neg hg]
  · intro j
    have e : ∀ l : VLayer V, status l j = (block? l j).map fun b => (b.hasData, b.updated) := fun _ => rfl
    rw [e, e, modifyBlock_block?]
    split_ifs with hj
    · cases block? l j <;> rfl
    · rfl
  · unfold modifyBlock
    simp only [List.map_map]
    refine List.map_congr_left fun e _ => ?_
    simp only [Function.comp_apply]
    split_ifs <;> rfl

theorem allocated_iff_status {l : VLayer V} {i : Idx} : Allocated l i ↔ (status l i).isSome = true := by
  unfold Allocated status
  rw [Option.isSome_map]

theorem allocated_iff_mem {l : VLayer V} {i : Idx} : Allocated l i ↔ i ∈ l.blocks.map (·.1) := by
  rw [show Allocated l i ↔ (l.blocks.lookup i).isSome = true from Iff.rfl, List.lookup_isSome_iff]
  simp

theorem allocated_iff_content {l : VLayer V} (wf : WellFormed l) {i v : Idx} (hv : InBlock l.cfg.vps v) :
    Allocated l i ↔ (content l (globalIndex l.cfg.vps i v)).isSome = true := by
  rw [content_isSome wf, blockOf_globalIndex hv]
  rfl

theorem allocateBlock_block? (dflt : V) (l : VLayer V) (i j : Idx) :
    block? (allocateBlock dflt l i) j = if j = i then some ((block? l j).getD
      (Block.new dflt l.cfg.vps l.cfg.voxelSize (originPoint i l.cfg.blockSize))) else block? l j := by
  unfold allocateBlock
  cases h : block? l i with
  | some b =>
    by_cases hj : j = i
    · rw [if_pos hj, hj, h]; rfl
    · rw [if_neg hj]
  | none =>
    by_cases hj : j = i
    · subst hj
      rw [if_pos rfl, h]
      simp [block?]
    · have : (j == i) = false := by simpa using hj
      rw [if_neg hj]
      simp [block?, List.lookup_cons, this]

theorem allocateBlock_cfg (dflt : V) (l : VLayer V) (i : Idx) : (allocateBlock dflt l i).cfg = l.cfg := by
  unfold allocateBlock; split <;> rfl

theorem allocateBlock_wf {l : VLayer V} (wf : WellFormed l) (dflt : V) (i : Idx) : WellFormed (allocateBlock dflt l i) := by
  refine ⟨allocateBlock_cfg dflt l i ▸ wf.size_pos, allocateBlock_cfg dflt l i ▸ wf.side_pos, allocateBlock_cfg dflt l i ▸ wf.side_le, ?_⟩
  intro j b hb
  rw [allocateBlock_cfg]
  have hb' : block? (allocateBlock dflt l i) j = some b := hb
  rw [allocateBlock_block?] at hb'
  split_ifs at hb' with hj
  · cases h0 : block? l j with
    | some b0 =>
      rw [h0] at hb'
      simp only [Option.getD_some, Option.some.injEq] at hb'
      exact hb' ▸ wf.block _ _ h0
    | none =>
      rw [h0] at hb'
      simp only [Option.getD_none, Option.some.injEq] at hb'
      subst hb' hj
      exact ⟨rfl, rfl, rfl, by simp [Block.new, numVoxels]⟩
  · exact wf.block _ _ hb'

theorem allocateBlock_content {l : VLayer V} (wf : WellFormed l) (dflt : V) (i g : Idx) :
    content (allocateBlock dflt l i) g =
      if blockOf l.cfg.vps g = i then some ((content l g).getD dflt) else content l g := by
  rw [content_eq (allocateBlock_wf wf dflt i), content_eq wf, allocateBlock_cfg, allocateBlock_block?]
  have hlt := (linearIndex_eq wf.side_le (localOf_inBlock wf.side_pos g)).2
  split_ifs with hj
  · cases h0 : block? l (blockOf l.cfg.vps g) with
    | some b0 =>
      have h4 := (wf.block _ _ h0).2.2.2
      simp [List.getElem?_eq_getElem (h4 ▸ hlt)]
    | none =>
      simp only [Option.getD_none, Option.bind_some, Option.bind_none, Block.new, numVoxels]
      rw [List.getElem?_replicate, if_pos hlt]
  · rfl

theorem allocateBlock_status (dflt : V) (l : VLayer V) (i j : Idx) :
    status (allocateBlock dflt l i) j =
      if j = i then some ((status l j).getD (false, Flags.ofBool false)) else status l j := by
  have e : ∀ l : VLayer V, status l j = (block? l j).map fun b => (b.hasData, b.updated) := fun _ => rfl
  rw [e, e, allocateBlock_block?]
  split_ifs with hj
  · cases block? l j <;> rfl
  · rfl

/-- Allocating a list of blocks. -/
theorem allocateAll {l : VLayer V} (wf : WellFormed l) (dflt : V) (is : List Idx) :
    (is.foldl (allocateBlock dflt) l).cfg = l.cfg ∧ WellFormed (is.foldl (allocateBlock dflt) l) ∧
    (∀ g, content (is.foldl (allocateBlock dflt) l) g =
      if blockOf l.cfg.vps g ∈ is then some ((content l g).getD dflt) else content l g) ∧
    (∀ j, status (is.foldl (allocateBlock dflt) l) j =
      if j ∈ is then some ((status l j).getD (false, Flags.ofBool false)) else status l j) := by
  induction is generalizing l with
  | nil => exact ⟨rfl, wf, by simp, by simp⟩
  | cons i is ih =>
    rw [List.foldl_cons]
    obtain ⟨e1, e2, e3, e4⟩ := ih (allocateBlock_wf wf dflt i)
    refine ⟨e1.trans (allocateBlock_cfg dflt l i), e2, ?_, ?_⟩
    · intro g
      rw [e3, allocateBlock_cfg, allocateBlock_content wf]
      by_cases h1 : blockOf l.cfg.vps g = i <;> by_cases h2 : blockOf l.cfg.vps g ∈ is <;> simp [h1, h2]
    · intro j
      rw [e4, allocateBlock_status]
      by_cases h1 : j = i <;> by_cases h2 : j ∈ is <;> simp [h1, h2]

/-- Splitting a global index. -/
theorem splitGlobal_ok {k : ℕ} (hk : k < 31) {g : Idx} (hg : g.All fun c => |c| ≤ 2 ^ 24) :
    splitGlobal (2 ^ k) g = .ok (blockOf (2 ^ k) g, localOf (2 ^ k) g) := by
  obtain ⟨b, v, h1, h2, -, h4⟩ := Vox.Props.C02_split_recombine_partial hk hg
  unfold splitGlobal
  rw [Nat.log2_two_pow, if_pos rfl, h1, ← h4, blockOf_globalIndex h2, localOf_globalIndex h2]

end Vox.Grid
