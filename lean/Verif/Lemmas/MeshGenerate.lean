/-
The loop over the blocks to mesh: the meshes afterwards, by block index.
-/
import Verif.Lemmas.MeshBlock

namespace Vox.MeshInt

open Spec Layer Grid MC

variable {V : Type}

theorem lookup_mapVal {α β : Type} [BEq α] [LawfulBEq α] (f : α → β → β) (k : α) :
    ∀ xs : List (α × β), (xs.map fun e => (e.1, f e.1 e.2)).lookup k = (xs.lookup k).map (f k) := by
  intro xs
  induction xs with
  | nil => rfl
  | cons e xs ih =>
    obtain ⟨a, b⟩ := e
    simp only [List.map_cons, List.lookup_cons]
    by_cases h : k == a
    · have : k = a := by simpa using h
      subst this
      simp
    · simp only [h, ih]

theorem setMesh_lookup (ml : MeshMap) (i j : Idx) (m : Mesh) :
    (setMesh ml i m).lookup j = if j = i then (ml.lookup i).map fun _ => m else ml.lookup j := by
  have : setMesh ml i m = ml.map fun e => (e.1, (fun k x => if k = i then m else x) e.1 e.2) := by
    unfold setMesh
    refine List.map_congr_left fun e _ => ?_
    by_cases h : e.1 = i <;> simp [h]
  rw [this, lookup_mapVal (fun k x => if k = i then m else x)]
  by_cases h : j = i
  · subst h; simp
  · simp [h]

theorem allocateMesh_lookup (ml : MeshMap) (i j : Idx) :
    (allocateMesh ml i).lookup j = if j = i then some ((ml.lookup i).getD Mesh.empty) else ml.lookup j := by
  unfold allocateMesh
  cases h : ml.lookup i with
  | none =>
    simp only [List.lookup_cons]
    by_cases hj : j = i
    · subst hj; simp
    · have : (j == i) = false := by simpa using hj
      simp [this, hj]
  | some m =>
    by_cases hj : j = i
    · subst hj; simp [h]
    · simp [hj]

theorem allocateAll_lookup (is : List Idx) (ml : MeshMap) (j : Idx) :
    (is.foldl allocateMesh ml).lookup j = if j ∈ is then some ((ml.lookup j).getD Mesh.empty) else ml.lookup j := by
  induction is generalizing ml with
  | nil => simp
  | cons i is ih =>
    rw [List.foldl_cons, ih, allocateMesh_lookup]
    by_cases h1 : j = i
    · subst h1
      simp
    · simp [h1]

theorem resetMeshFlag_block? (l : VLayer V) (i j : Idx) :
    block? (resetMeshFlag l i) j =
      (block? l j).map fun b => if j = i then { b with updated := b.updated.put .mesh false } else b := by
  have : (resetMeshFlag l i).blocks = l.blocks.map fun e =>
      (e.1, (fun k (b : Block ℚ V) => if k = i then { b with updated := b.updated.put .mesh false } else b) e.1 e.2) := by
    unfold resetMeshFlag
    refine List.map_congr_left fun e _ => ?_
    by_cases h : e.1 = i <;> simp [h]
  unfold block?
  rw [this, lookup_mapVal (fun k (b : Block ℚ V) => if k = i then { b with updated := b.updated.put .mesh false } else b)]

/-- Two layers that differ in flags only. -/
structure SameVoxels (l l' : VLayer V) : Prop where
  cfg : l.cfg = l'.cfg
  keys : l'.blocks.map (·.1) = l.blocks.map (·.1)
  block : ∀ i, (block? l' i).map (fun b => (b.vps, b.voxelSize, b.origin, b.voxels)) =
    (block? l i).map fun b => (b.vps, b.voxelSize, b.origin, b.voxels)

theorem SameVoxels.refl (l : VLayer V) : SameVoxels l l := ⟨rfl, rfl, fun _ => rfl⟩

theorem SameVoxels.trans {l l' l'' : VLayer V} (h : SameVoxels l l') (h' : SameVoxels l' l'') : SameVoxels l l'' :=
  ⟨h.cfg.trans h'.cfg, h'.keys.trans h.keys, fun i => (h'.block i).trans (h.block i)⟩

theorem SameVoxels.isSome {l l' : VLayer V} (h : SameVoxels l l') (i : Idx) :
    (block? l' i).isSome = (block? l i).isSome := by
  have := h.block i
  cases h1 : block? l' i <;> cases h2 : block? l i <;> rw [h1, h2] at this <;> simp_all

theorem SameVoxels.wf {l l' : VLayer V} (h : SameVoxels l l') (wf : WellFormed l) : WellFormed l' := by
  refine ⟨h.cfg ▸ wf.size_pos, h.cfg ▸ wf.side_pos, h.cfg ▸ wf.side_le, ?_⟩
  intro i b hb
  have hi := h.block i
  have hb' : block? l' i = some b := hb
  rw [hb'] at hi
  cases h2 : block? l i with
  | none => rw [h2] at hi; simp at hi
  | some b0 =>
    rw [h2] at hi
    simp only [Option.map_some, Option.some.injEq, Prod.mk.injEq] at hi
    obtain ⟨e1, e2, e3, e4⟩ := hi
    rw [e1, e2, e3, e4, ← h.cfg]
    exact wf.block i b0 h2

theorem SameVoxels.above {l l' : VLayer V} (h : SameVoxels l l') (i : Idx) : SameAbove l l' i := by
  intro d _
  have := h.block (i + d)
  cases h1 : block? l' (i + d) <;> cases h2 : block? l (i + d) <;> rw [h1, h2] at this <;> simp_all

theorem resetMeshFlag_same (l : VLayer V) (i : Idx) : SameVoxels l (resetMeshFlag l i) := by
  refine ⟨rfl, ?_, ?_⟩
  · unfold resetMeshFlag
    simp only [List.map_map]
    refine List.map_congr_left fun e _ => ?_
    simp only [Function.comp_apply]
    split_ifs <;> rfl
  · intro j
    rw [resetMeshFlag_block?]
    cases block? l j with
    | none => rfl
    | some b =>
      simp only [Option.map_some]
      split_ifs <;> rfl

/-- The flag of a block afterwards. -/
def flagOf (l : VLayer V) (i : Idx) : Option Bool := (block? l i).map fun b => b.updated.get .mesh

theorem resetMeshFlag_flag (l : VLayer V) (i j : Idx) :
    flagOf (resetMeshFlag l i) j = (flagOf l j).map fun f => if j = i then false else f := by
  unfold flagOf
  rw [resetMeshFlag_block?]
  cases block? l j with
  | none => rfl
  | some b =>
    simp only [Option.map_some]
    split_ifs <;> rfl

/-- The work of the threads: the listed blocks get their mesh, all others keep theirs; only flags change. -/
theorem meshBlocks_ok (sq : ℚ → Fl) (useColor : Bool) (fns : VoxelFns V) (clear : Bool) {l0 : VLayer V} (wf0 : WellFormed l0)
    (hr : ∀ i, (block? l0 i).isSome = true → BlockInRange l0 i) :
    ∀ (is : List Idx) (l : VLayer V) (ml : MeshMap), SameVoxels l0 l → (∀ i ∈ is, (block? l0 i).isSome = true) →
      (∀ i ∈ is, (ml.lookup i).isSome = true) →
      ∃ l' ml', meshBlocks sq useColor fns clear is (l, ml) = .ok (l', ml') ∧ SameVoxels l0 l' ∧
        (∀ j, ml'.lookup j = if j ∈ is then some (blockMesh sq useColor l0 fns j) else ml.lookup j) ∧
        ∀ j, flagOf l' j = (flagOf l j).map fun f => if clear = true ∧ j ∈ is then false else f := by
  intro is
  induction is with
  | nil =>
    intro l ml hs _ _
    exact ⟨l, ml, rfl, hs, by simp, by intro j; cases flagOf l j <;> simp⟩
  | cons i is ih =>
    intro l ml hs hb hm
    have hbi := hb i List.mem_cons_self
    have hmi := hm i List.mem_cons_self
    obtain ⟨m, hm'⟩ := Option.isSome_iff_exists.1 hmi
    have hbl : (block? l i).isSome = true := by rw [hs.isSome]; exact hbi
    obtain ⟨b, hb'⟩ := Option.isSome_iff_exists.1 hbl
    have hri : BlockInRange l i := by
      have := hr i hbi
      unfold BlockInRange at this ⊢
      rw [← hs.cfg]; exact this
    have hu : updateMeshForBlock sq useColor l fns ml i = .ok (setMesh ml i (blockMesh sq useColor l0 fns i)) := by
      unfold updateMeshForBlock
      rw [hm']
      simp only [hb', meshOfBlock_eq sq useColor (hs.wf wf0) fns hb' hri, Outcome.bind_ok, Outcome.pure_eq]
      rw [blockMesh_same sq useColor wf0 hs.cfg fns (hs.above i)]
    have hlook : ∀ j ∈ is, ((setMesh ml i (blockMesh sq useColor l0 fns i)).lookup j).isSome = true := by
      intro j hj
      rw [setMesh_lookup]
      split_ifs
      · rw [hm']; rfl
      · exact hm j (List.mem_cons_of_mem _ hj)
    have hb2 : ∀ j ∈ is, (block? l0 j).isSome = true := fun j hj => hb j (List.mem_cons_of_mem _ hj)
    unfold meshBlocks
    rw [hu, Outcome.bind_ok]
    cases clear with
    | true =>
      simp only [if_true, hb']
      obtain ⟨l', ml', e1, e2, e3, e4⟩ := ih (resetMeshFlag l i) _ (hs.trans (resetMeshFlag_same l i)) hb2 hlook
      refine ⟨l', ml', e1, e2, ?_, ?_⟩
      · intro j
        rw [e3, setMesh_lookup]
        by_cases h1 : j ∈ is
        · simp [h1]
        · by_cases h2 : j = i
          · subst h2; simp [h1, hm']
          · simp [h1, h2]
      · intro j
        rw [e4, resetMeshFlag_flag]
        cases flagOf l j with
        | none => rfl
        | some f =>
          by_cases h1 : j ∈ is <;> by_cases h2 : j = i <;> simp [h1, h2]
    | false =>
      simp only [Bool.false_eq_true, if_false]
      obtain ⟨l', ml', e1, e2, e3, e4⟩ := ih l _ hs hb2 hlook
      refine ⟨l', ml', e1, e2, ?_, ?_⟩
      · intro j
        rw [e3, setMesh_lookup]
        by_cases h1 : j ∈ is
        · simp [h1]
        · by_cases h2 : j = i
          · subst h2; simp [h1, hm']
          · simp [h1, h2]
      · intro j
        rw [e4]
        cases flagOf l j <;> simp

theorem lookup_of_mem_keys {α β : Type} [BEq α] [LawfulBEq α] {xs : List (α × β)} {k : α} (h : k ∈ xs.map (·.1)) :
    (xs.lookup k).isSome = true := by
  induction xs with
  | nil => simp at h
  | cons e xs ih =>
    obtain ⟨a, b⟩ := e
    simp only [List.lookup_cons]
    by_cases hk : k == a
    · simp [hk]
    · simp only [hk]
      refine ih ?_
      simp only [List.map_cons, List.mem_cons] at h
      rcases h with h | h
      · exact absurd (by simpa using h) hk
      · exact h

theorem mem_keys_of_lookup {α β : Type} [BEq α] [LawfulBEq α] {xs : List (α × β)} {k : α} {v : β}
    (h : xs.lookup k = some v) : (k, v) ∈ xs := by
  induction xs with
  | nil => simp at h
  | cons e xs ih =>
    obtain ⟨a, b⟩ := e
    simp only [List.lookup_cons] at h
    by_cases hk : k == a
    · simp only [hk, Option.some.injEq] at h
      have : k = a := by simpa using hk
      subst this h
      exact List.mem_cons_self
    · simp only [hk] at h
      exact List.mem_cons_of_mem _ (ih h)

theorem lookup_of_nodup {α β : Type} [BEq α] [LawfulBEq α] {xs : List (α × β)} (hn : (xs.map (·.1)).Nodup) {k : α} {v : β}
    (h : (k, v) ∈ xs) : xs.lookup k = some v := by
  induction xs with
  | nil => simp at h
  | cons e xs ih =>
    obtain ⟨a, b⟩ := e
    simp only [List.lookup_cons]
    simp only [List.map_cons, List.nodup_cons] at hn
    rcases List.mem_cons.1 h with h' | h'
    · cases h'; simp
    · have hne : ¬ (k == a) = true := by
        intro hk
        have : k = a := by simpa using hk
        subst this
        exact hn.1 (List.mem_map.2 ⟨(k, v), h', rfl⟩)
      simp only [hne]
      exact ih hn.2 h'

/-- Which blocks are meshed. -/
theorem mem_blocksToMesh {l : VLayer V} (hn : (l.blocks.map (·.1)).Nodup) (only : Bool) (i : Idx) :
    i ∈ blocksToMesh only l ↔ ∃ b, block? l i = some b ∧ (only = true → b.updated.get .mesh = true) := by
  unfold blocksToMesh block?
  cases only with
  | true =>
    simp only [if_true, List.mem_map, List.mem_filter]
    constructor
    · rintro ⟨⟨k, b⟩, ⟨hm, hf⟩, rfl⟩
      exact ⟨b, lookup_of_nodup hn hm, fun _ => hf⟩
    · rintro ⟨b, hb, hf⟩
      exact ⟨(i, b), ⟨mem_keys_of_lookup hb, hf trivial⟩, rfl⟩
  | false =>
    simp only [Bool.false_eq_true, if_false, List.mem_map, false_implies, and_true]
    constructor
    · rintro ⟨⟨k, b⟩, hm, rfl⟩
      exact ⟨b, lookup_of_nodup hn hm⟩
    · rintro ⟨b, hb⟩
      exact ⟨(i, b), mem_keys_of_lookup hb, rfl⟩

/-- `generateMesh`, by block index. -/
theorem generateMesh_ok (sq : ℚ → Fl) (useColor : Bool) (fns : VoxelFns V) (isMutable only clear : Bool) {l : VLayer V}
    (wf : WellFormed l) (hn : (l.blocks.map (·.1)).Nodup) (hr : ∀ i, (block? l i).isSome = true → BlockInRange l i)
    (hc : clear = true → isMutable = true) (ml : MeshMap) :
    ∃ l' ml', generateMesh sq useColor fns isMutable only clear (l, ml) = .ok (l', ml') ∧ SameVoxels l l' ∧
      (∀ j, ml'.lookup j =
        if j ∈ blocksToMesh only l then some (blockMesh sq useColor l fns j) else ml.lookup j) ∧
      ∀ j, flagOf l' j = (flagOf l j).map fun f => if clear = true ∧ j ∈ blocksToMesh only l then false else f := by
  have hb : ∀ i ∈ blocksToMesh only l, (block? l i).isSome = true := by
    intro i hi
    obtain ⟨b, hb, -⟩ := (mem_blocksToMesh hn only i).1 hi
    rw [hb]; rfl
  have ha : ∀ i ∈ blocksToMesh only l, (((blocksToMesh only l).foldl allocateMesh ml).lookup i).isSome = true := by
    intro i hi
    rw [allocateAll_lookup, if_pos hi]; rfl
  obtain ⟨l', ml', e1, e2, e3, e4⟩ := meshBlocks_ok sq useColor fns clear wf hr (blocksToMesh only l) l
    ((blocksToMesh only l).foldl allocateMesh ml) (SameVoxels.refl l) hb ha
  refine ⟨l', ml', ?_, e2, ?_, e4⟩
  · unfold generateMesh
    have : (!clear || isMutable) = true := by cases clear <;> simp_all
    simp only [this, Outcome.check, if_true, Outcome.bind_ok]
    exact e1
  · intro j
    rw [e3, allocateAll_lookup]
    split_ifs <;> rfl

end Vox.MeshInt
