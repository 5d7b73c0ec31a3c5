/-
Comparison of layers.
-/
import Verif.Model.LayerUtils
import Verif.Spec.LayerUtils
import Verif.Lemmas.GridWrite
import Verif.Lemmas.Merge

namespace Vox.LayerUtils

open Layer Grid Spec

variable {V : Type}

theorem foldlM_and {f : ℕ → Outcome Bool} {P : ℕ → Prop} (n : ℕ) (acc : Bool) (h : ∀ k < n, ∃ r, f k = .ok r ∧ (r = true ↔ P k)) :
    ∃ r, (List.range n).foldlM (fun r k => do
      let s ← f k
      pure (r && s)) acc = .ok r ∧ (r = true ↔ acc = true ∧ ∀ k < n, P k) := by
  induction n with
  | zero => exact ⟨acc, rfl, by simp⟩
  | succ n ih =>
    obtain ⟨r, h1, h2⟩ := ih fun k hk => h k (by omega)
    obtain ⟨s, h3, h4⟩ := h n (by omega)
    refine ⟨r && s, ?_, ?_⟩
    · rw [List.range_succ, List.foldlM_append, h1]
      simp [h3]
    · rw [Bool.and_eq_true, h2, h4]
      constructor
      · rintro ⟨⟨a, b⟩, c⟩
        refine ⟨a, fun k hk => ?_⟩
        by_cases e : k = n
        · exact e ▸ c
        · exact b k (by omega)
      · rintro ⟨a, b⟩
        exact ⟨⟨a, fun k hk => b k (by omega)⟩, b n (by omega)⟩

/-- What `isSameBlock` decides about two blocks of one side. -/
structure BlockAgree (R : V → V → Prop) (a b : Block ℚ V) : Prop where
  size : |a.voxelSize - b.voxelSize| < kTolerance
  bsize : |(a.vps : ℚ) * a.voxelSize - b.vps * b.voxelSize| < kTolerance
  ox : |a.origin.x - b.origin.x| < kTolerance
  oy : |a.origin.y - b.origin.y| < kTolerance
  oz : |a.origin.z - b.origin.z| < kTolerance
  voxels : ∀ (k : ℕ) x y, a.voxels[k]? = some x → b.voxels[k]? = some y → R x y

theorem isSameBlock_ok {same : V → V → Outcome Bool} {R : V → V → Prop} (hs : ∀ x y, ∃ r, same x y = .ok r ∧ (r = true ↔ R x y))
    {a b : Block ℚ V} {n : ℕ} (ha : a.vps = n) (hb : b.vps = n) (la : a.voxels.length = n * n * n) (lb : b.voxels.length = n * n * n) :
    ∃ r, isSameBlock same a b = .ok r ∧ (r = true ↔ BlockAgree R a b) := by
  have step : ∀ k < n * n * n, ∃ r, (do
      let x ← voxelAt a k
      let y ← voxelAt b k
      same x y) = .ok r ∧ (r = true ↔ ∀ x y, a.voxels[k]? = some x → b.voxels[k]? = some y → R x y) := by
    intro k hk
    obtain ⟨x, h1, h2⟩ := Merge.voxelAt_ok (b := a) (k := k) (by omega)
    obtain ⟨y, h3, h4⟩ := Merge.voxelAt_ok (b := b) (k := k) (by omega)
    obtain ⟨r, h5, h6⟩ := hs x y
    refine ⟨r, by simp [h1, h3, h5], ?_⟩
    rw [h6, h2, h4]
    constructor
    · intro h x' y' e1 e2
      rw [← Option.some.inj e1, ← Option.some.inj e2]
      exact h
    · intro h
      exact h x y rfl rfl
  obtain ⟨r, h1, h2⟩ := foldlM_and (n * n * n) (closeQ a.voxelSize b.voxelSize && closeQ (blockSizeOf a) (blockSizeOf b) && (a.vps == b.vps) &&
    closeQ a.origin.x b.origin.x && closeQ a.origin.y b.origin.y && closeQ a.origin.z b.origin.z &&
    (numVoxels a.vps == numVoxels b.vps)) step
  refine ⟨r, ?_, ?_⟩
  · rw [← h1]
    unfold isSameBlock sameVoxels numVoxels
    rw [ha]
    simp only [bind_assoc]
  · rw [h2]
    simp only [Bool.and_eq_true, closeQ, decide_eq_true_eq, beq_iff_eq, ha, hb, blockSizeOf, and_true]
    constructor
    · rintro ⟨⟨⟨⟨⟨a1, a2⟩, a3⟩, a4⟩, a5⟩, a6⟩
      refine ⟨a1, by rw [ha, hb]; exact a2, a3, a4, a5, ?_⟩
      intro k x y e1 e2
      refine a6 k ?_ x y e1 e2
      rw [← la]
      exact (List.getElem?_eq_some_iff.1 e1).1
    · rintro ⟨a1, a2, a3, a4, a5, a6⟩
      rw [ha, hb] at a2
      exact ⟨⟨⟨⟨⟨a1, a2⟩, a3⟩, a4⟩, a5⟩, fun k _ x y e1 e2 => a6 k x y e1 e2⟩

theorem blockByIndex_ok {l : VLayer V} {i : Idx} (h : i ∈ l.blocks.map (·.1)) : ∃ b, blockByIndex l i = .ok b ∧ block? l i = some b := by
  obtain ⟨b, hb⟩ := Option.isSome_iff_exists.1 (allocated_iff_mem.2 h)
  have hb' : block? l i = some b := hb
  exact ⟨b, by simp [blockByIndex, hb'], hb'⟩

theorem sameBlocks_ok {same : V → V → Outcome Bool} {R : V → V → Prop} (hs : ∀ x y, ∃ r, same x y = .ok r ∧ (r = true ↔ R x y))
    {A B : VLayer V} (wa : WellFormed A) (wb : WellFormed B) (hv : A.cfg.vps = B.cfg.vps) (other is : List Idx)
    (ho : ∀ i ∈ is, i ∈ other → i ∈ A.blocks.map (·.1) ∧ i ∈ B.blocks.map (·.1)) (acc : Bool) :
    ∃ r, sameBlocks same A B other is acc = .ok r ∧
      (r = some true ↔ acc = true ∧ ∀ i ∈ is, i ∈ other ∧ ∀ a b, block? A i = some a → block? B i = some b → BlockAgree R a b) := by
  induction is generalizing acc with
  | nil => exact ⟨some acc, rfl, by simp⟩
  | cons i is ih =>
    unfold sameBlocks
    split_ifs with hi
    · obtain ⟨h1, h2⟩ := ho i (by simp) hi
      obtain ⟨a, a1, a2⟩ := blockByIndex_ok h1
      obtain ⟨b, b1, b2⟩ := blockByIndex_ok h2
      obtain ⟨a3, _, _, a4⟩ := wa.block _ _ a2
      obtain ⟨b3, _, _, b4⟩ := wb.block _ _ b2
      obtain ⟨s, s1, s2⟩ := isSameBlock_ok hs a3 (b3.trans hv.symm) a4 (by rw [b4, hv])
      obtain ⟨r, r1, r2⟩ := ih (fun j hj => ho j (by simp [hj])) (acc && s)
      refine ⟨r, by simp [a1, b1, s1, r1], ?_⟩
      rw [r2, Bool.and_eq_true, s2]
      constructor
      · rintro ⟨⟨x, y⟩, z⟩
        refine ⟨x, fun j hj => ?_⟩
        rcases List.mem_cons.1 hj with e | hj
        · subst e
          refine ⟨hi, fun a' b' e1 e2 => ?_⟩
          rw [a2] at e1
          rw [b2] at e2
          rw [← Option.some.inj e1, ← Option.some.inj e2]
          exact y
        · exact z j hj
      · rintro ⟨x, z⟩
        exact ⟨⟨x, (z i (by simp)).2 a b a2 b2⟩, fun j hj => z j (by simp [hj])⟩
    · refine ⟨none, rfl, ?_⟩
      constructor
      · intro h; cases h
      · rintro ⟨_, h⟩
        exact absurd (h i (by simp)).1 hi

theorem layerMemory_eq (z : Sizes) {A B : VLayer V} (wa : WellFormed A) (wb : WellFormed B) (hv : A.cfg.vps = B.cfg.vps)
    (hl : A.blocks.length = B.blocks.length) : layerMemory z A = layerMemory z B := by
  have head : ∀ {l : VLayer V}, WellFormed l → ∀ e es, l.blocks = e :: es → e.2.vps = l.cfg.vps := by
    intro l w e es h
    refine (w.block e.1 e.2 ?_).1
    obtain ⟨i, b⟩ := e
    rw [h, List.lookup_cons]
    simp
  unfold layerMemory
  cases ha : A.blocks with
  | nil =>
    rw [ha] at hl
    rw [List.length_eq_zero_iff.1 hl.symm]
  | cons e es =>
    cases hb : B.blocks with
    | nil => rw [ha, hb] at hl; simp at hl
    | cons f fs =>
      rw [ha, hb] at hl
      simp only [blockMemory, head wa _ _ ha, head wb _ _ hb, hv]
      rw [hl]

/-- Voxels of two blocks agree position by position iff the contents do. -/
theorem blocks_content {R : V → V → Prop} {A B : VLayer V} (wa : WellFormed A) (wb : WellFormed B) (hv : A.cfg.vps = B.cfg.vps) :
    (∀ i a b, block? A i = some a → block? B i = some b → ∀ (k : ℕ) x y, a.voxels[k]? = some x → b.voxels[k]? = some y → R x y) ↔
      ∀ g x y, content A g = some x → content B g = some y → R x y := by
  have hsz : numVoxels A.cfg.vps ≤ 2 ^ 31 := by
    have := wa.side_le
    have h2 : A.cfg.vps * A.cfg.vps ≤ 1290 * 1290 := Nat.mul_le_mul this this
    have h3 : A.cfg.vps * A.cfg.vps * A.cfg.vps ≤ 1290 * 1290 * 1290 := Nat.mul_le_mul h2 this
    unfold numVoxels
    omega
  constructor
  · intro h g x y hx hy
    rw [content_eq wa] at hx
    rw [content_eq wb, ← hv] at hy
    cases ha : block? A (blockOf A.cfg.vps g) with
    | none => rw [ha] at hx; cases hx
    | some a =>
      cases hb : block? B (blockOf A.cfg.vps g) with
      | none => rw [hb] at hy; cases hy
      | some b =>
        rw [ha] at hx
        rw [hb] at hy
        exact h _ a b ha hb _ x y hx hy
  · intro h i a b ha hb k x y hx hy
    have hk : k < A.cfg.vps * A.cfg.vps * A.cfg.vps := by
      rw [← (wa.block _ _ ha).2.2.2]
      exact (List.getElem?_eq_some_iff.1 hx).1
    obtain ⟨v, _, hin, hl⟩ := Props.C01_linear_to_voxel_to_linear hsz (l := k) (by
      unfold isValidLinearIndex numVoxels
      rw [if_neg (by omega)])
    have e1 := blockOf_globalIndex (i := i) hin
    have e2 := localOf_globalIndex (i := i) hin
    refine h (globalIndex A.cfg.vps i v) x y ?_ ?_
    · rw [content_eq wa, e1, e2, ha, hl]
      exact hx
    · rw [content_eq wb, ← hv, e1, e2, hb, hl]
      exact hy

end Vox.LayerUtils
