/-
C50 and C51: the marching cubes tables describe a closed oriented surface between negative and non-negative
grid points, and the generated vertices are the zero crossings on the grid edges.
-/
import Verif.Lemmas.MarchingCubes
import Mathlib.Tactic.Ring
import Mathlib.Tactic.FieldSimp

namespace Vox.MC

open Spec

/-! ### C50: the tables -/

/-- **C50 (complete rows).** Every configuration has a row of 16 entries: complete triples of edge numbers
below 12, at most five of them, and -1 from there on. -/
theorem C50_rows : ∀ i < 256, ∃ row k, triangleTable[i]? = some row ∧ row.length = 16 ∧ k ≤ 5 ∧
    ∀ n < 16, (n < 3 * k → 0 ≤ row.getD n 0 ∧ row.getD n 0 < 12) ∧ (3 * k ≤ n → row.getD n 0 = -1) := by
  intro i hi
  obtain ⟨row, h1, h2, h3, h4⟩ := chk_rows i hi
  exact ⟨row, _, h1, h2, h4, h3⟩

example : triangleTable.length = 256 := by decide +kernel

theorem loc_ends : ∀ e < 12,
    (off (ends e).1 = (loc e).base ∧ off (ends e).2 = (loc e).base + unitStep (loc e).axis) ∨
    (off (ends e).2 = (loc e).base ∧ off (ends e).1 = (loc e).base + unitStep (loc e).axis) := by decide +kernel

theorem ends_lt : ∀ e < 12, (ends e).1 < 8 ∧ (ends e).2 < 8 := by decide +kernel

theorem edgeAt_ends (c : Idx) {e : ℕ} (he : e < 12) :
    (c + off (ends e).1 = (edgeAt c e).base ∧ c + off (ends e).2 = (edgeAt c e).tip) ∨
    (c + off (ends e).2 = (edgeAt c e).base ∧ c + off (ends e).1 = (edgeAt c e).tip) := by
  rw [edgeAt_eq]
  unfold GridEdge.tip
  have assoc : ∀ u v : Idx, c + (u + v) = c + u + v := by
    intro u v
    ext <;> simp only [Vec3.add_x, Vec3.add_y, Vec3.add_z] <;> ring
  rcases loc_ends e he with ⟨h1, h2⟩ | ⟨h1, h2⟩
  · left; rw [h1, h2, assoc]; exact ⟨rfl, rfl⟩
  · right; rw [h1, h2, assoc]; exact ⟨rfl, rfl⟩

theorem loc_edgeOfCube : ∀ e < 12, (loc e).axis < 3 ∧
    ((loc e).base.x = 0 ∨ ((loc e).base.x = 1 ∧ (loc e).axis ≠ 0)) ∧
    ((loc e).base.y = 0 ∨ ((loc e).base.y = 1 ∧ (loc e).axis ≠ 1)) ∧
    ((loc e).base.z = 0 ∨ ((loc e).base.z = 1 ∧ (loc e).axis ≠ 2)) := by decide +kernel

set_option synthInstance.maxHeartbeats 400000 in
set_option synthInstance.maxSize 2000 in
theorem loc_surj : ∀ ax < 3, ∀ x < 2, ∀ y < 2, ∀ z < 2, (x = 1 → ax ≠ 0) → (y = 1 → ax ≠ 1) → (z = 1 → ax ≠ 2) →
    ∃ e < 12, loc e = { base := ⟨(x : ℕ), (y : ℕ), (z : ℕ)⟩, axis := ax } := by decide +kernel

/-- **C50 (edge numbering).** The twelve entries of `kEdgeIndexPairs` are the twelve edges of the cube, each
exactly once. -/
theorem C50_edges (c : Idx) (e : GridEdge) : EdgeOfCube c e ↔ ∃! i, i < 12 ∧ edgeAt c i = e := by
  constructor
  · rintro ⟨hax, hx, hy, hz⟩
    obtain ⟨⟨bx, b_y, bz⟩, ax⟩ := e
    simp only at hax hx hy hz
    have key : ∃ i, i < 12 ∧ edgeAt c i = ⟨⟨bx, b_y, bz⟩, ax⟩ := by
      have aux : ∀ (b cc : ℤ) (P : Prop), (b = cc ∨ (b = cc + 1 ∧ P)) →
          ∃ n : ℕ, n < 2 ∧ b = cc + (n : ℕ) ∧ (n = 1 → P) := by
        intro b cc P h
        rcases h with h | ⟨h, p⟩
        · exact ⟨0, by omega, by simpa using h, by omega⟩
        · exact ⟨1, by omega, by simpa using h, fun _ => p⟩
      obtain ⟨x, x1, x2, x3⟩ := aux _ _ _ hx
      obtain ⟨y, y1, y2, y3⟩ := aux _ _ _ hy
      obtain ⟨z, z1, z2, z3⟩ := aux _ _ _ hz
      obtain ⟨i, hi, h⟩ := loc_surj ax hax x x1 y y1 z z1 x3 y3 z3
      refine ⟨i, hi, ?_⟩
      rw [edgeAt_eq, h]
      congr 1
      ext
      · exact x2.symm
      · exact y2.symm
      · exact z2.symm
    obtain ⟨i, hi, h⟩ := key
    exact ⟨i, ⟨hi, h⟩, fun j ⟨hj, h'⟩ => edgeAt_inj hj hi (h'.trans h.symm)⟩
  · rintro ⟨i, ⟨hi, rfl⟩, -⟩
    rw [edgeAt_eq]
    obtain ⟨h0, h1, h2, h3⟩ := loc_edgeOfCube i hi
    refine ⟨h0, ?_, ?_, ?_⟩
    · simp only [Vec3.add_x]
      rcases h1 with h | ⟨h, p⟩
      · left; omega
      · right; exact ⟨by omega, p⟩
    · simp only [Vec3.add_y]
      rcases h2 with h | ⟨h, p⟩
      · left; omega
      · right; exact ⟨by omega, p⟩
    · simp only [Vec3.add_z]
      rcases h3 with h | ⟨h, p⟩
      · left; omega
      · right; exact ⟨by omega, p⟩

example : EdgeOfCube ⟨-1, 4, 2⟩ ⟨⟨0, 5, 2⟩, 2⟩ := by unfold EdgeOfCube; decide

theorem signChange_edgeAt (neg : Idx → Bool) (c : Idx) {e : ℕ} (he : e < 12) :
    SignChange neg (edgeAt c e) ↔ (cfgAt neg c).testBit (ends e).1 ≠ (cfgAt neg c).testBit (ends e).2 := by
  obtain ⟨l1, l2⟩ := ends_lt e he
  unfold cfgAt SignChange
  rw [cfgIndex_testBit _ _ l1, cfgIndex_testBit _ _ l2]
  unfold signsAt
  rcases edgeAt_ends c he with ⟨h1, h2⟩ | ⟨h1, h2⟩
  · rw [h1, h2]
  · rw [h1, h2]; exact ne_comm

/-- **C50 (triangles exactly on sign changes).** For every sign field on the grid and every cube: a grid edge
carries a vertex of the cube's triangles exactly if it is an edge of the cube whose ends have different signs. -/
theorem C50_used_iff (neg : Idx → Bool) (c : Idx) (e : GridEdge) :
    (∃ t ∈ cubeTriangles neg c, e = t.1 ∨ e = t.2.1 ∨ e = t.2.2) ↔ EdgeOfCube c e ∧ SignChange neg e := by
  constructor
  · rintro ⟨t, ht, h⟩
    unfold cubeTriangles at ht
    obtain ⟨s, hs, rfl⟩ := List.mem_map.1 ht
    obtain ⟨l1, l2, l3, -⟩ := chk_emitted _ (cfgIndex_lt _) s hs
    have key : ∀ i < 12, (i = s.1 ∨ i = s.2.1 ∨ i = s.2.2) → e = edgeAt c i → EdgeOfCube c e ∧ SignChange neg e := by
      intro i hi hs' he
      subst he
      refine ⟨(C50_edges c _).2 ⟨i, ⟨hi, rfl⟩, fun j ⟨hj, h'⟩ => edgeAt_inj hj hi h'⟩, ?_⟩
      rw [signChange_edgeAt neg c hi]
      exact (chk_used _ (cfgIndex_lt _) i hi).1 ⟨s, hs, hs'⟩
    rcases h with h | h | h
    · exact key _ l1 (Or.inl rfl) h
    · exact key _ l2 (Or.inr (Or.inl rfl)) h
    · exact key _ l3 (Or.inr (Or.inr rfl)) h
  · rintro ⟨h1, h2⟩
    obtain ⟨i, ⟨hi, rfl⟩, -⟩ := (C50_edges c e).1 h1
    rw [signChange_edgeAt neg c hi] at h2
    obtain ⟨t, ht, h⟩ := (chk_used _ (cfgIndex_lt _) i hi).2 h2
    refine ⟨_, List.mem_map.2 ⟨t, ht, rfl⟩, ?_⟩
    rcases h with rfl | rfl | rfl
    · exact Or.inl rfl
    · exact Or.inr (Or.inl rfl)
    · exact Or.inr (Or.inr rfl)

example : EdgeOfCube ⟨0, 0, 0⟩ ⟨⟨0, 0, 0⟩, 0⟩ ∧ SignChange (fun g => g.x ≤ 0) ⟨⟨0, 0, 0⟩, 0⟩ := by
  unfold SignChange EdgeOfCube GridEdge.tip unitStep; decide

/-- **C50 (proper triangles).** The three vertices of a triangle lie on three different grid edges. -/
theorem C50_distinct (neg : Idx → Bool) (c : Idx) : ∀ t ∈ cubeTriangles neg c, t.1 ≠ t.2.1 ∧ t.2.1 ≠ t.2.2 ∧ t.2.2 ≠ t.1 := by
  intro t ht
  obtain ⟨s, hs, rfl⟩ := List.mem_map.1 ht
  obtain ⟨l1, l2, l3, d1, d2, d3⟩ := chk_emitted _ (cfgIndex_lt _) s hs
  exact ⟨fun h => d1 (edgeAt_inj l1 l2 h), fun h => d2 (edgeAt_inj l2 l3 h), fun h => d3 (edgeAt_inj l3 l1 h)⟩

/-- **C50 (each directed edge once).** A directed triangle edge occurs in only one cube, and there only
once. -/
theorem C50_segment_unique (neg : Idx → Bool) (c c' : Idx) (s : GridEdge × GridEdge) (h : s ∈ cubeSegments neg c)
    (h' : s ∈ cubeSegments neg c') : c = c' ∧ (cubeSegments neg c).count s = 1 := by
  refine ⟨?_, List.count_eq_one_of_mem (cubeSegments_nodup neg c) h⟩
  by_contra hc
  obtain ⟨⟨a, b⟩, hp, hs⟩ := mem_cubeSegments.1 h
  obtain ⟨⟨a', b'⟩, hp', hs'⟩ := mem_cubeSegments.1 h'
  obtain ⟨la, lb, hab⟩ := dirEdges_lt (cfgIndex_lt _) hp
  obtain ⟨la', lb', -⟩ := dirEdges_lt (cfgIndex_lt _) hp'
  simp only at la lb hab la' lb'
  rw [hs] at hs'
  simp only [Prod.mk.injEq] at hs'
  obtain ⟨e1, e2⟩ := hs'
  obtain ⟨ax, hax, h | h⟩ := shared_edges la la' lb lb' hab e1 e2 hc
  · obtain ⟨rfl, fa, fb⟩ := h
    have ha := edgeAt_opp (c := c) hax la fa
    have hb := edgeAt_opp (c := c) hax lb fb
    obtain ⟨oa, qa, -⟩ := (chk_opp ax hax a la).1 fa
    obtain ⟨ob, qb, -⟩ := (chk_opp ax hax b lb).1 fb
    have ia : opp ax a = a' := edgeAt_inj oa la' (ha.trans e1)
    have ib : opp ax b = b' := edgeAt_inj ob lb' (hb.trans e2)
    have hu := segment_up hax hp fa fb
    rw [ia, ib] at hu
    have := (chk_inner _ (cfgIndex_lt _) _ hp').1 hu
    rw [ia] at qa
    rw [ib] at qb
    simp [sameFace_of hax (Or.inl rfl) qa qb] at this
  · obtain ⟨rfl, fa, fb⟩ := h
    have ha := edgeAt_opp' (c := c') hax la fa
    have hb := edgeAt_opp' (c := c') hax lb fb
    obtain ⟨oa, qa, -⟩ := (chk_opp ax hax a la).2 fa
    obtain ⟨ob, qb, -⟩ := (chk_opp ax hax b lb).2 fb
    have ia : opp ax a = a' := edgeAt_inj oa la' (ha.trans e1)
    have ib : opp ax b = b' := edgeAt_inj ob lb' (hb.trans e2)
    have hu := segment_down hax hp fa fb
    rw [ia, ib] at hu
    have := (chk_inner _ (cfgIndex_lt _) _ hp').1 hu
    rw [ia] at qa
    rw [ib] at qb
    simp [sameFace_of hax (Or.inr rfl) qa qb] at this

/-- **C50 (closed surface).** For every sign field on the grid: each directed triangle edge of a cube has its
reverse in exactly one cube (the same one or a neighbour), exactly once. So the triangles of all cubes form
a closed, consistently oriented surface: no cracks, no edge shared by more than two triangles. -/
theorem C50_closed (neg : Idx → Bool) (c : Idx) (a b : GridEdge) (h : (a, b) ∈ cubeSegments neg c) :
    ∃! c', (b, a) ∈ cubeSegments neg c' := by
  have key : ∃ c', (b, a) ∈ cubeSegments neg c' := by
    obtain ⟨⟨i, j⟩, hp, hs⟩ := mem_cubeSegments.1 h
    simp only [Prod.mk.injEq] at hs
    obtain ⟨rfl, rfl⟩ := hs
    obtain ⟨li, lj, -⟩ := dirEdges_lt (cfgIndex_lt _) hp
    simp only at li lj
    by_cases hf : sameFace i j = true
    · obtain ⟨ax, hax, ⟨f1, f2⟩ | ⟨f1, f2⟩⟩ := sameFace_cases hf
      · refine ⟨c + unitStep ax, mem_cubeSegments.2 ⟨_, segment_up hax hp f1 f2, ?_⟩⟩
        simp only [edgeAt_opp hax li f1, edgeAt_opp hax lj f2]
      · obtain ⟨d, rfl⟩ : ∃ d, c = d + unitStep ax :=
          ⟨c - unitStep ax, by ext <;> simp⟩
        refine ⟨d, mem_cubeSegments.2 ⟨_, segment_down hax hp f1 f2, ?_⟩⟩
        simp only [edgeAt_opp' hax li f1, edgeAt_opp' hax lj f2]
    · have hf : sameFace i j = false := by simpa using hf
      exact ⟨c, mem_cubeSegments.2 ⟨_, (chk_inner _ (cfgIndex_lt _) _ hp).2 hf, rfl⟩⟩
  obtain ⟨c', h'⟩ := key
  exact ⟨c', h', fun d hd => (C50_segment_unique neg d c' _ hd h').1⟩

/-- A sphere around the origin: the cube at the origin has triangle edges. -/
example : cubeSegments (fun g => g.x * g.x + g.y * g.y + g.z * g.z ≤ 1) ⟨0, 0, 0⟩ ≠ [] := by decide +kernel

/-! ### C50: orientation -/

/-- The corner of local edge `e` that is negative in configuration `i`. -/
def negEnd (i e : ℕ) : Idx := if i.testBit (ends e).1 then off (ends e).1 else off (ends e).2

set_option synthInstance.maxHeartbeats 400000 in
set_option synthInstance.maxSize 2000 in
theorem chk_orient : ∀ i < 256, ∀ p ∈ dirEdges i, ∀ ax < 3,
    (onFace ax 1 p.1 = true → onFace ax 1 p.2 = true →
      idot (negEnd i p.1 + negEnd i p.1 - mid2 (loc p.1)) (icross (unitStep ax) (mid2 (loc p.2) - mid2 (loc p.1))) < 0) ∧
    (onFace ax 0 p.1 = true → onFace ax 0 p.2 = true →
      0 < idot (negEnd i p.1 + negEnd i p.1 - mid2 (loc p.1)) (icross (unitStep ax) (mid2 (loc p.2) - mid2 (loc p.1)))) := by
  decide +kernel

theorem comp_add (u v : Idx) (ax : ℕ) : comp (u + v) ax = comp u ax + comp v ax := by
  unfold comp
  split_ifs <;> rfl

theorem onFace_edgeAt (c : Idx) (ax e : ℕ) (h : ℤ) :
    ((edgeAt c e).axis ≠ ax ∧ along (edgeAt c e).base ax = along c ax + h) ↔ onFace ax h e = true := by
  rw [edgeAt_eq]
  simp only [onFace, Bool.and_eq_true, decide_eq_true_eq]
  have : along (c + (loc e).base) ax = along c ax + comp (loc e).base ax := comp_add _ _ _
  rw [this]
  constructor
  · rintro ⟨h1, h2⟩; exact ⟨h1, by omega⟩
  · rintro ⟨h1, h2⟩; exact ⟨h1, by omega⟩

theorem negEnd_of {neg : Idx → Bool} {c : Idx} {e : ℕ} (he : e < 12) (hs : SignChange neg (edgeAt c e)) {g : Idx}
    (hg : g = (edgeAt c e).base ∨ g = (edgeAt c e).tip) (hn : neg g = true) : g = c + negEnd (cfgAt neg c) e := by
  obtain ⟨l1, l2⟩ := ends_lt e he
  have hs' := (signChange_edgeAt neg c he).1 hs
  unfold negEnd
  unfold cfgAt at hs' ⊢
  rw [cfgIndex_testBit _ _ l1] at hs' ⊢
  rw [cfgIndex_testBit _ _ l2] at hs'
  unfold signsAt at hs' ⊢
  rcases edgeAt_ends c he with ⟨h1, h2⟩ | ⟨h1, h2⟩ <;> rw [← h1, ← h2] at hg <;> rcases hg with rfl | rfl
  · rw [if_pos hn]
  · rw [if_neg (by intro h; rw [h, hn] at hs'; exact hs' rfl)]
  · rw [if_neg (by intro h; rw [h, hn] at hs'; exact hs' rfl)]
  · rw [if_pos hn]

/-- **C50 (orientation).** Where the surface of a cube meets a face of the cube, it leaves the negative grid
points on one fixed side: for a directed triangle edge `(a, b)` in the upper face orthogonal to `ax`, the
negative end `g` of the grid edge `a` lies on the side of the segment opposite to (outward normal × direction).
Since triangles are oriented coherently (`C50_closed`), all triangles have their front towards the
non-negative (free) side. -/
theorem C50_orientation_upper (neg : Idx → Bool) (c : Idx) (a b : GridEdge) (h : (a, b) ∈ cubeSegments neg c)
    (ax : ℕ) (hax : ax < 3) (ha : a.axis ≠ ax ∧ along a.base ax = along c ax + 1)
    (hb : b.axis ≠ ax ∧ along b.base ax = along c ax + 1) (g : Idx) (hg : g = a.base ∨ g = a.tip) (hn : neg g = true) :
    idot (g + g - mid2 a) (icross (unitStep ax) (mid2 b - mid2 a)) < 0 := by
  obtain ⟨⟨i, j⟩, hp, hs⟩ := mem_cubeSegments.1 h
  simp only [Prod.mk.injEq] at hs
  obtain ⟨rfl, rfl⟩ := hs
  obtain ⟨li, lj, -⟩ := dirEdges_lt (cfgIndex_lt _) hp
  simp only at li lj
  have hch : SignChange neg (edgeAt c i) := by
    refine ((C50_used_iff neg c _).1 ?_).2
    obtain ⟨t, ht, hm⟩ := List.mem_flatMap.1 h
    refine ⟨t, ht, ?_⟩
    simp only [triSegments, List.mem_cons, List.not_mem_nil, or_false, Prod.mk.injEq] at hm
    rcases hm with ⟨h, -⟩ | ⟨h, -⟩ | ⟨h, -⟩
    · exact Or.inl h
    · exact Or.inr (Or.inl h)
    · exact Or.inr (Or.inr h)
  have key := (chk_orient _ (cfgIndex_lt _) _ hp ax hax).1 ((onFace_edgeAt c ax i 1).1 ha) ((onFace_edgeAt c ax j 1).1 hb)
  rw [negEnd_of li hch hg hn]
  have e1 : mid2 (edgeAt c j) - mid2 (edgeAt c i) = mid2 (loc j) - mid2 (loc i) := by
    rw [edgeAt_eq, edgeAt_eq]
    unfold mid2 GridEdge.tip
    ext <;> simp <;> ring
  have e2 : c + negEnd (cfgAt neg c) i + (c + negEnd (cfgAt neg c) i) - mid2 (edgeAt c i) =
      negEnd (cfgAt neg c) i + negEnd (cfgAt neg c) i - mid2 (loc i) := by
    rw [edgeAt_eq]
    unfold mid2 GridEdge.tip
    ext <;> simp <;> ring
  rw [e1, e2]
  exact key

/-- The same in lower faces, where the outward normal is the negative axis. -/
theorem C50_orientation_lower (neg : Idx → Bool) (c : Idx) (a b : GridEdge) (h : (a, b) ∈ cubeSegments neg c)
    (ax : ℕ) (hax : ax < 3) (ha : a.axis ≠ ax ∧ along a.base ax = along c ax)
    (hb : b.axis ≠ ax ∧ along b.base ax = along c ax) (g : Idx) (hg : g = a.base ∨ g = a.tip) (hn : neg g = true) :
    0 < idot (g + g - mid2 a) (icross (unitStep ax) (mid2 b - mid2 a)) := by
  obtain ⟨⟨i, j⟩, hp, hs⟩ := mem_cubeSegments.1 h
  simp only [Prod.mk.injEq] at hs
  obtain ⟨rfl, rfl⟩ := hs
  obtain ⟨li, lj, -⟩ := dirEdges_lt (cfgIndex_lt _) hp
  simp only at li lj
  have hch : SignChange neg (edgeAt c i) := by
    refine ((C50_used_iff neg c _).1 ?_).2
    obtain ⟨t, ht, hm⟩ := List.mem_flatMap.1 h
    refine ⟨t, ht, ?_⟩
    simp only [triSegments, List.mem_cons, List.not_mem_nil, or_false, Prod.mk.injEq] at hm
    rcases hm with ⟨h, -⟩ | ⟨h, -⟩ | ⟨h, -⟩
    · exact Or.inl h
    · exact Or.inr (Or.inl h)
    · exact Or.inr (Or.inr h)
  have ha' : (edgeAt c i).axis ≠ ax ∧ along (edgeAt c i).base ax = along c ax + 0 := by simpa using ha
  have hb' : (edgeAt c j).axis ≠ ax ∧ along (edgeAt c j).base ax = along c ax + 0 := by simpa using hb
  have key := (chk_orient _ (cfgIndex_lt _) _ hp ax hax).2 ((onFace_edgeAt c ax i 0).1 ha') ((onFace_edgeAt c ax j 0).1 hb')
  rw [negEnd_of li hch hg hn]
  have e1 : mid2 (edgeAt c j) - mid2 (edgeAt c i) = mid2 (loc j) - mid2 (loc i) := by
    rw [edgeAt_eq, edgeAt_eq]
    unfold mid2 GridEdge.tip
    ext <;> simp <;> ring
  have e2 : c + negEnd (cfgAt neg c) i + (c + negEnd (cfgAt neg c) i) - mid2 (edgeAt c i) =
      negEnd (cfgAt neg c) i + negEnd (cfgAt neg c) i - mid2 (loc i) := by
    rw [edgeAt_eq]
    unfold mid2 GridEdge.tip
    ext <;> simp <;> ring
  rw [e1, e2]
  exact key

/-- A plane `x ≤ 0`: the cube at the origin has a segment in its upper z-face. -/
example : (⟨⟨0, 0, 1⟩, 0⟩, ⟨⟨0, 1, 1⟩, 0⟩) ∈ cubeSegments (fun g => g.x ≤ 0) ⟨0, 0, 0⟩ ∨
    (⟨⟨0, 1, 1⟩, 0⟩, ⟨⟨0, 0, 1⟩, 0⟩) ∈ cubeSegments (fun g => g.x ≤ 0) ⟨0, 0, 0⟩ := by decide +kernel

/-! ### C51: vertices on the edges -/

theorem interpolateVertex_exact (sq : ℚ → Fl) (v1 v2 : Pt) (a b : ℚ) :
    interpolateVertex (Arith.exact sq) (v1.map .fin) (v2.map .fin) (.fin a) (.fin b) =
      (lerp v1 v2 (zeroParam a b)).map .fin := by
  unfold interpolateVertex zeroParam
  have hd : (Arith.exact sq).sub (.fin a) (.fin b) = .fin (a - b) := by
    simp [Arith.sub, Arith.add, Arith.exact, Fl.neg, sub_eq_add_neg]
  simp only [hd, Fl.abs, Fl.le, decide_eq_true_eq]
  by_cases h : (1 : ℚ) / 1000000 ≤ |a - b|
  · rw [if_pos h, if_pos h]
    have hne : a - b ≠ 0 := by
      intro h0
      rw [h0] at h
      norm_num at h
    simp only [Arith.div, if_neg hne, Arith.vadd, Arith.vscale, Arith.vsub, Vec3.map, Vec3.map₂, Arith.add, Arith.mul,
      Arith.sub, Fl.neg, Arith.exact, lerp, Vec3.mk.injEq, Fl.fin.injEq]
    refine ⟨?_, ?_, ?_⟩ <;> ring
  · rw [if_neg h, if_neg h]
    simp only [Arith.vadd, Arith.vscale, Vec3.map, Vec3.map₂, Arith.add, Arith.mul, Arith.exact, lerp, Vec3.mk.injEq,
      Fl.fin.injEq]
    refine ⟨?_, ?_, ?_⟩ <;> ring

/-- **C51 (the vertex is on the edge at the zero crossing).** For corner distances of different sign the
interpolated vertex is a point `v1 + t (v2 - v1)` of the edge with `t` in [0, 1], where the linear
interpolation of the distances vanishes (or the middle, if the distances differ by less than 1e-6). -/
theorem C51_on_edge (sq : ℚ → Fl) (v1 v2 : Pt) (a b : ℚ) (h : (a < 0 ∧ 0 ≤ b) ∨ (0 ≤ a ∧ b < 0)) :
    ∃ t : ℚ, 0 ≤ t ∧ t ≤ 1 ∧
      interpolateVertex (Arith.exact sq) (v1.map .fin) (v2.map .fin) (.fin a) (.fin b) = (lerp v1 v2 t).map .fin ∧
      (1 / 1000000 ≤ |a - b| → a + t * (b - a) = 0) ∧ (|a - b| < 1 / 1000000 → t = 1 / 2) := by
  refine ⟨zeroParam a b, ?_, ?_, interpolateVertex_exact sq v1 v2 a b, ?_, ?_⟩
  · unfold zeroParam
    split_ifs
    · rcases h with ⟨h1, h2⟩ | ⟨h1, h2⟩
      · exact div_nonneg_of_nonpos (by linarith) (by linarith)
      · exact div_nonneg h1 (by linarith)
    · norm_num
  · unfold zeroParam
    split_ifs
    · rcases h with ⟨h1, h2⟩ | ⟨h1, h2⟩
      · rw [div_le_one_of_neg (by linarith)]; linarith
      · rw [div_le_one (by linarith)]; linarith
    · norm_num
  · intro hd
    unfold zeroParam
    rw [if_pos hd]
    have hne : a - b ≠ 0 := by rcases h with ⟨h1, h2⟩ | ⟨h1, h2⟩ <;> intro h0 <;> linarith
    field_simp
    ring
  · intro hd
    unfold zeroParam
    rw [if_neg (not_le.2 hd)]

example : ((-1 / 10 : ℚ) < 0 ∧ (0 : ℚ) ≤ 3 / 10) ∧ zeroParam (-1 / 10) (3 / 10) = 1 / 4 := by
  unfold zeroParam; norm_num

/-- **C51 (independent of the direction).** Traversing the edge from either end gives the same point. -/
theorem C51_symmetric (sq : ℚ → Fl) (v1 v2 : Pt) (a b : ℚ) :
    interpolateVertex (Arith.exact sq) (v1.map .fin) (v2.map .fin) (.fin a) (.fin b) =
      interpolateVertex (Arith.exact sq) (v2.map .fin) (v1.map .fin) (.fin b) (.fin a) := by
  rw [interpolateVertex_exact, interpolateVertex_exact]
  congr 1
  have key : zeroParam b a = 1 - zeroParam a b := by
    unfold zeroParam
    rw [abs_sub_comm b a]
    split_ifs with h
    · have hne : a - b ≠ 0 := by
        intro h0
        rw [h0] at h
        norm_num at h
      have hne' : b - a ≠ 0 := by
        intro h0
        apply hne
        linarith
      field_simp
      ring
    · norm_num
  rw [key]
  unfold lerp
  ext <;> simp only <;> ring

/-! ### C51: the whole cube -/

/-- Rows made of complete triples of edge numbers up to the first -1. -/
def wellRow : List ℤ → Bool
  | a :: b :: c :: r => if a = -1 then true else
      decide (0 ≤ a ∧ a < 12 ∧ 0 ≤ b ∧ b < 12 ∧ 0 ≤ c ∧ c < 12) && wellRow r
  | a :: _ => a = -1
  | [] => false

theorem chk_well : ∀ i < 256, wellRow (triangleTable[i]?.getD []) = true := by decide +kernel

theorem chk_zero : emitted 0 = [] := by decide +kernel

/-- The vertices, in order, of a list of triangles. -/
def triVerts {α β : Type} (P : α → β) (ts : List (α × α × α)) : List β := ts.flatMap fun t => [P t.1, P t.2.1, P t.2.2]

/-- The normals, in order: three times the normal of each triangle. -/
def triNormals {α : Type} (A : Arith) (P : α → Vec3 Fl) (ts : List (α × α × α)) : List (Vec3 Fl) :=
  ts.flatMap fun t => List.replicate 3 (triNormal A (P t.1) (P t.2.1) (P t.2.2))

theorem triVerts_length {α β : Type} (P : α → β) (ts : List (α × α × α)) : (triVerts P ts).length = 3 * ts.length := by
  induction ts with
  | nil => rfl
  | cons t r ih => simp only [triVerts, List.flatMap_cons, List.length_append, List.length_cons, List.length_nil] at ih ⊢; omega

theorem triNormals_length {α : Type} (A : Arith) (P : α → Vec3 Fl) (ts : List (α × α × α)) :
    (triNormals A P ts).length = 3 * ts.length := by
  induction ts with
  | nil => rfl
  | cons t r ih =>
    simp only [triNormals, List.flatMap_cons, List.length_append, List.length_cons, List.length_replicate] at ih ⊢; omega

theorem addTriangle_ok (A : Arith) (a b c : Vec3 Fl) (m : Mesh) :
    addTriangle A a b c m.vertices.length m = .ok (m.vertices.length + 3,
      { m with vertices := m.vertices ++ [a, b, c],
               indices := m.indices ++ [m.vertices.length, m.vertices.length + 1, m.vertices.length + 2],
               normals := m.normals ++ List.replicate 3 (triNormal A a b c) }) := by
  unfold addTriangle
  have h0 : (m.vertices ++ [a, b, c])[m.vertices.length]? = some a := by simp
  have h1 : (m.vertices ++ [a, b, c])[m.vertices.length + 1]? = some b := by simp
  have h2 : (m.vertices ++ [a, b, c])[m.vertices.length + 2]? = some c := by simp
  simp only [h0, h1, h2]
  rfl

theorem meshRow_ok (A : Arith) (coords : ℕ → Vec3 Fl) (sdf : ℕ → Fl) (P : ℕ → Vec3 Fl) (row : List ℤ) (hw : wellRow row = true)
    (m : Mesh) (hP : ∀ t ∈ (triplesOf row), ∀ e, e = t.1 ∨ e = t.2.1 ∨ e = t.2.2 → edgeColumn A coords sdf e = some (P e)) :
    meshRow A coords sdf row (m.vertices.length, m) =
      .ok (m.vertices.length + 3 * (triplesOf row).length,
        { m with vertices := m.vertices ++ triVerts P ((triplesOf row).map fun t => (t.2.2, t.2.1, t.1)),
                 indices := m.indices ++ List.range' m.vertices.length (3 * (triplesOf row).length),
                 normals := m.normals ++ triNormals A P ((triplesOf row).map fun t => (t.2.2, t.2.1, t.1)) }) := by
  induction row using triplesOf.induct generalizing m with
  | case1 a b c r ha =>
    have : a = -1 := by
      unfold wellRow at hw
      by_contra h
      rw [if_neg h] at hw
      simp only [Bool.and_eq_true, decide_eq_true_eq] at hw
      omega
    unfold meshRow triplesOf
    rw [if_pos this, if_pos ha]
    simp [triVerts, triNormals]
  | case2 a b c r ha ih =>
    have hne : a ≠ -1 := by omega
    unfold wellRow at hw
    rw [if_neg hne] at hw
    simp only [Bool.and_eq_true, decide_eq_true_eq] at hw
    obtain ⟨⟨a1, a2, b1, b2, c1, c2⟩, hw⟩ := hw
    have ht : triplesOf (a :: b :: c :: r) = (a.toNat, b.toNat, c.toNat) :: triplesOf r := by
      rw [triplesOf, if_neg ha]
    rw [ht] at hP ⊢
    have hcol : ∀ e : ℤ, 0 ≤ e → (e.toNat = a.toNat ∨ e.toNat = b.toNat ∨ e.toNat = c.toNat) →
        column A coords sdf e = .ok (P e.toNat) := by
      intro e he hmem
      unfold column
      rw [if_neg (by omega), hP _ List.mem_cons_self _ hmem]
    unfold meshRow
    rw [if_neg hne, hcol c c1 (by simp), hcol b b1 (by simp), hcol a a1 (by simp)]
    simp only [Outcome.bind_ok]
    rw [addTriangle_ok]
    simp only [Outcome.bind_ok]
    have hlen : m.vertices.length + 3 = (m.vertices ++ [P c.toNat, P b.toNat, P a.toNat]).length := by simp
    have := ih hw ⟨m.vertices ++ [P c.toNat, P b.toNat, P a.toNat],
        m.indices ++ [m.vertices.length, m.vertices.length + 1, m.vertices.length + 2],
        m.normals ++ List.replicate 3 (triNormal A (P c.toNat) (P b.toNat) (P a.toNat)), m.colors, m.updated⟩
      (fun t ht' => hP t (List.mem_cons_of_mem _ ht'))
    simp only [← hlen] at this
    rw [this]
    have hr : List.range' m.vertices.length (3 * ((triplesOf r).length + 1)) =
        [m.vertices.length, m.vertices.length + 1, m.vertices.length + 2] ++
          List.range' (m.vertices.length + 3) (3 * (triplesOf r).length) := by
      have : 3 * ((triplesOf r).length + 1) = 3 + 3 * (triplesOf r).length := by ring
      rw [this, ← List.range'_append_1]
      rfl
    simp only [List.length_cons, hr, List.map_cons, triVerts, triNormals, List.flatMap_cons, List.append_assoc]
    congr 2
    ring
  | case3 l hl =>
    match l, hl, hw with
    | [], _, hw => simp [wellRow] at hw
    | [a], _, hw =>
      simp only [wellRow, decide_eq_true_eq] at hw
      simp [meshRow, hw, triplesOf, triVerts, triNormals]
    | [a, b], _, hw =>
      simp only [wellRow, decide_eq_true_eq] at hw
      simp [meshRow, hw, triplesOf, triVerts, triNormals]
    | a :: b :: c :: r, hl, _ => exact absurd rfl (hl a b c r)

/-- A distance that is neither NaN nor infinite. -/
def IsFin (x : Fl) : Prop := ∃ q, x = .fin q

/-- The value interpolated on local edge `e`. -/
def edgeValue (A : Arith) (coords : ℕ → Vec3 Fl) (sdf : ℕ → Fl) (e : ℕ) : Vec3 Fl :=
  interpolateVertex A (coords (ends e).1) (coords (ends e).2) (sdf (ends e).1) (sdf (ends e).2)

theorem chk_pairs : ∀ e < 12, edgePairs[e]? = some (ends e) := by decide +kernel

theorem meshCube_ok (A : Arith) (coords : ℕ → Vec3 Fl) (sdf : ℕ → Fl) (hs : ∀ k < 8, sdf k ≠ .nan) (m : Mesh) :
    meshCube A coords sdf (m.vertices.length, m) =
      .ok (m.vertices.length + 3 * (emitted (vertexConfiguration sdf)).length,
        { m with vertices := m.vertices ++ triVerts (edgeValue A coords sdf) (emitted (vertexConfiguration sdf)),
                 indices := m.indices ++ List.range' m.vertices.length (3 * (emitted (vertexConfiguration sdf)).length),
                 normals := m.normals ++ triNormals A (edgeValue A coords sdf) (emitted (vertexConfiguration sdf)) }) := by
  have hlt : vertexConfiguration sdf < 256 := by rw [vertexConfiguration_eq]; exact cfgIndex_lt _
  unfold meshCube
  by_cases h0 : vertexConfiguration sdf = 0
  · simp only [h0, if_true, chk_zero, List.length_nil, Nat.mul_zero, Nat.add_zero, triVerts, triNormals, List.flatMap_nil,
      List.append_nil, List.range'_zero]
  · simp only [h0, if_false]
    obtain ⟨row, hr, -⟩ := chk_rows _ hlt
    have hw := chk_well _ hlt
    have hem : emitted (vertexConfiguration sdf) = (triplesOf row).map fun t => (t.2.2, t.2.1, t.1) := by
      unfold emitted; rw [hr]; rfl
    rw [hr] at hw
    simp only [Option.getD_some] at hw
    simp only [hr]
    rw [meshRow_ok A coords sdf (edgeValue A coords sdf) row hw m ?_, hem, List.length_map]
    intro t ht e he
    have hmem : (t.2.2, t.2.1, t.1) ∈ emitted (vertexConfiguration sdf) := by
      rw [hem]; exact List.mem_map.2 ⟨t, ht, rfl⟩
    obtain ⟨l1, l2, l3, -⟩ := chk_emitted _ hlt _ hmem
    simp only at l1 l2 l3
    have hl : e < 12 := by rcases he with rfl | rfl | rfl <;> assumption
    have hch := (chk_used _ hlt e hl).1 ⟨_, hmem, by rcases he with h | h | h <;> simp [h]⟩
    rw [vertexConfiguration_eq] at hch
    obtain ⟨k1, k2⟩ := ends_lt e hl
    rw [cfgIndex_testBit _ _ k1, cfgIndex_testBit _ _ k2] at hch
    unfold edgeColumn
    rw [chk_pairs e hl]
    have hcr : crosses (sdf (ends e).1) (sdf (ends e).2) = true := by
      unfold crosses
      have n1 := hs _ k1
      have n2 := hs _ k2
      revert hch n1 n2
      generalize sdf (ends e).1 = x
      generalize sdf (ends e).2 = y
      intro hch n1 n2
      cases x <;> cases y <;> simp_all [Fl.lt, Fl.le]
      all_goals (rename_i p q; by_cases hp : p < 0 <;> by_cases hq : q < 0 <;> simp_all)
    simp only [hcr, if_true]
    rfl

/-- **C51 (every cube is well defined).** If no corner distance is NaN, meshing a cube has a defined result in
any floating-point arithmetic, whatever the distances and positions: it appends complete triangles, with
indices that number the new vertices consecutively and one normal per vertex. -/
theorem C51_defined (A : Arith) (coords : ℕ → Vec3 Fl) (sdf : ℕ → Fl) (hs : ∀ k < 8, sdf k ≠ .nan) (m : Mesh) :
    ∃ k vs ns, k ≤ 5 ∧ vs.length = 3 * k ∧ ns.length = 3 * k ∧
      meshCube A coords sdf (m.vertices.length, m) = .ok (m.vertices.length + 3 * k,
        { m with vertices := m.vertices ++ vs, indices := m.indices ++ List.range' m.vertices.length (3 * k),
                 normals := m.normals ++ ns }) := by
  refine ⟨_, _, _, ?_, triVerts_length _ _, triNormals_length _ _ _, meshCube_ok A coords sdf hs m⟩
  have hlt : vertexConfiguration sdf < 256 := by rw [vertexConfiguration_eq]; exact cfgIndex_lt _
  obtain ⟨row, hr, -, -, h⟩ := chk_rows _ hlt
  unfold emitted
  rw [hr, List.length_map]
  exact h

example : ∀ k < 8, (fun k : ℕ => if k = 0 then Fl.ninf else Fl.fin 1) k ≠ .nan := by decide

/-- A NaN distance at a corner makes the code read edge vertices it has not computed: NaN is not negative in
the configuration, but the edge test fails, so the column is never written. -/
theorem C51_nan_undefined (sq : ℚ → Fl) :
    meshCube (Arith.exact sq) (fun k => (gridPoint ⟨0, 0, 0⟩ 1 (off k)).map .fin)
      (fun k => if k = 0 then .fin (-1) else if k = 1 then .nan else .fin 1) (0, Mesh.empty) = .ub := by
  rfl

/-- **C51 (vertices of a cube of a distance field).** Let `f` be any distance field on the grid with lower
corner `o` and spacing `s`. Meshing the cube `c` appends, for each of its triangles (see C50), the zero
crossings of `f` on the three grid edges; the vertex depends only on the grid edge, not on the cube, so
neighbouring cubes (also of different blocks) generate the same vertex and the closed surface of
`C50_closed` is watertight in space. -/
theorem C51_grid (sq : ℚ → Fl) (o : Pt) (s : ℚ) (f : Idx → ℚ) (c : Idx) (m : Mesh) :
    ∃ m', meshCube (Arith.exact sq) (fun k => (gridPoint o s (c + off k)).map .fin) (fun k => .fin (f (c + off k)))
        (m.vertices.length, m) = .ok (m'.vertices.length, m') ∧
      m'.vertices = m.vertices ++
        triVerts (fun e => (crossing o s f e).map .fin) (cubeTriangles (fun g => decide (f g < 0)) c) ∧
      m'.normals = m.normals ++
        triNormals (Arith.exact sq) (fun e => (crossing o s f e).map .fin) (cubeTriangles (fun g => decide (f g < 0)) c) ∧
      m'.indices = m.indices ++ List.range' m.vertices.length (m'.vertices.length - m.vertices.length) ∧
      m'.colors = m.colors := by
  have hok := meshCube_ok (Arith.exact sq) (fun k => (gridPoint o s (c + off k)).map .fin)
    (fun k => .fin (f (c + off k))) (by intro k _ h; cases h) m
  have hcfg : vertexConfiguration (fun k => .fin (f (c + off k))) = cfgAt (fun g => decide (f g < 0)) c := by
    rw [vertexConfiguration_eq]
    rfl
  rw [hcfg] at hok
  have hval : ∀ e < 12, edgeValue (Arith.exact sq) (fun k => (gridPoint o s (c + off k)).map .fin)
      (fun k => .fin (f (c + off k))) e = (crossing o s f (edgeAt c e)).map .fin := by
    intro e he
    unfold edgeValue crossing
    beta_reduce
    rcases edgeAt_ends c he with ⟨h1, h2⟩ | ⟨h1, h2⟩
    · rw [h1, h2, interpolateVertex_exact]
    · rw [C51_symmetric, h1, h2, interpolateVertex_exact]
  have hv : triVerts (edgeValue (Arith.exact sq) (fun k => (gridPoint o s (c + off k)).map .fin)
        (fun k => .fin (f (c + off k)))) (emitted (cfgAt (fun g => decide (f g < 0)) c)) =
      triVerts (fun e => (crossing o s f e).map .fin) (cubeTriangles (fun g => decide (f g < 0)) c) := by
    unfold triVerts cubeTriangles
    rw [List.flatMap_map]
    apply List.flatMap_congr
    intro t ht
    obtain ⟨l1, l2, l3, -⟩ := chk_emitted _ (cfgIndex_lt _) _ ht
    rw [hval _ l1, hval _ l2, hval _ l3]
  have hn : triNormals (Arith.exact sq) (edgeValue (Arith.exact sq) (fun k => (gridPoint o s (c + off k)).map .fin)
        (fun k => .fin (f (c + off k)))) (emitted (cfgAt (fun g => decide (f g < 0)) c)) =
      triNormals (Arith.exact sq) (fun e => (crossing o s f e).map .fin) (cubeTriangles (fun g => decide (f g < 0)) c) := by
    unfold triNormals cubeTriangles
    rw [List.flatMap_map]
    apply List.flatMap_congr
    intro t ht
    obtain ⟨l1, l2, l3, -⟩ := chk_emitted _ (cfgIndex_lt _) _ ht
    rw [hval _ l1, hval _ l2, hval _ l3]
  rw [hv, hn] at hok
  refine ⟨⟨m.vertices ++ triVerts (fun e => (crossing o s f e).map .fin) (cubeTriangles (fun g => decide (f g < 0)) c),
      m.indices ++ List.range' m.vertices.length (3 * (emitted (cfgAt (fun g => decide (f g < 0)) c)).length),
      m.normals ++ triNormals (Arith.exact sq) (fun e => (crossing o s f e).map .fin)
        (cubeTriangles (fun g => decide (f g < 0)) c), m.colors, m.updated⟩, ?_, rfl, rfl, ?_, rfl⟩
  · rw [hok]
    simp only [List.length_append, triVerts_length, cubeTriangles, List.length_map]
  · simp only [List.length_append, triVerts_length, cubeTriangles, List.length_map]
    congr 2
    omega

/-- The cube at the origin of a field that is negative only there: one triangle, cutting the three axes. -/
example : cubeTriangles (fun g => g.x * g.x + g.y * g.y + g.z * g.z < 1) ⟨0, 0, 0⟩ =
    [(⟨⟨0, 0, 0⟩, 1⟩, ⟨⟨0, 0, 0⟩, 2⟩, ⟨⟨0, 0, 0⟩, 0⟩)] := by decide +kernel

end Vox.MC
