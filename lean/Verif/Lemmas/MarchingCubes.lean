/-
Lifting the finite checks on the marching cubes tables to sign fields on the whole grid.
-/
import Verif.Lemmas.MarchingTables

namespace Vox.MC

open Spec

/-! ### Configurations -/

theorem cfgIndex_lt (s : ℕ → Bool) : cfgIndex s < 256 := by
  unfold cfgIndex
  split_ifs <;> omega

theorem cfgIndex_testBit (s : ℕ → Bool) (k : ℕ) (hk : k < 8) : (cfgIndex s).testBit k = s k := by
  have h : ∀ b0 b1 b2 b3 b4 b5 b6 b7 : Bool, ∀ k < 8,
      ((if b0 then 1 else 0) + (if b1 then 2 else 0) + (if b2 then 4 else 0) + (if b3 then 8 else 0) +
        (if b4 then 16 else 0) + (if b5 then 32 else 0) + (if b6 then 64 else 0) + (if b7 then 128 else 0)).testBit k =
      [b0, b1, b2, b3, b4, b5, b6, b7][k]?.getD false := by decide +kernel
  unfold cfgIndex
  rw [h _ _ _ _ _ _ _ _ k hk]
  interval_cases k <;> rfl

theorem cfgIndex_congr {s s' : ℕ → Bool} (h : ∀ k < 8, s k = s' k) : cfgIndex s = cfgIndex s' := by
  unfold cfgIndex
  rw [h 0 (by omega), h 1 (by omega), h 2 (by omega), h 3 (by omega), h 4 (by omega), h 5 (by omega),
    h 6 (by omega), h 7 (by omega)]

theorem vertexConfiguration_eq (sdf : ℕ → Fl) :
    vertexConfiguration sdf = cfgIndex fun k => Fl.lt (sdf k) (.fin 0) := by
  have h : ∀ b0 b1 b2 b3 b4 b5 b6 b7 : Bool,
      (if b0 then 1 <<< 0 else 0) ||| (if b1 then 1 <<< 1 else 0) ||| (if b2 then 1 <<< 2 else 0) |||
        (if b3 then 1 <<< 3 else 0) ||| (if b4 then 1 <<< 4 else 0) ||| (if b5 then 1 <<< 5 else 0) |||
        (if b6 then 1 <<< 6 else 0) ||| (if b7 then 1 <<< 7 else 0) =
      (if b0 then 1 else 0) + (if b1 then 2 else 0) + (if b2 then 4 else 0) + (if b3 then 8 else 0) +
        (if b4 then 16 else 0) + (if b5 then 32 else 0) + (if b6 then 64 else 0) + (if b7 then 128 else 0) := by
    decide +kernel
  exact h _ _ _ _ _ _ _ _

/-! ### Cubes of the grid -/

/-- The signs at the corners of the cube `c`, in the numbering of the code. -/
def signsAt (neg : Idx → Bool) (c : Idx) (k : ℕ) : Bool := neg (c + off k)

/-- The configuration of the cube `c`. -/
def cfgAt (neg : Idx → Bool) (c : Idx) : ℕ := cfgIndex (signsAt neg c)

/-- The grid edge of the local edge `e` of the cube `c`. -/
def edgeAt (c : Idx) (e : ℕ) : GridEdge := edgeBetween (c + off (ends e).1) (c + off (ends e).2)

/-- The triangles the code emits for the cube `c`, as triples of grid edges. -/
def cubeTriangles (neg : Idx → Bool) (c : Idx) : List (GridEdge × GridEdge × GridEdge) :=
  (emitted (cfgAt neg c)).map fun t => (edgeAt c t.1, edgeAt c t.2.1, edgeAt c t.2.2)

/-- Their directed edges. -/
def cubeSegments (neg : Idx → Bool) (c : Idx) : List (GridEdge × GridEdge) :=
  (cubeTriangles neg c).flatMap triSegments

theorem edgeAt_eq (c : Idx) (e : ℕ) : edgeAt c e = { base := c + (loc e).base, axis := (loc e).axis } := by
  unfold edgeAt loc edgeBetween
  generalize off (ends e).1 = p
  generalize off (ends e).2 = q
  have hx : (c + p).x ≠ (c + q).x ↔ p.x ≠ q.x := by simp
  have hy : (c + p).y ≠ (c + q).y ↔ p.y ≠ q.y := by simp
  congr 1
  · ext <;> simp [min_add_add_left]
  · simp only [hx, hy]

theorem edgeAt_inj {c : Idx} {a b : ℕ} (ha : a < 12) (hb : b < 12) (h : edgeAt c a = edgeAt c b) : a = b := by
  rw [edgeAt_eq, edgeAt_eq] at h
  simp only [GridEdge.mk.injEq] at h
  apply chk_loc_inj a ha b hb
  obtain ⟨h1, h2⟩ := h
  have : (loc a).base = (loc b).base := by
    have hx := congrArg Vec3.x h1
    have hy := congrArg Vec3.y h1
    have hz := congrArg Vec3.z h1
    simp only [Vec3.add_x, Vec3.add_y, Vec3.add_z] at hx hy hz
    ext <;> omega
  cases hA : loc a
  cases hB : loc b
  rw [hA, hB] at this h2
  simp_all

theorem cubeSegments_eq (neg : Idx → Bool) (c : Idx) :
    cubeSegments neg c = (dirEdges (cfgAt neg c)).map fun p => (edgeAt c p.1, edgeAt c p.2) := by
  unfold cubeSegments cubeTriangles dirEdges
  rw [List.flatMap_map, List.map_flatMap]
  rfl

theorem dirEdges_lt {i : ℕ} (hi : i < 256) {p : ℕ × ℕ} (h : p ∈ dirEdges i) : p.1 < 12 ∧ p.2 < 12 ∧ p.1 ≠ p.2 := by
  unfold dirEdges at h
  obtain ⟨t, ht, hp⟩ := List.mem_flatMap.1 h
  obtain ⟨h1, h2, h3, h4, h5, h6⟩ := chk_emitted i hi t ht
  simp only [triSegments, List.mem_cons, List.not_mem_nil, or_false] at hp
  rcases hp with rfl | rfl | rfl
  · exact ⟨h1, h2, h4⟩
  · exact ⟨h2, h3, h5⟩
  · exact ⟨h3, h1, h6⟩

theorem mem_cubeSegments {neg : Idx → Bool} {c : Idx} {s : GridEdge × GridEdge} :
    s ∈ cubeSegments neg c ↔ ∃ p ∈ dirEdges (cfgAt neg c), s = (edgeAt c p.1, edgeAt c p.2) := by
  rw [cubeSegments_eq, List.mem_map]
  constructor
  · rintro ⟨p, hp, rfl⟩; exact ⟨p, hp, rfl⟩
  · rintro ⟨p, hp, rfl⟩; exact ⟨p, hp, rfl⟩

theorem mem_cubeSegments_local {neg : Idx → Bool} {c : Idx} {a b : ℕ} (ha : a < 12) (hb : b < 12) :
    (edgeAt c a, edgeAt c b) ∈ cubeSegments neg c ↔ (a, b) ∈ dirEdges (cfgAt neg c) := by
  rw [mem_cubeSegments]
  constructor
  · rintro ⟨p, hp, h⟩
    obtain ⟨h1, h2, -⟩ := dirEdges_lt (cfgIndex_lt _) hp
    simp only [Prod.mk.injEq] at h
    rw [edgeAt_inj ha h1 h.1, edgeAt_inj hb h2 h.2]
    exact hp
  · intro h; exact ⟨(a, b), h, rfl⟩

theorem cubeSegments_nodup (neg : Idx → Bool) (c : Idx) : (cubeSegments neg c).Nodup := by
  rw [cubeSegments_eq]
  refine List.Nodup.map_on ?_ (chk_nodup _ (cfgIndex_lt _))
  intro p hp q hq h
  obtain ⟨h1, h2, -⟩ := dirEdges_lt (cfgIndex_lt _) hp
  obtain ⟨h3, h4, -⟩ := dirEdges_lt (cfgIndex_lt _) hq
  simp only [Prod.mk.injEq] at h
  exact Prod.ext (edgeAt_inj h1 h3 h.1) (edgeAt_inj h2 h4 h.2)

/-! ### Neighbouring cubes -/

theorem mask_neighbour (neg : Idx → Bool) (c : Idx) {ax : ℕ} (hax : ax < 3) :
    cfgIndex (maskLo ax (cfgAt neg (c + unitStep ax)).testBit) = cfgIndex (shiftDown ax (cfgAt neg c).testBit) := by
  apply cfgIndex_congr
  intro k hk
  unfold maskLo shiftDown
  by_cases h : comp (off k) ax = 0
  · obtain ⟨h1, h2⟩ := chk_flip ax hax k hk h
    unfold cfgAt
    rw [cfgIndex_testBit _ _ hk, cfgIndex_testBit _ _ h1]
    unfold signsAt
    rw [h2]
    have : c + unitStep ax + off k = c + (off k + unitStep ax) := by ext <;> simp <;> ring
    rw [this]
  · simp [h]

theorem edgeAt_opp {c : Idx} {ax e : ℕ} (hax : ax < 3) (he : e < 12) (hf : onFace ax 1 e = true) :
    edgeAt (c + unitStep ax) (opp ax e) = edgeAt c e := by
  obtain ⟨-, -, -, h4, h5⟩ := (chk_opp ax hax e he).1 hf
  rw [edgeAt_eq, edgeAt_eq, h4, h5]
  congr 1
  ext <;> simp <;> ring

theorem edgeAt_opp' {c : Idx} {ax e : ℕ} (hax : ax < 3) (he : e < 12) (hf : onFace ax 0 e = true) :
    edgeAt c (opp ax e) = edgeAt (c + unitStep ax) e := by
  obtain ⟨-, -, -, h4, h5⟩ := (chk_opp ax hax e he).2 hf
  rw [edgeAt_eq, edgeAt_eq, h4, h5]
  congr 1
  ext <;> simp <;> ring

/-- A directed edge in the upper face of a cube is reversed in the next cube. -/
theorem segment_up {neg : Idx → Bool} {c : Idx} {ax a b : ℕ} (hax : ax < 3) (h : (a, b) ∈ dirEdges (cfgAt neg c))
    (ha : onFace ax 1 a = true) (hb : onFace ax 1 b = true) :
    (opp ax b, opp ax a) ∈ dirEdges (cfgAt neg (c + unitStep ax)) := by
  obtain ⟨h1, h2, -⟩ := dirEdges_lt (cfgIndex_lt _) h
  have hs := (chk_hi _ (cfgIndex_lt (signsAt neg c)) ax hax).1 (a, b) h ha hb
  have hm := mask_neighbour neg c hax
  unfold cfgAt at hm
  rw [← hm] at hs
  exact (chk_lo _ (cfgIndex_lt (signsAt neg (c + unitStep ax))) ax hax).2 _ hs
    ((chk_opp ax hax b h2).1 hb).2.1 ((chk_opp ax hax a h1).1 ha).2.1

/-- A directed edge in the lower face of a cube is reversed in the previous cube. -/
theorem segment_down {neg : Idx → Bool} {c : Idx} {ax a b : ℕ} (hax : ax < 3)
    (h : (a, b) ∈ dirEdges (cfgAt neg (c + unitStep ax))) (ha : onFace ax 0 a = true) (hb : onFace ax 0 b = true) :
    (opp ax b, opp ax a) ∈ dirEdges (cfgAt neg c) := by
  have hs := (chk_lo _ (cfgIndex_lt (signsAt neg (c + unitStep ax))) ax hax).1 (a, b) h ha hb
  have hm := mask_neighbour neg c hax
  unfold cfgAt at hm
  rw [hm] at hs
  exact (chk_hi _ (cfgIndex_lt (signsAt neg c)) ax hax).2 _ hs ha hb

theorem sameFace_cases {a b : ℕ} (h : sameFace a b = true) :
    ∃ ax < 3, (onFace ax 1 a = true ∧ onFace ax 1 b = true) ∨ (onFace ax 0 a = true ∧ onFace ax 0 b = true) := by
  simp only [sameFace, Bool.or_eq_true, Bool.and_eq_true] at h
  rcases h with ((((h | h) | h) | h) | h) | h
  · exact ⟨0, by omega, Or.inr h⟩
  · exact ⟨0, by omega, Or.inl h⟩
  · exact ⟨1, by omega, Or.inr h⟩
  · exact ⟨1, by omega, Or.inl h⟩
  · exact ⟨2, by omega, Or.inr h⟩
  · exact ⟨2, by omega, Or.inl h⟩

theorem sameFace_of {ax a b : ℕ} {t : ℤ} (hax : ax < 3) (ht : t = 0 ∨ t = 1) (ha : onFace ax t a = true)
    (hb : onFace ax t b = true) : sameFace a b = true := by
  unfold sameFace
  interval_cases ax <;> rcases ht with rfl | rfl <;> simp [ha, hb]

/-- Two edges shared by two different cubes: the cubes are neighbours and the edges are in the face between them. -/
theorem shared_edges {c c' : Idx} {a a' b b' : ℕ} (ha : a < 12) (ha' : a' < 12) (hb : b < 12) (hb' : b' < 12)
    (hab : a ≠ b) (h1 : edgeAt c a = edgeAt c' a') (h2 : edgeAt c b = edgeAt c' b') (hc : c ≠ c') :
    ∃ ax < 3, (c' = c + unitStep ax ∧ onFace ax 1 a = true ∧ onFace ax 1 b = true) ∨
      (c = c' + unitStep ax ∧ onFace ax 0 a = true ∧ onFace ax 0 b = true) := by
  rw [edgeAt_eq, edgeAt_eq] at h1 h2
  simp only [GridEdge.mk.injEq] at h1 h2
  obtain ⟨e1, x1⟩ := h1
  obtain ⟨e2, x2⟩ := h2
  have vx := congrArg Vec3.x e1
  have vy := congrArg Vec3.y e1
  have vz := congrArg Vec3.z e1
  have wx := congrArg Vec3.x e2
  have wy := congrArg Vec3.y e2
  have wz := congrArg Vec3.z e2
  simp only [Vec3.add_x, Vec3.add_y, Vec3.add_z] at vx vy vz wx wy wz
  have hd : (loc a).base - (loc a').base = (loc b).base - (loc b').base := by
    ext <;> simp only [Vec3.sub_x, Vec3.sub_y, Vec3.sub_z] <;> omega
  have hne : (loc a).base ≠ (loc a').base := by
    intro h
    apply hc
    rw [h] at vx vy vz
    ext <;> omega
  have hs := chk_shared a ha a' ha'
  unfold sharedOks at hs
  rw [Bool.or_eq_true, Bool.or_eq_true] at hs
  rcases hs with (hs | hs) | hs
  · simp [x1] at hs
  · exact absurd (by simpa using hs) hne
  · rw [List.all_eq_true] at hs
    have hs := hs b (List.mem_range.2 hb)
    rw [List.all_eq_true] at hs
    have hs := hs b' (List.mem_range.2 hb')
    simp only [sharedOk, Bool.or_eq_true] at hs
    have key : ∀ ax, sharedFace ax a a' b b' = true →
        (c' = c + unitStep ax ∧ onFace ax 1 a = true ∧ onFace ax 1 b = true) ∨
          (c = c' + unitStep ax ∧ onFace ax 0 a = true ∧ onFace ax 0 b = true) := by
      intro ax h
      simp only [sharedFace, Bool.or_eq_true, Bool.and_eq_true, decide_eq_true_eq] at h
      rcases h with ⟨⟨⟨⟨h, p1⟩, p2⟩, -⟩, -⟩ | ⟨⟨⟨⟨h, p1⟩, p2⟩, -⟩, -⟩
      · left
        refine ⟨?_, p1, p2⟩
        rw [← h]
        ext <;> simp only [Vec3.add_x, Vec3.add_y, Vec3.add_z, Vec3.sub_x, Vec3.sub_y, Vec3.sub_z] <;> omega
      · right
        refine ⟨?_, p1, p2⟩
        rw [← h]
        ext <;> simp only [Vec3.add_x, Vec3.add_y, Vec3.add_z, Vec3.sub_x, Vec3.sub_y, Vec3.sub_z] <;> omega
    rcases hs with ((((hs | hs) | hs) | hs) | hs) | hs
    · simp [x2] at hs
    · exact absurd (by simpa using hs) hab
    · simp [hd] at hs
    · exact ⟨0, by omega, key 0 hs⟩
    · exact ⟨1, by omega, key 1 hs⟩
    · exact ⟨2, by omega, key 2 hs⟩

end Vox.MC
