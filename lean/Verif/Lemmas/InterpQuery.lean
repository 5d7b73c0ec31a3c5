/-
The whole interpolation query in `float`.
-/
import Verif.Lemmas.InterpCell

namespace Vox.InterpF

open Layer Grid Ieee Spec IndexF

open RoundErr (u_eq eta_eq rnd32_nonneg rnd_fin)

variable {V : Type}

/-! ### The corners do not depend on the coordinates stored in the blocks -/

/-- A block with exact coordinates. -/
def place (l : VLayer V) (i : Idx) (b : Block ℚ V) : Block ℚ V :=
  { b with voxelSize := l.cfg.voxelSize
           origin := ⟨i.x * (l.cfg.voxelSize * l.cfg.vps), i.y * (l.cfg.voxelSize * l.cfg.vps), i.z * (l.cfg.voxelSize * l.cfg.vps)⟩ }

/-- The layer with exact coordinates. -/
def placed (l : VLayer V) : VLayer V := { l with blocks := l.blocks.map fun p => (p.1, place l p.1 p.2) }

theorem lookup_placed (l : VLayer V) (i : Idx) : (placed l).blocks.lookup i = (l.blocks.lookup i).map (place l i) := by
  show (l.blocks.map fun p => (p.1, place l p.1 p.2)).lookup i = _
  induction l.blocks with
  | nil => rfl
  | cons p ps ih =>
    obtain ⟨j, b⟩ := p
    simp only [List.map_cons, List.lookup_cons]
    by_cases hij : i = j
    · subst hij
      simp
    · have e : (i == j) = false := by simpa using hij
      rw [e]
      exact ih

theorem placed_wf {l : VLayer V} (sh : Shaped l) (hs : 0 < l.cfg.voxelSize) : WellFormed (placed l) where
  size_pos := hs
  side_pos := sh.side_pos
  side_le := sh.side_le
  block := by
    intro i b hb
    rw [lookup_placed] at hb
    obtain ⟨b0, h0, rfl⟩ := Option.map_eq_some_iff.1 hb
    obtain ⟨h1, h2⟩ := sh.block _ _ h0
    exact ⟨h1, rfl, rfl, h2⟩

theorem content_placed (l : VLayer V) (g : Idx) : content (placed l) g = content l g := by
  unfold content
  rw [lookup_placed]
  show ((l.blocks.lookup (g.map (· / (l.cfg.vps : ℤ)))).map _).bind _ = _
  cases l.blocks.lookup (g.map (· / (l.cfg.vps : ℤ))) <;> rfl

theorem gather_placed (l : VLayer V) (obs : V → Bool) (g : Idx) : ∀ cs, Interp.gather (placed l) obs g cs = Interp.gather l obs g cs
  | [] => rfl
  | c :: cs => by
    unfold Interp.gather
    rw [content_placed, gather_placed l obs g cs]

theorem cornerVoxel_placed (l : VLayer V) (obs : V → Bool) (bi v0 c : Idx) :
    Interp.cornerVoxel (placed l) obs bi v0 c = Interp.cornerVoxel l obs bi v0 c := by
  have hl : ∀ i, block? (placed l) i = (block? l i).map (place l i) := lookup_placed l
  unfold Interp.cornerVoxel Interp.cornerBlock
  rw [hl]
  cases block? l bi with
  | none => rfl
  | some b =>
    simp only [Option.map_some]
    have e : (place l bi b).vps = b.vps := rfl
    rw [e]
    by_cases hc : (v0 + c).x ≥ (b.vps : ℤ) ∨ (v0 + c).y ≥ (b.vps : ℤ) ∨ (v0 + c).z ≥ (b.vps : ℤ)
    · rw [if_pos hc, if_pos hc]
      cases toIdx32 ⟨(Interp.carryAxis b.vps bi.x (v0 + c).x).1, (Interp.carryAxis b.vps bi.y (v0 + c).y).1,
          (Interp.carryAxis b.vps bi.z (v0 + c).z).1⟩ with
      | ok i =>
        simp only [Outcome.bind_ok, Outcome.pure_eq]
        rw [hl]
        cases block? l i <;> rfl
      | fatal => rfl
      | ub => rfl
    · rw [if_neg hc, if_neg hc]
      rfl

theorem cornerVoxels_placed (l : VLayer V) (obs : V → Bool) (bi v0 : Idx) :
    ∀ cs, Interp.cornerVoxels (placed l) obs bi v0 cs = Interp.cornerVoxels l obs bi v0 cs
  | [] => rfl
  | c :: cs => by
    unfold Interp.cornerVoxels
    rw [cornerVoxel_placed, cornerVoxels_placed l obs bi v0 cs]

/-! ### The query -/

/-- The rounded weight vector at the offset `o`. -/
def qF (o : Pt) : List ℚ := [1, o.x, o.y, o.z, rnd32 (o.x * o.y), rnd32 (o.y * o.z), rnd32 (o.z * o.x), rnd32 (rnd32 (o.x * o.y) * o.z)]

theorem query {l : VLayer V} (sh : Shaped l) (hs : Size l.cfg.voxelSize) (hS : l.cfg.voxelSize ≤ 2 ^ 80) {k : ℕ} (hk : k ≤ 10)
    (hn : l.cfg.vps = 2 ^ k) (obs : V → Bool) {pos : Pt} {X : ℚ} (hX : WithinVoxels l.cfg.voxelSize X pos) (hX2 : X ≤ 2 ^ 18) :
    ∃ (g : Idx) (o : Pt), NearDualCell l.cfg.voxelSize (u * (2 * X + 2 * 2 ^ k + 8)) g pos ∧ (o.All fun t => 0 ≤ t ∧ t ≤ 16 / 15) ∧
      (|o.x - (relativeTo l.cfg.voxelSize g pos).x| ≤ u * (2 * X + 2 * 2 ^ k + 13) ∧
        |o.y - (relativeTo l.cfg.voxelSize g pos).y| ≤ u * (2 * X + 2 * 2 ^ k + 13) ∧
        |o.z - (relativeTo l.cfg.voxelSize g pos).z| ≤ u * (2 * X + 2 * 2 ^ k + 13)) ∧
      voxelsAndQ l obs pos = .ok ((Interp.gather l obs g Interp.corners).map fun xs => (xs, qF o)) := by
  obtain ⟨hBs, hN1, hN2⟩ := size_block hs hS hk
  have hbs := blockSize_eq hs (k := k) (by omega)
  generalize hsv : l.cfg.voxelSize = s at *
  obtain ⟨hXx, hXy, hXz⟩ := hX
  have hX19 : X ≤ 2 ^ 19 := hX2.trans (by norm_num)
  -- indices
  generalize hb : (⟨gridIndex1 pos.x (inverse (2 ^ k * s)), gridIndex1 pos.y (inverse (2 ^ k * s)), gridIndex1 pos.z (inverse (2 ^ k * s))⟩ : Idx) = b
  generalize hi : (⟨gridIndex1 (rnd32 (pos.x - origin1 b.x (2 ^ k * s))) (inverse s), gridIndex1 (rnd32 (pos.y - origin1 b.y (2 ^ k * s))) (inverse s),
    gridIndex1 (rnd32 (pos.z - origin1 b.z (2 ^ k * s))) (inverse s)⟩ : Idx) = i
  generalize hv : (⟨max (min i.x (2 ^ k - 1)) 0, max (min i.y (2 ^ k - 1)) 0, max (min i.z (2 ^ k - 1)) 0⟩ : Idx) = v
  generalize hx : Interp.shiftAxis (2 ^ k) (rnd32 (pos.x - rnd32 (origin1 b.x (2 ^ k * s) + center1 v.x s))) b.x v.x = x
  generalize hy : Interp.shiftAxis (2 ^ k) (rnd32 (pos.y - rnd32 (origin1 b.y (2 ^ k * s) + center1 v.y s))) b.y v.y = y
  generalize hz : Interp.shiftAxis (2 ^ k) (rnd32 (pos.z - rnd32 (origin1 b.z (2 ^ k * s) + center1 v.z s))) b.z v.z = z
  obtain ⟨bx', vx'⟩ := x
  obtain ⟨by', vy'⟩ := y
  obtain ⟨bz', vz'⟩ := z
  obtain ⟨x1, x2, x3, x4, x5, x6, x7, x8⟩ := axis_cell hs hS hk hXx hX19 (b := b.x) (i := i.x) (v := v.x) (by rw [← hb]) (by rw [← hi]) (by rw [← hv]) hx
  obtain ⟨y1, y2, y3, y4, y5, y6, y7, y8⟩ := axis_cell hs hS hk hXy hX19 (b := b.y) (i := i.y) (v := v.y) (by rw [← hb]) (by rw [← hi]) (by rw [← hv]) hy
  obtain ⟨z1, z2, z3, z4, z5, z6, z7, z8⟩ := axis_cell hs hS hk hXz hX19 (b := b.z) (i := i.z) (v := v.z) (by rw [← hb]) (by rw [← hi]) (by rw [← hv]) hz
  have small : u * (2 * X + 2 * 2 ^ k + 13) ≤ 1 / 31 := by
    rw [u_eq]
    generalize (2 : ℚ) ^ k = N at *
    norm_num at *
    linarith
  have small8 : u * (2 * X + 2 * 2 ^ k + 8) ≤ 1 / 31 := by
    rw [u_eq]
    generalize (2 : ℚ) ^ k = N at *
    norm_num at *
    linarith
  refine ⟨⟨bx' * 2 ^ k + vx', by' * 2 ^ k + vy', bz' * 2 ^ k + vz'⟩,
    ⟨offset1 (rnd32 (origin1 bx' (2 ^ k * s) + center1 vx' s)) pos.x (inverse s), offset1 (rnd32 (origin1 by' (2 ^ k * s) + center1 vy' s)) pos.y (inverse s),
      offset1 (rnd32 (origin1 bz' (2 ^ k * s) + center1 vz' s)) pos.z (inverse s)⟩, ⟨x8, y8, z8⟩, ⟨⟨x6, ?_⟩, ⟨y6, ?_⟩, ⟨z6, ?_⟩⟩, ⟨x7, y7, z7⟩, ?_⟩
  · have := (abs_le.1 x7).2
    linarith [x8.2]
  · have := (abs_le.1 y7).2
    linarith [y8.2]
  · have := (abs_le.1 z7).2
    linarith [z8.2]
  -- the run
  have hgb : ∀ b' v' : ℤ, 0 ≤ v' ∧ v' < 2 ^ k → (b' * 2 ^ k + v') / ((2 ^ k : ℕ) : ℤ) = b' ∧ (b' * 2 ^ k + v') % ((2 ^ k : ℕ) : ℤ) = v' := by
    intro b' v' hv'
    have := div_mod_of (n := 2 ^ k) (b := b') (v := v') (g := b' * 2 ^ k + v') hv'.1 (by push_cast; exact hv'.2) (by push_cast; ring)
    exact ⟨this.1.symm, this.2.symm⟩
  have hbO : Interp.bOf l.cfg.vps ⟨bx' * 2 ^ k + vx', by' * 2 ^ k + vy', bz' * 2 ^ k + vz'⟩ = ⟨bx', by', bz'⟩ := by
    rw [hn]
    ext
    · exact (hgb _ _ x4).1
    · exact (hgb _ _ y4).1
    · exact (hgb _ _ z4).1
  have hvO : Interp.vOf l.cfg.vps ⟨bx' * 2 ^ k + vx', by' * 2 ^ k + vy', bz' * 2 ^ k + vz'⟩ = ⟨vx', vy', vz'⟩ := by
    rw [hn]
    ext
    · exact (hgb _ _ x4).2
    · exact (hgb _ _ y4).2
    · exact (hgb _ _ z4).2
  have hblk : blockIndex s l.cfg.vps pos = .ok b := by
    unfold blockIndex IndexF.gridIndex toIdx32
    rw [hn, hbs]
    have e : pos.map (fun c => gridIndex1 c (inverse (2 ^ k * s))) = b := by rw [← hb]; rfl
    rw [e, if_pos ⟨x1, y1, z1⟩]
  have htr : IndexF.truncatedVoxelIndex (IndexF.originPoint b (blockSize s l.cfg.vps)) s l.cfg.vps pos = .ok v := by
    unfold IndexF.truncatedVoxelIndex IndexF.gridIndex toIdx32
    rw [hn, hbs]
    have e : (Vec3.map₂ (fun c o => rnd32 (c - o)) pos (IndexF.originPoint b (2 ^ k * s))).map (fun c => gridIndex1 c (inverse s)) = i := by
      rw [← hi]
      simp only [IndexF.originPoint, Vec3.map, Vec3.map₂]
    rw [e, if_pos ⟨x2, y2, z2⟩]
    have hside : (2 : ℤ) ^ k ≤ 1024 := by exact_mod_cast hN2
    have hpos : (1 : ℤ) ≤ 2 ^ k := by exact_mod_cast hN1
    have hw : wrap32 (((2 ^ k : ℕ) : ℤ) - 1) = 2 ^ k - 1 := by
      push_cast
      exact wrap32_of_range ⟨by omega, by omega⟩
    show Outcome.ok (i.map fun c => max (min c (wrap32 (((2 ^ k : ℕ) : ℤ) - 1))) 0) = _
    rw [hw, ← hv]
    rfl
  have hin : InBlock l.cfg.vps v := by
    rw [hn, ← hv]
    have hpos : (1 : ℤ) ≤ 2 ^ k := by exact_mod_cast hN1
    refine ⟨⟨le_max_right _ _, ?_⟩, ⟨le_max_right _ _, ?_⟩, ⟨le_max_right _ _, ?_⟩⟩ <;> (push_cast; omega)
  unfold voxelsAndQ setIndexes
  rw [hsv, hblk]
  simp only [Outcome.bind_ok]
  cases hb0 : block? l b with
  | none =>
    have hcn := content_none hb0 hin
    have hc : IsCorner (globalIndex l.cfg.vps b v - ⟨bx' * 2 ^ k + vx', by' * 2 ^ k + vy', bz' * 2 ^ k + vz'⟩) := by
      rw [hn]
      refine ⟨?_, ?_, ?_⟩ <;>
        simp only [globalIndex, Vec3.sub_x, Vec3.sub_y, Vec3.sub_z, Vec3.map₂_x, Vec3.map₂_y, Vec3.map₂_z] <;> push_cast <;> omega
    have hsum : (⟨bx' * 2 ^ k + vx', by' * 2 ^ k + vy', bz' * 2 ^ k + vz'⟩ : Idx) +
        (globalIndex l.cfg.vps b v - ⟨bx' * 2 ^ k + vx', by' * 2 ^ k + vy', bz' * 2 ^ k + vz'⟩) = globalIndex l.cfg.vps b v := by
      ext <;> simp
    have : Interp.gather l obs ⟨bx' * 2 ^ k + vx', by' * 2 ^ k + vy', bz' * 2 ^ k + vz'⟩ Interp.corners = none :=
      Interp.gather_none (by rw [hsum, hcn]; rfl) _ (Interp.corner_mem hc)
    rw [this]
    rfl
  | some blk =>
    obtain ⟨hvps, -⟩ := sh.block _ _ hb0
    have e32 : toIdx32 (⟨bx', by', bz'⟩ : Idx) = .ok ⟨bx', by', bz'⟩ := by
      unfold toIdx32
      exact if_pos ⟨x3, y3, z3⟩
    simp only [hvps]
    rw [htr]
    simp only [Outcome.bind_ok]
    have eoff : Vec3.map₂ (fun p c => rnd32 (p - c)) pos (coordinatesOf s l.cfg.vps b v) =
        ⟨rnd32 (pos.x - rnd32 (origin1 b.x (2 ^ k * s) + center1 v.x s)), rnd32 (pos.y - rnd32 (origin1 b.y (2 ^ k * s) + center1 v.y s)),
          rnd32 (pos.z - rnd32 (origin1 b.z (2 ^ k * s) + center1 v.z s))⟩ := by
      unfold coordinatesOf voxelCoordinates
      rw [hn, hbs]
      rfl
    rw [eoff, hn]
    simp only [hx, hy, hz, e32, Outcome.bind_ok, Outcome.pure_eq]
    unfold cornerQ
    cases hb1 : block? l ⟨bx', by', bz'⟩ with
    | none =>
      have hin' : InBlock l.cfg.vps ⟨vx', vy', vz'⟩ := by
        rw [hn]
        exact ⟨⟨x4.1, by push_cast; exact x4.2⟩, ⟨y4.1, by push_cast; exact y4.2⟩, ⟨z4.1, by push_cast; exact z4.2⟩⟩
      have hcn := content_none hb1 hin'
      have hgi : globalIndex l.cfg.vps ⟨bx', by', bz'⟩ ⟨vx', vy', vz'⟩ = ⟨bx' * 2 ^ k + vx', by' * 2 ^ k + vy', bz' * 2 ^ k + vz'⟩ := by
        rw [hn]
        unfold globalIndex
        ext <;> simp
      rw [hgi] at hcn
      have : Interp.gather l obs ⟨bx' * 2 ^ k + vx', by' * 2 ^ k + vy', bz' * 2 ^ k + vz'⟩ Interp.corners = none :=
        Interp.gather_none (c := ⟨0, 0, 0⟩) (by
          have e0 : (⟨bx' * 2 ^ k + vx', by' * 2 ^ k + vy', bz' * 2 ^ k + vz'⟩ : Idx) + ⟨0, 0, 0⟩ =
            ⟨bx' * 2 ^ k + vx', by' * 2 ^ k + vy', bz' * 2 ^ k + vz'⟩ := by ext <;> simp
          rw [e0, hcn]; rfl) _ (by decide)
      rw [this]
      rfl
    | some b1 =>
      have ecoord : Vec3.map₂ (fun c p => offset1 c p (inverse s)) (coordinatesOf s l.cfg.vps ⟨bx', by', bz'⟩ ⟨vx', vy', vz'⟩) pos =
          ⟨offset1 (rnd32 (origin1 bx' (2 ^ k * s) + center1 vx' s)) pos.x (inverse s),
            offset1 (rnd32 (origin1 by' (2 ^ k * s) + center1 vy' s)) pos.y (inverse s),
            offset1 (rnd32 (origin1 bz' (2 ^ k * s) + center1 vz' s)) pos.z (inverse s)⟩ := by
        unfold coordinatesOf voxelCoordinates
        rw [hn, hbs]
        rfl
      have hq : qVector (coordinatesOf s (2 ^ k) ⟨bx', by', bz'⟩ ⟨vx', vy', vz'⟩) pos (inverse s) =
          .ok (qF ⟨offset1 (rnd32 (origin1 bx' (2 ^ k * s) + center1 vx' s)) pos.x (inverse s),
            offset1 (rnd32 (origin1 by' (2 ^ k * s) + center1 vy' s)) pos.y (inverse s),
            offset1 (rnd32 (origin1 bz' (2 ^ k * s) + center1 vz' s)) pos.z (inverse s)⟩) := by
        rw [hn] at ecoord
        unfold qVector
        rw [ecoord]
        simp only [decide_eq_true (show 0 ≤ offset1 (rnd32 (origin1 bx' (2 ^ k * s) + center1 vx' s)) pos.x (inverse s) ∧
            0 ≤ offset1 (rnd32 (origin1 by' (2 ^ k * s) + center1 vy' s)) pos.y (inverse s) ∧
            0 ≤ offset1 (rnd32 (origin1 bz' (2 ^ k * s) + center1 vz' s)) pos.z (inverse s) from ⟨x6, y6, z6⟩)]
        rfl
      simp only [hsv, hn, hq, Outcome.bind_ok, Outcome.pure_eq]
      have hwf := placed_wf sh (by rw [hsv]; exact hs.pos)
      have hrange : Interp.Range ⟨bx' * 2 ^ k + vx', by' * 2 ^ k + vy', bz' * 2 ^ k + vz'⟩ := by
        have rng : ∀ (q : ℚ) (G : ℤ), |q / s| ≤ X → (-(u * (2 * X + 2 * 2 ^ k + 8)) ≤ q / s - ((G : ℚ) + 1 / 2) ∧
            q / s - ((G : ℚ) + 1 / 2) ≤ 1 + u * (2 * X + 2 * 2 ^ k + 8)) → -2 ^ 30 - 2 ≤ G ∧ G ≤ 2 ^ 30 := by
          intro q G hq' hG
          obtain ⟨q1, q2⟩ := abs_le.1 hq'
          have a1 : ((-2 ^ 30 - 2 : ℤ) : ℚ) ≤ G := by
            push_cast
            norm_num at *
            linarith [hG.2]
          have a2 : (G : ℚ) ≤ ((2 ^ 30 : ℤ) : ℚ) := by
            push_cast
            norm_num at *
            linarith [hG.1]
          exact ⟨by exact_mod_cast a1, by exact_mod_cast a2⟩
        exact ⟨rng _ _ hXx x8, rng _ _ hXy y8, rng _ _ hXz z8⟩
      have hb1' : block? (placed l) (Interp.bOf (placed l).cfg.vps ⟨bx' * 2 ^ k + vx', by' * 2 ^ k + vy', bz' * 2 ^ k + vz'⟩) =
          some (place l ⟨bx', by', bz'⟩ b1) := by
        show (placed l).blocks.lookup (Interp.bOf l.cfg.vps _) = _
        rw [hbO, lookup_placed]
        have : l.blocks.lookup ⟨bx', by', bz'⟩ = some b1 := hb1
        rw [this]
        rfl
      have hcv := Interp.cornerVoxels_spec hwf obs hrange hb1' Interp.corners fun c hc => Interp.mem_corner hc
      rw [cornerVoxels_placed, gather_placed] at hcv
      have e1 : Interp.bOf (placed l).cfg.vps ⟨bx' * 2 ^ k + vx', by' * 2 ^ k + vy', bz' * 2 ^ k + vz'⟩ = ⟨bx', by', bz'⟩ := hbO
      have e2 : Interp.vOf (placed l).cfg.vps ⟨bx' * 2 ^ k + vx', by' * 2 ^ k + vy', bz' * 2 ^ k + vz'⟩ = ⟨vx', vy', vz'⟩ := hvO
      rw [e1, e2] at hcv
      rw [hcv]
      rfl

/-! ### How much the offset matters -/

theorem bilinear_le {y z a b c d R : ℚ} (hy : -(1 / 15) ≤ y ∧ y ≤ 16 / 15) (hz : -(1 / 15) ≤ z ∧ z ≤ 16 / 15) (ha : |a| ≤ R) (hb : |b| ≤ R)
    (hc : |c| ≤ R) (hd : |d| ≤ R) :
    |(1 - y) * (1 - z) * a + (1 - y) * z * b + y * (1 - z) * c + y * z * d| ≤ 13 / 10 * R := by
  have hR : 0 ≤ R := le_trans (abs_nonneg _) ha
  have s : ∀ t : ℚ, -(1 / 15) ≤ t ∧ t ≤ 16 / 15 → |1 - t| + |t| ≤ 17 / 15 := by
    intro t ht
    rcases abs_cases t with ⟨e1, -⟩ | ⟨e1, -⟩ <;> rcases abs_cases (1 - t) with ⟨e2, -⟩ | ⟨e2, -⟩ <;> rw [e1, e2] <;> linarith [ht.1, ht.2]
  have m : ∀ p q e : ℚ, |e| ≤ R → |p * q * e| ≤ |p| * |q| * R := fun p q e h => by
    rw [abs_mul, abs_mul]
    exact mul_le_mul_of_nonneg_left h (mul_nonneg (abs_nonneg _) (abs_nonneg _))
  have h1 := m (1 - y) (1 - z) a ha
  have h2 := m (1 - y) z b hb
  have h3 := m y (1 - z) c hc
  have h4 := m y z d hd
  have t1 := abs_add_le ((1 - y) * (1 - z) * a + (1 - y) * z * b + y * (1 - z) * c) (y * z * d)
  have t2 := abs_add_le ((1 - y) * (1 - z) * a + (1 - y) * z * b) (y * (1 - z) * c)
  have t3 := abs_add_le ((1 - y) * (1 - z) * a) ((1 - y) * z * b)
  have e : |1 - y| * |1 - z| * R + |1 - y| * |z| * R + |y| * |1 - z| * R + |y| * |z| * R = (|1 - y| + |y|) * (|1 - z| + |z|) * R := by ring
  have f : (|1 - y| + |y|) * (|1 - z| + |z|) ≤ 17 / 15 * (17 / 15) :=
    mul_le_mul (s y hy) (s z hz) (add_nonneg (abs_nonneg _) (abs_nonneg _)) (by norm_num)
  have g := mul_le_mul_of_nonneg_right f hR
  linarith

theorem trilinear_shift {f : Idx → ℚ} {R E : ℚ} (hf : ∀ c c', IsCorner c → IsCorner c' → |f c - f c'| ≤ R) {o o' : Pt}
    (ho : o.All fun t => -(1 / 15) ≤ t ∧ t ≤ 16 / 15) (ho' : o'.All fun t => -(1 / 15) ≤ t ∧ t ≤ 16 / 15)
    (hx : |o'.x - o.x| ≤ E) (hy : |o'.y - o.y| ≤ E) (hz : |o'.z - o.z| ≤ E) : |trilinear f o' - trilinear f o| ≤ 4 * R * E := by
  have gx := bilinear_le (a := f ⟨1, 0, 0⟩ - f ⟨0, 0, 0⟩) (b := f ⟨1, 0, 1⟩ - f ⟨0, 0, 1⟩) (c := f ⟨1, 1, 0⟩ - f ⟨0, 1, 0⟩)
    (d := f ⟨1, 1, 1⟩ - f ⟨0, 1, 1⟩) ho'.2.1 ho'.2.2 (hf _ _ (by decide) (by decide)) (hf _ _ (by decide) (by decide))
    (hf _ _ (by decide) (by decide)) (hf _ _ (by decide) (by decide))
  have gy := bilinear_le (a := f ⟨0, 1, 0⟩ - f ⟨0, 0, 0⟩) (b := f ⟨0, 1, 1⟩ - f ⟨0, 0, 1⟩) (c := f ⟨1, 1, 0⟩ - f ⟨1, 0, 0⟩)
    (d := f ⟨1, 1, 1⟩ - f ⟨1, 0, 1⟩) ho.1 ho'.2.2 (hf _ _ (by decide) (by decide)) (hf _ _ (by decide) (by decide))
    (hf _ _ (by decide) (by decide)) (hf _ _ (by decide) (by decide))
  have gz := bilinear_le (a := f ⟨0, 0, 1⟩ - f ⟨0, 0, 0⟩) (b := f ⟨0, 1, 1⟩ - f ⟨0, 1, 0⟩) (c := f ⟨1, 0, 1⟩ - f ⟨1, 0, 0⟩)
    (d := f ⟨1, 1, 1⟩ - f ⟨1, 1, 0⟩) ho.1 ho.2.1 (hf _ _ (by decide) (by decide)) (hf _ _ (by decide) (by decide))
    (hf _ _ (by decide) (by decide)) (hf _ _ (by decide) (by decide))
  have hR : 0 ≤ R := le_trans (abs_nonneg _) (hf ⟨0, 0, 0⟩ ⟨0, 0, 0⟩ (by decide) (by decide))
  have hE : 0 ≤ E := le_trans (abs_nonneg _) hx
  have key : trilinear f o' - trilinear f o =
      (o'.x - o.x) * ((1 - o'.y) * (1 - o'.z) * (f ⟨1, 0, 0⟩ - f ⟨0, 0, 0⟩) + (1 - o'.y) * o'.z * (f ⟨1, 0, 1⟩ - f ⟨0, 0, 1⟩) +
        o'.y * (1 - o'.z) * (f ⟨1, 1, 0⟩ - f ⟨0, 1, 0⟩) + o'.y * o'.z * (f ⟨1, 1, 1⟩ - f ⟨0, 1, 1⟩)) +
      (o'.y - o.y) * ((1 - o.x) * (1 - o'.z) * (f ⟨0, 1, 0⟩ - f ⟨0, 0, 0⟩) + (1 - o.x) * o'.z * (f ⟨0, 1, 1⟩ - f ⟨0, 0, 1⟩) +
        o.x * (1 - o'.z) * (f ⟨1, 1, 0⟩ - f ⟨1, 0, 0⟩) + o.x * o'.z * (f ⟨1, 1, 1⟩ - f ⟨1, 0, 1⟩)) +
      (o'.z - o.z) * ((1 - o.x) * (1 - o.y) * (f ⟨0, 0, 1⟩ - f ⟨0, 0, 0⟩) + (1 - o.x) * o.y * (f ⟨0, 1, 1⟩ - f ⟨0, 1, 0⟩) +
        o.x * (1 - o.y) * (f ⟨1, 0, 1⟩ - f ⟨1, 0, 0⟩) + o.x * o.y * (f ⟨1, 1, 1⟩ - f ⟨1, 1, 0⟩)) := by
    simp only [trilinear, triWeight, linWeight, if_true, one_ne_zero, if_false]
    ring
  rw [key]
  refine (abs_add_le _ _).trans ?_
  have t := abs_add_le ((o'.x - o.x) * ((1 - o'.y) * (1 - o'.z) * (f ⟨1, 0, 0⟩ - f ⟨0, 0, 0⟩) + (1 - o'.y) * o'.z * (f ⟨1, 0, 1⟩ - f ⟨0, 0, 1⟩) +
        o'.y * (1 - o'.z) * (f ⟨1, 1, 0⟩ - f ⟨0, 1, 0⟩) + o'.y * o'.z * (f ⟨1, 1, 1⟩ - f ⟨0, 1, 1⟩)))
      ((o'.y - o.y) * ((1 - o.x) * (1 - o'.z) * (f ⟨0, 1, 0⟩ - f ⟨0, 0, 0⟩) + (1 - o.x) * o'.z * (f ⟨0, 1, 1⟩ - f ⟨0, 0, 1⟩) +
        o.x * (1 - o'.z) * (f ⟨1, 1, 0⟩ - f ⟨1, 0, 0⟩) + o.x * o'.z * (f ⟨1, 1, 1⟩ - f ⟨1, 0, 1⟩)))
  rw [abs_mul, abs_mul] at t
  rw [abs_mul (o'.z - o.z)]
  have m1 := mul_le_mul hx gx (abs_nonneg _) hE
  have m2 := mul_le_mul hy gy (abs_nonneg _) hE
  have m3 := mul_le_mul hz gz (abs_nonneg _) hE
  have hRE : 0 ≤ R * E := mul_nonneg hR hE
  have e : E * (13 / 10 * R) = 13 / 10 * (R * E) := by ring
  rw [e] at m1 m2 m3
  have e4 : 4 * R * E = 4 * (R * E) := by ring
  rw [e4]
  linarith

/-! ### Constant fields -/

theorem constant_member {rows : ℕ → Order} {last : Order} (hrows : ∀ i < 8, rows i = inTurn ∨ rows i = byHalves) (hlast : last = inTurn ∨ last = byHalves)
    {d : ℚ} (hd : rnd32 d = d) (hd2 : |d| ≤ 2 ^ 100) {o : Pt} :
    interpMember rows last (qF o) ((List.replicate 8 d).map .fin) = .fin d := by
  have z0 : rnd32 0 = 0 := by decide +kernel
  have hneg : rnd32 (-d) = -d := by
    unfold rnd32 at hd ⊢
    rw [rne_neg, hd]
  have big : (2 : ℚ) ^ 100 ≤ 2 ^ 127 := by norm_num
  have fd : float32.rnd d = .fin d := by rw [rnd_fin (hd2.trans big), hd]
  have fn : float32.rnd (-d) = .fin (-d) := by rw [rnd_fin (by rw [abs_neg]; exact hd2.trans big), hneg]
  have f0 : float32.rnd 0 = .fin 0 := by rw [rnd_fin (by norm_num), z0]
  have m1 : float32.mul (.fin 1) (.fin d) = .fin d := by show float32.rnd (1 * d) = _; rw [one_mul, fd]
  have mn : float32.mul (.fin (-1)) (.fin d) = .fin (-d) := by show float32.rnd (-1 * d) = _; rw [neg_one_mul, fn]
  have m0 : float32.mul (.fin 0) (.fin d) = .fin 0 := by show float32.rnd (0 * d) = _; rw [zero_mul, f0]
  have mz : ∀ a : ℚ, float32.mul (.fin a) (.fin 0) = .fin 0 := fun a => by show float32.rnd (a * 0) = _; rw [mul_zero, f0]
  have a00 : float32.add (.fin 0) (.fin 0) = .fin 0 := by show float32.rnd (0 + 0) = _; rw [add_zero, f0]
  have ad0 : float32.add (.fin d) (.fin 0) = .fin d := by show float32.rnd (d + 0) = _; rw [add_zero, fd]
  have a0d : float32.add (.fin 0) (.fin d) = .fin d := by show float32.rnd (0 + d) = _; rw [zero_add, fd]
  have an0 : float32.add (.fin (-d)) (.fin 0) = .fin (-d) := by show float32.rnd (-d + 0) = _; rw [add_zero, fn]
  have a0n : float32.add (.fin 0) (.fin (-d)) = .fin (-d) := by show float32.rnd (0 + -d) = _; rw [zero_add, fn]
  have adn : float32.add (.fin d) (.fin (-d)) = .fin 0 := by show float32.rnd (d + -d) = _; rw [add_neg_cancel, f0]
  have and : float32.add (.fin (-d)) (.fin d) = .fin 0 := by show float32.rnd (-d + d) = _; rw [neg_add_cancel, f0]
  have row : Interp.interpTable.mapIdx (fun i row => dotF (rows i) (row.map .fin) ((List.replicate 8 d).map .fin)) =
      [.fin d, .fin 0, .fin 0, .fin 0, .fin 0, .fin 0, .fin 0, .fin 0] := by
    have r : ∀ a b c e f g h i : ℚ, ∀ r : Fl, ∀ o : Order, (o = inTurn ∨ o = byHalves) →
        dotF inTurn ([a, b, c, e, f, g, h, i].map .fin) ((List.replicate 8 d).map .fin) = r →
        dotF byHalves ([a, b, c, e, f, g, h, i].map .fin) ((List.replicate 8 d).map .fin) = r →
        dotF o ([a, b, c, e, f, g, h, i].map .fin) ((List.replicate 8 d).map .fin) = r := by
      intro a b c e f g h i r o ho h1 h2
      rcases ho with rfl | rfl
      · exact h1
      · exact h2
    show [_, _, _, _, _, _, _, _] = _
    congr 1
    · exact r _ _ _ _ _ _ _ _ _ _ (hrows 0 (by omega)) (by simp [dotF, inTurn, Order.sum, entry, *]) (by simp [dotF, byHalves, Order.sum, entry, *])
    congr 1
    · exact r _ _ _ _ _ _ _ _ _ _ (hrows 1 (by omega)) (by simp [dotF, inTurn, Order.sum, entry, *]) (by simp [dotF, byHalves, Order.sum, entry, *])
    congr 1
    · exact r _ _ _ _ _ _ _ _ _ _ (hrows 2 (by omega)) (by simp [dotF, inTurn, Order.sum, entry, *]) (by simp [dotF, byHalves, Order.sum, entry, *])
    congr 1
    · exact r _ _ _ _ _ _ _ _ _ _ (hrows 3 (by omega)) (by simp [dotF, inTurn, Order.sum, entry, *]) (by simp [dotF, byHalves, Order.sum, entry, *])
    congr 1
    · exact r _ _ _ _ _ _ _ _ _ _ (hrows 4 (by omega)) (by simp [dotF, inTurn, Order.sum, entry, *]) (by simp [dotF, byHalves, Order.sum, entry, *])
    congr 1
    · exact r _ _ _ _ _ _ _ _ _ _ (hrows 5 (by omega)) (by simp [dotF, inTurn, Order.sum, entry, *]) (by simp [dotF, byHalves, Order.sum, entry, *])
    congr 1
    · exact r _ _ _ _ _ _ _ _ _ _ (hrows 6 (by omega)) (by simp [dotF, inTurn, Order.sum, entry, *]) (by simp [dotF, byHalves, Order.sum, entry, *])
    congr 1
    · exact r _ _ _ _ _ _ _ _ _ _ (hrows 7 (by omega)) (by simp [dotF, inTurn, Order.sum, entry, *]) (by simp [dotF, byHalves, Order.sum, entry, *])
  unfold interpMember
  rw [row]
  unfold qF
  rcases hlast with rfl | rfl
  · simp [dotF, inTurn, Order.sum, entry, m1, mz, ad0]
  · simp [dotF, byHalves, Order.sum, entry, m1, mz, ad0, a00]

end Vox.InterpF
