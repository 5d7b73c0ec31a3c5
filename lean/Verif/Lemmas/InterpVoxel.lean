/-
Facts behind C116 and C117: the voxel nearest to a position, and bounds of one interpolated member.
-/
import Verif.Model.InterpVoxel
import Verif.Spec.InterpVoxel
import Verif.Lemmas.InterpQuery

namespace Vox.InterpF

open Layer Grid Ieee Spec IndexF

open RoundErr (u_eq eta_eq rnd_fin)

variable {V : Type}

/-- The tolerance of the lookup, in voxels, at `X` voxels from the origin with `N` voxels per side. -/
def lookupTol (X N : ℚ) : ℚ := (4 * X + 6 * N + 16) / 2 ^ 24 + 2 / 1000000 * N

/-- Block and voxel of a position, one axis, with the tolerance in terms of the distance from the origin. -/
theorem axis_locate_fine {s : ℚ} (h : Size s) (hS : s ≤ 2 ^ 80) {k : ℕ} (hk : k ≤ 10) {p X : ℚ} (hX : |p / s| ≤ X) (hX2 : X ≤ 2 ^ 19)
    {b i v : ℤ} (hb : b = gridIndex1 p (inverse (2 ^ k * s)))
    (hi : i = gridIndex1 (rnd32 (p - origin1 b (2 ^ k * s))) (inverse s)) (hv : v = max (min i (2 ^ k - 1)) 0) :
    ((b * 2 ^ k + v : ℤ) : ℚ) - lookupTol X (2 ^ k) ≤ p / s ∧ p / s ≤ ((b * 2 ^ k + v : ℤ) : ℚ) + 1 + lookupTol X (2 ^ k) := by
  obtain ⟨hbz, hiz, ⟨hv0, hv1⟩, hc1, hc2⟩ := axis_locate h hS hk hX hX2 hb hi hv
  obtain ⟨hB, hN1, hN2⟩ := size_block h hS hk
  have hs := h.pos
  obtain ⟨P, hP⟩ : ∃ P, p = P * s := ⟨p / s, by field_simp⟩
  have hPs : p / s = P := by rw [hP]; field_simp
  rw [hPs] at hX hc1 hc2 ⊢
  have hX0 : 0 ≤ X := le_trans (abs_nonneg _) hX
  have hNpos : (0 : ℚ) < 2 ^ k := by linarith
  have hvq0 : (0 : ℚ) ≤ v := by exact_mod_cast hv0
  have hvq1 : (v : ℚ) + 1 ≤ 2 ^ k := by exact_mod_cast hv1
  push_cast
  -- the block
  have b1 : (b : ℚ) * 2 ^ k ≤ P + lookupTol X (2 ^ k) ∧ P ≤ b * 2 ^ k + 2 ^ k + lookupTol X (2 ^ k) := by
    have e := raw_err hB p
    have hq : p / (2 ^ k * s) = P / 2 ^ k := by rw [hP]; field_simp
    rw [hq, abs_div, abs_of_pos hNpos] at e
    have f1 := Int.floor_le (rnd32 (rnd32 (p * inverse (2 ^ k * s)) + kEps))
    have f2 := Int.lt_floor_add_one (rnd32 (rnd32 (p * inverse (2 ^ k * s)) + kEps))
    change ((gridIndex1 p (inverse (2 ^ k * s)) : ℤ) : ℚ) ≤ _ at f1
    change _ < ((gridIndex1 p (inverse (2 ^ k * s)) : ℤ) : ℚ) + 1 at f2
    rw [← hb] at f1 f2
    obtain ⟨e1, e2⟩ := abs_le.1 e
    generalize rnd32 (rnd32 (p * inverse (2 ^ k * s)) + kEps) = R at *
    have g1 := mul_le_mul_of_nonneg_right (show (b : ℚ) ≤ P / 2 ^ k + (4 * u * (|P| / 2 ^ k) + 3 / 2 / 1000000) by linarith) hNpos.le
    have g2 := mul_lt_mul_of_pos_right (show P / 2 ^ k < (b : ℚ) + 1 + (4 * u * (|P| / 2 ^ k) + 3 / 2 / 1000000) by linarith) hNpos
    have c1 : (P / 2 ^ k + (4 * u * (|P| / 2 ^ k) + 3 / 2 / 1000000)) * 2 ^ k = P + 4 * u * |P| + 3 / 2 / 1000000 * 2 ^ k := by
      field_simp
      ring
    have c2 : P / 2 ^ k * 2 ^ k = P := by field_simp
    have c3 : ((b : ℚ) + 1 + (4 * u * (|P| / 2 ^ k) + 3 / 2 / 1000000)) * 2 ^ k = b * 2 ^ k + 2 ^ k + 4 * u * |P| + 3 / 2 / 1000000 * 2 ^ k := by
      field_simp
      ring
    rw [c1] at g1
    rw [c2, c3] at g2
    rw [u_eq] at *
    unfold lookupTol
    generalize (b : ℚ) * 2 ^ k = B at *
    generalize (2 : ℚ) ^ k = N at *
    generalize |P| = Q at *
    norm_num at *
    constructor <;> linarith
  obtain ⟨p1, p2⟩ := abs_le.1 hX
  have hBabs : |(b : ℚ) * 2 ^ k| ≤ X + 2 ^ k + 1 / 7 := by
    rw [abs_le]
    constructor <;> linarith
  have ho := origin1_err hB (i := b) (hbz.trans (by norm_num))
  obtain ⟨O, hO⟩ : ∃ O, origin1 b (2 ^ k * s) = O * s := ⟨origin1 b (2 ^ k * s) / s, by field_simp⟩
  have ho' : |O - b * 2 ^ k| ≤ u * |(b : ℚ) * 2 ^ k| + 1 / 2 ^ 60 * 2 ^ k := by
    refine scale_le hs ?_
    have e : (O - b * 2 ^ k) * s = O * s - b * (2 ^ k * s) := by ring
    rw [e, ← hO]
    refine ho.trans (le_of_eq ?_)
    rw [abs_mul, abs_of_pos hNpos]
    ring
  have ho2 : |O - b * 2 ^ k| ≤ 1 / 2 ^ 24 * (X + 2 ^ k + 1 / 7) + 1 / 2 ^ 60 * 2 ^ k := by
    rw [u_eq] at ho'
    have := mul_le_mul_of_nonneg_left hBabs (show (0 : ℚ) ≤ 1 / 2 ^ 24 by positivity)
    linarith
  have ho3 : |O - b * 2 ^ k| ≤ 1 / 30 := by
    generalize |O - b * 2 ^ k| = A at *
    generalize (2 : ℚ) ^ k = N at *
    norm_num at *
    linarith
  obtain ⟨o1, o2⟩ := abs_le.1 ho2
  obtain ⟨o3, o4⟩ := abs_le.1 ho3
  -- the voxel
  obtain ⟨T, hT⟩ : ∃ T, rnd32 (p - origin1 b (2 ^ k * s)) = T * s := ⟨rnd32 (p - origin1 b (2 ^ k * s)) / s, by field_simp⟩
  have ht := rnd_units h (P - O)
  have epo : (P - O) * s = p - origin1 b (2 ^ k * s) := by rw [hO, hP]; ring
  rw [epo, hT, mul_div_cancel_right₀ _ hs.ne'] at ht
  have hPO : |P - O| ≤ 2 ^ k + 1 / 5 := by
    rw [abs_le]
    constructor <;> linarith
  have ht2 : |T - (P - O)| ≤ 1 / 2 ^ 24 * (2 ^ k + 1 / 5) + 1 / 2 ^ 60 := by
    rw [u_eq] at ht
    have := mul_le_mul_of_nonneg_left hPO (show (0 : ℚ) ≤ 1 / 2 ^ 24 by positivity)
    linarith
  obtain ⟨t1, t2⟩ := abs_le.1 ht2
  have hTa : |T| ≤ 2 ^ k + 1 := by
    obtain ⟨x1, x2⟩ := abs_le.1 hPO
    generalize (b : ℚ) * 2 ^ k = B at *
    generalize (2 : ℚ) ^ k = N at *
    rw [abs_le]
    norm_num at *
    constructor <;> linarith
  have hi2 : (i : ℚ) ≤ P - b * 2 ^ k + lookupTol X (2 ^ k) ∧ P - b * 2 ^ k ≤ i + 1 + lookupTol X (2 ^ k) := by
    have e := raw_err h (T * s)
    rw [mul_div_cancel_right₀ _ hs.ne', ← hT] at e
    have f1 := Int.floor_le (rnd32 (rnd32 (rnd32 (p - origin1 b (2 ^ k * s)) * inverse s) + kEps))
    have f2 := Int.lt_floor_add_one (rnd32 (rnd32 (rnd32 (p - origin1 b (2 ^ k * s)) * inverse s) + kEps))
    change ((gridIndex1 (rnd32 (p - origin1 b (2 ^ k * s))) (inverse s) : ℤ) : ℚ) ≤ _ at f1
    change _ < ((gridIndex1 (rnd32 (p - origin1 b (2 ^ k * s))) (inverse s) : ℤ) : ℚ) + 1 at f2
    rw [← hi] at f1 f2
    obtain ⟨e1, e2⟩ := abs_le.1 e
    rw [u_eq] at *
    unfold lookupTol
    generalize rnd32 (rnd32 (rnd32 (p - origin1 b (2 ^ k * s)) * inverse s) + kEps) = R at *
    generalize (b : ℚ) * 2 ^ k = B at *
    generalize (2 : ℚ) ^ k = N at *
    generalize |T| = A at *
    clear b1 hX hBabs ho' ho2 ho3 ht2 hPO ht hc1 hc2 o3 o4
    norm_num at *
    constructor <;> linarith
  obtain ⟨i1, i2⟩ := hi2
  rcases lt_or_ge i 0 with c | c
  · have e : v = 0 := by omega
    have ci : (i : ℚ) + 1 ≤ 0 := by exact_mod_cast c
    rw [e]
    push_cast
    constructor <;> linarith [b1.1]
  · rcases lt_or_ge i (2 ^ k) with c2 | c2
    · have e : v = i := by
        have : (1 : ℤ) ≤ 2 ^ k := by exact_mod_cast hN1
        omega
      rw [e]
      constructor <;> linarith
    · have e : v = 2 ^ k - 1 := by
        have : (1 : ℤ) ≤ 2 ^ k := by exact_mod_cast hN1
        omega
      have ci : (2 : ℚ) ^ k ≤ i := by exact_mod_cast c2
      rw [e]
      push_cast
      constructor <;> linarith [b1.2]

/-- The voxel found at a position. -/
theorem nearest_full {l : VLayer V} (sh : Shaped l) (hs : Size l.cfg.voxelSize) (hS : l.cfg.voxelSize ≤ 2 ^ 80) {k : ℕ} (hk : k ≤ 10)
    (hn : l.cfg.vps = 2 ^ k) {pos : Pt} {X : ℚ} (hX : WithinVoxels l.cfg.voxelSize X pos) (hX2 : X ≤ 2 ^ 19) :
    ∃ b v : Idx, InBlock l.cfg.vps v ∧ blockIndex l.cfg.voxelSize l.cfg.vps pos = .ok b ∧
      IndexF.truncatedVoxelIndex (IndexF.originPoint b (blockSize l.cfg.voxelSize l.cfg.vps)) l.cfg.voxelSize l.cfg.vps pos = .ok v ∧
      NearVoxel l.cfg.voxelSize (lookupTol X (2 ^ k)) (globalIndex l.cfg.vps b v) pos ∧
      voxelAtCoords l pos = .ok (content l (globalIndex l.cfg.vps b v)) := by
  obtain ⟨hBs, hN1, hN2⟩ := size_block hs hS hk
  have hbs := blockSize_eq hs (k := k) (by omega)
  generalize hsv : l.cfg.voxelSize = s at *
  obtain ⟨hXx, hXy, hXz⟩ := hX
  generalize hb : (⟨gridIndex1 pos.x (inverse (2 ^ k * s)), gridIndex1 pos.y (inverse (2 ^ k * s)), gridIndex1 pos.z (inverse (2 ^ k * s))⟩ : Idx) = b
  generalize hi : (⟨gridIndex1 (rnd32 (pos.x - origin1 b.x (2 ^ k * s))) (inverse s), gridIndex1 (rnd32 (pos.y - origin1 b.y (2 ^ k * s))) (inverse s),
    gridIndex1 (rnd32 (pos.z - origin1 b.z (2 ^ k * s))) (inverse s)⟩ : Idx) = i
  generalize hv : (⟨max (min i.x (2 ^ k - 1)) 0, max (min i.y (2 ^ k - 1)) 0, max (min i.z (2 ^ k - 1)) 0⟩ : Idx) = v
  have x1 := axis_locate hs hS hk hXx hX2 (b := b.x) (i := i.x) (v := v.x) (by rw [← hb]) (by rw [← hi]) (by rw [← hv])
  have y1 := axis_locate hs hS hk hXy hX2 (b := b.y) (i := i.y) (v := v.y) (by rw [← hb]) (by rw [← hi]) (by rw [← hv])
  have z1 := axis_locate hs hS hk hXz hX2 (b := b.z) (i := i.z) (v := v.z) (by rw [← hb]) (by rw [← hi]) (by rw [← hv])
  have x2 := axis_locate_fine hs hS hk hXx hX2 (b := b.x) (i := i.x) (v := v.x) (by rw [← hb]) (by rw [← hi]) (by rw [← hv])
  have y2 := axis_locate_fine hs hS hk hXy hX2 (b := b.y) (i := i.y) (v := v.y) (by rw [← hb]) (by rw [← hi]) (by rw [← hv])
  have z2 := axis_locate_fine hs hS hk hXz hX2 (b := b.z) (i := i.z) (v := v.z) (by rw [← hb]) (by rw [← hi]) (by rw [← hv])
  have i32 : ∀ j : ℤ, |j| ≤ 2 ^ 20 → IsI32 j := fun j hj => by
    obtain ⟨j1, j2⟩ := abs_le.1 hj
    exact ⟨by omega, by omega⟩
  have hin : InBlock l.cfg.vps v := by
    rw [hn]
    exact ⟨x1.2.2.1, y1.2.2.1, z1.2.2.1⟩
  have hgi : globalIndex l.cfg.vps b v = ⟨b.x * 2 ^ k + v.x, b.y * 2 ^ k + v.y, b.z * 2 ^ k + v.z⟩ := by
    rw [hn]
    unfold globalIndex
    ext <;> simp
  have hblk : blockIndex s l.cfg.vps pos = .ok b := by
    unfold blockIndex IndexF.gridIndex toIdx32
    rw [hn, hbs]
    have e : pos.map (fun c => gridIndex1 c (inverse (2 ^ k * s))) = b := by rw [← hb]; rfl
    rw [e, if_pos ⟨i32 _ x1.1, i32 _ y1.1, i32 _ z1.1⟩]
  have htr : IndexF.truncatedVoxelIndex (IndexF.originPoint b (blockSize s l.cfg.vps)) s l.cfg.vps pos = .ok v := by
    unfold IndexF.truncatedVoxelIndex IndexF.gridIndex toIdx32
    rw [hn, hbs]
    have e : (Vec3.map₂ (fun c o => rnd32 (c - o)) pos (IndexF.originPoint b (2 ^ k * s))).map (fun c => gridIndex1 c (inverse s)) = i := by
      rw [← hi]
      simp only [IndexF.originPoint, Vec3.map, Vec3.map₂]
    rw [e, if_pos ⟨i32 _ x1.2.1, i32 _ y1.2.1, i32 _ z1.2.1⟩]
    have hside : (2 : ℤ) ^ k ≤ 1024 := by exact_mod_cast hN2
    have hpos : (1 : ℤ) ≤ 2 ^ k := by exact_mod_cast hN1
    have hw : wrap32 (((2 ^ k : ℕ) : ℤ) - 1) = 2 ^ k - 1 := by
      push_cast
      exact wrap32_of_range ⟨by omega, by omega⟩
    show Outcome.ok (i.map fun c => max (min c (wrap32 (((2 ^ k : ℕ) : ℤ) - 1))) 0) = _
    rw [hw, ← hv]
    rfl
  refine ⟨b, v, hin, hblk, htr, ?_, ?_⟩
  · rw [hgi]
    exact ⟨x2, y2, z2⟩
  · unfold voxelAtCoords
    rw [hsv, hblk]
    simp only [Outcome.bind_ok]
    cases hb0 : block? l b with
    | none =>
      rw [content_none hb0 hin]
      rfl
    | some blk =>
      obtain ⟨hvps, hlen⟩ := sh.block _ _ hb0
      simp only [hvps]
      rw [htr]
      simp only [Outcome.bind_ok]
      have hb1 : block? (placed l) b = some (place l b blk) := by
        show (placed l).blocks.lookup b = _
        rw [lookup_placed]
        have : l.blocks.lookup b = some blk := hb0
        rw [this]
        rfl
      obtain ⟨x, e1, e2⟩ := voxelByIndex_content (placed_wf sh (by rw [hsv]; exact hs.pos)) hb1 hin
      rw [content_placed] at e2
      have e3 : voxelByIndex blk v = .ok x := e1
      have e4 : content l (globalIndex l.cfg.vps b v) = some x := e2
      rw [e3, e4]
      rfl

theorem nearest {l : VLayer V} (sh : Shaped l) (hs : Size l.cfg.voxelSize) (hS : l.cfg.voxelSize ≤ 2 ^ 80) {k : ℕ} (hk : k ≤ 10)
    (hn : l.cfg.vps = 2 ^ k) {pos : Pt} {X : ℚ} (hX : WithinVoxels l.cfg.voxelSize X pos) (hX2 : X ≤ 2 ^ 19) :
    ∃ g : Idx, NearVoxel l.cfg.voxelSize (lookupTol X (2 ^ k)) g pos ∧ voxelAtCoords l pos = .ok (content l g) := by
  obtain ⟨b, v, -, -, -, h1, h2⟩ := nearest_full sh hs hS hk hn hX hX2
  exact ⟨_, h1, h2⟩

/-- One interpolated member lies near the trilinear value and the range of the corners. -/
theorem member_between {rows : ℕ → Order} {last : Order} (hrows : ∀ i < 8, Complete (rows i)) (hlast : Complete last) {o rel : Pt} {E F : ℚ}
    (ho : o.All fun t => 0 ≤ t ∧ t ≤ 16 / 15) (hrel : rel.All fun t => -(1 / 15) ≤ t ∧ t ≤ 16 / 15)
    (h1 : o.x ≤ 1 + F ∧ o.y ≤ 1 + F ∧ o.z ≤ 1 + F) (hF : 0 ≤ F)
    (h3 : |o.x - rel.x| ≤ E ∧ |o.y - rel.y| ≤ E ∧ |o.z - rel.z| ≤ E) {f : Idx → ℚ} {lo hi D : ℚ} (hD : D ≤ 2 ^ 100)
    (hf : ∀ c, IsCorner c → rnd32 (f c) = f c ∧ |f c| ≤ D ∧ lo ≤ f c ∧ f c ≤ hi) :
    ∃ r, interpMember rows last (qF o) (Interp.corners.map fun c => .fin (f c)) = .fin r ∧
      |r - trilinear f rel| ≤ D / 2 ^ 14 + 4 * (hi - lo) * E + 1 / 2 ^ 140 ∧
      lo - (D / 2 ^ 14 + 4 * (hi - lo) * F + 1 / 2 ^ 140) ≤ r ∧ r ≤ hi + (D / 2 ^ 14 + 4 * (hi - lo) * F + 1 / 2 ^ 140) := by
  have hD0 : 0 ≤ D := le_trans (abs_nonneg _) (hf ⟨0, 0, 0⟩ (by decide)).2.1
  have hd : ∀ c, IsCorner c → rnd32 (f c) = f c ∧ |f c| ≤ D := fun c hc => ⟨(hf c hc).1, (hf c hc).2.1⟩
  have hR : ∀ c c', IsCorner c → IsCorner c' → |f c - f c'| ≤ hi - lo := by
    intro c c' hc hc'
    rw [abs_le]
    constructor <;> linarith [(hf c hc).2.2.1, (hf c hc).2.2.2, (hf c' hc').2.2.1, (hf c' hc').2.2.2]
  obtain ⟨r, hr1, hr2⟩ := member_err (rows := rows) (last := last) (fun i hi => hrows i hi) hlast ho.1 ho.2.1 ho.2.2
    (hd ⟨0, 0, 0⟩ (by decide)) (hd ⟨0, 0, 1⟩ (by decide)) (hd ⟨0, 1, 0⟩ (by decide)) (hd ⟨0, 1, 1⟩ (by decide))
    (hd ⟨1, 0, 0⟩ (by decide)) (hd ⟨1, 0, 1⟩ (by decide)) (hd ⟨1, 1, 0⟩ (by decide)) (hd ⟨1, 1, 1⟩ (by decide)) hD0 hD
  have et := Interp.interpMember_trilinear f o
  have hr2' : |r - trilinear f o| ≤ D / 2 ^ 14 + 1 / 2 ^ 140 := by
    rw [← et]
    exact hr2
  have ho' : o.All fun t => -(1 / 15) ≤ t ∧ t ≤ 16 / 15 :=
    ⟨⟨by linarith [ho.1.1], ho.1.2⟩, ⟨by linarith [ho.2.1.1], ho.2.1.2⟩, ⟨by linarith [ho.2.2.1], ho.2.2.2⟩⟩
  refine ⟨r, hr1, ?_, ?_⟩
  · have hsh := trilinear_shift (f := f) (R := hi - lo) hR hrel ho' h3.1 h3.2.1 h3.2.2
    have := abs_sub_le r (trilinear f o) (trilinear f rel)
    linarith
  · have cl : ∀ t : ℚ, 0 ≤ t → t ≤ 1 + F → 0 ≤ min 1 t ∧ min 1 t ≤ 1 ∧ |t - min 1 t| ≤ F := by
      intro t a b
      refine ⟨le_min (by norm_num) a, min_le_left _ _, ?_⟩
      rw [abs_le]
      rcases le_total 1 t with c | c
      · rw [min_eq_left c]
        constructor <;> linarith
      · rw [min_eq_right c]
        constructor <;> linarith
    obtain ⟨cx0, cx1, cx2⟩ := cl _ ho.1.1 h1.1
    obtain ⟨cy0, cy1, cy2⟩ := cl _ ho.2.1.1 h1.2.1
    obtain ⟨cz0, cz1, cz2⟩ := cl _ ho.2.2.1 h1.2.2
    have unit : (⟨min 1 o.x, min 1 o.y, min 1 o.z⟩ : Pt).All fun t => 0 ≤ t ∧ t ≤ 1 := ⟨⟨cx0, cx1⟩, ⟨cy0, cy1⟩, ⟨cz0, cz1⟩⟩
    have unit' : (⟨min 1 o.x, min 1 o.y, min 1 o.z⟩ : Pt).All fun t => -(1 / 15) ≤ t ∧ t ≤ 16 / 15 :=
      ⟨⟨by linarith, by linarith⟩, ⟨by linarith, by linarith⟩, ⟨by linarith, by linarith⟩⟩
    have hsh := trilinear_shift (f := f) (R := hi - lo) hR unit' ho' cx2 cy2 cz2
    have b1 := Interp.trilinear_mono (f := fun _ => lo) (h := f) unit fun c hc => (hf c hc).2.2.1
    have b2 := Interp.trilinear_mono (f := f) (h := fun _ => hi) unit fun c hc => (hf c hc).2.2.2
    rw [Interp.trilinear_const] at b1 b2
    obtain ⟨p1, p2⟩ := abs_le.1 hsh
    obtain ⟨p3, p4⟩ := abs_le.1 hr2'
    constructor <;> linarith

/-- Truncation of a number near the range of the corners. -/
theorem byte_near {r t e lo hi : ℚ} {lo' hi' : ℕ} (hlo : lo = lo') (hhi : hi = hi') (hhi2 : hi' ≤ 255) (he : e < 1) (h1 : |r - t| ≤ e) (h2 : lo - e ≤ r)
    (h3 : r ≤ hi + e) : ∃ b : BitVec 8, byteOf (.fin r) = .ok b ∧ |((b.toNat : ℕ) : ℚ) - t| < 2 ∧ lo' ≤ b.toNat + 1 ∧ b.toNat ≤ hi' := by
  have key : ∀ T : ℤ, 0 ≤ T → (T : ℚ) ≤ hi → |(T : ℚ) - r| < 1 → (lo : ℚ) < T + 2 →
      (T = if 0 ≤ r then ⌊r⌋ else ⌈r⌉) → ∃ b : BitVec 8, byteOf (.fin r) = .ok b ∧ |((b.toNat : ℕ) : ℚ) - t| < 2 ∧ lo' ≤ b.toNat + 1 ∧ b.toNat ≤ hi' := by
    intro T hT0 hTh hTr hTl hT
    have hTh' : T ≤ hi' := by rw [hhi] at hTh; exact_mod_cast hTh
    have hTl' : (lo' : ℤ) < T + 2 := by rw [hlo] at hTl; exact_mod_cast hTl
    have hn : (BitVec.ofInt 8 T).toNat = T.toNat := by
      rw [BitVec.toNat_ofInt]
      congr 1
      exact Int.emod_eq_of_lt hT0 (by norm_num; omega)
    have hq : (((BitVec.ofInt 8 T).toNat : ℕ) : ℚ) = (T : ℚ) := by
      rw [hn]
      exact_mod_cast Int.toNat_of_nonneg hT0
    refine ⟨BitVec.ofInt 8 T, ?_, ?_, ?_, ?_⟩
    · unfold byteOf Interp.truncByte
      simp only [← hT]
      exact if_pos ⟨hT0, by omega⟩
    · rw [hq]
      have := abs_sub_le (T : ℚ) r t
      linarith
    · rw [hn]
      omega
    · rw [hn]
      omega
  by_cases hr : 0 ≤ r
  · refine key ⌊r⌋ (Int.floor_nonneg.2 hr) ?_ ?_ ?_ (if_pos hr).symm
    · have : ⌊r⌋ < (hi' : ℤ) + 1 := by
        rw [Int.floor_lt]
        push_cast
        rw [← hhi]
        linarith
      have h' : ⌊r⌋ ≤ (hi' : ℤ) := by omega
      rw [hhi]
      exact_mod_cast h'
    · have f1 := Int.floor_le r
      have f2 := Int.lt_floor_add_one r
      rw [abs_lt]
      constructor <;> linarith
    · have f2 := Int.lt_floor_add_one r
      linarith
  · have hr' : r < 0 := not_le.1 hr
    have hlo0 : (0 : ℚ) ≤ lo := by rw [hlo]; exact Nat.cast_nonneg _
    have hc : ⌈r⌉ = 0 := by
      rw [Int.ceil_eq_iff]
      push_cast
      constructor <;> linarith
    refine key 0 le_rfl ?_ ?_ ?_ (by rw [if_neg hr, hc])
    · rw [hhi]
      push_cast
      exact Nat.cast_nonneg _
    · push_cast
      rw [abs_lt]
      constructor <;> linarith
    · push_cast
      linarith

end Vox.InterpF
