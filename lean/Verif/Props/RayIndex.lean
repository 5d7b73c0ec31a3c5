/-
C109: the voxels along a ray sorted by block.
-/
import Verif.Model.RayIndex
import Verif.Spec.RayIndex
import Verif.Lemmas.Sphere
import Verif.Lemmas.TsdfVisits
import Verif.Props.Index

namespace Vox.RayIndex

open Spec Ray Grid Sphere TsdfScan Tsdf

theorem covers_iff {n : ℕ} (hn : 0 < n) (i g : Idx) : Covers n i g ↔ blockOf n g = i := by
  have hn' : (0 : ℤ) < n := by exact_mod_cast hn
  have key : ∀ a c : ℤ, (a * n ≤ c ∧ c < (a + 1) * n) ↔ c / n = a := by
    intro a c
    rw [Int.ediv_eq_iff_of_pos hn', add_mul, one_mul]
  unfold Covers
  rw [key, key, key, Vec3.ext_iff]
  rfl

theorem sort_fold {k : ℕ} (hk : k < 31) (gs : List Idx) : ∀ m : VoxelMap, (∀ g ∈ gs, g.All fun c => |c| ≤ 2 ^ 24) →
    gs.foldlM (sortVoxel (2 ^ k)) m = .ok ((gs.map fun g => (blockOf (2 ^ k) g, localOf (2 ^ k) g)).foldl pushVoxel m) := by
  induction gs with
  | nil => intro m _; rfl
  | cons g gs ih =>
    intro m h
    rw [List.foldlM_cons, List.map_cons, List.foldl_cons]
    have hl : (localOf (2 ^ k) g).map (lift1 (2 ^ k)) = localOf (2 ^ k) g := by
      obtain ⟨⟨x, -⟩, ⟨y, -⟩, ⟨z, -⟩⟩ := localOf_inBlock (n := 2 ^ k) (by positivity) g
      ext <;> simp only [Vec3.map_x, Vec3.map_y, Vec3.map_z, lift1] <;> rw [if_neg (by omega)]
    have : sortVoxel (2 ^ k) m g = .ok (pushVoxel m (blockOf (2 ^ k) g, localOf (2 ^ k) g)) := by
      unfold sortVoxel
      rw [splitGlobal_ok hk (h g List.mem_cons_self), Outcome.bind_ok, hl]
      rfl
    rw [this, Outcome.bind_ok]
    exact ih _ fun g' hg' => h g' (List.mem_cons_of_mem _ hg')

theorem sortedByBlock {n : ℕ} (hn : 0 < n) (gs : List Idx) :
    SortedByBlock n gs ((gs.map fun g => (blockOf n g, localOf n g)).foldl pushVoxel []) := by
  obtain ⟨h1, h2, h3⟩ := pushAll (gs.map fun g => (blockOf n g, localOf n g)) [] (by simp)
  have hl : ∀ i, listed ((gs.map fun g => (blockOf n g, localOf n g)).foldl pushVoxel []) i =
      (gs.filter fun g => decide (blockOf n g = i)).map (localOf n) := by
    intro i
    rw [h2]
    simp only [listed, List.lookup_nil, Option.getD_none, List.nil_append, List.filter_map, List.map_map]
    rfl
  refine ⟨h1, ?_, ?_, ?_⟩
  · intro i
    rw [h3]
    simp [covers_iff hn]
  · intro i v hv
    rw [hl] at hv
    obtain ⟨g, -, rfl⟩ := List.mem_map.1 hv
    exact localOf_inBlock hn g
  · intro i
    rw [hl, List.map_map]
    have e : (fun g => decide (Covers n i g)) = fun g => decide (blockOf n g = i) := by
      funext g
      rw [decide_eq_decide]
      exact covers_iff hn i g
    rw [e]
    conv_rhs => rw [← List.map_id (gs.filter fun g => decide (blockOf n g = i))]
    refine List.map_congr_left fun g hg => ?_
    have hi : blockOf n g = i := by simpa using (List.mem_filter.1 hg).2
    have := globalIndex_split (n := n) g
    rw [hi] at this
    exact this

/-- **C109.** Whatever the rounding and whatever the map held before: the voxels enumerated for the ray are sorted by block, each block
with the local indices of its voxels in the order of the ray. Full statement: for all voxels; block indices are computed in single
precision, so it holds for indices up to 2^24 and is false beyond (`C109_far_violated`). -/
theorem C109_sorted_partial (A : Arith) {start stop : Vec3 Fl} {k : ℕ} (hk : k < 31) {s : ℚ} {trunc : Fl} {carving : Bool} {gs : List Idx}
    (hv : voxels A start stop s trunc carving = .ok gs) (hg : ∀ g ∈ gs, g.All fun c => |c| ≤ 2 ^ 24) (old : VoxelMap) :
    ∃ m, alongRay A start stop (2 ^ k) s trunc carving old = .ok m ∧ SortedByBlock (2 ^ k) gs m := by
  refine ⟨_, ?_, sortedByBlock (by positivity) gs⟩
  unfold alongRay
  rw [hv, Outcome.bind_ok, sort_fold hk gs [] hg]

/-- A root that is right for the squares used in the examples. -/
def exRoot : ℚ → Fl := fun q => if q = 36 then .fin 6 else if q = 9 then .fin 3 else .fin 0

/-- A ray through two blocks of side 4 in exact arithmetic. -/
example : voxels (Arith.exact exRoot) ⟨.fin (1 / 2), .fin (1 / 2), .fin (1 / 2)⟩ ⟨.fin (9 / 2), .fin (5 / 2), .fin (9 / 2)⟩ 1 (.fin 0) true =
      .ok [⟨0, 0, 0⟩, ⟨1, 0, 0⟩, ⟨1, 0, 1⟩, ⟨1, 1, 1⟩, ⟨2, 1, 1⟩, ⟨2, 1, 2⟩, ⟨3, 1, 2⟩, ⟨3, 1, 3⟩, ⟨3, 2, 3⟩, ⟨4, 2, 3⟩, ⟨4, 2, 4⟩] ∧
    alongRay (Arith.exact exRoot) ⟨.fin (1 / 2), .fin (1 / 2), .fin (1 / 2)⟩ ⟨.fin (9 / 2), .fin (5 / 2), .fin (9 / 2)⟩ 4 1 (.fin 0) true [] =
      .ok [(⟨0, 0, 0⟩, [⟨0, 0, 0⟩, ⟨1, 0, 0⟩, ⟨1, 0, 1⟩, ⟨1, 1, 1⟩, ⟨2, 1, 1⟩, ⟨2, 1, 2⟩, ⟨3, 1, 2⟩, ⟨3, 1, 3⟩, ⟨3, 2, 3⟩]), (⟨1, 0, 0⟩, [⟨0, 2, 3⟩]),
        (⟨1, 0, 1⟩, [⟨0, 2, 0⟩])] := by
  refine ⟨by decide +kernel, by decide +kernel⟩

/-- The part of the ray that is traversed, as distances from its start: to the truncation distance behind the end point, from the start
(carving) or from the truncation distance in front of the end point. -/
def raySpan (carving : Bool) (L T : ℚ) : ℚ × ℚ := (if carving then 0 else L - T, L + T)

theorem traverses_small {s : ℚ} (hs : 0 < s) {o q : Pt} {L a b : ℚ} (hL : 0 < L) {gs : List Idx} (h : Traverses s o q L a b gs) {S E : Idx}
    (hS : WellInside s S (pointAt o q L a)) (hE : WellInside s E (pointAt o q L b))
    (nS : S.All fun c => |c| ≤ 2 ^ 23) (nE : E.All fun c => |c| ≤ 2 ^ 23) : ∀ g ∈ gs, g.All fun c => |c| ≤ 2 ^ 24 := by
  intro g hg
  obtain ⟨t, h1, h2, hx, hy, hz⟩ := h.meets g hg
  have key : ∀ (o q : ℚ) (S E g : ℤ), (S * s < o + a / L * (q - o) ∧ o + a / L * (q - o) + s / 1000000 < (S + 1) * s) →
      (E * s < o + b / L * (q - o) ∧ o + b / L * (q - o) + s / 1000000 < (E + 1) * s) → |S| ≤ 2 ^ 23 → |E| ≤ 2 ^ 23 →
      (g * s ≤ o + t / L * (q - o) ∧ o + t / L * (q - o) ≤ (g + 1) * s) → |g| ≤ 2 ^ 24 := by
    intro o q S E g ⟨a1, a2⟩ ⟨b1, b2⟩ nS nE ⟨c1, c2⟩
    rw [abs_le] at nS nE
    have S1 : (-(2 ^ 23) : ℚ) ≤ S := by exact_mod_cast nS.1
    have S2 : (S : ℚ) ≤ 2 ^ 23 := by exact_mod_cast nS.2
    have E1 : (-(2 ^ 23) : ℚ) ≤ E := by exact_mod_cast nE.1
    have E2 : (E : ℚ) ≤ 2 ^ 23 := by exact_mod_cast nE.2
    have ta : a / L ≤ t / L := div_le_div_of_nonneg_right h1 hL.le
    have tb : t / L ≤ b / L := div_le_div_of_nonneg_right h2 hL.le
    have lo : (-(2 ^ 23) : ℚ) * s ≤ o + t / L * (q - o) ∧ o + t / L * (q - o) ≤ (2 ^ 23 + 1) * s := by
      have l1 : (-(2 ^ 23) : ℚ) * s ≤ S * s := mul_le_mul_of_nonneg_right S1 hs.le
      have l2 : (-(2 ^ 23) : ℚ) * s ≤ E * s := mul_le_mul_of_nonneg_right E1 hs.le
      have l3 : ((S : ℚ) + 1) * s ≤ (2 ^ 23 + 1) * s := mul_le_mul_of_nonneg_right (by linarith) hs.le
      have l4 : ((E : ℚ) + 1) * s ≤ (2 ^ 23 + 1) * s := mul_le_mul_of_nonneg_right (by linarith) hs.le
      rcases le_total 0 (q - o) with hd | hd
      · have m1 := mul_le_mul_of_nonneg_right ta hd
        have m2 := mul_le_mul_of_nonneg_right tb hd
        constructor <;> linarith
      · have m1 := mul_le_mul_of_nonpos_right ta hd
        have m2 := mul_le_mul_of_nonpos_right tb hd
        constructor <;> linarith
    have g1 : (g : ℚ) ≤ 2 ^ 23 + 1 := le_of_mul_le_mul_right (le_trans c1 lo.2) hs
    have g2 : (-(2 ^ 23) : ℚ) ≤ g + 1 := le_of_mul_le_mul_right (le_trans lo.1 c2) hs
    have g1' : g ≤ 2 ^ 23 + 1 := by exact_mod_cast g1
    have g2' : -(2 ^ 23) ≤ g + 1 := by exact_mod_cast g2
    rw [abs_le]
    constructor <;> omega
  obtain ⟨sx, sy, sz⟩ := hS
  obtain ⟨ex, ey, ez⟩ := hE
  exact ⟨key _ _ _ _ _ sx ex nS.1 nE.1 hx, key _ _ _ _ _ sy ey nS.2.1 nE.2.1 hy, key _ _ _ _ _ sz ez nS.2.2 nE.2.2 hz⟩

/-- **C109, from the world to the map (rays not parallel to a coordinate plane).** In exact arithmetic the map holds, sorted by block, the
voxels of the ray: each once, only voxels the ray meets, enough of them to cover it, from the voxel of its start to that of its end. Full
statement: for all rays; false for rays parallel to a coordinate plane (`C109_parallel_violated`) and far from the origin
(`C109_far_violated`). -/
theorem C109_ray_partial {sq : ℚ → Fl} {s T L : ℚ} (hs : 0 < s) (hT : 0 ≤ T) {o q : Pt} (hL : 0 < L) (hLL : L * L = dist2 o q)
    (hsq : sq (L * L) = .fin L) (hx : q.x ≠ o.x) (hy : q.y ≠ o.y) (hz : q.z ≠ o.z) (carving : Bool) {S E : Idx}
    (hS : WellInside s S (pointAt o q L (raySpan carving L T).1)) (hE : WellInside s E (pointAt o q L (raySpan carving L T).2))
    (nS : S.All fun c => |c| ≤ 2 ^ 23) (nE : E.All fun c => |c| ≤ 2 ^ 23) {k : ℕ} (hk : k < 31) (old : VoxelMap) :
    ∃ gs m, alongRay (Arith.exact sq) (o.map .fin) (q.map .fin) (2 ^ k) s (.fin T) carving old = .ok m ∧
      gs.head? = some S ∧ gs.getLast? = some E ∧ Traverses s o q L (raySpan carving L T).1 (raySpan carving L T).2 gs ∧
      SortedByBlock (2 ^ k) gs m := by
  have hspan : span false carving L T 0 = raySpan carving L T := by cases carving <;> rfl
  let P : Params := ⟨⟨.fin T, .fin 0, true, true, true, .fin 0, .fin 0, .fin 0, true⟩, carving, 1, "", true, .fin 0, 0, 0⟩
  have small : ∀ i : Idx, (i.All fun c => |c| ≤ 2 ^ 23) → SmallIndex i := fun i h =>
    ⟨le_trans h.1 (by norm_num), le_trans h.2.1 (by norm_num), le_trans h.2.2 (by norm_num)⟩
  obtain ⟨gs, h1, h2, h3, h4⟩ := rayVoxels_traverse (sq := sq) (P := P) (R := 0) hs rfl hT rfl le_rfl hL hLL hsq hx hy hz false true
    (S := S) (E := E) (by rw [show P.carving = carving from rfl, hspan]; exact hS) (by rw [show P.carving = carving from rfl, hspan]; exact hE)
    (small S nS) (small E nE)
  rw [show P.carving = carving from rfl, hspan] at h4
  obtain ⟨m, h5, h6⟩ := C109_sorted_partial (Arith.exact sq) hk (show voxels (Arith.exact sq) (o.map .fin) (q.map .fin) s (.fin T) carving = .ok gs from h1)
    (traverses_small hs hL h4 hS hE nS nE) old
  exact ⟨gs, m, h5, h2, h3, h4, h6⟩

/-- A ray of length 6 and truncation distance 1, with and without carving. -/
example : 6 * 6 = dist2 ⟨1 / 2, 1 / 2, 1 / 2⟩ ⟨9 / 2, 5 / 2, 9 / 2⟩ ∧ exRoot (6 * 6) = .fin 6 ∧
    WellInside 1 ⟨0, 0, 0⟩ (pointAt ⟨1 / 2, 1 / 2, 1 / 2⟩ ⟨9 / 2, 5 / 2, 9 / 2⟩ 6 (raySpan true 6 1).1) ∧
    WellInside 1 ⟨3, 2, 3⟩ (pointAt ⟨1 / 2, 1 / 2, 1 / 2⟩ ⟨9 / 2, 5 / 2, 9 / 2⟩ 6 (raySpan false 6 1).1) ∧
    WellInside 1 ⟨5, 2, 5⟩ (pointAt ⟨1 / 2, 1 / 2, 1 / 2⟩ ⟨9 / 2, 5 / 2, 9 / 2⟩ 6 (raySpan true 6 1).2) := by
  refine ⟨by norm_num [dist2], by decide +kernel, ?_, ?_, ?_⟩ <;> norm_num [WellInside, pointAt, raySpan]

/-- **C109, refusal.** Sides that are not a power of two abort as soon as the ray has a voxel. -/
theorem C109_other_sides (A : Arith) {start stop : Vec3 Fl} {vps : ℕ} (hn : ∀ k, vps ≠ 2 ^ k) {s : ℚ} {trunc : Fl} {carving : Bool} {gs : List Idx}
    (hv : voxels A start stop s trunc carving = .ok gs) (hne : gs ≠ []) (old : VoxelMap) :
    alongRay A start stop vps s trunc carving old = .fatal := by
  unfold alongRay
  rw [hv, Outcome.bind_ok]
  cases gs with
  | nil => exact absurd rfl hne
  | cons g gs =>
    rw [List.foldlM_cons]
    have : sortVoxel vps [] g = .fatal := by
      unfold sortVoxel splitGlobal
      rw [if_neg (hn _)]
      rfl
    rw [this]
    rfl

/-- Side 12 with the ray of the first example. -/
example : (∀ k, 12 ≠ 2 ^ k) ∧
    alongRay (Arith.exact exRoot) ⟨.fin (1 / 2), .fin (1 / 2), .fin (1 / 2)⟩ ⟨.fin (9 / 2), .fin (5 / 2), .fin (9 / 2)⟩ 12 1 (.fin 0) true [] = .fatal := by
  refine ⟨?_, by decide +kernel⟩
  intro k h
  have hk : k < 4 := by
    by_contra hk
    have : 2 ^ 4 ≤ 2 ^ k := Nat.pow_le_pow_right (by norm_num) (not_lt.1 hk)
    omega
  match k, hk with
  | 0, _ | 1, _ | 2, _ | 3, _ => omega

/-- **C109, negation for rays parallel to a coordinate plane.** The ray from (0.5, 0.5, 0.5) to (3.5, 0.5, 0.5) with no truncation distance:
the map lists voxel (0, 0, 0) three times and (1, 0, 0), but not the voxel (3, 0, 0) of the end point. -/
theorem C109_parallel_violated :
    alongRay (Arith.exact exRoot) ⟨.fin (1 / 2), .fin (1 / 2), .fin (1 / 2)⟩ ⟨.fin (7 / 2), .fin (1 / 2), .fin (1 / 2)⟩ 16 1 (.fin 0) true [] =
      .ok [(⟨0, 0, 0⟩, [⟨0, 0, 0⟩, ⟨0, 0, 0⟩, ⟨0, 0, 0⟩, ⟨1, 0, 0⟩])] := by decide +kernel

/-- **C109, negation far from the origin.** A ray within voxel (16777231, 0, 0) is listed as voxel 15 of block 1048577, which is voxel
(16777247, 0, 0), sixteen voxels away. -/
theorem C109_far_violated :
    voxels (Arith.exact exRoot) ⟨.fin (33554463 / 2), .fin (1 / 2), .fin (1 / 2)⟩ ⟨.fin (33554463 / 2), .fin (1 / 2), .fin (1 / 2)⟩ 1 (.fin 0) true =
      .ok [⟨16777231, 0, 0⟩] ∧
    alongRay (Arith.exact exRoot) ⟨.fin (33554463 / 2), .fin (1 / 2), .fin (1 / 2)⟩ ⟨.fin (33554463 / 2), .fin (1 / 2), .fin (1 / 2)⟩ 16 1 (.fin 0) true [] =
      .ok [(⟨1048577, 0, 0⟩, [⟨15, 0, 0⟩])] ∧ ¬ Covers 16 ⟨1048577, 0, 0⟩ ⟨16777231, 0, 0⟩ := by
  refine ⟨by decide +kernel, by decide +kernel, by decide⟩

/-- **C109.** A ray of length zero has no direction (Eigen leaves the zero vector as it is): the map lists just the voxel of the point. -/
theorem C109_point {sq : ℚ → Fl} {s T : ℚ} (hs : 0 < s) {p : Pt} {S : Idx} (hS : WellInside s S p) (nS : S.All fun c => |c| ≤ 2 ^ 23)
    {k : ℕ} (hk : k < 31) (carving : Bool) (old : VoxelMap) :
    ∃ m, alongRay (Arith.exact sq) (p.map .fin) (p.map .fin) (2 ^ k) s (.fin T) carving old = .ok m ∧ SortedByBlock (2 ^ k) [S] m := by
  have cS := wellInside_scaled hs hS
  have nS' : SmallIndex S := ⟨le_trans nS.1 (by norm_num), le_trans nS.2.1 (by norm_num), le_trans nS.2.2 (by norm_num)⟩
  have rS := near_inRange nS' cS
  have gS := gridIndexScaled_of_insideLow (ClearlyInside.low cS)
  have hlen := near_l1dist nS' nS'
  have h0 : l1dist S S = 0 := by simp [l1dist]
  have hc := castRay_exact (sq := sq) rS rS (by rw [gS]; exact hlen) (n := 2) (by rw [gS, h0])
  rw [gS, h0] at hc
  have hall := castAll_exact rS rS (by rw [gS]; exact hlen) (n := 2) (by rw [gS, h0]) hc
  have hu : Occ.normalized (Arith.exact sq) ((Arith.exact sq).vsub (p.map .fin) (p.map .fin)) = ⟨.fin 0, .fin 0, .fin 0⟩ := by
    have : (Arith.exact sq).vsub (p.map .fin) (p.map .fin) = ⟨.fin 0, .fin 0, .fin 0⟩ := by
      ext <;> simp only [Arith.vsub, Vec3.map, Vec3.map₂, exact_sub, sub_self]
    rw [this]
    unfold Occ.normalized
    rw [if_neg]
    simp [Arith.dot, exact_mul, exact_add, Fl.lt]
  have hends : ends (Arith.exact sq) (p.map .fin) (p.map .fin) (.fin T) carving = (p.map .fin, p.map .fin) := by
    unfold ends
    rw [hu]
    have h1 : (Arith.exact sq).vscale ⟨.fin 0, .fin 0, .fin 0⟩ (.fin T) = ⟨.fin 0, .fin 0, .fin 0⟩ := by
      ext <;> simp only [Arith.vscale, Vec3.map, exact_mul, zero_mul]
    have h2 : (Arith.exact sq).vsub (p.map .fin) ⟨.fin 0, .fin 0, .fin 0⟩ = p.map .fin := by
      ext <;> simp only [Arith.vsub, Vec3.map, Vec3.map₂, exact_sub, sub_zero]
    have h3 : (Arith.exact sq).vadd (p.map .fin) ⟨.fin 0, .fin 0, .fin 0⟩ = p.map .fin := by
      ext <;> simp only [Arith.vadd, Vec3.map, Vec3.map₂, exact_add, add_zero]
    simp only [h1, h2, h3, ite_self]
  refine C109_sorted_partial (Arith.exact sq) hk (gs := [S]) ?_ ?_ old
  · unfold voxels
    rw [hends]
    simp only [vscale_exact hs]
    rw [hall]
    show Outcome.ok [gridIndexScaled _] = _
    rw [gS]
  · intro g hg
    obtain rfl := List.mem_singleton.1 hg
    exact ⟨le_trans nS.1 (by norm_num), le_trans nS.2.1 (by norm_num), le_trans nS.2.2 (by norm_num)⟩

/-- A point inside voxel (-3, 0, 7) of a grid of 0.2 m. -/
example : WellInside (1 / 5) ⟨-3, 0, 7⟩ ⟨-1 / 2, 1 / 10, 3 / 2⟩ ∧ (⟨-3, 0, 7⟩ : Idx).All fun c => |c| ≤ 2 ^ 23 := by
  refine ⟨by norm_num [WellInside], by norm_num [Vec3.All]⟩

end Vox.RayIndex
