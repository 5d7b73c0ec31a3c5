/-
The rays of the TSDF integrators in exact arithmetic, and what an observation of a voxel with enough weight leads to.
-/
import Verif.Lemmas.TsdfPool
import Verif.Props.RayCaster
import Verif.Props.Tsdf
import Mathlib.Tactic.FieldSimp
import Mathlib.Tactic.LinearCombination

namespace Vox.TsdfScan

open Layer Grid Tsdf Ray Spec

/-- The squared distance of two points. -/
def dist2 (o q : Pt) : ℚ := (q.x - o.x) * (q.x - o.x) + (q.y - o.y) * (q.y - o.y) + (q.z - o.z) * (q.z - o.z)

/-- The unit direction from `o` to `q` at distance `L`. -/
def dirTo (o q : Pt) (L : ℚ) : Pt := ⟨(q.x - o.x) / L, (q.y - o.y) / L, (q.z - o.z) / L⟩

theorem rayEnds_exact {sq : ℚ → Fl} {P : Params} {T R L : ℚ} (hT : P.tsdf.truncation = .fin T) {o q : Pt} (hL : 0 < L)
    (hLL : L * L = dist2 o q) (hsq : sq (L * L) = .fin L) :
    rayEnds (Arith.exact sq) P (o.map .fin) (q.map .fin) false =
      ((rayEndpoints o q (dirTo o q L) L false P.carving R T).1.map .fin,
       (rayEndpoints o q (dirTo o q L) L false P.carving R T).2.map .fin) := by
  have hpos : 0 < L * L := by positivity
  have hd : (Arith.exact sq).dot ((Arith.exact sq).vsub (q.map .fin) (o.map .fin)) ((Arith.exact sq).vsub (q.map .fin) (o.map .fin)) =
      .fin (L * L) := by
    simp only [Arith.vsub, Arith.dot, Vec3.map₂_x, Vec3.map₂_y, Vec3.map₂_z, Vec3.map_x, Vec3.map_y, Vec3.map_z,
      exact_sub, exact_mul, exact_add, hLL, dist2]
  have hu : Occ.normalized (Arith.exact sq) ((Arith.exact sq).vsub (q.map .fin) (o.map .fin)) = (dirTo o q L).map .fin := by
    unfold Occ.normalized
    rw [hd, if_pos (by simpa [Fl.lt] using hL.ne')]
    have : (Arith.exact sq).sqrtFl (.fin (L * L)) = .fin L := by
      simp only [Arith.sqrtFl, if_pos hpos.le]
      exact hsq
    rw [this]
    simp only [Arith.vdiv, Arith.vsub, Vec3.map, Vec3.map₂, exact_sub, exact_div sq hL.ne', dirTo]
  unfold rayEnds
  simp only [hu, Bool.false_eq_true, if_false, hT, rayEndpoints]
  cases P.carving
  · refine Prod.ext ?_ ?_ <;>
    · ext <;> simp [Arith.vsub, Arith.vadd, Arith.vscale, Vec3.map, Vec3.map₂, dirTo, HSub.hSub, Sub.sub, HAdd.hAdd, Add.add]
  · refine Prod.ext ?_ ?_
    · rfl
    · ext <;> simp [Arith.vadd, Arith.vscale, Vec3.map, Vec3.map₂, dirTo, HAdd.hAdd, Add.add]

/-- A point in units of the voxel size. -/
def scaled (s : ℚ) (p : Pt) : Pt := p.map (· * (1 / s))

theorem vscale_exact {sq : ℚ → Fl} {s : ℚ} (hs : 0 < s) (p : Pt) :
    (Arith.exact sq).vscale (p.map .fin) (sizeInv (Arith.exact sq) s) = (scaled s p).map .fin := by
  unfold sizeInv scaled
  rw [exact_div sq hs.ne']
  simp only [Arith.vscale, Vec3.map, exact_mul]

theorem castAll_exact {sq : ℚ → Fl} {s e : Pt} (hs : InRange s) (he : InRange e)
    (hlen : l1dist (gridIndexScaled s) (gridIndexScaled e) + 1 < 2 ^ 32) {l : List Idx} {n : ℕ}
    (hn : l1dist (gridIndexScaled s) (gridIndexScaled e) + 2 ≤ n)
    (h : castRay (Arith.exact sq) (s.map .fin) (e.map .fin) n = .ok (some l)) :
    castAll (Arith.exact sq) (s.map .fin) (e.map .fin) = .ok l := by
  rw [castRay_exact hs he hlen hn] at h
  have hl := Option.some.inj (Outcome.ok.inj h)
  have h2 := castRay_exact (sq := sq) hs he hlen (n := l1dist (gridIndexScaled s) (gridIndexScaled e) + 2) le_rfl
  unfold castRay at h2
  unfold castAll
  rw [setup_exact hs he] at h2 ⊢
  simp only [Outcome.bind_ok] at h2 ⊢
  have hlen' : l1dist (gridIndexScaled s) (gridIndexScaled e) % 2 ^ 32 = l1dist (gridIndexScaled s) (gridIndexScaled e) :=
    Nat.mod_eq_of_lt (by omega)
  rw [hlen'] at h2 ⊢
  rw [h2]
  simp only [Outcome.bind_ok, hl]

/-- The voxel of a measured point is on its ray. -/
theorem measured_on_ray {sq : ℚ → Fl} {P : Params} {T L s : ℚ} (hs : 0 < s) (hT : P.tsdf.truncation = .fin T) (hT0 : 0 < T)
    {o q : Pt} (hL : 0 < L) (hLL : L * L = dist2 o q) (hsq : sq (L * L) = .fin L) {S E g : Idx}
    (hx : q.x ≠ o.x) (hy : q.y ≠ o.y) (hz : q.z ≠ o.z)
    (ha : InRange (scaled s (rayEndpoints o q (dirTo o q L) L false P.carving 0 T).1))
    (hb : InRange (scaled s (rayEndpoints o q (dirTo o q L) L false P.carving 0 T).2))
    (hS : InsideLow S (scaled s (rayEndpoints o q (dirTo o q L) L false P.carving 0 T).1))
    (hE : ClearlyInside E (scaled s (rayEndpoints o q (dirTo o q L) L false P.carving 0 T).2))
    (hlen : l1dist S E + 1 < 2 ^ 32) (hg : ClearlyInside g (scaled s q)) {gs : List Idx}
    (h : rayVoxels (Arith.exact sq) P s (o.map .fin) (q.map .fin) false true = .ok gs) : g ∈ gs := by
  obtain ⟨t, ht0, ht1, ht⟩ := C34_measured_point_on_ray o q (dirTo o q L) L 0 T P.carving
    (by
      have e : ∀ a b : ℚ, a = b + (a - b) / L * L := fun a b => by field_simp; ring
      exact Vec3.ext (e _ _) (e _ _) (e _ _)) hL.le hT0
  generalize hae : (rayEndpoints o q (dirTo o q L) L false P.carving 0 T).1 = a at *
  generalize hbe : (rayEndpoints o q (dirTo o q L) L false P.carving 0 T).2 = b at *
  have hseg : segPoint (scaled s a) (scaled s b) t = scaled s q := by
    rw [← ht]
    ext <;> simp only [segPoint, scaled, Vec3.map_x, Vec3.map_y, Vec3.map_z] <;> ring
  have hne : ∀ (i j k : ℚ), i ≠ j → (if P.carving then j else i - (i - j) / L * T) = k → i + (i - j) / L * T ≠ k := by
    intro i j k hij hk hc
    rw [← hk] at hc
    have hij' : i - j ≠ 0 := sub_ne_zero.2 hij
    by_cases hcar : P.carving = true
    rotate_left
    · rw [if_neg hcar] at hc
      have h2 : (i - j) / L * T = 0 := by linarith
      rcases mul_eq_zero.1 h2 with h | h
      · rcases div_eq_zero_iff.1 h with h | h
        · exact hij' h
        · exact hL.ne' h
      · exact hT0.ne' h
    · rw [if_pos hcar] at hc
      have h2 : (i - j) * (1 + T / L) = 0 := by field_simp; field_simp at hc; linarith
      rcases mul_eq_zero.1 h2 with h | h
      · exact hij' h
      · have : 0 < T / L := by positivity
        linarith
  have hab : b.x ≠ a.x ∧ b.y ≠ a.y ∧ b.z ≠ a.z := by
    rw [← hae, ← hbe]
    have n1 := hne q.x o.x _ hx rfl
    have n2 := hne q.y o.y _ hy rfl
    have n3 := hne q.z o.z _ hz rfl
    simp only [rayEndpoints, Bool.false_eq_true, if_false]
    cases hc : P.carving
    · rw [hc] at n1 n2 n3; exact ⟨n1, n2, n3⟩
    · rw [hc] at n1 n2 n3; exact ⟨n1, n2, n3⟩
  have hs' : (1 / s) ≠ 0 := by positivity
  have sx : (scaled s b).x ≠ (scaled s a).x := fun h => hab.1 (mul_right_cancel₀ hs' h)
  have sy : (scaled s b).y ≠ (scaled s a).y := fun h => hab.2.1 (mul_right_cancel₀ hs' h)
  have sz : (scaled s b).z ≠ (scaled s a).z := fun h => hab.2.2 (mul_right_cancel₀ hs' h)
  obtain ⟨l, hl, hmem⟩ := C34_interior_visited_partial sq (scaled s a) (scaled s b) S E ha hb hS hE sx sy sz hlen _ le_rfl g t ht0 ht1
    (hseg ▸ hg)
  have hgS : gridIndexScaled (scaled s a) = S := gridIndexScaled_of_insideLow hS
  have hgE : gridIndexScaled (scaled s b) = E := gridIndexScaled_of_insideLow (ClearlyInside.low hE)
  have hc := castAll_exact (sq := sq) ha hb (by rw [hgS, hgE]; exact hlen) (n := l1dist S E + 2) (by rw [hgS, hgE]) hl
  unfold rayVoxels at h
  rw [rayEnds_exact (R := 0) hT hL hLL hsq] at h
  simp only [if_true, hae, hbe] at h
  rw [vscale_exact hs, vscale_exact hs, hc] at h
  rw [← Outcome.ok.inj h]
  exact hmem

theorem cauchy_schwarz (a1 a2 a3 b1 b2 b3 : ℚ) : (a1 * b1 + a2 * b2 + a3 * b3) * (a1 * b1 + a2 * b2 + a3 * b3) ≤
    (a1 * a1 + a2 * a2 + a3 * a3) * (b1 * b1 + b2 * b2 + b3 * b3) := by
  have e : (a1 * a1 + a2 * a2 + a3 * a3) * (b1 * b1 + b2 * b2 + b3 * b3) -
      (a1 * b1 + a2 * b2 + a3 * b3) * (a1 * b1 + a2 * b2 + a3 * b3) =
      (a1 * b2 - a2 * b1) ^ 2 + (a1 * b3 - a3 * b1) ^ 2 + (a2 * b3 - a3 * b2) ^ 2 := by ring
  have h1 := sq_nonneg (a1 * b2 - a2 * b1)
  have h2 := sq_nonneg (a1 * b3 - a3 * b1)
  have h3 := sq_nonneg (a2 * b3 - a3 * b2)
  linarith

theorem above_neg_size {s L d a1 a2 a3 b1 b2 b3 : ℚ} (hs : 0 < s) (hL : 0 < L) (hLL : L * L = b1 * b1 + b2 * b2 + b3 * b3)
    (he : d * L = a1 * b1 + a2 * b2 + a3 * b3) (h1 : a1 * a1 ≤ s * s / 4) (h2 : a2 * a2 ≤ s * s / 4) (h3 : a3 * a3 ≤ s * s / 4) :
    -s < d := by
  have hcs := cauchy_schwarz a1 a2 a3 b1 b2 b3
  rw [← he, ← hLL] at hcs
  have hLp : 0 < L * L := by positivity
  have h4 : d * d ≤ a1 * a1 + a2 * a2 + a3 * a3 := by
    have e : d * L * (d * L) = (d * d) * (L * L) := by ring
    rw [e] at hcs
    exact le_of_mul_le_mul_right hcs hLp
  by_contra hc
  rw [not_lt] at hc
  have h5 : s * s ≤ d * d := by nlinarith
  have : 0 < s * s := by positivity
  linarith

/-- At the voxel of the measured point the signed distance is smaller than a voxel. -/
theorem measured_distance {sq : ℚ → Fl} {s L : ℚ} (hs : 0 < s) {o q : Pt} (hL : 0 < L) (hLL : L * L = dist2 o q) (hsq : sq (L * L) = .fin L)
    {g : Idx} (hg : ClearlyInside g (scaled s q)) :
    ∃ d, computeDistance (Arith.exact sq) (o.map .fin) (q.map .fin) (centerFl (Arith.exact sq) s g) = .fin d ∧ -s < d := by
  have hcen : centerFl (Arith.exact sq) s g = (voxelCenter s g).map .fin := by
    ext <;> simp [centerFl, voxelCenter, Vec3.map, Arith.exact, Arith.mul, Arith.add]
  obtain ⟨d, hd, he⟩ := C25_distance_is_projection sq o q (voxelCenter s g) L hL hLL hsq
  refine ⟨d, hcen ▸ hd, ?_⟩
  obtain ⟨⟨x1, x2⟩, ⟨y1, y2⟩, ⟨z1, z2⟩⟩ := hg
  simp only [scaled, Vec3.map_x, Vec3.map_y, Vec3.map_z] at x1 x2 y1 y2 z1 z2
  have key : ∀ (c : ℤ) (w : ℚ), (c : ℚ) < w * (1 / s) → w * (1 / s) + 1 / 1000000 < c + 1 →
      (w - (c + 1 / 2) * s) * (w - (c + 1 / 2) * s) ≤ s * s / 4 := by
    intro c w h1 h2
    have e : w = (w * (1 / s)) * s := by field_simp
    generalize hy : w * (1 / s) = y at h1 h2 e
    rw [e]
    have : (y * s - (c + 1 / 2) * s) * (y * s - (c + 1 / 2) * s) = s * s * ((y - c - 1 / 2) * (y - c - 1 / 2)) := by ring
    rw [this]
    have hq : (y - c - 1 / 2) * (y - c - 1 / 2) ≤ 1 / 4 := by nlinarith
    have hss : 0 < s * s := by positivity
    nlinarith
  have kx := key g.x q.x x1 x2
  have ky := key g.y q.y y1 y2
  have kz := key g.z q.z z1 z2
  simp only [voxelCenter] at he
  exact above_neg_size hs hL hLL he kx ky kz

theorem integrate_append {A : Arith} {cfg : Config} {vs : Fl} : ∀ (os us : List Obs) (x : TsdfVoxel Fl),
    integrate A cfg vs (os ++ us) x = (integrate A cfg vs os x >>= integrate A cfg vs us) := by
  intro os
  induction os with
  | nil => intro us x; rfl
  | cons o os ih =>
    intro us x
    show (updateVoxel A cfg vs o x >>= integrate A cfg vs (os ++ us)) =
      ((updateVoxel A cfg vs o x >>= integrate A cfg vs os) >>= integrate A cfg vs us)
    cases updateVoxel A cfg vs o x with
    | ok v => exact ih us v
    | fatal => rfl
    | ub => rfl

/-- One observation of weight 1e-6 or more among others suffices for the voxel to count as observed. -/
theorem integrate_observed {sq : ℚ → Fl} {cfg : Config} {M u : ℚ} {vs : Fl} (hM : cfg.maxWeight = .fin M) (hM0 : 1 / 1000000 ≤ M)
    (hF : Fl.le (.fin 0) cfg.sparsityFactor = true) {os : List Obs} (hos : ∀ o ∈ os, Fl.le (.fin 0) o.weight = true) {o : Obs} (ho : o ∈ os)
    (hu : updatedWeight (Arith.exact sq) cfg vs (computeDistance (Arith.exact sq) o.origin o.pointG o.center) o.weight = .fin u)
    (hu0 : 1 / 1000000 ≤ u) {v v' : TsdfVoxel Fl} {W : ℚ} (hW : v.weight = .fin W) (hW0 : 0 ≤ W) (hWM : W ≤ M)
    (h : integrate (Arith.exact sq) cfg vs os v = .ok v') : ∃ W', v'.weight = .fin W' ∧ 1 / 1000000 ≤ W' := by
  obtain ⟨os1, os2, rfl⟩ := List.append_of_mem ho
  rw [integrate_append, Outcome.bind_eq_ok] at h
  obtain ⟨v1, h1, h2⟩ := h
  obtain ⟨v2, h3, h4⟩ := Outcome.bind_eq_ok.1 (show (updateVoxel (Arith.exact sq) cfg vs o v1 >>= integrate (Arith.exact sq) cfg vs os2) = _ from h2)
  obtain ⟨W1, e1, e2, e3⟩ := C24_weight_monotone (Arith.exact sq) (Arith.exact_faithful sq) cfg M hM rfl hF vs os1
    (fun o ho => hos o (by simp [ho])) v v1 W hW rfl hWM h1
  have hw2 : v2.weight = .fin (min M (W1 + u)) := by
    unfold updateVoxel at h3
    simp only [hu] at h3
    unfold applyUpdate at h3
    simp only [e1, exact_add] at h3
    rw [if_neg (by simp only [Fl.lt, kFloatEpsilon, decide_eq_true_eq, not_lt]; linarith)] at h3
    obtain ⟨c, -, h3⟩ := Outcome.bind_eq_ok.1 h3
    obtain rfl := Outcome.ok.inj h3
    show Fl.stdMin cfg.maxWeight _ = _
    rw [hM]
    simp only [Fl.stdMin, Fl.lt, decide_eq_true_eq]
    split
    · rw [min_eq_right (by linarith)]
    · rw [min_eq_left (by linarith)]
  obtain ⟨W', e4, e5, -⟩ := C24_weight_monotone (Arith.exact sq) (Arith.exact_faithful sq) cfg M hM rfl hF vs os2
    (fun o ho => hos o (by simp [ho])) v2 v' _ hw2 rfl (min_le_left _ _) h4
  refine ⟨W', e4, le_trans (le_min hM0 ?_) e5⟩
  linarith

end Vox.TsdfScan
