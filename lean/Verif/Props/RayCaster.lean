/-
Properties C33-C35: casting rays through the voxel grid.
-/
import Verif.Lemmas.RayCaster

namespace Vox.Ray

open Fl Spec

def exactA : Arith := Arith.exact fun q => .fin q

/-- **C33, for rays that are not parallel to a coordinate plane.** In every floating-point arithmetic the
traversal starts in the start point's voxel, returns exactly L1-distance + 1 voxels and moves by exactly
one step along one axis, in the direction of the ray. The full statement has no hypothesis on the ray
components; it is false (`C33_axis_parallel_violated`). -/
theorem C33_unit_steps_partial (A : Arith) (s e : Vec3 Fl) (a z : Idx) (ha : gridFl A s = .ok a)
    (hz : gridFl A e = .ok z) (hlen : l1dist a z + 1 < 2 ^ 32)
    (hx : A.sub e.x s.x ≠ .fin 0) (hy : A.sub e.y s.y ≠ .fin 0) (hw : A.sub e.z s.z ≠ .fin 0)
    (n : ℕ) (hn : l1dist a z + 2 ≤ n) :
    ∃ (l : List Idx) (d : Idx), castRay A s e n = .ok (some l) ∧ l.length = l1dist a z + 1 ∧ l.head? = some a ∧
      d.x = (if Fl.lt (A.sub e.x s.x) (.fin 0) then -1 else 1) ∧
      d.y = (if Fl.lt (A.sub e.y s.y) (.fin 0) then -1 else 1) ∧
      d.z = (if Fl.lt (A.sub e.z s.z) (.fin 0) then -1 else 1) ∧ List.IsChain (UnitStep d) l := by
  have hnan : (anyNan s || anyNan e) = false := by
    have key : ∀ (p : Vec3 Fl) (i : Idx), gridFl A p = .ok i → anyNan p = false := by
      intro p i h
      unfold gridFl at h
      obtain ⟨x, h1, h⟩ := Outcome.bind_eq_ok.1 h
      obtain ⟨y, h2, h⟩ := Outcome.bind_eq_ok.1 h
      obtain ⟨w, h3, h⟩ := Outcome.bind_eq_ok.1 h
      have hn : ∀ f k, gridFl1 A f = .ok k → isNan f = false := by
        intro f k hf
        cases f with
        | nan => simp [gridFl1, Arith.add] at hf
        | _ => rfl
      simp [anyNan, hn _ _ h1, hn _ _ h2, hn _ _ h3]
    simp [key s a ha, key e z hz]
  have hsign : ∀ x : Fl, x ≠ .fin 0 → signumFl x = if Fl.lt x (.fin 0) then -1 else 1 := by
    intro x hx
    cases x with
    | nan => rfl
    | ninf => rfl
    | pinf => rfl
    | fin q =>
      have hq : q ≠ 0 := fun h => hx (by rw [h])
      simp only [signumFl, signum, if_neg hq, Fl.lt, decide_eq_true_eq]
  obtain ⟨c, hc, h0, hcur, hsg⟩ := setup_ok A ha hz hnan hlen
  refine ⟨emit A (l1dist a z + 1) c, c.sign, ?_, emit_length A _ _, ?_, ?_, ?_, ?_, emit_chain A _ _⟩
  · unfold castRay
    rw [hc]
    exact castLoop_emit A _ hlen _ n c (by omega) (by omega)
  · simp [emit, hcur]
  · rw [hsg]; exact hsign _ hx
  · rw [hsg]; exact hsign _ hy
  · rw [hsg]; exact hsign _ hw

example : gridFl exactA ⟨.fin (1 / 2), .fin (1 / 2), .fin (1 / 2)⟩ = .ok ⟨0, 0, 0⟩ ∧
    gridFl exactA ⟨.fin (5 / 2), .fin (1 / 4), .fin (-7 / 5)⟩ = .ok ⟨2, 0, -2⟩ ∧
    castRay exactA ⟨.fin (1 / 2), .fin (1 / 2), .fin (1 / 2)⟩ ⟨.fin (5 / 2), .fin (1 / 4), .fin (-7 / 5)⟩ 10 =
      .ok (some [⟨0, 0, 0⟩, ⟨1, 0, 0⟩, ⟨1, 0, -1⟩, ⟨2, 0, -1⟩, ⟨2, 0, -2⟩]) := by decide +kernel

/-- **C33 and C34 are violated for axis-parallel rays**: a zero ray component is divided by (the guard
`std::abs(x) < 0.0` is never true), which makes the first boundary parameter of that axis minus infinity.
Two of the four entries repeat the start voxel and the end voxel (3, 0, 0) is not reached. -/
theorem C33_axis_parallel_violated :
    castRay exactA ⟨.fin (1 / 2), .fin (1 / 2), .fin (1 / 2)⟩ ⟨.fin (7 / 2), .fin (1 / 2), .fin (1 / 2)⟩ 10 =
      .ok (some [⟨0, 0, 0⟩, ⟨0, 0, 0⟩, ⟨0, 0, 0⟩, ⟨1, 0, 0⟩]) := by decide +kernel

/-- **C33.** Without any hypothesis on the components: the number of voxels is still right, the first one
is the start voxel, and every entry equals its predecessor or differs by one step along one axis. -/
theorem C33_no_jumps (A : Arith) (s e : Vec3 Fl) (a z : Idx) (ha : gridFl A s = .ok a)
    (hz : gridFl A e = .ok z) (hs : anyNan s = false) (he : anyNan e = false) (hlen : l1dist a z + 1 < 2 ^ 32)
    (n : ℕ) (hn : l1dist a z + 2 ≤ n) :
    ∃ l : List Idx, castRay A s e n = .ok (some l) ∧ l.length = l1dist a z + 1 ∧ l.head? = some a ∧
      List.IsChain (fun p q => l1dist p q ≤ 1) l := by
  obtain ⟨c, hc, h0, hcur, hsg⟩ := setup_ok A ha hz (by simp [hs, he]) hlen
  refine ⟨emit A (l1dist a z + 1) c, ?_, emit_length A _ _, by simp [emit, hcur], ?_⟩
  · unfold castRay
    rw [hc]
    exact castLoop_emit A _ hlen _ n c (by omega) (by omega)
  · have hb : ∀ x, -1 ≤ signumFl x ∧ signumFl x ≤ 1 := by
      intro x
      cases x with
      | fin q => simp only [signumFl, signum]; split <;> [skip; split] <;> omega
      | _ => simp [signumFl]
    have h1 := hb (A.vsub e s).x
    have h2 := hb (A.vsub e s).y
    have h3 := hb (A.vsub e s).z
    refine (emit_chain A (l1dist a z + 1) c).imp ?_
    intro p q h
    rw [hsg] at h
    unfold UnitStep at h
    unfold l1dist
    simp only [Vec3.map_x, Vec3.map_y, Vec3.map_z] at h
    rcases h with rfl | rfl | rfl <;> simp only <;> omega

example : gridFl exactA ⟨.fin (1 / 2), .fin (1 / 2), .fin (1 / 2)⟩ = .ok ⟨0, 0, 0⟩ ∧
    gridFl exactA ⟨.fin (7 / 2), .fin (1 / 2), .fin (1 / 2)⟩ = .ok ⟨3, 0, 0⟩ ∧
    anyNan ⟨.fin (1 / 2), .fin (1 / 2), .fin (1 / 2)⟩ = false := by decide +kernel

/-- **C33, limit of the 32-bit step counter**: a ray whose length in steps is 2^32 - 1 (reached for L1
distances congruent to that) never ends, since the counter wraps around before exceeding it. -/
theorem C33_max_length_never_ends (A : Arith) (n : ℕ) :
    ∀ (b : Body), b.step < 2 ^ 32 → castLoop A n { len := 2 ^ 32 - 1, body := some b } = .ok none := by
  induction n with
  | zero => intro b _; rfl
  | succ n ih =>
    intro b hb
    simp only [castLoop, next]
    rw [if_neg (by omega)]
    simp only [Outcome.bind_ok]
    rw [ih _ (Nat.mod_lt _ (by norm_num))]
    rfl

/-- The last but one value of the counter. -/
example : castLoop exactA 5 ⟨2 ^ 32 - 1, some ⟨⟨.fin 0, .fin 0, .fin 0⟩, ⟨0, 0, 0⟩, ⟨1, 1, 1⟩, ⟨.fin 1, .fin 1, .fin 1⟩,
    2 ^ 32 - 2⟩⟩ = .ok none :=
  C33_max_length_never_ends exactA 5 _ (by norm_num)

/-! ### C34 -/

theorem strictIn_of_clearlyInside {s e : Pt} {E : Idx} (h : ClearlyInside E e) : StrictIn s (e - s) E := by
  intro i
  obtain ⟨⟨x1, x2⟩, ⟨y1, y2⟩, ⟨z1, z2⟩⟩ := h
  match i with
  | 0 => show (E.x : ℚ) < s.x + (e.x - s.x) ∧ s.x + (e.x - s.x) < E.x + 1; constructor <;> linarith
  | 1 => show (E.y : ℚ) < s.y + (e.y - s.y) ∧ s.y + (e.y - s.y) < E.y + 1; constructor <;> linarith
  | 2 => show (E.z : ℚ) < s.z + (e.z - s.z) ∧ s.z + (e.z - s.z) < E.z + 1; constructor <;> linarith

theorem noOver_startBody {s e : Pt} {E : Idx} (hE : ClearlyInside E e) (hx : e.x ≠ s.x) (hy : e.y ≠ s.y)
    (hz : e.z ≠ s.z) : NoOver (e - s) E (gridIndexScaled s) := by
  intro i
  match i with
  | 0 => exact noOver_start hx hE.1.1 hE.1.2
  | 1 => exact noOver_start hy hE.2.1.1 hE.2.1.2
  | 2 => exact noOver_start hz hE.2.2.1 hE.2.2.2

theorem castRay_exact {sq : ℚ → Fl} {s e : Pt} (hs : InRange s) (he : InRange e)
    (hlen : l1dist (gridIndexScaled s) (gridIndexScaled e) + 1 < 2 ^ 32) {n : ℕ}
    (hn : l1dist (gridIndexScaled s) (gridIndexScaled e) + 2 ≤ n) :
    castRay (Arith.exact sq) (s.map .fin) (e.map .fin) n =
      .ok (some (emit (Arith.exact sq) (l1dist (gridIndexScaled s) (gridIndexScaled e) + 1) (startBody (sq := sq) s e))) := by
  unfold castRay
  rw [setup_exact hs he, Nat.mod_eq_of_lt (by omega)]
  exact castLoop_emit _ _ hlen _ n _ (by show 0 + _ = _; omega) (by omega)

/-- **C34 (end voxel), for rays not parallel to a coordinate plane.** In exact arithmetic, if the end
point lies clearly inside the cell `E`, the last voxel of the traversal is `E` (no condition on the start
point). The full statement has no condition on the components; it is false
(`C33_axis_parallel_violated`). -/
theorem C34_ends_in_end_voxel_partial (sq : ℚ → Fl) (s e : Pt) (E : Idx) (hs : InRange s) (he : InRange e)
    (hE : ClearlyInside E e) (hx : e.x ≠ s.x) (hy : e.y ≠ s.y) (hz : e.z ≠ s.z)
    (hlen : l1dist (gridIndexScaled s) E + 1 < 2 ^ 32) (n : ℕ) (hn : l1dist (gridIndexScaled s) E + 2 ≤ n) :
    ∃ l, castRay (Arith.exact sq) (s.map .fin) (e.map .fin) n = .ok (some l) ∧ l.getLast? = some E := by
  have hgE : gridIndexScaled e = E := gridIndexScaled_of_insideLow (ClearlyInside.low hE)
  rw [← hgE] at hlen hn
  refine ⟨_, castRay_exact hs he hlen hn, ?_⟩
  have := emit_last (sq := sq) (strictIn_of_clearlyInside (s := s) hE) (l1dist (gridIndexScaled s) E)
    (startBody (sq := sq) s e) (startBody_inv hx hy hz) (noOver_startBody hE hx hy hz) rfl
  rw [hgE]
  exact this

example : InRange ⟨1 / 2, 1 / 2, 1 / 2⟩ ∧ InRange ⟨5 / 2, 1 / 4, -7 / 5⟩ ∧
    ClearlyInside ⟨2, 0, -2⟩ ⟨5 / 2, 1 / 4, -7 / 5⟩ ∧ l1dist (gridIndexScaled ⟨1 / 2, 1 / 2, 1 / 2⟩) ⟨2, 0, -2⟩ = 4 := by
  refine ⟨by norm_num [InRange, Vec3.All], by norm_num [InRange, Vec3.All], by norm_num [ClearlyInside], by decide +kernel⟩

/-- **C34 (cells), for rays not parallel to a coordinate plane.** In exact arithmetic, if the start point
is not in the 1e-6 band below an upper cell boundary and the end point is clearly inside its cell, then the
segment meets the closed cell of every returned voxel, and conversely every point of the segment lies in
the closed cell of a returned voxel. -/
theorem C34_cells_partial (sq : ℚ → Fl) (s e : Pt) (S E : Idx) (hs : InRange s) (he : InRange e)
    (hS : InsideLow S s) (hE : ClearlyInside E e) (hx : e.x ≠ s.x) (hy : e.y ≠ s.y) (hz : e.z ≠ s.z)
    (hlen : l1dist S E + 1 < 2 ^ 32) (n : ℕ) (hn : l1dist S E + 2 ≤ n) :
    ∃ l, castRay (Arith.exact sq) (s.map .fin) (e.map .fin) n = .ok (some l) ∧
      l.head? = some S ∧ l.getLast? = some E ∧
      (∀ c ∈ l, ∃ t, 0 ≤ t ∧ t ≤ 1 ∧ InUnitCell c (segPoint s e t)) ∧
      (∀ t, 0 ≤ t → t ≤ 1 → ∃ c ∈ l, InUnitCell c (segPoint s e t)) := by
  have hgE : gridIndexScaled e = E := gridIndexScaled_of_insideLow (ClearlyInside.low hE)
  have hgS : gridIndexScaled s = S := gridIndexScaled_of_insideLow hS
  have hI := startBody_inv (sq := sq) hx hy hz
  have hNo : NoOver (e - s) E (startBody (sq := sq) s e).curr := noOver_startBody hE hx hy hz
  have hcur : (startBody (sq := sq) s e).curr = S := hgS
  have hr : ∀ i, at3 (e - s) i ≠ 0 := by
    intro i
    match i with
    | 0 => exact sub_ne_zero.2 hx
    | 1 => exact sub_ne_zero.2 hy
    | 2 => exact sub_ne_zero.2 hz
  have hcell : ∀ c t, CellAt s (e - s) c t ↔ InUnitCell c (segPoint s e t) := by
    intro c t
    constructor
    · intro h; exact ⟨h 0, h 1, h 2⟩
    · intro h i
      match i with
      | 0 => exact h.1
      | 1 => exact h.2.1
      | 2 => exact h.2.2
  have h0 : CellAt s (e - s) (startBody (sq := sq) s e).curr 0 := by
    rw [hcur, hcell]
    obtain ⟨⟨x1, x2⟩, ⟨y1, y2⟩, ⟨z1, z2⟩⟩ := hS
    simp only [InUnitCell, segPoint, zero_mul, add_zero]
    exact ⟨⟨x1, by linarith⟩, ⟨y1, by linarith⟩, ⟨z1, by linarith⟩⟩
  have htau : ∀ i, 0 ≤ tau s (e - s) (startBody (sq := sq) s e).curr i := by
    intro i
    have hc := h0 i
    unfold seg at hc
    rw [zero_mul, add_zero] at hc
    unfold tau
    rcases lt_or_gt_of_ne (hr i) with h | h
    · rw [signum_neg h]
      apply div_nonneg_of_nonpos _ h.le
      norm_num
      linarith
    · rw [signum_pos h]
      apply div_nonneg _ h.le
      norm_num
      linarith
  have key := emit_cells (sq := sq) (strictIn_of_clearlyInside (s := s) hE) hr (l1dist S E)
    (startBody (sq := sq) s e) 0 hI hNo (by rw [hcur]) le_rfl (by norm_num) h0 htau
  have hlast := emit_last (sq := sq) (strictIn_of_clearlyInside (s := s) hE) (l1dist S E)
    (startBody (sq := sq) s e) hI hNo (by rw [hcur])
  refine ⟨emit (Arith.exact sq) (l1dist S E + 1) (startBody (sq := sq) s e), ?_, ?_, hlast, ?_, ?_⟩
  · have := castRay_exact (sq := sq) hs he (n := n) (by rw [hgS, hgE]; exact hlen) (by rw [hgS, hgE]; exact hn)
    rw [hgS, hgE] at this
    exact this
  · simp [emit, hcur]
  · intro c hc
    obtain ⟨t, h1, h2, h3⟩ := key.1 c hc
    exact ⟨t, h1, h2, (hcell c t).1 h3⟩
  · intro t h1 h2
    obtain ⟨c, hc, h3⟩ := key.2 t h1 h2
    exact ⟨c, hc, (hcell c t).1 h3⟩

example : InRange ⟨1 / 2, 1 / 2, 1 / 2⟩ ∧ InRange ⟨5 / 2, 1 / 4, -7 / 5⟩ ∧ InsideLow ⟨0, 0, 0⟩ ⟨1 / 2, 1 / 2, 1 / 2⟩ ∧
    ClearlyInside ⟨2, 0, -2⟩ ⟨5 / 2, 1 / 4, -7 / 5⟩ ∧ l1dist ⟨0, 0, 0⟩ ⟨2, 0, -2⟩ = 4 := by
  norm_num [InRange, Vec3.All, InsideLow, ClearlyInside, l1dist]

/-- **C34.** An end point exactly on an edge of its cell is not covered by the hypotheses, and indeed the
traversal can miss its voxel: the end point (1, 1, 3/10) belongs to the voxel (1, 1, 0), the traversal ends in (0, 0, 0). -/
theorem C34_edge_missed :
    gridFl exactA ⟨.fin 1, .fin 1, .fin (3 / 10)⟩ = .ok ⟨1, 1, 0⟩ ∧
    castRay exactA ⟨.fin (3 / 2), .fin (1 / 2), .fin (1 / 5)⟩ ⟨.fin 1, .fin 1, .fin (3 / 10)⟩ 10 =
      .ok (some [⟨1, 0, 0⟩, ⟨0, 0, 0⟩]) := by decide +kernel

/-- A voxel that contains a point of the segment in its interior is visited. -/
theorem C34_interior_visited_partial (sq : ℚ → Fl) (s e : Pt) (S E : Idx) (hs : InRange s) (he : InRange e)
    (hS : InsideLow S s) (hE : ClearlyInside E e) (hx : e.x ≠ s.x) (hy : e.y ≠ s.y) (hz : e.z ≠ s.z)
    (hlen : l1dist S E + 1 < 2 ^ 32) (n : ℕ) (hn : l1dist S E + 2 ≤ n) (v : Idx) (t : ℚ) (ht0 : 0 ≤ t) (ht1 : t ≤ 1)
    (hv : ClearlyInside v (segPoint s e t)) :
    ∃ l, castRay (Arith.exact sq) (s.map .fin) (e.map .fin) n = .ok (some l) ∧ v ∈ l := by
  obtain ⟨l, hl, -, -, -, hcov⟩ := C34_cells_partial sq s e S E hs he hS hE hx hy hz hlen n hn
  refine ⟨l, hl, ?_⟩
  obtain ⟨c, hc, ⟨x1, x2⟩, ⟨y1, y2⟩, ⟨z1, z2⟩⟩ := hcov t ht0 ht1
  obtain ⟨⟨x3, x4⟩, ⟨y3, y4⟩, ⟨z3, z4⟩⟩ := hv
  have key : ∀ (a b : ℤ) (q : ℚ), (a : ℚ) ≤ q → q ≤ a + 1 → (b : ℚ) < q → q + 1 / 1000000 < b + 1 → a = b := by
    intro a b q h1 h2 h3 h4
    have : (b : ℚ) < a + 1 := by linarith
    have : (a : ℚ) < b + 1 := by linarith
    have : b < a + 1 := by exact_mod_cast (by assumption : (b : ℚ) < a + 1)
    have : a < b + 1 := by exact_mod_cast (by assumption : (a : ℚ) < b + 1)
    omega
  have : c = v := by
    ext
    · exact key _ _ _ x1 x2 x3 x4
    · exact key _ _ _ y1 y2 y3 y4
    · exact key _ _ _ z1 z2 z3 z4
  rwa [← this]

example : ClearlyInside ⟨1, 0, -1⟩ (segPoint ⟨1 / 2, 1 / 2, 1 / 2⟩ ⟨5 / 2, 1 / 4, -7 / 5⟩ (1 / 2)) ∧
    InsideLow ⟨0, 0, 0⟩ ⟨1 / 2, 1 / 2, 1 / 2⟩ ∧ ClearlyInside ⟨2, 0, -2⟩ ⟨5 / 2, 1 / 4, -7 / 5⟩ := by
  norm_num [ClearlyInside, segPoint, InsideLow]

/-- **C34, the integrators' rays.** A non-clearing ray of the TSDF integrators, with or without voxel
carving, runs through the measured point: the point lies on the chosen segment. (`u` is the unit direction
and `len` the length of the ray.) -/
theorem C34_measured_point_on_ray (origin point u : Pt) (len maxLen trunc : ℚ) (carving : Bool)
    (hp : point = origin + u.map (· * len)) (hlen : 0 ≤ len) (htr : 0 < trunc) :
    ∃ t, 0 ≤ t ∧ t ≤ 1 ∧
      segPoint (rayEndpoints origin point u len false carving maxLen trunc).1
        (rayEndpoints origin point u len false carving maxLen trunc).2 t = point := by
  cases carving with
  | true =>
    refine ⟨len / (len + trunc), by positivity, by rw [div_le_one (by linarith)]; linarith, ?_⟩
    have hne : len + trunc ≠ 0 := by linarith
    rw [hp]
    ext <;> simp [rayEndpoints, segPoint] <;> field_simp <;> ring
  | false =>
    refine ⟨1 / 2, by norm_num, by norm_num, ?_⟩
    rw [hp]
    ext <;> simp [rayEndpoints, segPoint] <;> ring

example : (⟨2, 3, 0⟩ : Pt) = ⟨2, 0, 0⟩ + (⟨0, 1, 0⟩ : Pt).map (· * 3) ∧
    rayEndpoints ⟨2, 0, 0⟩ ⟨2, 3, 0⟩ ⟨0, 1, 0⟩ 3 false true 10 (1 / 2) = (⟨2, 0, 0⟩, ⟨2, 7 / 2, 0⟩) ∧
    rayEndpoints ⟨2, 0, 0⟩ ⟨2, 3, 0⟩ ⟨0, 1, 0⟩ 3 false false 10 (1 / 2) = (⟨2, 5 / 2, 0⟩, ⟨2, 7 / 2, 0⟩) := by
  decide +kernel

/-- **C34, clearing rays** never come closer to the measured point than the truncation distance and never
exceed the maximum ray length: the segment ends at distance `l` from the origin with these bounds. -/
theorem C34_clearing_ray_short (origin point u : Pt) (len maxLen trunc : ℚ) (hm : 0 ≤ maxLen) :
    ∃ l, (rayEndpoints origin point u len true true maxLen trunc) = (origin, origin + u.map (· * l)) ∧
      0 ≤ l ∧ l ≤ maxLen ∧ (trunc ≤ len → l ≤ len - trunc) ∧ (len ≤ trunc → l = 0) := by
  refine ⟨min (max (len - trunc) 0) maxLen, rfl, ?_, ?_, ?_, ?_⟩
  · exact le_min (le_max_right _ _) hm
  · exact min_le_right _ _
  · intro h
    refine le_trans (min_le_left _ _) ?_
    rw [max_eq_left (by linarith)]
  · intro h
    rw [max_eq_right (by linarith), min_eq_left hm]

example : rayEndpoints ⟨2, 0, 0⟩ ⟨2, 3, 0⟩ ⟨0, 1, 0⟩ 3 true true 2 (1 / 2) = (⟨2, 0, 0⟩, ⟨2, 2, 0⟩) ∧
    rayEndpoints ⟨2, 0, 0⟩ ⟨2, 3, 0⟩ ⟨0, 1, 0⟩ 3 true true 10 (1 / 2) = (⟨2, 0, 0⟩, ⟨2, 5 / 2, 0⟩) := by
  decide +kernel

/-! ### C35 -/

/-- **C35 is violated**: casting a ray with a NaN coordinate reads the uninitialised step counter. -/
theorem C35_nan_is_undefined (A : Arith) (s e : Vec3 Fl) (h : anyNan s = true ∨ anyNan e = true) (n : ℕ)
    (hn : 0 < n) : castRay A s e n = .ub := by
  obtain ⟨m, rfl⟩ : ∃ m, n = m + 1 := ⟨n - 1, by omega⟩
  unfold castRay setup
  rw [if_pos (by rcases h with h | h <;> simp [h])]
  rfl

example : anyNan ⟨.fin 0, .nan, .fin 0⟩ = true := rfl

/-- **C35, what does hold**: in exact arithmetic a ray between finite points of moderate size is cast
without undefined behaviour and finishes. -/
theorem C35_finite_safe_partial (sq : ℚ → Fl) (s e : Pt) (hs : InRange s) (he : InRange e)
    (hlen : l1dist (gridIndexScaled s) (gridIndexScaled e) + 1 < 2 ^ 32) :
    ∃ n l, castRay (Arith.exact sq) (s.map .fin) (e.map .fin) n = .ok (some l) ∧ l ≠ [] :=
  ⟨_, _, castRay_exact hs he hlen le_rfl, by simp [emit]⟩

example : InRange ⟨1 / 2, 1 / 2, 1 / 2⟩ ∧ InRange ⟨5 / 2, 1 / 4, -7 / 5⟩ ∧
    l1dist (gridIndexScaled ⟨1 / 2, 1 / 2, 1 / 2⟩) (gridIndexScaled ⟨5 / 2, 1 / 4, -7 / 5⟩) + 1 < 2 ^ 32 := by
  refine ⟨by norm_num [InRange, Vec3.All], by norm_num [InRange, Vec3.All], by decide +kernel⟩

end Vox.Ray
