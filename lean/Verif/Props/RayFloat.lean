/-
C113: the ray caster computed in single precision follows the segment up to a stated tolerance.
-/
import Verif.Lemmas.RayPlane

namespace Vox.Ray

open Fl Spec Ieee

/-- **C113.** Ray casting in IEEE single precision, as the code does it. Let the end points have coordinates up to `X` (in voxels, at most
2^20), let them differ by at least 2^-60 along every axis, and let the segment be at most `N - 4` voxels long, `N ≤ 2048`. With the tolerance
`rayTol X N = 1e-6 + (X + N²/2 + 5 N + 7)/2^24`: if the end point lies in the voxel `E` farther than the tolerance from its faces, the
traversal ends, starts in a voxel that contains the start point up to the tolerance, ends in `E`, has one voxel more than the Manhattan
distance of the two, every voxel on it meets the segment up to the tolerance, and every point of the segment lies, up to the tolerance, in one
of its voxels. -/
theorem C113_traversal (s e : Pt) (X : ℚ) (N : ℕ) (E : Idx) (hs : CoordsWithin X s) (he : CoordsWithin X e) (hX : X ≤ 2 ^ 20)
    (hr : ApartBy (1 / 2 ^ 60) s e) (hN : l1length s e + 4 ≤ N) (hN2 : N ≤ 2 ^ 11) (hE : InsideBy (rayTol X N) E e) (n : ℕ) (hn : N + 2 ≤ n) :
    ∃ S l, castRay float32 (s.map .fin) (e.map .fin) n = .ok (some l) ∧ l.head? = some S ∧ NearUnitCell (rayTol X N) S s ∧
      l.getLast? = some E ∧ l.length = l1dist S E + 1 ∧
      (∀ c ∈ l, ∃ t, 0 ≤ t ∧ t ≤ 1 ∧ NearUnitCell (rayTol X N) c (segPoint s e t)) ∧
      (∀ t, 0 ≤ t → t ≤ 1 → ∃ c ∈ l, NearUnitCell (rayTol X N) c (segPoint s e t)) := by
  obtain ⟨l, h1, h2, h3, h4, h5, h6⟩ := cast_float hs he hX hr hN hN2 hE hn
  refine ⟨_, l, h1, h2, ?_, h3, h4, h5, h6⟩
  have hX0 : 0 ≤ X := (abs_nonneg _).trans hs.1
  have htol := (rayTol_ge hX0 N).1
  have hg := fun i => (grid_axis (coords_at hs i) hX).2
  refine ⟨?_, ?_, ?_⟩
  · obtain ⟨a, b, -⟩ := hg 0
    simp only [at3] at a b
    exact ⟨by show ((rayIdx s.x : ℤ) : ℚ) - _ ≤ _; linarith, by show _ ≤ ((rayIdx s.x : ℤ) : ℚ) + 1 + _; linarith⟩
  · obtain ⟨a, b, -⟩ := hg 1
    simp only [at3] at a b
    exact ⟨by show ((rayIdx s.y : ℤ) : ℚ) - _ ≤ _; linarith, by show _ ≤ ((rayIdx s.y : ℤ) : ℚ) + 1 + _; linarith⟩
  · obtain ⟨a, b, -⟩ := hg 2
    simp only [at3] at a b
    exact ⟨by show ((rayIdx s.z : ℤ) : ℚ) - _ ≤ _; linarith, by show _ ≤ ((rayIdx s.z : ℤ) : ℚ) + 1 + _; linarith⟩

/-- A ray of thirty voxels with coordinates up to 100: the tolerance is below 5e-5 of a voxel. -/
example : CoordsWithin 100 ⟨71 / 2, -41 / 4, 1 / 3⟩ ∧ CoordsWithin 100 ⟨101 / 5, -4 / 3, 27 / 5⟩ ∧
    ApartBy (1 / 2 ^ 60) ⟨71 / 2, -41 / 4, 1 / 3⟩ ⟨101 / 5, -4 / 3, 27 / 5⟩ ∧ l1length ⟨71 / 2, -41 / 4, 1 / 3⟩ ⟨101 / 5, -4 / 3, 27 / 5⟩ + 4 ≤ (35 : ℕ) ∧
    InsideBy (rayTol 100 35) ⟨20, -2, 5⟩ ⟨101 / 5, -4 / 3, 27 / 5⟩ ∧ rayTol 100 35 < 6 / 100000 := by
  refine ⟨by norm_num [CoordsWithin, abs_le], by norm_num [CoordsWithin, abs_le], ?_, ?_, by norm_num [InsideBy, rayTol], by norm_num [rayTol]⟩
  · norm_num [ApartBy, abs_of_pos, abs_of_neg]
  · norm_num [l1length, abs_of_pos, abs_of_neg]

/-- **C113.** A voxel that contains a point of the segment farther than the tolerance from its faces is visited. -/
theorem C113_interior_visited (s e : Pt) (X : ℚ) (N : ℕ) (E : Idx) (hs : CoordsWithin X s) (he : CoordsWithin X e) (hX : X ≤ 2 ^ 20)
    (hr : ApartBy (1 / 2 ^ 60) s e) (hN : l1length s e + 4 ≤ N) (hN2 : N ≤ 2 ^ 11) (hE : InsideBy (rayTol X N) E e) (n : ℕ) (hn : N + 2 ≤ n)
    (v : Idx) (t : ℚ) (ht0 : 0 ≤ t) (ht1 : t ≤ 1) (hv : InsideBy (rayTol X N) v (segPoint s e t)) :
    ∃ l, castRay float32 (s.map .fin) (e.map .fin) n = .ok (some l) ∧ v ∈ l := by
  obtain ⟨l, h1, -, -, -, -, h6⟩ := cast_float hs he hX hr hN hN2 hE hn
  refine ⟨l, h1, ?_⟩
  obtain ⟨c, hc, ⟨x1, x2⟩, ⟨y1, y2⟩, ⟨z1, z2⟩⟩ := h6 t ht0 ht1
  obtain ⟨⟨x3, x4⟩, ⟨y3, y4⟩, ⟨z3, z4⟩⟩ := hv
  have key : ∀ (a b : ℤ) (q m : ℚ), (a : ℚ) - m ≤ q → q ≤ a + 1 + m → (b : ℚ) + m < q → q < b + 1 - m → a = b := by
    intro a b q m h1 h2 h3 h4
    have h5 : (b : ℚ) < a + 1 := by linarith
    have h6 : (a : ℚ) < b + 1 := by linarith
    have h5' : b < a + 1 := by exact_mod_cast h5
    have h6' : a < b + 1 := by exact_mod_cast h6
    omega
  have : c = v := Vec3.ext (key _ _ _ _ x1 x2 x3 x4) (key _ _ _ _ y1 y2 y3 y4) (key _ _ _ _ z1 z2 z3 z4)
  rwa [← this]

/-- The middle of the same ray. -/
example : InsideBy (rayTol 100 35) ⟨27, -6, 2⟩ (segPoint ⟨71 / 2, -41 / 4, 1 / 3⟩ ⟨101 / 5, -4 / 3, 27 / 5⟩ (1 / 2)) := by
  norm_num [InsideBy, rayTol, segPoint]

/-- **C113, exact traversal violated.** Without the tolerance the claims of C34 fail in single precision: this end point lies in the voxel
(27, 5, 2), not in the last 1e-6 before its boundary, and its computed index is that voxel; the traversal nevertheless ends in (28, 4, 2) and never visits (27, 5, 2). -/
theorem C113_end_voxel_violated :
    ClearlyInside ⟨27, 5, 2⟩ ⟨7340031 / 262144, 5242881 / 1048576, 11 / 4⟩ ∧
    gridFl float32 ⟨.fin (7340031 / 262144), .fin (5242881 / 1048576), .fin (11 / 4)⟩ = .ok ⟨27, 5, 2⟩ ∧
    ∃ l, castRay float32 ⟨.fin (1 / 4), .fin (1 / 2), .fin (1 / 2)⟩ ⟨.fin (7340031 / 262144), .fin (5242881 / 1048576), .fin (11 / 4)⟩ 40 = .ok (some l) ∧
      l.getLast? = some ⟨28, 4, 2⟩ ∧ (⟨27, 5, 2⟩ : Idx) ∉ l := by
  refine ⟨by norm_num [ClearlyInside], by decide +kernel, ?_⟩
  have h : ∀ o : Outcome (Option (List Idx)), (match o with | .ok (some l) => decide (l.getLast? = some ⟨28, 4, 2⟩) && decide ((⟨27, 5, 2⟩ : Idx) ∉ l) | _ => false) = true →
      ∃ l, o = .ok (some l) ∧ l.getLast? = some ⟨28, 4, 2⟩ ∧ (⟨27, 5, 2⟩ : Idx) ∉ l := by
    intro o ho
    match o with
    | .ok (some l) =>
      simp only [Bool.and_eq_true, decide_eq_true_eq] at ho
      exact ⟨l, rfl, ho⟩
    | .ok none => cases ho
    | .fatal => cases ho
    | .ub => cases ho
  exact h _ (by decide +kernel)

/-- **C33, violated for all rays in a plane x = const.** In single precision a ray whose end points have the same first coordinate, not below
the lower face of the start voxel, never leaves the start voxel: that voxel is returned once for every voxel of the distance. -/
theorem C33_plane_ray_stuck_violated (s e : Pt) (X : ℚ) (hs : CoordsWithin X s) (he : CoordsWithin X e) (hX : X ≤ 2 ^ 20) (a z : Idx)
    (ha : gridFl float32 (s.map .fin) = .ok a) (hz : gridFl float32 (e.map .fin) = .ok z) (hx : e.x = s.x) (hlow : (a.x : ℚ) ≤ s.x)
    (n : ℕ) (hlen : l1dist a z + 1 < 2 ^ 32) (hn : l1dist a z + 2 ≤ n) :
    castRay float32 (s.map .fin) (e.map .fin) n = .ok (some (List.replicate (l1dist a z + 1) a)) := by
  obtain ⟨h1, -, h3⟩ := cast_bodyOf hs he hX ha hz hlen hn
  rw [h3]
  have hz' := zero_axis (coords_at hs 0) hX
  simp only [at3] at hz'
  obtain ⟨z1, -, z3, z4⟩ := hz'
  have hb := emit_stuck float32 (l1dist a z + 1) (bodyOf s e)
    (by show signumFl (float32.sub (.fin e.x) (.fin s.x)) = 0; rw [hx]; exact z4)
    (by show tStep float32 (float32.sub (.fin e.x) (.fin s.x)) = .nan; rw [hx]; exact z3)
    (by
      have e1 : (bodyOf s e).t.x = tFirst float32 (.fin s.x) (float32.sub (.fin e.x) (.fin s.x)) (rayIdx s.x) := rfl
      rw [e1, hx]
      rw [h1] at hlow
      exact z1 hlow)
  rw [hb, h1]
  rfl

/-- A ray of five voxels along y. -/
example : gridFl float32 ((⟨1 / 2, 1 / 4, 1 / 8⟩ : Pt).map .fin) = .ok ⟨0, 0, 0⟩ ∧ gridFl float32 ((⟨1 / 2, 21 / 4, 3 / 8⟩ : Pt).map .fin) = .ok ⟨0, 5, 0⟩ ∧
    castRay float32 ((⟨1 / 2, 1 / 4, 1 / 8⟩ : Pt).map .fin) ((⟨1 / 2, 21 / 4, 3 / 8⟩ : Pt).map .fin) 10 = .ok (some (List.replicate 6 ⟨0, 0, 0⟩)) := by
  decide +kernel

/-- **C33, violated for all rays parallel to a coordinate plane.** In single precision, if the end points have a coordinate in common that does
not lie on the lower face of the start voxel, the traversal returns the start voxel twice and never reaches the voxel of the end point, unless that
is the start voxel. -/
theorem C33_parallel_end_missed_violated (s e : Pt) (X : ℚ) (hs : CoordsWithin X s) (he : CoordsWithin X e) (hX : X ≤ 2 ^ 20)
    (hr : EqualOrApart (1 / 2 ^ 60) s e) (a z : Idx) (ha : gridFl float32 (s.map .fin) = .ok a) (hz : gridFl float32 (e.map .fin) = .ok z)
    (hflat : FlatAbove (1 / 2 ^ 100) a s e) (hne : a ≠ z) (n : ℕ) (hlen : l1dist a z + 1 < 2 ^ 32) (hn : l1dist a z + 2 ≤ n) :
    ∃ l, castRay float32 (s.map .fin) (e.map .fin) n = .ok (some (a :: a :: l)) ∧ l.length + 1 = l1dist a z ∧ z ∉ a :: a :: l := by
  obtain ⟨h1, h2, h3⟩ := cast_bodyOf hs he hX ha hz hlen hn
  rw [h3]
  have hc : ∀ j, at3 e j = at3 s j ∨ 1 / 2 ^ 60 ≤ |at3 e j - at3 s j| := by
    intro j
    match j with
    | 0 => exact hr.1
    | 1 => exact hr.2.1
    | 2 => exact hr.2.2
  have hadv : (advance float32 (bodyOf s e)).curr = a := by
    rw [h1] at hflat ⊢
    rcases hflat with ⟨f1, f2⟩ | ⟨f1, f2⟩ | ⟨f1, f2⟩
    · exact wasted_step (i := 0) hs he hX hc f1 f2
    · exact wasted_step (i := 1) hs he hX hc f1 f2
    · exact wasted_step (i := 2) hs he hX hc f1 f2
  have hL : l1dist a z ≠ 0 := by
    intro h0
    unfold l1dist at h0
    exact hne (Vec3.ext (by omega) (by omega) (by omega))
  obtain ⟨L, hL'⟩ : ∃ L, l1dist a z = L + 1 := ⟨l1dist a z - 1, by omega⟩
  have hbc : (bodyOf s e).curr = a := h1.symm
  refine ⟨emit float32 L (advance float32 (advance float32 (bodyOf s e))), ?_, ?_, ?_⟩
  · rw [hL']
    show Outcome.ok (some ((bodyOf s e).curr :: (advance float32 (bodyOf s e)).curr :: emit float32 L (advance float32 (advance float32 (bodyOf s e))))) = _
    rw [hadv, hbc]
  · rw [emit_length, hL']
  · have h0 : l1dist a (advance float32 (bodyOf s e)).curr ≤ 0 := by rw [hadv]; simp [l1dist]
    have hd := emit_dist float32 a (L + 1) (advance float32 (bodyOf s e)) 0 (bodyOf_sign_range s e) h0
    intro hm
    rcases List.mem_cons.1 hm with h | h
    · exact hne h.symm
    · have h' : z ∈ emit float32 (L + 1) (advance float32 (bodyOf s e)) := by
        show z ∈ (advance float32 (bodyOf s e)).curr :: emit float32 L (advance float32 (advance float32 (bodyOf s e)))
        rw [hadv]
        exact h
      have := hd z h'
      omega

/-- A ray along x at half height: four voxels away, and one short. -/
example : CoordsWithin 10 ⟨1 / 2, 1 / 2, 1 / 2⟩ ∧ EqualOrApart (1 / 2 ^ 60) ⟨1 / 2, 1 / 2, 1 / 2⟩ ⟨9 / 2, 1 / 2, 3 / 4⟩ ∧
    FlatAbove (1 / 2 ^ 100) ⟨0, 0, 0⟩ ⟨1 / 2, 1 / 2, 1 / 2⟩ ⟨9 / 2, 1 / 2, 3 / 4⟩ ∧
    castRay float32 ((⟨1 / 2, 1 / 2, 1 / 2⟩ : Pt).map .fin) ((⟨9 / 2, 1 / 2, 3 / 4⟩ : Pt).map .fin) 10 =
      .ok (some [⟨0, 0, 0⟩, ⟨0, 0, 0⟩, ⟨1, 0, 0⟩, ⟨2, 0, 0⟩, ⟨3, 0, 0⟩]) := by
  refine ⟨by norm_num [CoordsWithin, abs_le], by norm_num [EqualOrApart, abs_of_pos], by norm_num [FlatAbove], by decide +kernel⟩

end Vox.Ray
