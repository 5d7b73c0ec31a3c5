/-
Helper lemmas for the camera model.
-/
import Verif.Model.Camera
import Verif.Spec.Camera
import Mathlib.Tactic.LinearCombination
import Mathlib.Algebra.Order.Ring.Abs
import Mathlib.Algebra.Order.Group.Unbundled.Abs

namespace Vox.Camera

open Geo Spec

variable {F : Type} [Field F] [LinearOrder F] [IsStrictOrderedRing F]

omit [LinearOrder F] [IsStrictOrderedRing F] in
theorem apply_eq_moved (T : Pose F) (p : Vec3 F) : T.apply p = moved T p := rfl

omit [LinearOrder F] [IsStrictOrderedRing F] in
/-- The triple product is invariant under rotation. -/
theorem triple_apply {T : Pose F} (hT : IsRotation T) (a b c q : Vec3 F) :
    dot (moved T q - moved T a) (cross (moved T b - moved T a) (moved T c - moved T a)) = dot (q - a) (cross (b - a) (c - a)) := by
  simp only [dot, cross, moved, Vec3.sub_x, Vec3.sub_y, Vec3.sub_z]
  linear_combination ((q.x - a.x) * ((b.y - a.y) * (c.z - a.z) - (b.z - a.z) * (c.y - a.y)) +
    (q.y - a.y) * ((b.z - a.z) * (c.x - a.x) - (b.x - a.x) * (c.z - a.z)) +
    (q.z - a.z) * ((b.x - a.x) * (c.y - a.y) - (b.y - a.y) * (c.x - a.x))) * hT.det

theorem inside_iff {normalize : Vec3 F → Vec3 F} (hn : ScalesPositively normalize) {T : Pose F} (hT : IsRotation T) (a b c q : Vec3 F) :
    (Plane.fromPoints normalize (moved T a) (moved T b) (moved T c)).isPointInside (moved T q) = true ↔
      0 ≤ dot (q - a) (cross (b - a) (c - a)) := by
  rw [← triple_apply hT]
  obtain ⟨k, hk, e⟩ := hn (cross (moved T b - moved T a) (moved T c - moved T a))
  rw [Plane.isPointInside, decide_eq_true_iff]
  show dot (normalize _) (moved T a) ≤ dot (moved T q) (normalize _) ↔ _
  rw [e]
  set n := cross (moved T b - moved T a) (moved T c - moved T a)
  rw [← sub_nonneg]
  have : dot (moved T q) ⟨k * n.x, k * n.y, k * n.z⟩ - dot ⟨k * n.x, k * n.y, k * n.z⟩ (moved T a) = k * dot (moved T q - moved T a) n := by
    simp only [dot, Vec3.sub_x, Vec3.sub_y, Vec3.sub_z]; ring
  rw [this]
  exact mul_nonneg_iff_of_pos_left hk

omit [LinearOrder F] [IsStrictOrderedRing F] in
/-- Every point is the image of one. -/
theorem moved_surj {T : Pose F} (hT : IsRotation T) (p : Vec3 F) : ∃ q, moved T q = p := by
  have t0 := hT.n0; have t1 := hT.n1; have t2 := hT.n2; have t3 := hT.o01; have t4 := hT.o02; have t5 := hT.o12
  refine ⟨⟨T.r0.x * (p.x - T.t.x) + T.r1.x * (p.y - T.t.y) + T.r2.x * (p.z - T.t.z),
    T.r0.y * (p.x - T.t.x) + T.r1.y * (p.y - T.t.y) + T.r2.y * (p.z - T.t.z),
    T.r0.z * (p.x - T.t.x) + T.r1.z * (p.y - T.t.y) + T.r2.z * (p.z - T.t.z)⟩, ?_⟩
  ext
  · simp only [moved]
    linear_combination (p.x - T.t.x) * t0 + (p.y - T.t.y) * t3 + (p.z - T.t.z) * t4
  · simp only [moved]
    linear_combination (p.x - T.t.x) * t3 + (p.y - T.t.y) * t1 + (p.z - T.t.z) * t5
  · simp only [moved]
    linear_combination (p.x - T.t.x) * t4 + (p.y - T.t.y) * t5 + (p.z - T.t.z) * t2

omit [LinearOrder F] [IsStrictOrderedRing F] in
theorem moved_mul (S T : Pose F) (p : Vec3 F) : moved (S.mul T) p = moved S (moved T p) := by
  ext <;> simp only [moved, Pose.mul, Pose.cols, Pose.apply, Pose.rotate, dot, Vec3.add_x, Vec3.add_y, Vec3.add_z] <;> ring

omit [LinearOrder F] [IsStrictOrderedRing F] in
theorem moved_inverse {T : Pose F} (hT : IsRotation T) (p : Vec3 F) : moved T (moved T.inverse p) = p := by
  have t0 := hT.n0; have t1 := hT.n1; have t2 := hT.n2; have t3 := hT.o01; have t4 := hT.o02; have t5 := hT.o12
  ext
  · simp only [moved, Pose.inverse, Pose.cols, dot, Vec3.neg_x, Vec3.neg_y, Vec3.neg_z]
    linear_combination (p.x - T.t.x) * t0 + (p.y - T.t.y) * t3 + (p.z - T.t.z) * t4
  · simp only [moved, Pose.inverse, Pose.cols, dot, Vec3.neg_x, Vec3.neg_y, Vec3.neg_z]
    linear_combination (p.x - T.t.x) * t3 + (p.y - T.t.y) * t1 + (p.z - T.t.z) * t5
  · simp only [moved, Pose.inverse, Pose.cols, dot, Vec3.neg_x, Vec3.neg_y, Vec3.neg_z]
    linear_combination (p.x - T.t.x) * t4 + (p.y - T.t.y) * t5 + (p.z - T.t.z) * t2

omit [LinearOrder F] [IsStrictOrderedRing F] in
theorem moved_inj {T : Pose F} (hT : IsRotation T) {p q : Vec3 F} (h : moved T p = moved T q) : p = q := by
  have h0 := congrArg Vec3.x h
  have h1 := congrArg Vec3.y h
  have h2 := congrArg Vec3.z h
  have d := hT.det
  simp only [moved] at h0 h1 h2
  ext
  · linear_combination (q.x - p.x) * d + (T.r1.y * T.r2.z - T.r1.z * T.r2.y) * h0 - (T.r0.y * T.r2.z - T.r0.z * T.r2.y) * h1 +
      (T.r0.y * T.r1.z - T.r0.z * T.r1.y) * h2
  · linear_combination (q.y - p.y) * d - (T.r1.x * T.r2.z - T.r1.z * T.r2.x) * h0 + (T.r0.x * T.r2.z - T.r0.z * T.r2.x) * h1 -
      (T.r0.x * T.r1.z - T.r0.z * T.r1.x) * h2
  · linear_combination (q.z - p.z) * d + (T.r1.x * T.r2.y - T.r1.y * T.r2.x) * h0 - (T.r0.x * T.r2.y - T.r0.y * T.r2.x) * h1 +
      (T.r0.x * T.r1.y - T.r0.y * T.r1.x) * h2

omit [LinearOrder F] [IsStrictOrderedRing F] in
theorem rotation_mul {S T : Pose F} (hS : IsRotation S) (hT : IsRotation T) : IsRotation (S.mul T) := by
  have t0 := hT.n0; have t1 := hT.n1; have t2 := hT.n2; have t3 := hT.o01; have t4 := hT.o02; have t5 := hT.o12
  have key : ∀ a b : Vec3 F, dot (Vec3.mk (dot a T.cols.1) (dot a T.cols.2.1) (dot a T.cols.2.2))
      (Vec3.mk (dot b T.cols.1) (dot b T.cols.2.1) (dot b T.cols.2.2)) = dot a b := by
    intro a b
    simp only [dot, Pose.cols]
    linear_combination a.x * b.x * t0 + a.y * b.y * t1 + a.z * b.z * t2 + (a.x * b.y + a.y * b.x) * t3 + (a.x * b.z + a.z * b.x) * t4 +
      (a.y * b.z + a.z * b.y) * t5
  constructor
  · exact (key S.r0 S.r0).trans hS.n0
  · exact (key S.r1 S.r1).trans hS.n1
  · exact (key S.r2 S.r2).trans hS.n2
  · exact (key S.r0 S.r1).trans hS.o01
  · exact (key S.r0 S.r2).trans hS.o02
  · exact (key S.r1 S.r2).trans hS.o12
  · have d1 := hS.det
    have d2 := hT.det
    simp only [Pose.mul, Pose.cols, dot]
    linear_combination (S.r0.x * (S.r1.y * S.r2.z - S.r1.z * S.r2.y) - S.r0.y * (S.r1.x * S.r2.z - S.r1.z * S.r2.x) +
      S.r0.z * (S.r1.x * S.r2.y - S.r1.y * S.r2.x)) * d2 + d1

omit [LinearOrder F] [IsStrictOrderedRing F] in
theorem rotation_inverse {T : Pose F} (hT : IsRotation T) : IsRotation T.inverse := by
  have key : ∀ p, moved T.inverse (moved T p) = p := fun p => moved_inj hT (moved_inverse hT _)
  have lin : ∀ u : Vec3 F, Vec3.mk (dot T.cols.1 (T.rotate u)) (dot T.cols.2.1 (T.rotate u)) (dot T.cols.2.2 (T.rotate u)) = u := by
    intro u
    have h1 := key u
    have h0 := key 0
    ext
    · have a := congrArg Vec3.x h1; have b := congrArg Vec3.x h0
      simp only [moved, Pose.inverse, Pose.cols, dot, Pose.rotate, Vec3.neg_x, Vec3.zero_x, Vec3.zero_y, Vec3.zero_z] at a b ⊢
      linear_combination a - b
    · have a := congrArg Vec3.y h1; have b := congrArg Vec3.y h0
      simp only [moved, Pose.inverse, Pose.cols, dot, Pose.rotate, Vec3.neg_y, Vec3.zero_x, Vec3.zero_y, Vec3.zero_z] at a b ⊢
      linear_combination a - b
    · have a := congrArg Vec3.z h1; have b := congrArg Vec3.z h0
      simp only [moved, Pose.inverse, Pose.cols, dot, Pose.rotate, Vec3.neg_z, Vec3.zero_x, Vec3.zero_y, Vec3.zero_z] at a b ⊢
      linear_combination a - b
  have lx := lin ⟨1, 0, 0⟩
  have ly := lin ⟨0, 1, 0⟩
  have lz := lin ⟨0, 0, 1⟩
  simp only [dot, Pose.cols, Pose.rotate, Vec3.mk.injEq, mul_one, mul_zero, add_zero, zero_add] at lx ly lz
  constructor <;> simp only [Pose.inverse, Pose.cols]
  · exact lx.1
  · exact ly.2.1
  · exact lz.2.2
  · exact ly.1
  · exact lz.1
  · exact lz.2.1
  · linear_combination hT.det

omit [IsStrictOrderedRing F] in
theorem setCameraPose_eq (normalize : Vec3 F → Vec3 F) (T : Pose F) (c : State F) (h v near far : F) (hi : c.initialized = true)
    (hc : c.corners = Camera.frustumCorners h v near far) :
    setCameraPose normalize T c = .ok { c with
      T_G_C := T
      planes := boundingPlanes normalize (moved T ⟨near, near * h, near * v⟩) (moved T ⟨near, near * h, -near * v⟩)
        (moved T ⟨near, -near * h, -near * v⟩) (moved T ⟨near, -near * h, near * v⟩) (moved T ⟨far, far * h, far * v⟩)
        (moved T ⟨far, far * h, -far * v⟩) (moved T ⟨far, -far * h, -far * v⟩) (moved T ⟨far, -far * h, far * v⟩)
      aabb := some (boundingBox (moved T ⟨near, near * h, near * v⟩) [moved T ⟨near, near * h, -near * v⟩,
        moved T ⟨near, -near * h, -near * v⟩, moved T ⟨near, -near * h, near * v⟩, moved T ⟨far, far * h, far * v⟩,
        moved T ⟨far, far * h, -far * v⟩, moved T ⟨far, -far * h, -far * v⟩, moved T ⟨far, -far * h, far * v⟩]) } := by
  simp [setCameraPose, calculateBoundingPlanes, hi, hc, frustumCorners, apply_eq_moved]

/-- The six tests, in camera coordinates. -/
theorem view_iff {normalize : Vec3 F → Vec3 F} (hn : ScalesPositively normalize) {T : Pose F} (hT : IsRotation T) (c c' : State F)
    (h v near far : F) (hi : c.initialized = true) (hc : c.corners = Camera.frustumCorners h v near far)
    (e : setCameraPose normalize T c = .ok c') (q : Vec3 F) :
    isPointInView c' (moved T q) = true ↔
      0 ≤ (near * near * h * v) * (q.x - near) ∧ 0 ≤ (far * far * h * v) * (far - q.x) ∧
      0 ≤ (v * near * (far - near)) * (h * q.x + q.y) ∧ 0 ≤ (v * far * (far - near)) * (h * q.x - q.y) ∧
      0 ≤ (h * far * (far - near)) * (v * q.x - q.z) ∧ 0 ≤ (h * far * (far - near)) * (v * q.x + q.z) := by
  rw [setCameraPose_eq normalize T c h v near far hi hc] at e
  obtain rfl := Outcome.ok.inj e
  simp only [isPointInView, boundingPlanes, List.all_cons, List.all_nil, Bool.and_true, Bool.and_eq_true, inside_iff hn hT, dot, cross,
    Vec3.sub_x, Vec3.sub_y, Vec3.sub_z]
  have two : ∀ a b : F, a = 2 * b → (0 ≤ a ↔ 0 ≤ b) := by intro a b h; rw [h]; constructor <;> intro h <;> linarith
  have four : ∀ a b : F, a = 4 * b → (0 ≤ a ↔ 0 ≤ b) := by intro a b h; rw [h]; constructor <;> intro h <;> linarith
  refine and_congr (four _ _ (by ring)) (and_congr (four _ _ (by ring)) (and_congr (two _ _ (by ring)) (and_congr (two _ _ (by ring))
    (and_congr (two _ _ (by ring)) (two _ _ (by ring))))))

/-- A linear form takes its largest value over the frustum at a corner. -/
theorem exists_corner_ge {h v near far : F} (a : Vec3 F) (t : F) {q : Vec3 F}
    (hq : InFrustum h v near far q) : ∃ atFar plusY plusZ, a.x * q.x + a.y * q.y + a.z * q.z + t ≤
      a.x * (frustumCorner h v near far atFar plusY plusZ).x + a.y * (frustumCorner h v near far atFar plusY plusZ).y +
        a.z * (frustumCorner h v near far atFar plusY plusZ).z + t := by
  have key : a.x * q.x + a.y * q.y + a.z * q.z ≤ q.x * (a.x + |a.y| * h + |a.z| * v) := by
    have h1 : a.y * q.y ≤ |a.y| * (h * q.x) := le_trans (le_abs_self _) (by
      rw [abs_mul]; exact mul_le_mul_of_nonneg_left hq.horizontal (abs_nonneg _))
    have h2 : a.z * q.z ≤ |a.z| * (v * q.x) := le_trans (le_abs_self _) (by
      rw [abs_mul]; exact mul_le_mul_of_nonneg_left hq.vertical (abs_nonneg _))
    linarith
  have h1 := hq.near
  have h2 := hq.far
  obtain ⟨atFar, hd⟩ : ∃ atFar : Bool, q.x * (a.x + |a.y| * h + |a.z| * v) ≤
      (if atFar then far else near) * (a.x + |a.y| * h + |a.z| * v) := by
    rcases le_total 0 (a.x + |a.y| * h + |a.z| * v) with hs | hs
    · exact ⟨true, by simpa using mul_le_mul_of_nonneg_right h2 hs⟩
    · exact ⟨false, by simpa using mul_le_mul_of_nonpos_right h1 hs⟩
  refine ⟨atFar, decide (0 ≤ a.y), decide (0 ≤ a.z), ?_⟩
  refine add_le_add_left (le_trans key (le_trans hd (le_of_eq ?_))) t
  clear hd
  simp only [frustumCorner]
  generalize (if atFar = true then far else near) = D
  by_cases hy : 0 ≤ a.y <;> by_cases hz : 0 ≤ a.z
  · simp only [hy, hz, decide_true, if_true, abs_of_nonneg hy, abs_of_nonneg hz]; ring
  · simp only [hy, hz, decide_true, decide_false, if_true, abs_of_nonneg hy, abs_of_neg (not_le.mp hz)]; simp; ring
  · simp only [hy, hz, decide_true, decide_false, if_true, abs_of_neg (not_le.mp hy), abs_of_nonneg hz]; simp; ring
  · simp only [hy, hz, decide_false, abs_of_neg (not_le.mp hy), abs_of_neg (not_le.mp hz)]; simp; ring

theorem corner_inFrustum {h v near far : F} (hh : 0 ≤ h) (hv : 0 ≤ v) (hn : 0 ≤ near) (hf : near ≤ far) (d s u : Bool) :
    InFrustum h v near far (frustumCorner h v near far d s u) := by
  have hf0 := hn.trans hf
  have e1 : |near * h| = h * near := by rw [abs_of_nonneg (mul_nonneg hn hh), mul_comm]
  have e2 : |far * h| = h * far := by rw [abs_of_nonneg (mul_nonneg hf0 hh), mul_comm]
  have e3 : |near * v| = v * near := by rw [abs_of_nonneg (mul_nonneg hn hv), mul_comm]
  have e4 : |far * v| = v * far := by rw [abs_of_nonneg (mul_nonneg hf0 hv), mul_comm]
  cases d <;> cases s <;> cases u <;> constructor <;> simp [frustumCorner, hf, e1, e2, e3, e4]

omit [Field F] [IsStrictOrderedRing F] in
theorem foldl_max_le {f : Vec3 F → F} (g : Vec3 F → Vec3 F → Vec3 F) (hg : ∀ a b, f (g a b) = max (f a) (f b)) (cs : List (Vec3 F)) :
    ∀ c, (∀ d ∈ c :: cs, f d ≤ f (cs.foldl g c)) ∧ ∃ d ∈ c :: cs, f (cs.foldl g c) = f d := by
  induction cs with
  | nil => intro c; simp
  | cons x xs ih =>
    intro c
    obtain ⟨h1, d, hd, h2⟩ := ih (g c x)
    have hm := h1 _ (List.mem_cons_self ..)
    rw [hg] at hm
    refine ⟨?_, ?_⟩
    · intro e he
      rcases List.mem_cons.mp he with rfl | he
      · exact (le_max_left _ _).trans hm
      · rcases List.mem_cons.mp he with rfl | he
        · exact (le_max_right _ _).trans hm
        · exact h1 e (List.mem_cons_of_mem _ he)
    · rcases List.mem_cons.mp hd with rfl | hd
      · rcases le_total (f c) (f x) with h | h
        · exact ⟨x, by simp, by rw [List.foldl_cons, h2, hg, max_eq_right h]⟩
        · exact ⟨c, by simp, by rw [List.foldl_cons, h2, hg, max_eq_left h]⟩
      · exact ⟨d, by simp [hd], by rw [List.foldl_cons, h2]⟩

omit [Field F] [IsStrictOrderedRing F] in
theorem foldl_min_le {f : Vec3 F → F} (g : Vec3 F → Vec3 F → Vec3 F) (hg : ∀ a b, f (g a b) = min (f a) (f b)) (cs : List (Vec3 F)) :
    ∀ c, (∀ d ∈ c :: cs, f (cs.foldl g c) ≤ f d) ∧ ∃ d ∈ c :: cs, f (cs.foldl g c) = f d :=
  foldl_max_le (F := Fᵒᵈ) (f := f) g hg cs

omit [LinearOrder F] [IsStrictOrderedRing F] in
theorem mem_corners {h v near far : F} {T : Pose F} {p : Vec3 F} :
    p ∈ moved T ⟨near, near * h, near * v⟩ :: [moved T ⟨near, near * h, -near * v⟩,
        moved T ⟨near, -near * h, -near * v⟩, moved T ⟨near, -near * h, near * v⟩, moved T ⟨far, far * h, far * v⟩,
        moved T ⟨far, far * h, -far * v⟩, moved T ⟨far, -far * h, -far * v⟩, moved T ⟨far, -far * h, far * v⟩] ↔
      ∃ d s u, p = moved T (frustumCorner h v near far d s u) := by
  constructor
  · intro hp
    simp only [List.mem_cons, List.not_mem_nil, or_false, neg_mul] at hp
    rcases hp with rfl | rfl | rfl | rfl | rfl | rfl | rfl | rfl
    exacts [⟨false, true, true, rfl⟩, ⟨false, true, false, rfl⟩, ⟨false, false, false, rfl⟩, ⟨false, false, true, rfl⟩,
      ⟨true, true, true, rfl⟩, ⟨true, true, false, rfl⟩, ⟨true, false, false, rfl⟩, ⟨true, false, true, rfl⟩]
  · rintro ⟨d, s, u, rfl⟩
    cases d <;> cases s <;> cases u <;> simp [frustumCorner]

end Vox.Camera
