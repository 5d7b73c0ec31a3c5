/-
C61: the view test of the camera is the frustum; the box of the camera encloses it tightly.
-/
import Verif.Lemmas.Camera
import Mathlib.Analysis.Real.Sqrt
import Mathlib.Tactic.NormNum
import Mathlib.Tactic.FieldSimp

namespace Vox.C61

open Camera Geo Spec

variable {F : Type} [Field F] [LinearOrder F] [IsStrictOrderedRing F]

/-- With a positive near distance below the far distance, a point is in view iff it is in the frustum. -/
theorem C61_view_partial {normalize : Vec3 F → Vec3 F} (hn : ScalesPositively normalize) (tan : F → F) (fovH fovV near far : F)
    (hh : 0 < tan (fovH / 2)) (hv : 0 < tan (fovV / 2)) (h0 : 0 < near) (hf : near < far) {T : Pose F} (hT : IsRotation T)
    (c : State F) : ∃ c', setCameraPose normalize T (setIntrinsicsFromFoV tan fovH fovV near far c) = .ok c' ∧
      ∀ p, isPointInView c' p = true ↔ Visible T (tan (fovH / 2)) (tan (fovV / 2)) near far p := by
  obtain ⟨c', e⟩ : ∃ c', setCameraPose normalize T (setIntrinsicsFromFoV tan fovH fovV near far c) = .ok c' :=
    ⟨_, setCameraPose_eq normalize T _ _ _ near far rfl rfl⟩
  refine ⟨c', e, fun p => ?_⟩
  set h := tan (fovH / 2)
  set v := tan (fovV / 2)
  have hd : 0 < far - near := sub_pos.mpr hf
  have hF : 0 < far := h0.trans hf
  have test : ∀ q, isPointInView c' (moved T q) = true ↔ InFrustum h v near far q := fun q => by
    rw [view_iff hn hT _ c' h v near far rfl rfl e,
      mul_nonneg_iff_of_pos_left (by positivity), mul_nonneg_iff_of_pos_left (by positivity),
      mul_nonneg_iff_of_pos_left (by positivity), mul_nonneg_iff_of_pos_left (by positivity),
      mul_nonneg_iff_of_pos_left (by positivity), mul_nonneg_iff_of_pos_left (by positivity)]
    constructor
    · rintro ⟨a, b, c, d, e, f⟩
      exact ⟨by linarith, by linarith, abs_le.mpr ⟨by linarith, by linarith⟩, abs_le.mpr ⟨by linarith, by linarith⟩⟩
    · rintro ⟨a, b, c, d⟩
      have := abs_le.mp c
      have := abs_le.mp d
      refine ⟨by linarith, by linarith, by linarith, by linarith, by linarith, by linarith⟩
  constructor
  · intro hp
    obtain ⟨q, rfl⟩ := moved_surj hT p
    exact ⟨q, rfl, (test q).mp hp⟩
  · rintro ⟨q, rfl, hq⟩
    exact (test q).mpr hq

/-- The normalisation of vectors over the reals, as Eigen computes it. -/
noncomputable def unitVector (a : Vec3 ℝ) : Vec3 ℝ :=
  if 0 < dot a a then ⟨(√(dot a a))⁻¹ * a.x, (√(dot a a))⁻¹ * a.y, (√(dot a a))⁻¹ * a.z⟩ else a

theorem unitVector_scales : ScalesPositively unitVector := fun a => by
  by_cases h : 0 < dot a a
  · exact ⟨(√(dot a a))⁻¹, inv_pos.mpr (Real.sqrt_pos.mpr h), by rw [unitVector, if_pos h]⟩
  · exact ⟨1, one_pos, by rw [unitVector, if_neg h]; simp⟩

example : 0 < (unitVector ⟨3, 0, 4⟩).x := by
  have : (0 : ℝ) < dot (⟨3, 0, 4⟩ : Vec3 ℝ) ⟨3, 0, 4⟩ := by norm_num [dot]
  rw [unitVector, if_pos this]; positivity

/-- A quarter turn about z. -/
def turned : Pose ℚ := ⟨⟨0, -1, 0⟩, ⟨1, 0, 0⟩, ⟨0, 0, 1⟩, ⟨1, 2, 3⟩⟩

theorem turned_rotation : IsRotation turned := by constructor <;> norm_num [turned]

theorem id_scales : ScalesPositively (id : Vec3 F → Vec3 F) := fun a => ⟨1, one_pos, by simp⟩

example : (0 : ℚ) < (fun x => x) (1 / 2) ∧ (0 : ℚ) < 1 ∧ (1 : ℚ) < 5 ∧ IsRotation turned ∧ ScalesPositively (id : Vec3 ℚ → Vec3 ℚ) ∧
    Visible turned (1 / 2) (1 / 2) 1 5 ⟨0, 4, 4⟩ ∧ ¬ Visible turned (1 / 2) (1 / 2) 1 5 ⟨0, 10, 4⟩ := by
  refine ⟨by norm_num, by norm_num, by norm_num, turned_rotation, id_scales, ⟨⟨2, 1, 1⟩, by norm_num [moved, turned], ?_⟩, ?_⟩
  · constructor <;> norm_num
  · rintro ⟨q, e, hq⟩
    have h1 := congrArg Vec3.y e
    have h2 := hq.far
    norm_num [moved, turned] at h1
    linarith

/-- Given by a focal length, the opening angles follow from the ratio of half the resolution to the focal length. -/
theorem C61_focal_length_partial {normalize : Vec3 F → Vec3 F} (hn : ScalesPositively normalize) (tan atan : F → F) (hta : ∀ x, tan (atan x) = x)
    (resX resY focal near far : F) (hx : 0 < resX) (hy : 0 < resY) (hfo : 0 < focal) (h0 : 0 < near) (hf : near < far) {T : Pose F}
    (hT : IsRotation T) (c : State F) :
    ∃ c', setCameraPose normalize T (setIntrinsicsFromFocalLength tan atan resX resY focal near far c) = .ok c' ∧
      ∀ p, isPointInView c' p = true ↔ Visible T (resX / 2 / focal) (resY / 2 / focal) near far p := by
  have e : ∀ r, tan (2 * atan (r / (2 * focal)) / 2) = r / 2 / focal := fun r => by
    rw [mul_div_cancel_left₀ _ (two_ne_zero), hta, div_div]
  obtain ⟨c', h1, h2⟩ := C61_view_partial hn tan (2 * atan (resX / (2 * focal))) (2 * atan (resY / (2 * focal))) near far
    (by rw [e]; positivity) (by rw [e]; positivity) h0 hf hT c
  rw [e, e] at h2
  exact ⟨c', h1, h2⟩

example : ∃ tan atan : ℚ → ℚ, (∀ x, tan (atan x) = x) ∧ (0 : ℚ) < 640 ∧ (0 : ℚ) < 480 ∧ (0 : ℚ) < 525 :=
  ⟨id, id, fun _ => rfl, by norm_num, by norm_num, by norm_num⟩

/-- With a near distance of zero neither the near plane nor one side plane constrains: exactly the other four tests remain. -/
theorem C61_near_zero {normalize : Vec3 F → Vec3 F} (hn : ScalesPositively normalize) (tan : F → F) (fovH fovV far : F)
    (hh : 0 < tan (fovH / 2)) (hv : 0 < tan (fovV / 2)) (hf : 0 < far) {T : Pose F} (hT : IsRotation T) (c : State F) :
    ∃ c', setCameraPose normalize T (setIntrinsicsFromFoV tan fovH fovV 0 far c) = .ok c' ∧
      ∀ p, isPointInView c' p = true ↔ ∃ q, moved T q = p ∧ q.x ≤ far ∧ q.y ≤ tan (fovH / 2) * q.x ∧ |q.z| ≤ tan (fovV / 2) * q.x := by
  obtain ⟨c', e⟩ : ∃ c', setCameraPose normalize T (setIntrinsicsFromFoV tan fovH fovV 0 far c) = .ok c' :=
    ⟨_, setCameraPose_eq normalize T _ _ _ 0 far rfl rfl⟩
  refine ⟨c', e, fun p => ?_⟩
  set h := tan (fovH / 2)
  set v := tan (fovV / 2)
  have test : ∀ q, isPointInView c' (moved T q) = true ↔ q.x ≤ far ∧ q.y ≤ h * q.x ∧ |q.z| ≤ v * q.x := fun q => by
    rw [view_iff hn hT _ c' h v 0 far rfl rfl e]
    simp only [zero_mul, mul_zero, sub_zero, le_refl, true_and]
    rw [mul_nonneg_iff_of_pos_left (by positivity), mul_nonneg_iff_of_pos_left (by positivity),
      mul_nonneg_iff_of_pos_left (by positivity), mul_nonneg_iff_of_pos_left (by positivity), abs_le]
    constructor
    · rintro ⟨a, b, c, d⟩; exact ⟨by linarith, by linarith, by linarith, by linarith⟩
    · rintro ⟨a, b, c, d⟩; exact ⟨by linarith, by linarith, by linarith, by linarith⟩
  constructor
  · intro hp
    obtain ⟨q, rfl⟩ := moved_surj hT p
    exact ⟨q, rfl, (test q).mp hp⟩
  · rintro ⟨q, rfl, hq⟩
    exact (test q).mpr hq

example : (0 : ℚ) < (fun _ => 1) (0 : ℚ) ∧ (0 : ℚ) < 5 ∧ IsRotation turned := ⟨one_pos, by norm_num, turned_rotation⟩

/-- A camera with near distance zero, a right angle of view and far distance 10 at the origin reports a point 100 to its side. -/
theorem C61_violated : ∃ c', setCameraPose id Pose.id (setIntrinsicsFromFoV (fun _ => 1) 0 0 0 10 (new : State ℚ)) = .ok c' ∧
    isPointInView c' ⟨1, -100, 0⟩ = true ∧ ¬ Visible Pose.id (1 : ℚ) 1 0 10 ⟨1, -100, 0⟩ := by
  have hT : IsRotation (Pose.id : Pose ℚ) := by constructor <;> norm_num [Pose.id]
  obtain ⟨c', h1, h2⟩ := C61_near_zero id_scales (fun _ : ℚ => (1 : ℚ)) 0 0 10 (by norm_num) (by norm_num) (by norm_num) hT new
  refine ⟨c', h1, (h2 _).mpr ⟨⟨1, -100, 0⟩, by norm_num [moved, Pose.id], by norm_num, by norm_num, by norm_num⟩, ?_⟩
  rintro ⟨q, e, hq⟩
  have e1 := congrArg Vec3.x e
  have e2 := congrArg Vec3.y e
  norm_num [moved, Pose.id] at e1 e2
  have := hq.horizontal
  rw [e1, e2] at this
  norm_num at this

/-- The box encloses every visible point, and each of its six sides touches a visible point. -/
theorem C61_aabb (normalize : Vec3 F → Vec3 F) (tan : F → F) (fovH fovV near far : F) (hh : 0 ≤ tan (fovH / 2))
    (hv : 0 ≤ tan (fovV / 2)) (h0 : 0 ≤ near) (hf : near ≤ far) (T : Pose F) (c : State F) :
    ∃ c' lo hi, setCameraPose normalize T (setIntrinsicsFromFoV tan fovH fovV near far c) = .ok c' ∧ getAabb c' = .ok (lo, hi) ∧
      (∀ p, Visible T (tan (fovH / 2)) (tan (fovV / 2)) near far p → BoxLe lo p ∧ BoxLe p hi) ∧
      ∀ f : Vec3 F → F, f = Vec3.x ∨ f = Vec3.y ∨ f = Vec3.z →
        (∃ p, Visible T (tan (fovH / 2)) (tan (fovV / 2)) near far p ∧ f p = f lo) ∧
        (∃ p, Visible T (tan (fovH / 2)) (tan (fovV / 2)) near far p ∧ f p = f hi) := by
  set h := tan (fovH / 2)
  set v := tan (fovV / 2)
  refine ⟨_, _, _, setCameraPose_eq normalize T _ _ _ near far rfl rfl, rfl, ?_, ?_⟩
  · rintro p ⟨q, rfl, hq⟩
    have up : ∀ (a : Vec3 F) (t : F) (B : F), (∀ d s u, a.x * (frustumCorner h v near far d s u).x +
        a.y * (frustumCorner h v near far d s u).y + a.z * (frustumCorner h v near far d s u).z + t ≤ B) →
        a.x * q.x + a.y * q.y + a.z * q.z + t ≤ B := by
      intro a t B hB
      obtain ⟨d, s, u, h1⟩ := exists_corner_ge a t hq
      exact h1.trans (hB d s u)
    have down : ∀ (a : Vec3 F) (t : F) (B : F), (∀ d s u, B ≤ a.x * (frustumCorner h v near far d s u).x +
        a.y * (frustumCorner h v near far d s u).y + a.z * (frustumCorner h v near far d s u).z + t) →
        B ≤ a.x * q.x + a.y * q.y + a.z * q.z + t := by
      intro a t B hB
      have := up ⟨-a.x, -a.y, -a.z⟩ (-t) (-B) fun d s u => by have := hB d s u; dsimp only; linarith
      dsimp only at this
      linarith
    refine ⟨⟨?_, ?_, ?_⟩, ?_, ?_, ?_⟩
    · exact down T.r0 T.t.x _ fun d s u => (foldl_min_le (f := Vec3.x) _ (fun _ _ => rfl) _ _).1 _ (mem_corners.mpr ⟨d, s, u, rfl⟩)
    · exact down T.r1 T.t.y _ fun d s u => (foldl_min_le (f := Vec3.y) _ (fun _ _ => rfl) _ _).1 _ (mem_corners.mpr ⟨d, s, u, rfl⟩)
    · exact down T.r2 T.t.z _ fun d s u => (foldl_min_le (f := Vec3.z) _ (fun _ _ => rfl) _ _).1 _ (mem_corners.mpr ⟨d, s, u, rfl⟩)
    · exact up T.r0 T.t.x _ fun d s u => (foldl_max_le (f := Vec3.x) _ (fun _ _ => rfl) _ _).1 _ (mem_corners.mpr ⟨d, s, u, rfl⟩)
    · exact up T.r1 T.t.y _ fun d s u => (foldl_max_le (f := Vec3.y) _ (fun _ _ => rfl) _ _).1 _ (mem_corners.mpr ⟨d, s, u, rfl⟩)
    · exact up T.r2 T.t.z _ fun d s u => (foldl_max_le (f := Vec3.z) _ (fun _ _ => rfl) _ _).1 _ (mem_corners.mpr ⟨d, s, u, rfl⟩)
  · intro f hf'
    have hmin : ∀ a b, f (Vec3.map₂ min a b) = min (f a) (f b) := by rcases hf' with rfl | rfl | rfl <;> exact fun _ _ => rfl
    have hmax : ∀ a b, f (Vec3.map₂ max a b) = max (f a) (f b) := by rcases hf' with rfl | rfl | rfl <;> exact fun _ _ => rfl
    constructor
    · obtain ⟨p, hp, e⟩ := (foldl_min_le (f := f) _ hmin _ _).2
      obtain ⟨d, s, u, rfl⟩ := mem_corners.mp hp
      exact ⟨_, ⟨_, rfl, corner_inFrustum hh hv h0 hf d s u⟩, e.symm⟩
    · obtain ⟨p, hp, e⟩ := (foldl_max_le (f := f) _ hmax _ _).2
      obtain ⟨d, s, u, rfl⟩ := mem_corners.mp hp
      exact ⟨_, ⟨_, rfl, corner_inFrustum hh hv h0 hf d s u⟩, e.symm⟩

example : (0 : ℚ) ≤ (fun x => x) (1 / 2) ∧ (0 : ℚ) ≤ 0 ∧ (0 : ℚ) ≤ 5 ∧ Visible turned (1 / 2) (1 / 2) 0 5 ⟨0, 4, 4⟩ := by
  refine ⟨by norm_num, le_rfl, by norm_num, ⟨2, 1, 1⟩, by norm_num [moved, turned], ?_⟩
  constructor <;> norm_num

omit [IsStrictOrderedRing F] in
/-- Until a pose is set after the intrinsics, every point counts as in view and the box is not set. -/
theorem C61_no_pose (normalize : Vec3 F → Vec3 F) (tan : F → F) (fovH fovV near far : F) (T : Pose F) :
    (∀ p, isPointInView (setIntrinsicsFromFoV tan fovH fovV near far new) p = true) ∧
    ∃ c', setCameraPose normalize T (new : State F) = .ok c' ∧
      (∀ p, isPointInView (setIntrinsicsFromFoV tan fovH fovV near far c') p = true) ∧
      getAabb (setIntrinsicsFromFoV tan fovH fovV near far c') = .ub :=
  ⟨fun _ => rfl, _, rfl, fun _ => rfl, rfl⟩

omit [IsStrictOrderedRing F] in
/-- The pose of the body is the one that was set, if the extrinsic calibration is a rotation. -/
theorem C61_body_pose (normalize : Vec3 F → Vec3 F) (T : Pose F) (c c' : State F) (hc : IsRotation c.T_C_B)
    (e : setBodyPose normalize T c = .ok c') (p : Vec3 F) : moved (getBodyPose c') p = moved T p := by
  have key : c'.T_G_C = T.mul c.T_C_B.inverse ∧ c'.T_C_B = c.T_C_B := by
    unfold setBodyPose setCameraPose calculateBoundingPlanes at e
    split at e
    · obtain rfl := Outcome.ok.inj e; exact ⟨rfl, rfl⟩
    · split at e
      · obtain rfl := Outcome.ok.inj e; exact ⟨rfl, rfl⟩
      · cases e
  rw [getBodyPose, key.1, key.2]
  rw [moved_mul, moved_mul]
  exact congrArg (moved T) (moved_inj hc (moved_inverse hc _))

example : ∃ c' : State ℚ, setBodyPose id turned (setExtrinsics turned (setIntrinsicsFromFoV (fun x => x) 1 1 1 5 new)) = .ok c' ∧
    IsRotation (setExtrinsics turned (setIntrinsicsFromFoV (fun x => x) 1 1 1 5 (new : State ℚ))).T_C_B :=
  ⟨_, setCameraPose_eq id _ _ _ _ 1 5 rfl rfl, turned_rotation⟩

/-- The visible region seen from the body: a camera posed through its body sees the frustum moved by the calibration and the body. -/
theorem C61_body_view_partial {normalize : Vec3 F → Vec3 F} (hn : ScalesPositively normalize) (tan : F → F) (fovH fovV near far : F)
    (hh : 0 < tan (fovH / 2)) (hv : 0 < tan (fovV / 2)) (h0 : 0 < near) (hf : near < far) {B S : Pose F} (hB : IsRotation B)
    (hS : IsRotation S) (c : State F) :
    ∃ c', setBodyPose normalize B (setExtrinsics S (setIntrinsicsFromFoV tan fovH fovV near far c)) = .ok c' ∧
      ∀ b, isPointInView c' (moved B b) = true ↔ InFrustum (tan (fovH / 2)) (tan (fovV / 2)) near far (moved S b) := by
  obtain ⟨c', e, h⟩ := C61_view_partial hn tan fovH fovV near far hh hv h0 hf (rotation_mul hB (rotation_inverse hS)) (setExtrinsics S c)
  refine ⟨c', e, fun b => ?_⟩
  rw [h]
  constructor
  · rintro ⟨q, e1, hq⟩
    rw [moved_mul] at e1
    rwa [← moved_inj hB e1, moved_inverse hS]
  · intro hq
    exact ⟨_, by rw [moved_mul]; exact congrArg (moved B) (moved_inj hS (moved_inverse hS _)), hq⟩

example : IsRotation turned ∧ InFrustum (1 / 2 : ℚ) (1 / 2) 1 10 (moved turned ⟨-2, -3, -2⟩) := by
  refine ⟨turned_rotation, ?_⟩
  constructor <;> norm_num [moved, turned]

omit [LinearOrder F] [IsStrictOrderedRing F] in
/-- The bounding lines are well defined once the intrinsics are set, and contain every edge of the frustum: the pairs of corners that
differ in one of depth, horizontal side and vertical side. -/
theorem C61_lines (tan : F → F) (fovH fovV near far : F) (c : State F) :
    ∃ l, getBoundingLines (setIntrinsicsFromFoV tan fovH fovV near far c) = .ok l ∧ l.length = 24 ∧
      ∀ a b : Bool,
        let k := fun d s u => moved c.T_G_C (frustumCorner (tan (fovH / 2)) (tan (fovV / 2)) near far d s u)
        HasLine (k false a b) (k true a b) l ∧ HasLine (k a false b) (k a true b) l ∧ HasLine (k a b false) (k a b true) l := by
  refine ⟨_, rfl, rfl, ?_⟩
  intro a b
  simp only [apply_eq_moved, neg_mul]
  cases a <;> cases b <;> refine ⟨?_, ?_, ?_⟩ <;>
    repeat first | exact HasLine.here _ | exact HasLine.swapped _ | apply HasLine.later

/-- The three far points lie at the far distance and are not on a line. -/
theorem C61_far_points (tan : F → F) (fovH fovV near far : F) (hh : 0 < tan (fovH / 2)) (hv : 0 < tan (fovV / 2)) (hf : 0 < far)
    (c : State F) (hT : IsRotation c.T_G_C) :
    ∃ p1 p2 p3, getFarPlanePoints (setIntrinsicsFromFoV tan fovH fovV near far c) = .ok [p1, p2, p3] ∧
      (∀ p ∈ [p1, p2, p3], ∃ q, moved c.T_G_C q = p ∧ q.x = far) ∧
      ¬ ∃ a b : F, (a ≠ 0 ∨ b ≠ 0) ∧ smul a (p2 - p1) + smul b (p3 - p1) = 0 := by
  refine ⟨_, _, _, rfl, ?_, ?_⟩
  · simp only [List.mem_cons, List.not_mem_nil, or_false]
    rintro p (rfl | rfl | rfl)
    exacts [⟨_, rfl, rfl⟩, ⟨_, rfl, rfl⟩, ⟨_, rfl, rfl⟩]
  · rintro ⟨a, b, hab, e⟩
    set h := tan (fovH / 2) with hhd
    set v := tan (fovV / 2) with hvd
    have e0 : moved c.T_G_C ⟨0, -(2 * far * h) * b, -(2 * far * v) * (a + b)⟩ = moved c.T_G_C 0 := by
      have e1 := congrArg Vec3.x e
      have e2 := congrArg Vec3.y e
      have e3 := congrArg Vec3.z e
      simp only [setIntrinsicsFromFoV, apply_eq_moved, moved, smul, Vec3.add_x, Vec3.add_y, Vec3.add_z, Vec3.sub_x, Vec3.sub_y, Vec3.sub_z, ← hhd,
        ← hvd, Vec3.zero_x, Vec3.zero_y, Vec3.zero_z] at e1 e2 e3
      ext <;> simp only [moved, Vec3.zero_x, Vec3.zero_y, Vec3.zero_z]
      · linear_combination e1
      · linear_combination e2
      · linear_combination e3
    have e1 := moved_inj hT e0
    have hb : b = 0 := by
      have := congrArg Vec3.y e1
      simp only [Vec3.zero_y, mul_eq_zero, neg_eq_zero] at this
      rcases this with ((h | h) | h) | h
      · exact absurd h two_ne_zero
      · exact absurd h hf.ne'
      · exact absurd h hh.ne'
      · exact h
    have ha : a + b = 0 := by
      have := congrArg Vec3.z e1
      simp only [Vec3.zero_z, mul_eq_zero, neg_eq_zero] at this
      rcases this with ((h | h) | h) | h
      · exact absurd h two_ne_zero
      · exact absurd h hf.ne'
      · exact absurd h hv.ne'
      · exact h
    rw [hb, add_zero] at ha
    rcases hab with h | h
    · exact h ha
    · exact h hb

example : (0 : ℚ) < (fun x => x) (1 / 2) ∧ (0 : ℚ) < 5 ∧ IsRotation (new : State ℚ).T_G_C :=
  ⟨by norm_num, by norm_num, by constructor <;> norm_num [new, Pose.id]⟩

end Vox.C61
