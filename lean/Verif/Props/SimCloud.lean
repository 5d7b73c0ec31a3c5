/-
C72: simulated views of a world.
-/
import Verif.Lemmas.SimCloud
import Verif.Props.Objects
import Verif.Props.Camera

namespace Vox.C72

open Spec Sim Geo

variable {F : Type} [Field F] [LinearOrder F]

/-- No object answers with values that are not a number when seen from `origin`. -/
def NoNan (w : List (Target F)) (origin : Vec3 F) (M : F) : Prop :=
  ∀ o ∈ w, ∀ d : Vec3 F, d.x ^ 2 + d.y ^ 2 + d.z ^ 2 = 1 → o.ray origin d M ≠ .nan

variable [IsStrictOrderedRing F]

/-- The cloud of a view with even resolution: for each pixel in turn, the point and colour of the nearest hit along its ray, if any. The
pixels' rays are unit vectors within the field of view (`C72_field_of_view`). Odd resolutions: `C72_odd`. -/
theorem C72_cloud_partial {sqrt : F → F} (hs : IsSqrt sqrt) {align : Vec3 F → Vec3 F → Pose F} (w : List (Target F)) (origin dir : Vec3 F)
    (hR : IsRotation (align ⟨1, 0, 0⟩ dir)) {a : ℕ} (ha : 0 < a) (b : ℕ) (t M : F) (hn : NoNan w origin M)
    (cloud : List (Vec3 F) × List Color) :
    ∃ (rays : ℤ × ℤ → Vec3 F) (seen : ℤ × ℤ → Option (Vec3 F × F × Color)),
      (∀ p, IsPixelRay (align ⟨1, 0, 0⟩ dir) t a p.1 p.2 (rays p)) ∧ (∀ p, Nearest w origin (rays p) M (seen p)) ∧
      viewpointCloud sqrt align w origin dir (2 * a) (2 * b) t M cloud =
        (cloud.1 ++ ((imagePixels a b).filterMap seen).map (·.1), cloud.2 ++ ((imagePixels a b).filterMap seen).map (·.2.2)) := by
  have hray := fun p : ℤ × ℤ => pixelDirection_ray hs hR (t := t) ha p.1 p.2
  have hc := fun p : ℤ × ℤ => cast_nearest w origin (pixelDirection sqrt (align ⟨1, 0, 0⟩ dir) (focalLength (2 * a) t) p.1 p.2) M fun o ho => hn o ho _ (hray p).1
  refine ⟨fun p => pixelDirection sqrt (align ⟨1, 0, 0⟩ dir) (focalLength (2 * a) t) p.1 p.2,
    fun p => (cast w origin (pixelDirection sqrt (align ⟨1, 0, 0⟩ dir) (focalLength (2 * a) t) p.1 p.2) M).seen,
    hray, fun p => (hc p).2.2, ?_⟩
  have e := cloud_fold (fun p : ℤ × ℤ => cast w origin (pixelDirection sqrt (align ⟨1, 0, 0⟩ dir) (focalLength (2 * a) t) p.1 p.2) M)
    (imagePixels a b) (fun p _ => ⟨(hc p).1, (hc p).2.1⟩) cloud
  rw [← pixelPairs_even] at e ⊢
  exact e

/-- A world of one sphere and one plane. -/
noncomputable def demo : List (Obj ℝ) := [⟨.sphere ⟨5, 0, 0⟩ 1, white⟩, ⟨.plane ⟨8, 0, 0⟩ ⟨-1, 0, 0⟩, white⟩]

theorem demo_noNan : NoNan (demo.map (Obj.target Real.sqrt)) ⟨0, 0, 0⟩ 10 := by
  intro o ho d hd
  simp only [demo, List.map_cons, List.map_nil, List.mem_cons, List.not_mem_nil, or_false] at ho
  rcases ho with rfl | rfl
  · intro h
    have := (C60.C60_sphere_ray C60.real_sqrt ⟨5, 0, 0⟩ 1 ⟨0, 0, 0⟩ d hd 10).1
    simp only [Obj.target] at h
    rw [h] at this
    exact this
  · intro h
    simp only [Obj.target, ray, planeRay] at h
    split_ifs at h

example : IsRotation (Pose.id : Pose ℝ) ∧ NoNan (demo.map (Obj.target Real.sqrt)) ⟨0, 0, 0⟩ 10 := by
  refine ⟨⟨?_, ?_, ?_, ?_, ?_, ?_, ?_⟩, demo_noNan⟩ <;> norm_num [Pose.id]

/-- The rays of all pixels lie within the horizontal field of view: before the rotation, sideways at most `t` times forward. -/
theorem C72_field_of_view {R : Pose F} {t : F} (ht : 0 ≤ t) {a b : ℕ} (ha : 0 < a) {p : ℤ × ℤ} (hp : p ∈ imagePixels a b) {d : Vec3 F}
    (hd : IsPixelRay R t a p.1 p.2 d) : ∃ c : Vec3 F, d = R.rotate c ∧ 0 < c.x ∧ |c.y| ≤ t * c.x ∧ |c.z| * a ≤ t * c.x * b := by
  obtain ⟨-, k, hk, rfl⟩ := hd
  have ha' : (0 : F) < a := by exact_mod_cast ha
  obtain ⟨h1, h2⟩ : |(p.1 : F)| ≤ a ∧ |(p.2 : F)| ≤ b := by
    unfold imagePixels at hp
    simp only [List.mem_flatMap, List.mem_map, List.mem_range] at hp
    obtain ⟨i, hi, j, hj, rfl⟩ := hp
    have e1 : |(i : ℤ) - a| ≤ a := by rw [abs_le]; omega
    have e2 : |(j : ℤ) - b| ≤ b := by rw [abs_le]; omega
    exact ⟨by exact_mod_cast e1, by exact_mod_cast e2⟩
  refine ⟨_, rfl, hk, ?_, ?_⟩
  · simp only
    rw [abs_mul, abs_mul, abs_div, abs_of_pos hk, abs_of_nonneg ht, abs_of_pos ha', mul_comm t k]
    have : |(p.1 : F)| / a ≤ 1 := (div_le_one ha').2 h1
    have := mul_le_mul_of_nonneg_left this (mul_nonneg hk.le ht)
    linarith
  · simp only
    rw [abs_mul, abs_mul, abs_div, abs_of_pos hk, abs_of_nonneg ht, abs_of_pos ha']
    have e : k * (t * (|(p.2 : F)| / a)) * a = k * t * |(p.2 : F)| := by field_simp
    rw [e]
    have := mul_le_mul_of_nonneg_left h2 (mul_nonneg hk.le ht)
    linarith

example : ((-2 : ℤ), (1 : ℤ)) ∈ imagePixels 2 3 ∧ IsPixelRay (Pose.id : Pose ℚ) (3 / 4) 2 (-2) 0 ⟨4 / 5, -3 / 5, 0⟩ := by
  refine ⟨by decide, by norm_num, 4 / 5, by norm_num, ?_⟩
  ext <;> norm_num [Pose.id, Pose.rotate, dot]

omit [IsStrictOrderedRing F] in
/-- A view with an odd number of rows or columns is that with one less (the field of view stays the same, so the pixels of odd widths are
also narrower): an image of one pixel is empty. -/
theorem C72_odd (sqrt : F → F) (align : Vec3 F → Vec3 F → Pose F) (w : List (Target F)) (origin dir : Vec3 F) (a b : ℕ) (t M : F)
    (cloud : List (Vec3 F) × List Color) :
    viewpointCloud sqrt align w origin dir (2 * a) (2 * b + 1) t M cloud = viewpointCloud sqrt align w origin dir (2 * a) (2 * b) t M cloud ∧
      viewpointCloud sqrt align w origin dir 1 1 t M cloud = cloud := by
  constructor
  · unfold viewpointCloud pixelPairs
    rw [pixels_odd]
  · rfl

omit [IsStrictOrderedRing F] in
/-- Worlds of objects that report first hits (C60: spheres seen from outside, planes and so on): each point of the cloud is the first
point of any object along the ray of its pixel, and a pixel without point has no object before the maximum distance. -/
theorem C72_first (sqrt : F → F) (w : List (Obj F)) (origin d : Vec3 F) (M : F)
    (hw : ∀ o ∈ w, ∃ strict, FirstHit o.shape origin d M strict (ray sqrt o.shape origin d M)) :
    ∀ r, Nearest (w.map (Obj.target sqrt)) origin d M r → match r with
      | none => ∀ s, 0 ≤ s → s < M → ∀ o ∈ w, ¬ OnSurface o.shape (rayPoint origin d s)
      | some (p, t, c) => p = rayPoint origin d t ∧ 0 ≤ t ∧ t ≤ M ∧ (∃ o ∈ w, OnSurface o.shape p ∧ o.color = c) ∧
          ∀ s, 0 ≤ s → s < t → ∀ o ∈ w, ¬ OnSurface o.shape (rayPoint origin d s) := by
  have first : ∀ o ∈ w, ∀ p t, ray sqrt o.shape origin d M = .hit p t → p = rayPoint origin d t ∧ 0 ≤ t ∧ t ≤ M ∧ OnSurface o.shape p ∧
      ∀ s, 0 ≤ s → s < t → ¬ OnSurface o.shape (rayPoint origin d s) := by
    intro o ho p t e
    obtain ⟨strict, h⟩ := hw o ho
    rw [e] at h
    obtain ⟨h1, h2, h3, h4, h5⟩ := h
    refine ⟨h1, h2, ?_, h4, h5⟩
    cases strict
    · simpa using h3
    · exact le_of_lt (by simpa using h3)
  have missed : ∀ o ∈ w, ray sqrt o.shape origin d M = .miss → ∀ s, 0 ≤ s → s < M → ¬ OnSurface o.shape (rayPoint origin d s) := by
    intro o ho e s h0 hs
    obtain ⟨strict, h⟩ := hw o ho
    rw [e] at h
    exact h s h0 (by cases strict <;> simp [hs, hs.le])
  rintro (_ | ⟨p, t, c⟩) hr
  · intro s h0 hs o ho
    exact missed o ho (hr _ (List.mem_map_of_mem ho)) s h0 hs
  · obtain ⟨before, o, after, e, h1, h2, h3, h4⟩ := hr
    have mem : o ∈ w.map (Obj.target sqrt) := by rw [e]; simp
    obtain ⟨o', ho', rfl⟩ := List.mem_map.1 mem
    obtain ⟨f1, f2, f3, f4, f5⟩ := first o' ho' p t h1
    refine ⟨f1, f2, f3, ⟨o', ho', f4, h2⟩, ?_⟩
    intro s h0 hs q hq
    have mq : Obj.target sqrt q ∈ before ++ Obj.target sqrt o' :: after := by rw [← e]; exact List.mem_map_of_mem hq
    cases hray : ray sqrt q.shape origin d M with
    | nan =>
      obtain ⟨strict, h⟩ := hw q hq
      rw [hray] at h
      exact h.elim
    | miss => exact missed q hq hray s h0 (hs.trans_le f3)
    | hit p' t' =>
      have : t ≤ t' := by
        rcases List.mem_append.1 mq with m | m
        · exact (h3 _ m p' t' hray).le
        · rcases List.mem_cons.1 m with m | m
          · have hr' : (Obj.target sqrt q).ray origin d M = .hit p' t' := hray
            rw [m, h1] at hr'
            obtain ⟨-, rfl⟩ := Ray.hit.inj hr'
            exact le_rfl
          · exact h4 _ m p' t' hray
      exact (first q hq p' t' hray).2.2.2.2 s h0 (hs.trans_le this)

example : ∀ o ∈ demo, ∃ strict, FirstHit o.shape ⟨0, 0, 0⟩ ⟨3 / 5, 4 / 5, 0⟩ 20 strict
    (ray Real.sqrt o.shape ⟨0, 0, 0⟩ ⟨3 / 5, 4 / 5, 0⟩ 20) := by
  intro o ho
  simp only [demo, List.mem_cons, List.not_mem_nil, or_false] at ho
  rcases ho with rfl | rfl
  · refine ⟨_, (C60.C60_sphere_ray C60.real_sqrt _ _ _ _ (by norm_num) _).2 ?_⟩
    norm_num [Solid, sqDist]
  · refine ⟨_, C60.C60_plane_ray _ _ _ _ _ _ (.inl ?_)⟩
    norm_num [eps, abs_of_neg]

/-- An object whose hit is not a number hides all objects behind it in the list: nothing is reported for the pixel although the plane is hit,
and with the objects in the other order it is. -/
theorem C72_nan_hides :
    let cube : Obj ℚ := ⟨.cube ⟨0, 0, 0⟩ ⟨2, 2, 2⟩, white⟩
    let wall : Obj ℚ := ⟨.plane ⟨0, 3, 0⟩ ⟨0, -1, 0⟩, white⟩
    let view (w : List (Obj ℚ)) := push ([], []) (cast (w.map (Obj.target fun x => x)) ⟨-1, 2, 0⟩ ⟨0, 1, 0⟩ 100)
    view [cube, wall] = ([], []) ∧ view [wall, cube] = ([⟨-1, 3, 0⟩], [white]) ∧ view [wall] = ([⟨-1, 3, 0⟩], [white]) := by
  decide +kernel

/-! ### Noise -/

/-- The noisy cloud: the same pixels and colours, each point moved along its ray by one value of the generator, not behind the camera. -/
theorem C72_noisy_partial {sqrt : F → F} (hs : IsSqrt sqrt) {align : Vec3 F → Vec3 F → Pose F} (noise : ℕ → F) (w : List (Target F))
    (origin dir : Vec3 F) (hR : IsRotation (align ⟨1, 0, 0⟩ dir)) {a : ℕ} (ha : 0 < a) (b : ℕ) (t M : F) (hn : NoNan w origin M)
    (cloud : Noisy F) :
    ∃ (rays : ℤ × ℤ → Vec3 F) (seen : ℤ × ℤ → Option (Vec3 F × F × Color)),
      (∀ p, IsPixelRay (align ⟨1, 0, 0⟩ dir) t a p.1 p.2 (rays p)) ∧ (∀ p, Nearest w origin (rays p) M (seen p)) ∧
      noisyViewpointCloud sqrt align noise w origin dir (2 * a) (2 * b) t M cloud =
        let hits := (imagePixels a b).filterMap fun p => (seen p).map fun r => (rays p, r)
        ⟨cloud.points ++ hits.mapIdx (fun k r => rayPoint origin r.1 (max 0 (r.2.2.1 + noise (cloud.drawn + k)))),
          cloud.colors ++ hits.map (·.2.2.2), cloud.drawn + hits.length⟩ := by
  have hray := fun p : ℤ × ℤ => pixelDirection_ray hs hR (t := t) ha p.1 p.2
  have hc := fun p : ℤ × ℤ => cast_nearest w origin (pixelDirection sqrt (align ⟨1, 0, 0⟩ dir) (focalLength (2 * a) t) p.1 p.2) M fun o ho => hn o ho _ (hray p).1
  refine ⟨fun p => pixelDirection sqrt (align ⟨1, 0, 0⟩ dir) (focalLength (2 * a) t) p.1 p.2,
    fun p => (cast w origin (pixelDirection sqrt (align ⟨1, 0, 0⟩ dir) (focalLength (2 * a) t) p.1 p.2) M).seen,
    hray, fun p => (hc p).2.2, ?_⟩
  have e := noisy_fold noise origin (fun p : ℤ × ℤ => pixelDirection sqrt (align ⟨1, 0, 0⟩ dir) (focalLength (2 * a) t) p.1 p.2)
    (fun p => cast w origin (pixelDirection sqrt (align ⟨1, 0, 0⟩ dir) (focalLength (2 * a) t) p.1 p.2) M) (imagePixels a b)
    (fun p _ => ⟨(hc p).1, (hc p).2.1⟩) cloud
  rw [← pixelPairs_even] at e ⊢
  exact e

example : IsSqrt Real.sqrt ∧ NoNan (demo.map (Obj.target Real.sqrt)) ⟨0, 0, 0⟩ 10 := ⟨C60.real_sqrt, demo_noNan⟩

omit [IsStrictOrderedRing F] in
/-- With noise of size zero, the noisy view from a viewpoint is the view, for objects whose hits lie on the ray at the reported distance. -/
theorem C72_zero_noise (sqrt : F → F) (align : Vec3 F → Vec3 F → Pose F) (w : List (Target F)) (origin dir : Vec3 F) (resX resY : ℤ) (t M : F)
    (hw : ∀ o ∈ w, ∀ d, o.ray origin d M ≠ .nan ∧ ∀ p s, o.ray origin d M = .hit p s → p = rayPoint origin d s ∧ 0 ≤ s)
    (ps : List (Vec3 F)) (cs : List Color) (n : ℕ) :
    let c := noisyViewpointCloud sqrt align (fun _ => 0) w origin dir resX resY t M ⟨ps, cs, n⟩
    (c.points, c.colors) = viewpointCloud sqrt align w origin dir resX resY t M (ps, cs) := by
  unfold noisyViewpointCloud viewpointCloud
  simp only
  generalize pixelPairs resX resY = xs
  induction xs generalizing ps cs n with
  | nil => rfl
  | cons x xs ih =>
    simp only [List.foldl_cons]
    set d := pixelDirection sqrt (align ⟨1, 0, 0⟩ dir) (focalLength resX t) x.1 x.2
    obtain ⟨h1, h2, h3⟩ := cast_nearest w origin d M fun o ho => (hw o ho d).1
    rw [pushNoisy_seen _ _ _ _ _ h1 h2, push_seen _ _ h1 h2, ih]
    congr 2
    cases hseen : (cast w origin d M).seen with
    | none => rfl
    | some r =>
      obtain ⟨p, s, c⟩ := r
      rw [hseen] at h3
      obtain ⟨before, o, after, e, h4, -⟩ := h3
      obtain ⟨h5, h6⟩ := (hw o (by rw [e]; simp) d).2 p s h4
      simp only [Option.toList_some, List.map_cons, List.map_nil, add_zero]
      rw [max_eq_right h6, h5]

example : ∀ o ∈ [Obj.target (fun x : ℚ => x) ⟨.plane ⟨8, 0, 0⟩ ⟨-1, 0, 0⟩, white⟩], ∀ d, o.ray ⟨0, 0, 0⟩ d 10 ≠ .nan ∧
    ∀ p s, o.ray ⟨0, 0, 0⟩ d 10 = .hit p s → p = rayPoint ⟨0, 0, 0⟩ d s ∧ 0 ≤ s := by
  intro o ho d
  rw [List.mem_singleton.1 ho]
  simp only [Obj.target, ray, planeRay]
  split_ifs with h1 h2 h3
  · simp
  · simp
  · simp
  · refine ⟨nofun, ?_⟩
    intro p s h
    obtain ⟨rfl, rfl⟩ := Ray.hit.inj h
    exact ⟨rfl, not_lt.1 h2⟩

omit [IsStrictOrderedRing F] in
/-- The roll of a pose is ignored: a camera turned by 90 degrees about its view direction sees the same image. -/
theorem C72_roll_ignored (sqrt : F → F) (align : Vec3 F → Vec3 F → Pose F) (w : List (Target F)) (resX resY : ℤ) (t M : F)
    (cloud : List (Vec3 F) × List Color) :
    let turned : Pose F := ⟨⟨1, 0, 0⟩, ⟨0, 0, -1⟩, ⟨0, 1, 0⟩, 0⟩
    IsRotation turned ∧ turned.rotate ⟨0, 1, 0⟩ = ⟨0, 0, 1⟩ ∧
      transformCloud sqrt align w turned resX resY t M cloud = transformCloud sqrt align w Pose.id resX resY t M cloud := by
  refine ⟨⟨?_, ?_, ?_, ?_, ?_, ?_, ?_⟩, ?_, ?_⟩
  all_goals try norm_num
  · ext <;> norm_num [Pose.rotate, dot]
  · unfold transformCloud
    have e : (⟨⟨1, 0, 0⟩, ⟨0, 0, -1⟩, ⟨0, 1, 0⟩, 0⟩ : Pose F).rotate ⟨1, 0, 0⟩ = (Pose.id : Pose F).rotate ⟨1, 0, 0⟩ := by
      ext <;> norm_num [Pose.rotate, dot, Pose.id]
    rw [e]
    rfl

/-- The rotations from x to x and from x to z. -/
noncomputable def alignXZ (a b : Vec3 ℝ) : Pose ℝ := if b.x = a.x then Pose.id else ⟨⟨0, 0, -1⟩, ⟨0, 1, 0⟩, ⟨1, 0, 0⟩, 0⟩

/-- A wall across the x axis. -/
noncomputable def wall : Target ℝ := Obj.target Real.sqrt ⟨.plane ⟨5, 0, 0⟩ ⟨-1, 0, 0⟩, white⟩

theorem wall_ray (d : Vec3 ℝ) : wall.ray 0 d 6 = if |d.x| < eps then .miss else if 5 / d.x < 0 then .miss else if 5 / d.x > 6 then .miss
    else .hit (0 + smul (5 / d.x) d) (5 / d.x) := by
  have e1 : dot d ⟨-1, 0, 0⟩ = -d.x := by simp [dot]
  have e2 : dot ((⟨5, 0, 0⟩ : Vec3 ℝ) - 0) ⟨-1, 0, 0⟩ = -5 := by simp [dot]
  simp only [wall, Obj.target, ray, planeRay, e1, e2, abs_neg, neg_div_neg_eq]

theorem wall_noNan : NoNan [wall] 0 6 := by
  intro o ho d _ h
  rw [List.mem_singleton.1 ho, wall_ray] at h
  split_ifs at h

theorem xz_rotation : IsRotation (⟨⟨0, 0, -1⟩, ⟨0, 1, 0⟩, ⟨1, 0, 0⟩, 0⟩ : Pose ℝ) := by
  constructor <;> norm_num

/-- The two views from a pose look in different directions: without noise, the plain view from the identity pose sees a wall across the x
axis, the noisy one does not. -/
theorem C72_noisy_direction :
    (transformCloud Real.sqrt alignXZ [wall] Pose.id 2 2 (1 / 2) 6 ([], [])).1 ≠ [] ∧
    (noisyTransformCloud Real.sqrt alignXZ (fun _ => 0) [wall] Pose.id 2 2 (1 / 2) 6 ⟨[], [], 0⟩).points = [] := by
  have ex : (Pose.id : Pose ℝ).rotate ⟨1, 0, 0⟩ = ⟨1, 0, 0⟩ := by ext <;> norm_num [Pose.id, Pose.rotate, dot]
  have ez : (Pose.id : Pose ℝ).rotate ⟨0, 0, 1⟩ = ⟨0, 0, 1⟩ := by ext <;> norm_num [Pose.id, Pose.rotate, dot]
  have ax : alignXZ ⟨1, 0, 0⟩ ⟨1, 0, 0⟩ = Pose.id := if_pos rfl
  have az : alignXZ ⟨1, 0, 0⟩ ⟨0, 0, 1⟩ = ⟨⟨0, 0, -1⟩, ⟨0, 1, 0⟩, ⟨1, 0, 0⟩, 0⟩ := if_neg (by norm_num)
  constructor
  · have hR : IsRotation (alignXZ ⟨1, 0, 0⟩ ⟨1, 0, 0⟩) := by
      rw [ax]; constructor <;> norm_num [Pose.id]
    obtain ⟨rays, seen, h1, h2, h3⟩ := C72_cloud_partial C60.real_sqrt [wall] 0 ⟨1, 0, 0⟩ hR one_pos 1 (1 / 2) 6 wall_noNan ([], [])
    unfold transformCloud
    rw [ex]
    have e : (Pose.id : Pose ℝ).t = 0 := rfl
    rw [e]
    norm_num at h3
    rw [h3]
    obtain ⟨k1, k, k2, k3⟩ := h1 (0, 0)
    rw [ax] at k3
    have k4 : rays (0, 0) = ⟨k, 0, 0⟩ := by rw [k3]; ext <;> norm_num [Pose.id, Pose.rotate, dot]
    have k5 : k = 1 := by
      rw [k4] at k1
      norm_num at k1
      rcases k1 with k1 | k1
      · exact k1
      · linarith
    rw [k5] at k4
    have hs := h2 (0, 0)
    rw [k4] at hs
    cases hseen : seen (0, 0) with
    | none =>
      rw [hseen] at hs
      have := hs wall (List.mem_singleton_self _)
      rw [wall_ray] at this
      norm_num [eps] at this
      cases this
    | some r =>
      intro hnil
      have hm : r ∈ (imagePixels 1 1).filterMap seen := List.mem_filterMap.2 ⟨(0, 0), by decide, hseen⟩
      simp only [List.map_eq_nil_iff] at hnil
      rw [hnil] at hm
      cases hm
  · have hR : IsRotation (alignXZ ⟨1, 0, 0⟩ ⟨0, 0, 1⟩) := by rw [az]; exact xz_rotation
    obtain ⟨rays, seen, h1, h2, h3⟩ := C72_noisy_partial C60.real_sqrt (fun _ => 0) [wall] 0 ⟨0, 0, 1⟩ hR one_pos 1 (1 / 2) 6 wall_noNan ⟨[], [], 0⟩
    unfold noisyTransformCloud
    rw [ez]
    have e : (Pose.id : Pose ℝ).t = 0 := rfl
    rw [e]
    norm_num at h3
    rw [h3]
    have none : ∀ p ∈ imagePixels 1 1, seen p = none := by
      intro p hp
      have hv : p.2 = -1 ∨ p.2 = 0 := by
        have : ∀ p ∈ imagePixels 1 1, p.2 = -1 ∨ p.2 = 0 := by decide
        exact this p hp
      obtain ⟨k1, k, k2, k3⟩ := h1 p
      rw [az] at k3
      have hx : (rays p).x = -(k * (1 / 2 * p.2)) := by rw [k3]; norm_num [Pose.rotate, dot]
      have hz : (rays p).z = k := by rw [k3]; norm_num [Pose.rotate, dot]
      have hk : k ≤ 1 := by
        rw [hz] at k1
        have := sq_nonneg (rays p).x
        have := sq_nonneg (rays p).y
        have : k ^ 2 ≤ 1 := by linarith
        exact (sq_le_one_iff₀ k2.le).1 this
      have miss : wall.ray 0 (rays p) 6 = .miss := by
        rw [wall_ray, hx]
        rcases hv with h | h
        · rw [h]
          norm_num
          intro _ _ hle
          have : 6 < 5 / (k * (1 / 2)) := by
            rw [lt_div_iff₀ (by linarith)]; linarith
          norm_num at this
          linarith
        · rw [h]; norm_num [eps]
      cases hseen : seen p with
      | none => rfl
      | some r =>
        obtain ⟨q, t, c⟩ := r
        have hs := h2 p
        rw [hseen] at hs
        obtain ⟨before, o, after, e, h4, -⟩ := hs
        have : o = wall := by
          have : o ∈ [wall] := by rw [e]; simp
          exact List.mem_singleton.1 this
        rw [this, miss] at h4
        cases h4
    have : (imagePixels 1 1).filterMap (fun p => (seen p).map fun r => (rays p, r)) = [] := by
      rw [List.filterMap_eq_nil_iff]
      intro p hp
      rw [none p hp]; rfl
    rw [this]
    rfl

end Vox.C72
