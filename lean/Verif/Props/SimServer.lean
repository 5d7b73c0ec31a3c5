/-
Property C106: the viewpoints and calls of the simulation server.
-/
import Verif.Spec.SimServer
import Verif.Props.SimCloud
import Verif.Props.EsdfOps

namespace Vox.SimServer

open Geo Sim Spec C72

variable {F : Type} [Field F] [LinearOrder F] [IsStrictOrderedRing F]

/-! ### Viewpoints -/

/-- An object is nearer to the position than it may be. -/
def TooClose (sqrt : F → F) (w : World F) (m : F) (p : Vec3 F) : Prop := ∃ o ∈ w.objects, distance sqrt o.shape p < m

omit [IsStrictOrderedRing F] in
theorem accepted_iff {sqrt : F → F} {w : World F} {m M : F} (hm : m ≤ M) (p : Vec3 F) :
    m ≤ worldDistance sqrt w.objects p M ↔ ¬ TooClose sqrt w m p := by
  obtain ⟨-, h2, h3⟩ := C60.C60_world_distance sqrt w.objects p M
  constructor
  · rintro h ⟨o, ho, hlt⟩
    exact absurd (h.trans (h2 o ho)) (not_le.2 hlt)
  · intro h
    rcases h3 with h3 | ⟨o, ho, h3⟩
    · rw [h3]; exact hm
    · rw [h3]; exact not_lt.1 fun hlt => h ⟨o, ho, hlt⟩

omit [IsStrictOrderedRing F] in
theorem search_spec {sqrt : F → F} {w : World F} {m : F} (hm : m ≤ m * 2) (random : ℕ → Vec3 F) (attempts k : ℕ) :
    match search sqrt w m random attempts k with
    | (none, k') => k' = k + attempts ∧ ∀ i < attempts, TooClose sqrt w m (candidate w (random (k + i)))
    | (some p, k') => ∃ i < attempts, p = candidate w (random (k + i)) ∧ ¬ TooClose sqrt w m p ∧ k' = k + i + 1 ∧
        ∀ j < i, TooClose sqrt w m (candidate w (random (k + j))) := by
  induction attempts generalizing k with
  | zero => exact ⟨rfl, fun i hi => absurd hi (Nat.not_lt_zero i)⟩
  | succ n ih =>
    unfold search
    by_cases h : m ≤ worldDistance sqrt w.objects (candidate w (random k)) (m * 2)
    · rw [if_pos h]
      exact ⟨0, Nat.succ_pos n, rfl, (accepted_iff hm _).1 h, rfl, fun j hj => absurd hj (Nat.not_lt_zero j)⟩
    · rw [if_neg h]
      have h0 : TooClose sqrt w m (candidate w (random k)) := by
        by_contra hc
        exact h ((accepted_iff hm _).2 hc)
      have := ih (k + 1)
      revert this
      rcases search sqrt w m random n (k + 1) with ⟨_ | p, k'⟩
      · rintro ⟨rfl, h2⟩
        refine ⟨by omega, fun i hi => ?_⟩
        rcases i with _ | i
        · exact h0
        · have := h2 i (by omega)
          rwa [show k + 1 + i = k + (i + 1) by omega] at this
      · rintro ⟨i, hi, h1, h2, h3, h4⟩
        refine ⟨i + 1, by omega, by rw [h1, show k + 1 + i = k + (i + 1) by omega], h2, by omega, fun j hj => ?_⟩
        rcases j with _ | j
        · exact h0
        · have := h4 j (by omega)
          rwa [show k + 1 + j = k + (j + 1) by omega] at this

omit [IsStrictOrderedRing F] in
/-- **C106 (attempts).** A viewpoint is the first of the random positions that is not too close to an object. Failure is reported only if all
`attempts` positions are too close. -/
theorem C106_attempts [IsStrictOrderedRing F] {sqrt : F → F} {w : World F} {m : F} (hm : 0 ≤ m) (attempts : ℕ) (random : ℕ → Vec3 F) (k : ℕ) :
    (∀ k', plausibleViewpoint sqrt w m attempts random k = (none, k') →
      k' = k + attempts ∧ ∀ i < attempts, TooClose sqrt w m (candidate w (random (k + i)))) ∧
    ∀ o d k', plausibleViewpoint sqrt w m attempts random k = (some (o, d), k') → ∃ i < attempts, o = candidate w (random (k + i)) ∧
      ¬ TooClose sqrt w m o ∧ d = normalized sqrt (random (k + i + 1)) ∧ k' = k + i + 2 ∧
      ∀ j < i, TooClose sqrt w m (candidate w (random (k + j))) := by
  have h := search_spec (sqrt := sqrt) (w := w) (m := m) (by linarith) random attempts k
  unfold plausibleViewpoint
  revert h
  rcases search sqrt w m random attempts k with ⟨_ | p, k1⟩ <;> intro h
  · refine ⟨fun k' hk => ?_, fun o d k' hk => by simp at hk⟩
    obtain rfl : k1 = k' := (Prod.mk.inj hk).2
    exact h
  · refine ⟨fun k' hk => by simp at hk, fun o d k' hk => ?_⟩
    obtain ⟨h1, h2⟩ := Prod.mk.inj hk
    obtain ⟨rfl, rfl⟩ := Prod.mk.inj (Option.some.inj h1)
    obtain ⟨i, hi, h3, h4, rfl, h6⟩ := h
    exact ⟨i, hi, h3, h4, rfl, by omega, h6⟩

theorem exact_away {sqrt : F → F} (hs : IsSqrt sqrt) {s : Shape F} (hp : Exact s) {m : F} (hm : 0 ≤ m) {p : Vec3 F} (h : m ≤ distance sqrt s p) :
    ¬ Inner s p ∧ (0 < m → ¬ Solid s p) ∧ ∀ q, OnSurface s q → m ^ 2 ≤ sqDist p q := by
  have key : HasSign s p (distance sqrt s p) ∧ ∃ δ, IsDistance (OnSurface s) p δ ∧ m ≤ δ := by
    cases s with
    | sphere c r =>
      obtain ⟨h1, h2⟩ := C60.C60_sphere_distance hs c r hp p
      exact ⟨h1, _, h2, h.trans (le_abs_self _)⟩
    | plane c n =>
      obtain ⟨h1, h2⟩ := C60.C60_plane_distance hs c n hp p
      exact ⟨h1, _, h2, h.trans (le_abs_self _)⟩
    | cube c s =>
      obtain ⟨h1, h2, h3⟩ := C60.C60_cube_distance hs c s hp p
      refine ⟨h1, ?_⟩
      rcases (hm.trans h).lt_or_eq with h0 | h0
      · obtain ⟨δ, d1, d2, -⟩ := h3 h0
        exact ⟨δ, d1, h.trans d2⟩
      · exact ⟨_, h2 (.inl h0.symm.le), h.trans (le_abs_self _)⟩
    | cylinder c r h => exact hp.elim
  obtain ⟨k1, δ, k2, k3⟩ := key
  refine ⟨fun hi => absurd (k1.inner hi) (not_lt.2 (hm.trans h)), fun h0 hsol => ?_, fun q hq => (pow_le_pow_left₀ hm k3 2).trans (k2.least q hq)⟩
  by_cases hi : Inner s p
  · exact absurd (k1.inner hi) (not_lt.2 (hm.trans h))
  · have := k1.surface ⟨hsol, hi⟩
    linarith

/-- **C106 (distance, partial).** A generated viewpoint is not inside any object and at least the requested distance away from all their
surfaces; with a positive distance it is outside of all solids. What is missing: worlds with cylinders (`C106_cylinder_violated`). -/
theorem C106_viewpoint_partial {sqrt : F → F} (hs : IsSqrt sqrt) {w : World F} (hw : ∀ o ∈ w.objects, Exact o.shape) {m : F} (hm : 0 ≤ m) {attempts : ℕ}
    {random : ℕ → Vec3 F} {k k' : ℕ} {o d : Vec3 F} (h : plausibleViewpoint sqrt w m attempts random k = (some (o, d), k')) :
    KeepsAway w.objects m o ∧ (0 < m → ∀ x ∈ w.objects, ¬ Solid x.shape o) := by
  obtain ⟨i, hi, -, h2, -⟩ := (C106_attempts hm attempts random k).2 o d k' h
  have hd : ∀ x ∈ w.objects, m ≤ distance sqrt x.shape o := fun x hx => not_lt.1 fun hlt => h2 ⟨x, hx, hlt⟩
  exact ⟨fun x hx => ⟨(exact_away hs (hw x hx) hm (hd x hx)).1, (exact_away hs (hw x hx) hm (hd x hx)).2.2⟩,
    fun h0 x hx => (exact_away hs (hw x hx) hm (hd x hx)).2.1 h0⟩

/-- **C106 (direction).** The view direction is a unit vector, unless the random vector is zero. -/
theorem C106_direction {sqrt : F → F} (hs : IsSqrt sqrt) {w : World F} {m : F} (hm : 0 ≤ m) {attempts : ℕ} {random : ℕ → Vec3 F} {k k' : ℕ}
    {o d : Vec3 F} (h : plausibleViewpoint sqrt w m attempts random k = (some (o, d), k')) (h0 : random (k' - 1) ≠ 0) :
    d.x ^ 2 + d.y ^ 2 + d.z ^ 2 = 1 := by
  obtain ⟨i, -, -, -, rfl, rfl, -⟩ := (C106_attempts hm attempts random k).2 o d k' h
  rw [show k + i + 2 - 1 = k + i + 1 by omega] at h0
  generalize random (k + i + 1) = a at h0 ⊢
  have hp : 0 < sqNorm a := by
    rcases a with ⟨x, y, z⟩
    have hn : 0 ≤ x * x + y * y + z * z := add_nonneg (add_nonneg (mul_self_nonneg x) (mul_self_nonneg y)) (mul_self_nonneg z)
    rcases hn.lt_or_eq with h | h
    · exact h
    · exfalso
      apply h0
      have e : ∀ b c d : F, 0 = b * b + c * c + d * d → b = 0 := fun b c d h => by
        have h1 := mul_self_nonneg b
        have h2 := mul_self_nonneg c
        have h3 := mul_self_nonneg d
        exact mul_self_eq_zero.1 (by linarith)
      exact Vec3.ext (e x y z h) (e y x z (by linarith)) (e z x y (by linarith))
  unfold normalized
  simp only
  rw [if_pos hp]
  obtain ⟨h1, h2⟩ := hs _ hp.le
  have h3 : sqrt (sqNorm a) ≠ 0 := fun h => by rw [h] at h2; rw [← h2] at hp; simp at hp
  simp only [div_pow]
  rw [← add_div, ← add_div, div_eq_one_iff_eq (pow_ne_zero 2 h3), pow_two (sqrt _), h2]
  simp only [sqNorm, dot]
  ring

/-- The viewpoints span a box from half the lower bound to the upper bound plus a quarter of the lower bound, and reach its corners. -/
theorem C106_box (w : World F) (hw : w.minBound.x / 4 ≤ w.maxBound.x ∧ w.minBound.y / 4 ≤ w.maxBound.y ∧ w.minBound.z / 4 ≤ w.maxBound.z) :
    (∀ r, WithinBox ⟨-1, -1, -1⟩ ⟨1, 1, 1⟩ r → WithinBox (w.minBound.map (· / 2)) (w.maxBound + w.minBound.map (· / 4)) (candidate w r)) ∧
    candidate w ⟨-1, -1, -1⟩ = w.minBound.map (· / 2) ∧ candidate w ⟨1, 1, 1⟩ = w.maxBound + w.minBound.map (· / 4) := by
  have one : ∀ a b r : F, a / 4 ≤ b → -1 ≤ r → r ≤ 1 → a / 2 ≤ (b - a / 2 / 2) * (r + 1) / 2 + a / 2 ∧
      (b - a / 2 / 2) * (r + 1) / 2 + a / 2 ≤ b + a / 4 := by
    intro a b r h1 h2 h3
    have h4 : 0 ≤ b - a / 2 / 2 := by linarith
    have h5 : 0 ≤ r + 1 := by linarith
    have h6 := mul_nonneg h4 h5
    have h7 := mul_le_mul_of_nonneg_left (show r + 1 ≤ 2 by linarith) h4
    constructor <;> linarith
  obtain ⟨hx, hy, hz⟩ := hw
  refine ⟨?_, ?_, ?_⟩
  · rintro r ⟨rx, ry, rz⟩
    exact ⟨one _ _ _ hx rx.1 rx.2, one _ _ _ hy ry.1 ry.2, one _ _ _ hz rz.1 rz.2⟩
  · ext <;> simp [candidate, spaceMin, spaceSize, Vec3.map]
  · ext <;> simp only [candidate, spaceMin, spaceSize, Vec3.map, Vec3.sub_x, Vec3.sub_y, Vec3.sub_z, Vec3.add_x, Vec3.add_y, Vec3.add_z] <;> ring

/-- **C106 (bounds, partial).** If the lower bounds are not positive, all viewpoints are within the bounds of the world. What is missing: other
worlds (`C106_outside_violated`). -/
theorem C106_in_bounds_partial (w : World F) (hw : w.minBound.x ≤ 0 ∧ w.minBound.y ≤ 0 ∧ w.minBound.z ≤ 0)
    (hv : 0 ≤ w.maxBound.x ∧ 0 ≤ w.maxBound.y ∧ 0 ≤ w.maxBound.z) {r : Vec3 F} (hr : WithinBox ⟨-1, -1, -1⟩ ⟨1, 1, 1⟩ r) :
    WithinBox w.minBound w.maxBound (candidate w r) := by
  obtain ⟨hx, hy, hz⟩ := hw
  obtain ⟨vx, vy, vz⟩ := hv
  obtain ⟨⟨a1, a2⟩, ⟨b1, b2⟩, ⟨c1, c2⟩⟩ := (C106_box w ⟨by linarith, by linarith, by linarith⟩).1 r hr
  simp only [Vec3.map, Vec3.add_x, Vec3.add_y, Vec3.add_z] at a1 a2 b1 b2 c1 c2
  exact ⟨⟨by linarith, by linarith⟩, ⟨by linarith, by linarith⟩, ⟨by linarith, by linarith⟩⟩

/-- The bounds of a new world, voxblox/src/simulation/simulation_world.cc:5-6. -/
def newWorld : World ℝ := ⟨[], ⟨-5, -5, -1⟩, ⟨5, 5, 9⟩⟩

example : WithinBox newWorld.minBound newWorld.maxBound (candidate newWorld ⟨1 / 2, -1, 1⟩) :=
  C106_in_bounds_partial _ ⟨by norm_num [newWorld], by norm_num [newWorld], by norm_num [newWorld]⟩
    ⟨by norm_num [newWorld], by norm_num [newWorld], by norm_num [newWorld]⟩
    ⟨⟨by norm_num, by norm_num⟩, ⟨by norm_num, by norm_num⟩, ⟨by norm_num, by norm_num⟩⟩

/-- **C106 fails (bounds)**: viewpoints of a world from 10 to 20 may be outside, on both sides. -/
theorem C106_outside_violated : ∃ w : World ℚ, w.minBound = ⟨10, 10, 10⟩ ∧ w.maxBound = ⟨20, 20, 20⟩ ∧
    candidate w ⟨-1, -1, -1⟩ = ⟨5, 5, 5⟩ ∧ candidate w ⟨1, 1, 1⟩ = ⟨45 / 2, 45 / 2, 45 / 2⟩ :=
  ⟨⟨[], ⟨10, 10, 10⟩, ⟨20, 20, 20⟩⟩, rfl, rfl, by decide +kernel, by decide +kernel⟩

/-- **C106 fails (coverage)**: in a world with the standard bounds -5 and 5 no viewpoint has an x of less than -2.5 or more than 3.75. -/
theorem C106_coverage_violated {r : Vec3 ℝ} (hr : WithinBox ⟨-1, -1, -1⟩ ⟨1, 1, 1⟩ r) : -5 / 2 ≤ (candidate newWorld r).x ∧ (candidate newWorld r).x ≤ 15 / 4 := by
  obtain ⟨⟨a1, a2⟩, -⟩ := (C106_box newWorld ⟨by norm_num [newWorld], by norm_num [newWorld], by norm_num [newWorld]⟩).1 r hr
  simp only [Vec3.map, Vec3.add_x, show newWorld.minBound.x = -5 from rfl, show newWorld.maxBound.x = 5 from rfl] at a1 a2
  constructor <;> linarith

example : WithinBox (⟨-1, -1, -1⟩ : Vec3 ℝ) ⟨1, 1, 1⟩ ⟨1 / 2, 0, -1 / 2⟩ :=
  ⟨⟨by norm_num, by norm_num⟩, ⟨by norm_num, by norm_num⟩, ⟨by norm_num, by norm_num⟩⟩

/-- **C106 fails (distance)**: next to the rim of a cylinder (`C60_cylinder_edge`) a viewpoint is accepted that is nearer than requested. -/
theorem C106_cylinder_violated : ∃ (w : World ℝ) (random : ℕ → Vec3 ℝ) (o d : Vec3 ℝ) (k : ℕ), (∀ x ∈ w.objects, Proper x.shape) ∧
    plausibleViewpoint Real.sqrt w 2 1 random 0 = (some (o, d), k) ∧ ¬ KeepsAway w.objects 2 o := by
  have hc : candidate (⟨[⟨.cylinder ⟨0, 0, 0⟩ 1 2, white⟩], 0, ⟨4, 0, 4⟩⟩ : World ℝ) ⟨0, 0, 0⟩ = ⟨2, 0, 2⟩ := by
    ext <;> norm_num [candidate, spaceMin, spaceSize, Vec3.map]
  refine ⟨⟨[⟨.cylinder ⟨0, 0, 0⟩ 1 2, white⟩], 0, ⟨4, 0, 4⟩⟩, fun _ => ⟨0, 0, 0⟩, ⟨2, 0, 2⟩, normalized Real.sqrt ⟨0, 0, 0⟩, 2, ?_, ?_, ?_⟩
  · simp [Proper]
  · unfold plausibleViewpoint search
    simp only [hc, worldDistance, List.foldl_cons, List.foldl_nil, C60.C60_cylinder_edge.1]
    norm_num
  · intro h
    have := (h _ (List.mem_singleton.2 rfl)).2 ⟨1, 0, 1⟩ (by norm_num [OnSurface, Solid, Inner, sqAxial])
    norm_num [sqDist] at this

/-- A world with a ball and a wall, seen from the side. -/
def ballWorld : World ℝ := ⟨[⟨.sphere ⟨0, 0, 0⟩ 1, white⟩, ⟨.plane ⟨-4, 0, 0⟩ ⟨1, 0, 0⟩, white⟩], ⟨-4, -4, -4⟩, ⟨4, 4, 4⟩⟩

theorem ball_viewpoint : ∃ d, plausibleViewpoint Real.sqrt ballWorld 2 1 (fun k => if k = 0 then ⟨1, -1 / 5, -1 / 5⟩ else ⟨0, 3, 4⟩) 0 = (some (⟨3, 0, 0⟩, d), 2) := by
  have hc : candidate ballWorld ⟨1, -1 / 5, -1 / 5⟩ = ⟨3, 0, 0⟩ := by
    ext <;> norm_num [candidate, spaceMin, spaceSize, Vec3.map, ballWorld]
  have h1 : distance Real.sqrt (.sphere ⟨0, 0, 0⟩ 1) (⟨3, 0, 0⟩ : Vec3 ℝ) = 2 := by
    simp only [distance, sphereDistance, norm, sqNorm, dot]
    rw [show ((⟨0, 0, 0⟩ - ⟨3, 0, 0⟩ : Vec3 ℝ).x * (⟨0, 0, 0⟩ - ⟨3, 0, 0⟩ : Vec3 ℝ).x + (⟨0, 0, 0⟩ - ⟨3, 0, 0⟩ : Vec3 ℝ).y * (⟨0, 0, 0⟩ - ⟨3, 0, 0⟩ : Vec3 ℝ).y +
      (⟨0, 0, 0⟩ - ⟨3, 0, 0⟩ : Vec3 ℝ).z * (⟨0, 0, 0⟩ - ⟨3, 0, 0⟩ : Vec3 ℝ).z) = 3 ^ 2 by norm_num, Real.sqrt_sq (by norm_num)]
    norm_num
  have h2 : distance Real.sqrt (.plane ⟨-4, 0, 0⟩ ⟨1, 0, 0⟩) (⟨3, 0, 0⟩ : Vec3 ℝ) = 7 := by
    rw [distance, plane_eq C60.real_sqrt (by norm_num)]
    norm_num
  unfold plausibleViewpoint search
  simp only [if_true, hc, worldDistance, show ballWorld.objects = [⟨.sphere ⟨0, 0, 0⟩ 1, white⟩, ⟨.plane ⟨-4, 0, 0⟩ ⟨1, 0, 0⟩, white⟩] from rfl,
    List.foldl_cons, List.foldl_nil, h1, h2]
  norm_num

example : (∀ o ∈ ballWorld.objects, Exact o.shape) ∧ KeepsAway ballWorld.objects 2 ⟨3, 0, 0⟩ := by
  have he : ∀ o ∈ ballWorld.objects, Exact o.shape := by
    simp [ballWorld, Exact, Proper]
  obtain ⟨d, h⟩ := ball_viewpoint
  exact ⟨he, (C106_viewpoint_partial C60.real_sqrt he (by norm_num) h).1⟩

/-! ### Views -/

omit [LinearOrder F] [IsStrictOrderedRing F] in
theorem apply_moved (T : Pose F) (p : Vec3 F) : T.apply p = moved T p := by
  ext <;> simp [Pose.apply, Pose.rotate, dot, moved]

omit [IsStrictOrderedRing F] in
/-- What the server does with a viewpoint. -/
theorem mem_views {sqrt : F → F} {align : Vec3 F → Vec3 F → Pose F} {w : World F} {c : Settings F} {random : ℕ → Vec3 F} {x : Call F} (n k : ℕ)
    (h : x ∈ views sqrt align w c random n k) : ∃ k1 k2 o d, plausibleViewpoint sqrt w c.minDist c.attempts random k1 = (some (o, d), k2) ∧
      x ∈ view sqrt align w c o d := by
  induction n generalizing k with
  | zero => cases h
  | succ n ih =>
    unfold views at h
    split at h
    · cases h
    · rename_i o d k2 e
      rcases List.mem_append.1 h with h | h
      · exact ⟨k, k2, o, d, e, h⟩
      · exact ih _ h

/-- **C106 (views).** Every cloud that reaches the TSDF integrator was seen from a generated viewpoint: the camera is at the viewpoint, and the points,
moved by the pose, are the nearest hits of the rays of the pixels, with their colours (even resolutions; C72). The occupancy integrator gets the
same points. -/
theorem C106_views {sqrt : F → F} (hs : IsSqrt sqrt) {align : Vec3 F → Vec3 F → Pose F} (hR : ∀ a b, IsRotation (align a b)) {w : World F} {c : Settings F}
    {random : ℕ → Vec3 F} {a b : ℕ} (ha : 0 < a) (hx : c.resX = 2 * a) (hy : c.resY = 2 * b)
    (hn : ∀ k1 k2 o d, plausibleViewpoint sqrt w c.minDist c.attempts random k1 = (some (o, d), k2) → NoNan (w.objects.map (Obj.target sqrt)) o c.maxDist) {pose : Pose F} {points : List (Vec3 F)} :
    (∀ {colors}, .tsdf pose points colors ∈ generateSdf sqrt align w c random → IsRotation pose ∧
      ∃ k1 k2 d, plausibleViewpoint sqrt w c.minDist c.attempts random k1 = (some (pose.t, d), k2) ∧
      ∃ (rays : ℤ × ℤ → Vec3 F) (seen : ℤ × ℤ → Option (Vec3 F × F × Color)),
        (∀ p, IsPixelRay (align ⟨1, 0, 0⟩ d) c.tanHalf a p.1 p.2 (rays p)) ∧
        (∀ p, Nearest (w.objects.map (Obj.target sqrt)) pose.t (rays p) c.maxDist (seen p)) ∧
        points.map (moved pose) = ((imagePixels a b).filterMap seen).map (·.1) ∧ colors = ((imagePixels a b).filterMap seen).map (·.2.2)) ∧
    (.occupancy pose points ∈ generateSdf sqrt align w c random → c.occupancy = true ∧ ∃ colors, .tsdf pose points colors ∈ generateSdf sqrt align w c random) := by
  have hfin : ∀ {x : Call F}, x ∈ finish c → x = .occupancyBatch ∨ x = .batch := by
    intro x hx
    unfold finish at hx
    split_ifs at hx <;> simp at hx <;> tauto
  constructor
  · intro colors h
    rcases List.mem_append.1 h with h | h
    · obtain ⟨k1, k2, o, d, e, h⟩ := mem_views _ _ h
      have hrot : IsRotation (cameraPose align o d) := by
        obtain ⟨r1, r2, r3, r4, r5, r6, r7⟩ := hR ⟨0, 0, 1⟩ d
        exact ⟨r1, r2, r3, r4, r5, r6, r7⟩
      have h' : (Call.tsdf pose points colors : Call F) = .tsdf (cameraPose align o d) (transformPoints (cameraPose align o d).inverse
          (viewpointCloud sqrt align (w.objects.map (Obj.target sqrt)) o d c.resX c.resY c.tanHalf c.maxDist ([], [])).1)
          (viewpointCloud sqrt align (w.objects.map (Obj.target sqrt)) o d c.resX c.resY c.tanHalf c.maxDist ([], [])).2 := by
        unfold view at h
        simp only [List.mem_append] at h
        rcases h with ((h | h) | h) | h
        · exact List.mem_singleton.1 h
        · split_ifs at h <;> simp at h
        · split_ifs at h <;> simp at h
        · split_ifs at h <;> simp at h
      obtain ⟨rfl, rfl, rfl⟩ := Call.tsdf.inj h'
      refine ⟨hrot, k1, k2, d, e, ?_⟩
      obtain ⟨rays, seen, s1, s2, s3⟩ := C72_cloud_partial hs (w.objects.map (Obj.target sqrt)) o d (hR ⟨1, 0, 0⟩ d) ha b c.tanHalf c.maxDist (hn _ _ _ _ e) ([], [])
      rw [hx, hy, s3]
      refine ⟨rays, seen, s1, s2, ?_, rfl⟩
      simp only [transformPoints, List.map_map, List.nil_append]
      refine List.map_congr_left fun p _ => ?_
      simp only [Function.comp, apply_moved]
      exact Camera.moved_inverse hrot _
    · rcases hfin h with h | h <;> cases h
  · intro h
    rcases List.mem_append.1 h with h | h
    · have key : ∀ n k, Call.occupancy pose points ∈ views sqrt align w c random n k → c.occupancy = true ∧
          ∃ colors, Call.tsdf pose points colors ∈ views sqrt align w c random n k := by
        intro n
        induction n with
        | zero => intro k h; cases h
        | succ n ih =>
          intro k h
          unfold views at h ⊢
          split at h
          · cases h
          · rename_i o d k2 e
            rcases List.mem_append.1 h with h | h
            · unfold view at h
              simp only [List.mem_append] at h
              rcases h with ((h | h) | h) | h
              · simp at h
              · split_ifs at h with ho
                · obtain ⟨rfl, rfl⟩ := Call.occupancy.inj (List.mem_singleton.1 h)
                  exact ⟨ho, _, List.mem_append_left _ (List.mem_append_left _ (List.mem_append_left _ (List.mem_append_left _ (List.mem_singleton.2 rfl))))⟩
                · simp at h
              · split_ifs at h <;> simp at h
              · split_ifs at h <;> simp at h
            · obtain ⟨h1, colors, h2⟩ := ih _ h
              exact ⟨h1, colors, List.mem_append_right _ h2⟩
      obtain ⟨h1, colors, h2⟩ := key _ _ h
      exact ⟨h1, colors, List.mem_append_left _ h2⟩
    · rcases hfin h with h | h <;> cases h

/-- A server that looks at a ball and a wall. -/
noncomputable def ballSettings : Settings ℝ := ⟨true, true, true, 1, 2, 2, 1, 10, 2, 1⟩

/-- Rotations that exchange the axes as the test needs. -/
noncomputable def noTurn : Vec3 ℝ → Vec3 ℝ → Pose ℝ := fun _ _ => Pose.id

theorem ball_noNan (o : Vec3 ℝ) : NoNan (ballWorld.objects.map (Obj.target Real.sqrt)) o 10 := by
  intro t ht d _
  simp only [ballWorld, List.map_cons, List.map_nil, List.mem_cons, List.not_mem_nil, or_false] at ht
  rcases ht with rfl | rfl
  · show sphereRay _ _ _ _ _ _ ≠ _
    unfold sphereRay
    simp only
    split_ifs <;> simp
  · show planeRay _ _ _ _ _ ≠ _
    unfold planeRay
    simp only
    split_ifs <;> simp

/-- The hypotheses of the views: the server makes one view of the ball. -/
example : (∀ a b, IsRotation (noTurn a b)) ∧ ∃ pose points colors, Call.tsdf pose points colors ∈
    generateSdf Real.sqrt noTurn ballWorld ballSettings (fun k => if k = 0 then ⟨1, -1 / 5, -1 / 5⟩ else ⟨0, 3, 4⟩) := by
  refine ⟨fun _ _ => ⟨by norm_num [noTurn, Pose.id], by norm_num [noTurn, Pose.id], by norm_num [noTurn, Pose.id], by norm_num [noTurn, Pose.id],
    by norm_num [noTurn, Pose.id], by norm_num [noTurn, Pose.id], by norm_num [noTurn, Pose.id]⟩, ?_⟩
  obtain ⟨d, h⟩ := ball_viewpoint
  unfold generateSdf
  rw [show ballSettings.numViewpoints = 1 from rfl, views, show ballSettings.minDist = 2 from rfl, show ballSettings.attempts = 1 from rfl, h]
  exact ⟨_, _, _, List.mem_append_left _ (List.mem_append_left _ (List.mem_append_left _ (List.mem_append_left _ (List.mem_append_left _ (List.mem_singleton.2 rfl)))))⟩

/-- The number of TSDF integrations in a list of calls. -/
def scans (cs : List (Call F)) : ℕ := (cs.filter fun | .tsdf _ _ _ => true | _ => false).length

omit [IsStrictOrderedRing F] in
/-- **C106 (number of views).** There are at most as many views as requested. If there are fewer, then a whole series of attempts was too close to an
object. -/
theorem C106_count [IsStrictOrderedRing F] (sqrt : F → F) (align : Vec3 F → Vec3 F → Pose F) (w : World F) (c : Settings F) (hm : 0 ≤ c.minDist) (random : ℕ → Vec3 F) :
    scans (generateSdf sqrt align w c random) ≤ c.numViewpoints ∧ (scans (generateSdf sqrt align w c random) < c.numViewpoints →
      ∃ k, ∀ i < c.attempts, TooClose sqrt w c.minDist (candidate w (random (k + i)))) := by
  have happ : ∀ a b : List (Call F), scans (a ++ b) = scans a + scans b := fun a b => by simp [scans]
  have hfin : scans (finish c) = 0 := by
    unfold finish
    split_ifs <;> rfl
  have hview : ∀ o d, scans (view sqrt align w c o d) = 1 := by
    intro o d
    unfold view
    split_ifs <;> rfl
  have key : ∀ n k, scans (views sqrt align w c random n k) ≤ n ∧ (scans (views sqrt align w c random n k) < n →
      ∃ k, ∀ i < c.attempts, TooClose sqrt w c.minDist (candidate w (random (k + i)))) := by
    intro n
    induction n with
    | zero => intro k; exact ⟨le_rfl, fun h => absurd h (Nat.not_lt_zero _)⟩
    | succ n ih =>
      intro k
      unfold views
      split
      · rename_i k2 e
        exact ⟨Nat.zero_le _, fun _ => ⟨k, ((C106_attempts hm c.attempts random k).1 k2 e).2⟩⟩
      · rename_i o d k2 e
        rw [happ, hview]
        obtain ⟨h1, h2⟩ := ih k2
        exact ⟨by omega, fun h => h2 (by omega)⟩
  unfold generateSdf
  rw [happ, hfin, Nat.add_zero]
  exact key _ _

/-! ### The ESDF of the simulation -/

open Esdf in
/-- The operations of the ESDF integrator among the calls after `n` scans. -/
def operations (e : Setting F) : ℕ → List (Call F) → List Op
  | _, [] => []
  | n, .tsdf _ _ _ :: cs => operations e (n + 1) cs
  | n, .robot p :: cs => .robot (e.point p) :: operations e n cs
  | n, .update :: cs => .incremental true (e.tsdf n) :: operations e n cs
  | n, .batch :: cs => .batch (e.tsdf n) :: operations e n cs
  | n, _ :: cs => operations e n cs

/-- The state of the ESDF at the end. -/
def result : Outcome (Option (ℕ × Esdf.State)) → Outcome (Option Esdf.State)
  | .ok r => .ok (r.map (·.2))
  | .fatal => .fatal
  | .ub => .ub

omit [Field F] [LinearOrder F] [IsStrictOrderedRing F] in
theorem run_operations (e : Setting F) (cs : List (Call F)) (h : Call.occupancyBatch ∉ cs) (n : ℕ) (s : Esdf.State) :
    result (run e n s cs) = Esdf.runOps e.A e.cfg e.order e.set e.fuel s (operations e n cs) := by
  induction cs generalizing n s with
  | nil => rfl
  | cons c cs ih =>
    have ih := ih (fun hc => h (List.mem_cons_of_mem _ hc))
    cases c with
    | tsdf p ps co => exact ih (n + 1) s
    | occupancy p ps => exact ih n s
    | robot p =>
      simp only [run, exec, operations, Esdf.runOps, Esdf.Op.exec]
      rcases Esdf.addRobotPosition e.cfg e.order (e.point p) s with s1 | _ | _
      · exact ih n s1
      · rfl
      · rfl
    | update =>
      simp only [run, exec, operations, Esdf.runOps, Esdf.Op.exec]
      rcases Esdf.updateIncremental e.A e.cfg e.fuel e.set true (e.tsdf n) s with (_ | s1) | _ | _
      · rfl
      · exact ih n s1.1
      · rfl
      · rfl
    | occupancyBatch => exact absurd (List.mem_cons_self ..) h
    | batch =>
      simp only [run, exec, operations, Esdf.runOps, Esdf.Op.exec]
      rcases Esdf.updateBatch e.A e.cfg e.fuel e.set (e.tsdf n) s with (_ | s1) | _ | _
      · rfl
      · exact ih n s1
      · rfl
      · rfl

omit [Field F] [LinearOrder F] [IsStrictOrderedRing F] in
theorem run_append (e : Setting F) (cs ds : List (Call F)) (n : ℕ) (s : Esdf.State) :
    run e n s (cs ++ ds) = (run e n s cs).bind fun | none => .ok none | some (n, s) => run e n s ds := by
  induction cs generalizing n s with
  | nil => rfl
  | cons c cs ih =>
    simp only [List.cons_append, run]
    rcases exec e n s c with (_ | ⟨n, s⟩) | _ | _
    · rfl
    · exact ih n s
    · rfl
    · rfl

omit [Field F] [LinearOrder F] [IsStrictOrderedRing F] in
theorem operations_fuel (e : Setting F) (fuel n : ℕ) (cs : List (Call F)) : operations { e with fuel := fuel } n cs = operations e n cs := by
  induction cs generalizing n with
  | nil => rfl
  | cons x cs ih => cases x <;> simp [operations, ih]

omit [IsStrictOrderedRing F] in
theorem no_batch (sqrt : F → F) (align : Vec3 F → Vec3 F → Pose F) (w : World F) (c : Settings F) (random : ℕ → Vec3 F) (n k : ℕ) :
    Call.occupancyBatch ∉ views sqrt align w c random n k := by
  intro h
  obtain ⟨k1, k2, o, d, -, h⟩ := mem_views _ _ h
  unfold view at h
  split_ifs at h <;> simp at h

omit [IsStrictOrderedRing F] in
/-- The views without the occupancy integrator. -/
theorem run_views (e : Setting F) (sqrt : F → F) (align : Vec3 F → Vec3 F → Pose F) (w : World F) (c : Settings F) (random : ℕ → Vec3 F) (n k m : ℕ) (s : Esdf.State) :
    run e m s (views sqrt align w { c with occupancy := false } random n k) = run e m s (views sqrt align w c random n k) := by
  induction n generalizing k m s with
  | zero => rfl
  | succ n ih =>
    have hv : ∀ o d, run e m s (view sqrt align w { c with occupancy := false } o d) = run e m s (view sqrt align w c o d) := by
      intro o d
      unfold view
      cases c.occupancy <;> rfl
    rw [views, views]
    show run e m s (match plausibleViewpoint sqrt w c.minDist c.attempts random k with
      | (none, _) => []
      | (some (origin, dir), k) => view sqrt align w { c with occupancy := false } origin dir ++ views sqrt align w { c with occupancy := false } random n k) = _
    rcases plausibleViewpoint sqrt w c.minDist c.attempts random k with ⟨_ | ⟨o, d⟩, k2⟩
    · rfl
    · show run e m s (_ ++ _) = run e m s (_ ++ _)
      rw [run_append, run_append, hv]
      congr 1
      funext r
      rcases r with _ | ⟨m1, s1⟩
      · rfl
      · exact ih k2 m1 s1

omit [IsStrictOrderedRing F] in
/-- **C106 (occupancy).** The distances computed from the occupancy map never reach the result: the ESDF at the end is the same as without
`generate_occupancy`, whatever the occupancy integrator wrote into the layer. -/
theorem C106_occupancy_ignored (e : Setting F) (ho : ∀ l, (e.occupancy l).cfg = l.cfg) (sqrt : F → F) (align : Vec3 F → Vec3 F → Pose F) (w : World F) (c : Settings F)
    (random : ℕ → Vec3 F) (s : Esdf.State) :
    run e 0 s (generateSdf sqrt align w c random) = run e 0 s (generateSdf sqrt align w { c with occupancy := false } random) := by
  unfold generateSdf
  rw [run_append, run_append, run_views]
  congr 1
  funext r
  rcases r with _ | ⟨n, s⟩
  · rfl
  · cases hi : c.incremental with
    | true => simp [finish, hi]
    | false =>
      cases ho' : c.occupancy with
      | false => simp [finish, hi, ho']
      | true =>
        simp only [finish, hi, ho', Bool.false_eq_true, if_true, if_false, List.cons_append, List.nil_append, run, exec]
        have : Esdf.updateBatch e.A e.cfg e.fuel e.set (e.tsdf n) { s with layer := e.occupancy s.layer } =
            Esdf.updateBatch e.A e.cfg e.fuel e.set (e.tsdf n) s := by
          unfold Esdf.updateBatch
          have : ({ e.occupancy s.layer with blocks := [] } : Grid.VLayer (EsdfVoxel ℚ)) = { s.layer with blocks := [] } := by
            have := ho s.layer
            revert this
            rcases e.occupancy s.layer with ⟨c1, b1⟩
            intro h
            simp only at h
            subst h
            rfl
          simp only [this]
        exact congrArg (fun x => Outcome.bind (Outcome.bind x _) _) this

open Esdf in
/-- **C106 (ESDF, partial).** With incremental updates, or without robot positions, the ESDF integrator handles all calls. What is missing: robot
positions in batch mode (`C106_batch_violated`). -/
theorem C106_safe_partial {L : Limits} (e : Setting F) (hf : CopyFits e.A e.cfg L) (hp : ∀ m, (e.order m).Perm m) (ho : ∀ l, (e.occupancy l).cfg = l.cfg)
    (sqrt : F → F) (align : Vec3 F → Vec3 F → Pose F) (w : World F) (c : Settings F) (hm : 0 ≤ c.minDist) (random : ℕ → Vec3 F) {s : Esdf.State} (hs : Ready e.A L [] s)
    (hr : s.raise = []) (ht : ∀ n, TsdfFits e.A e.cfg L s.layer.cfg.vps (e.tsdf n))
    (hi : ∀ k, Sphere.SphereInRange s.layer.cfg (e.point (candidate w (random k))) e.cfg.clearRadius ∧
      Sphere.SphereInRange s.layer.cfg (e.point (candidate w (random k))) e.cfg.occupiedRadius)
    (hc : c.incremental = true ∨ c.addRobotPose = false) :
    ∃ N s', ∀ fuel, N ≤ fuel → result (run { e with fuel := fuel } 0 s (generateSdf sqrt align w c random)) = .ok (some s') := by
  have hall : ∀ (n k m : ℕ), ∀ tail : List (Call F), (∀ m, Allowed e.A e.cfg L s.layer.cfg false (operations e m tail)) →
      Allowed e.A e.cfg L s.layer.cfg false (operations e m (views sqrt align w { c with occupancy := false } random n k ++ tail)) := by
    intro n
    induction n with
    | zero => intro k m tail h; exact h m
    | succ n ih =>
      intro k m tail h
      unfold views
      split
      · exact h m
      · rename_i o d k2 he
        rw [List.append_assoc]
        obtain ⟨i, -, h1, -⟩ := (C106_attempts hm c.attempts random k).2 o d k2 he
        subst h1
        have hn := ih k2 (m + 1) tail h
        generalize views sqrt align w { c with occupancy := false } random n k2 ++ tail = rest at hn ⊢
        unfold view
        rcases hc with hc | hc
        · cases hb : c.addRobotPose with
          | false => simpa [hc, hb, operations, Allowed] using ⟨ht _, hn⟩
          | true => simpa [hc, hb, operations, Allowed] using ⟨(hi _).1, (hi _).2, ht _, hn⟩
        · cases hb : c.incremental with
          | false => simpa [hc, hb, operations, Allowed] using hn
          | true => simpa [hc, hb, operations, Allowed] using ⟨ht _, hn⟩
  have hfin : ∀ m, Allowed e.A e.cfg L s.layer.cfg false (operations e m (finish { c with occupancy := false })) := by
    intro m
    unfold finish
    cases hb : c.incremental with
    | false => simpa [operations, Allowed] using ht m
    | true => simp [operations, Allowed]
  obtain ⟨N, s', h⟩ := C45_sequences_partial hf e.order hp e.set _ false [] s hs (fun _ => ⟨rfl, hr⟩) (hall c.numViewpoints 0 0 _ hfin)
  refine ⟨N, s', fun fuel hfu => ?_⟩
  rw [C106_occupancy_ignored { e with fuel := fuel } ho, run_operations _ _ ?_, operations_fuel]
  · exact h fuel hfu
  · intro hx
    rcases List.mem_append.1 hx with hx | hx
    · exact no_batch _ _ _ _ _ _ _ hx
    · revert hx
      unfold finish
      split_ifs <;> simp_all

open Esdf in
/-- An empty world from 0 to 1 with one viewpoint in its middle. -/
def voidRun (incremental robot : Bool) : Settings ℚ := ⟨false, incremental, robot, 1, 2, 2, 1, 1, 1 / 2, 1⟩

/-- The ESDF of a simulation of an empty world. -/
def voidSetting (fuel : ℕ) : Setting ℚ := ⟨Esdf.fixedPoint, Esdf.sampleCfg, id, id, fuel, id, fun _ => ⟨Esdf.unitCfg, []⟩, id⟩

/-- The first random vector gives the middle, the second the view along x. -/
def voidRandom (k : ℕ) : Vec3 ℚ := if k = 0 then 0 else ⟨1, 0, 0⟩

theorem void_views (i r : Bool) : operations (voidSetting 0) 0 (generateSdf id (fun _ _ => Pose.id) ⟨[], 0, ⟨1, 1, 1⟩⟩ (voidRun i r) voidRandom) =
    (if r then [.robot ⟨1 / 2, 1 / 2, 1 / 2⟩] else []) ++ (if i then [.incremental true ⟨Esdf.unitCfg, []⟩] else [.batch ⟨Esdf.unitCfg, []⟩]) := by
  have hv : plausibleViewpoint id (⟨[], 0, ⟨1, 1, 1⟩⟩ : World ℚ) (1 / 2) 1 voidRandom 0 = (some (⟨1 / 2, 1 / 2, 1 / 2⟩, ⟨1, 0, 0⟩), 2) := by decide +kernel
  unfold generateSdf
  rw [show (voidRun i r).numViewpoints = 1 from rfl, views, show (voidRun i r).minDist = 1 / 2 from rfl, show (voidRun i r).attempts = 1 from rfl, hv]
  cases i <;> cases r <;> rfl

/-- **C106 fails (batch mode)**: with `add_robot_pose` and without `incremental` the simulation aborts. -/
theorem C106_batch_violated (fuel : ℕ) :
    result (run (voidSetting (fuel + 1)) 0 (Esdf.init Esdf.sampleCfg ⟨Esdf.unitCfg, []⟩)
      (generateSdf id (fun _ _ => Pose.id) ⟨[], 0, ⟨1, 1, 1⟩⟩ (voidRun false true) voidRandom)) = .fatal := by
  rw [run_operations _ _ ?_]
  · rw [show voidSetting (fuel + 1) = { voidSetting 0 with fuel := fuel + 1 } from rfl, operations_fuel, void_views]
    exact Esdf.C45_counterexample fuel
  · intro hx
    rcases List.mem_append.1 hx with hx | hx
    · exact no_batch _ _ _ _ _ _ _ hx
    · revert hx
      simp [finish, voidRun]

open Esdf in
/-- The hypotheses of the partial theorem, for a run that integrates a block with robot positions. -/
example : (∀ n, TsdfFits fixedPoint sampleCfg sampleLimits unitCfg.vps ((fun _ => sampleTsdf : ℕ → _) n)) ∧ CopyFits fixedPoint sampleCfg sampleLimits ∧
    (∀ k, Sphere.SphereInRange unitCfg (candidate (⟨[], 0, ⟨1, 1, 1⟩⟩ : World ℚ) (voidRandom k)) sampleCfg.clearRadius ∧
      Sphere.SphereInRange unitCfg (candidate (⟨[], 0, ⟨1, 1, 1⟩⟩ : World ℚ) (voidRandom k)) sampleCfg.occupiedRadius) ∧
    Ready fixedPoint sampleLimits [] (init sampleCfg ⟨unitCfg, []⟩) ∧ (voidRun true true).incremental = true := by
  refine ⟨fun _ => sampleTsdf_fits, sample_fits, fun k => ?_, ready_init (by norm_num [unitCfg]) ⟨0, by norm_num, rfl⟩ rfl rfl (by norm_num [sampleLimits])
    (by norm_num [sampleLimits]) (by norm_num [sampleLimits]), rfl⟩
  have h0 : candidate (⟨[], 0, ⟨1, 1, 1⟩⟩ : World ℚ) 0 = ⟨1 / 2, 1 / 2, 1 / 2⟩ := by decide +kernel
  have h1 : candidate (⟨[], 0, ⟨1, 1, 1⟩⟩ : World ℚ) ⟨1, 0, 0⟩ = ⟨1, 1 / 2, 1 / 2⟩ := by decide +kernel
  have hs : ∀ r : ℚ, r ≤ 2 ^ 22 → Sphere.SphereInRange unitCfg ⟨1, 1 / 2, 1 / 2⟩ r := fun r hr =>
    ⟨by norm_num [unitCfg], ⟨0, by norm_num, rfl⟩, by simpa [unitCfg] using hr, by refine ⟨?_, ?_, ?_⟩ <;> norm_num [unitCfg]⟩
  unfold voidRandom
  split_ifs
  · rw [h0]
    exact ⟨sample_sphere 1 (by norm_num), sample_sphere 2 (by norm_num)⟩
  · rw [h1]
    exact ⟨hs 1 (by norm_num), hs 2 (by norm_num)⟩

end Vox.SimServer
