/-
C107: the pose correction of a TSDF server.
-/
import Verif.Model.ServerIcp
import Verif.Props.IcpRun
import Verif.Lemmas.ServerMesh

namespace Vox.ServerIcp

open Geo Grid Icp Spec

theorem pose_assoc (R S T : Pose ℚ) : (R.mul S).mul T = R.mul (S.mul T) := by
  apply pose_ext
  · rw [rotOf_mul, rotOf_mul, rotOf_mul, rotOf_mul, Matrix.mul_assoc]
  · ext <;> simp [Pose.mul, Pose.apply, Pose.rotate, dot, Pose.cols] <;> ring

theorem id_mul (T : Pose ℚ) : Pose.id.mul T = T := by
  apply pose_ext
  · rw [rotOf_mul, show rotOf (Pose.id : Pose ℚ) = 1 by ext i j; fin_cases i <;> fin_cases j <;> simp [rotOf, Pose.id], Matrix.one_mul]
  · ext <;> simp [Pose.mul, Pose.id, Pose.apply, Pose.rotate, dot]

theorem mul_id (T : Pose ℚ) : T.mul Pose.id = T := by
  apply pose_ext
  · rw [rotOf_mul, show rotOf (Pose.id : Pose ℚ) = 1 by ext i j; fin_cases i <;> fin_cases j <;> simp [rotOf, Pose.id], Matrix.mul_one]
  · ext <;> simp [Pose.mul, Pose.id, Pose.apply, Pose.rotate, dot]

theorem mul_inverse {T : Pose ℚ} (hT : IsRotation T) : T.mul T.inverse = Pose.id := by
  apply pose_ext
  · rw [rotOf_mul, rotOf_inverse, ((isRotation_iff T).1 hT).1]
    ext i j; fin_cases i <;> fin_cases j <;> simp [rotOf, Pose.id]
  · have h := Camera.moved_inverse hT (0 : Vec3 ℚ)
    rw [← Camera.moved_mul] at h
    have h2 : moved (T.mul T.inverse) 0 = (T.mul T.inverse).t := by ext <;> simp [moved]
    rw [h2] at h
    exact h

theorem mul_right_cancel {R S T : Pose ℚ} (hT : IsRotation T) (h : R.mul T = S.mul T) : R = S := by
  have := congrArg (fun P => P.mul T.inverse) h
  simpa only [pose_assoc, mul_inverse hT, mul_id] using this

theorem id_yaw : IsYaw (Pose.id : Pose ℚ) := ⟨by constructor <;> norm_num [Pose.id], rfl⟩

theorem yaw_mul {S T : Pose ℚ} (hS : IsYaw S) (hT : IsYaw T) : IsYaw (S.mul T) := by
  rw [yaw_iff] at hS hT ⊢
  exact ⟨Camera.rotation_mul hS.1 hT.1, by rw [rotOf_mul, turn_mul, hT.2, hS.2]⟩

theorem yaw_inverse {T : Pose ℚ} (hT : IsYaw T) : IsYaw T.inverse := by
  have h := (isRotation_iff T).1 hT.rotation
  rw [yaw_iff] at hT ⊢
  refine ⟨Camera.rotation_inverse hT.1, ?_⟩
  rw [rotOf_inverse]
  conv_lhs => rw [← hT.2]
  exact (turn_back h.1 _).2

/-- The library decomposes matrices into orthogonal factors and has rotation vectors. -/
structure LibOk (L : Lib ℚ) : Prop where
  rotations : IsRotationLog L.log L.exp
  factors : ∀ H, (L.svd2 H).1 * (L.svd2 H).1.transpose = 1 ∧ (L.svd2 H).2 * (L.svd2 H).2.transpose = 1

theorem scan_inv {c : Settings} {s s' : State} {cl : Cloud} {r : Result} (h : scan c s cl = .ok (r, s')) :
    refine c s cl = .ok r ∧ s'.correction = r.correction ∧ ∃ m, c.integrate r.used cl.points s.map = .ok m ∧
      s'.map = ServerMesh.removeDistant m cl.pose.t c.maxDistance := by
  unfold scan at h
  obtain ⟨r1, h1, h⟩ := Outcome.bind_eq_ok.1 h
  obtain ⟨m, h2, h⟩ := Outcome.bind_eq_ok.1 h
  have e := Outcome.ok.inj h
  obtain ⟨rfl, rfl⟩ := Prod.mk.inj e
  exact ⟨h1, rfl, m, h2, rfl⟩

theorem refine_inv {c : Settings} {s : State} {cl : Cloud} {r : Result} (h : refine c s cl = .ok r) :
    (c.enable = false ∧ r = ⟨cl.pose, s.correction, none, cl.pose⟩) ∨
    (c.enable = true ∧ ∃ t : Icp.State, run c.lib c.icp s.map (c.shuffle cl.points) cl.schedule (start c.icp (guess c s.correction cl.pose)) = .ok t ∧
      r = ⟨t.shared.pose, correction c.lib c.icp.refineRollPitch t.shared.pose cl.pose,
        some (correction c.lib c.icp.refineRollPitch t.shared.pose cl.pose, cl.pose), cl.pose⟩) := by
  unfold refine at h
  split_ifs at h with he
  · obtain ⟨t, h1, h⟩ := Outcome.bind_eq_ok.1 h
    exact .inr ⟨he, t, h1, (Outcome.ok.inj h).symm⟩
  · exact .inl ⟨by simpa using he, (Outcome.ok.inj h).symm⟩

/-- A run of the alignment from a given guess. -/
theorem guess_rotation {c : Settings} {k T : Pose ℚ} (hk : IsRotation k) (hT : IsRotation T) : IsRotation (guess c k T) := by
  unfold guess
  split_ifs
  · exact Camera.rotation_mul hk hT
  · exact Camera.rotation_mul id_yaw.rotation hT

theorem guess_yaw {c : Settings} {k T : Pose ℚ} (hk : IsYaw k) (hT : IsYaw T) : IsYaw (guess c k T) := by
  unfold guess
  split_ifs
  · exact yaw_mul hk hT
  · exact yaw_mul id_yaw hT

theorem refine_rigid {c : Settings} (hL : LibOk c.lib) {s : State} {cl : Cloud} {r : Result} (h : refine c s cl = .ok r) (hs : IsRotation s.correction)
    (hT : IsRotation cl.pose) : IsRotation r.used ∧ IsRotation r.correction := by
  rcases refine_inv h with ⟨-, rfl⟩ | ⟨-, t, ht, rfl⟩
  · exact ⟨hT, hs⟩
  · have hu := (C87_pose_kept hL.rotations hL.factors ht).1 (guess_rotation hs hT)
    refine ⟨hu, ?_⟩
    cases hr : c.icp.refineRollPitch with
    | true => exact Camera.rotation_mul hu (Camera.rotation_inverse hT)
    | false => exact (C90_correction_level hL.rotations _ _).rotation

theorem refine_level {c : Settings} (hL : LibOk c.lib) (hr : c.icp.refineRollPitch = false) {s : State} {cl : Cloud} {r : Result}
    (h : refine c s cl = .ok r) (hs : IsYaw s.correction) : IsYaw r.correction ∧ (IsYaw cl.pose → IsYaw r.used) := by
  rcases refine_inv h with ⟨-, rfl⟩ | ⟨-, t, ht, rfl⟩
  · exact ⟨hs, id⟩
  · refine ⟨?_, fun hT => (C87_pose_kept hL.rotations hL.factors ht).2.2 hr (guess_yaw hs hT)⟩
    simp only [hr]
    exact C90_correction_level hL.rotations _ _

/-- The result of every cloud in a sequence comes from some state before it that the property `P` holds of. -/
theorem scans_induct {c : Settings} (P : State → Prop) (Q : Cloud → Prop)
    (step : ∀ s cl r s', P s → Q cl → scan c s cl = .ok (r, s') → P s') {cls : List Cloud} {s s' : State} {rs : List Result}
    (hs : P s) (hq : ∀ cl ∈ cls, Q cl) (h : scans c s cls = .ok (rs, s')) :
    P s' ∧ List.Forall₂ (fun cl r => ∃ s0 s1, P s0 ∧ scan c s0 cl = .ok (r, s1)) cls rs := by
  induction cls generalizing s rs with
  | nil =>
    obtain ⟨rfl, rfl⟩ := Prod.mk.inj (Outcome.ok.inj h)
    exact ⟨hs, .nil⟩
  | cons cl cls ih =>
    unfold scans at h
    obtain ⟨⟨r, s1⟩, h1, h⟩ := Outcome.bind_eq_ok.1 h
    obtain ⟨⟨rs1, s2⟩, h2, h⟩ := Outcome.bind_eq_ok.1 h
    obtain ⟨rfl, rfl⟩ := Prod.mk.inj (Outcome.ok.inj h)
    obtain ⟨a, b⟩ := ih (step _ _ _ _ hs (hq cl (List.mem_cons_self ..)) h1) (fun x hx => hq x (List.mem_cons_of_mem _ hx)) h2
    exact ⟨a, .cons ⟨s, s1, hs, h1⟩ b⟩

/-- **C107 (rigid).** Over every sequence of clouds with rigid poses, the poses the clouds are integrated with and the corrections stay rigid motions. If
only the yaw is refined, the corrections turn about the vertical axis only, and clouds of a level sensor are integrated with level poses. -/
theorem C107_rigid {c : Settings} (hL : LibOk c.lib) {s s' : State} {cls : List Cloud} {rs : List Result} (hT : ∀ cl ∈ cls, IsRotation cl.pose)
    (h : scans c s cls = .ok (rs, s')) :
    (IsRotation s.correction → IsRotation s'.correction ∧ ∀ r ∈ rs, IsRotation r.used ∧ IsRotation r.correction) ∧
    (c.icp.refineRollPitch = false → IsYaw s.correction → IsYaw s'.correction ∧ (∀ r ∈ rs, IsYaw r.correction) ∧
      ((∀ cl ∈ cls, IsYaw cl.pose) → ∀ r ∈ rs, IsYaw r.used)) := by
  have all : ∀ {A : Cloud → Result → Prop} {B : Result → Prop} {cls rs}, List.Forall₂ A cls rs → (∀ cl ∈ cls, ∀ r, A cl r → B r) → ∀ r ∈ rs, B r := by
    intro A B cls rs hf hb
    induction hf with
    | nil => simp
    | cons ha hf ih =>
      intro r hr
      rcases List.mem_cons.1 hr with rfl | hr
      · exact hb _ (List.mem_cons_self ..) _ ha
      · exact ih (fun cl hc => hb cl (List.mem_cons_of_mem _ hc)) r hr
  refine ⟨fun hs => ?_, fun hr hs => ?_⟩
  · obtain ⟨a, b⟩ := scans_induct (fun s => IsRotation s.correction) (fun cl => IsRotation cl.pose)
      (fun s cl r s' hp hq hst => by
        obtain ⟨h1, h2, -⟩ := scan_inv hst
        rw [h2]
        exact (refine_rigid hL h1 hp hq).2) hs hT h
    refine ⟨a, all b fun cl hc r ⟨s0, s1, hp, hst⟩ => refine_rigid hL (scan_inv hst).1 hp (hT cl hc)⟩
  · obtain ⟨a, b⟩ := scans_induct (fun s => IsYaw s.correction) (fun _ => True)
      (fun s cl r s' hp _ hst => by
        obtain ⟨h1, h2, -⟩ := scan_inv hst
        rw [h2]
        exact (refine_level hL hr h1 hp).1) hs (fun _ _ => trivial) h
    exact ⟨a, all b fun cl _ r ⟨s0, s1, hp, hst⟩ => (refine_level hL hr (scan_inv hst).1 hp).1,
      fun hy => all b fun cl hc r ⟨s0, s1, hp, hst⟩ => (refine_level hL hr (scan_inv hst).1 hp).2 (hy cl hc)⟩

/-- **C107 (published frames, partial).** The two transforms published for a cloud lead from the world to the pose it was integrated with, and the correction
kept is the first of them: if roll and pitch are refined, or if the sensor is level and was not corrected by exactly half a turn. What is missing: a
tilted sensor whose yaw is refined (`C90_correction_violated`). -/
theorem C107_frames_partial {c : Settings} (hL : LibOk c.lib) {s s' : State} {cl : Cloud} {r : Result} (hT : IsRotation cl.pose)
    (h : scan c s cl = .ok (r, s')) (he : c.enable = true)
    (hc : c.icp.refineRollPitch = true ∨ IsYaw cl.pose ∧ IsYaw s.correction ∧ (rotOf (r.used.mul cl.pose.inverse)).trace ≠ -1) :
    ∃ a b, r.frames = some (a, b) ∧ a.mul b = r.used ∧ a = s'.correction := by
  obtain ⟨h1, h2, -⟩ := scan_inv h
  rcases refine_inv h1 with ⟨h3, -⟩ | ⟨-, t, ht, rfl⟩
  · rw [he] at h3; cases h3
  · refine ⟨_, _, rfl, ?_, h2.symm⟩
    refine C90_correction hL.rotations hT _ ?_
    cases hr : c.icp.refineRollPitch with
    | true => exact .inl rfl
    | false =>
      obtain ⟨hy, hk, ht'⟩ := hc.resolve_left (by rw [hr]; decide)
      exact .inr ⟨yaw_mul ((refine_level hL hr h1 hk).2 hy) (yaw_inverse hy), ht'⟩

/-- **C107 (odometry, partial).** With accumulated corrections the alignment of a cloud starts at the pose of the cloud before, moved by the change of the pose that
was looked up; under the conditions of `C107_frames_partial`. -/
theorem C107_odometry_partial {c : Settings} (hL : LibOk c.lib) {s s' : State} {cl : Cloud} {r : Result} (hT : IsRotation cl.pose)
    (h : scan c s cl = .ok (r, s')) (he : c.enable = true) (ha : c.accumulate = true)
    (hc : c.icp.refineRollPitch = true ∨ IsYaw cl.pose ∧ IsYaw s.correction ∧ (rotOf (r.used.mul cl.pose.inverse)).trace ≠ -1) (next : Pose ℚ) :
    guess c s'.correction next = r.used.mul (cl.pose.inverse.mul next) := by
  obtain ⟨a, b, hf, hab, rfl⟩ := C107_frames_partial hL hT h he hc
  have hb : b = cl.pose := by
    rcases refine_inv (scan_inv h).1 with ⟨h3, -⟩ | ⟨-, t, -, rfl⟩
    · rw [he] at h3; cases h3
    · simp only [Option.some.injEq, Prod.mk.injEq] at hf
      exact hf.2.symm
  subst hb
  have hi : cl.pose.mul (cl.pose.inverse.mul next) = next := by rw [← pose_assoc, mul_inverse hT, id_mul]
  unfold guess
  rw [if_pos ha, ← hab, pose_assoc, hi]

/-- **C107 (no accumulation).** Without accumulated corrections, neither the pose used nor anything else depends on earlier corrections. -/
theorem C107_history {c : Settings} (ha : c.accumulate = false) (he : c.enable = true) (k : Pose ℚ) (s : State) (cl : Cloud) :
    scan c { s with correction := k } cl = scan c s cl := by
  unfold scan refine guess
  simp only [ha, he, if_true, Bool.false_eq_true, if_false]

/-- Settings for an example. -/
def exSettingsOff : Settings := ⟨true, true, runConfig, 10, runLib, id, fun _ _ l => .ok l⟩

/-- **C107 (off).** Without alignment every cloud is integrated with the pose looked up, no frames are published and the correction stays. -/
theorem C107_off {c : Settings} (he : c.enable = false) {s s' : State} {cls : List Cloud} {rs : List Result} (h : scans c s cls = .ok (rs, s')) :
    rs.map (·.used) = cls.map (·.pose) ∧ (∀ r ∈ rs, r.frames = none) ∧ s'.correction = s.correction := by
  induction cls generalizing s rs with
  | nil =>
    obtain ⟨rfl, rfl⟩ := Prod.mk.inj (Outcome.ok.inj h)
    simp
  | cons cl cls ih =>
    unfold scans at h
    obtain ⟨⟨r, s1⟩, h1, h⟩ := Outcome.bind_eq_ok.1 h
    obtain ⟨⟨rs1, s2⟩, h2, h⟩ := Outcome.bind_eq_ok.1 h
    obtain ⟨rfl, rfl⟩ := Prod.mk.inj (Outcome.ok.inj h)
    obtain ⟨h3, h4, -⟩ := scan_inv h1
    rcases refine_inv h3 with ⟨-, rfl⟩ | ⟨h5, -⟩
    · obtain ⟨a, b, e⟩ := ih h2
      exact ⟨by simp only [List.map_cons, a], by simpa using b, e.trans h4⟩
    · rw [he] at h5; cases h5

example : ∃ rs s', scans { exSettingsOff with enable := false } ⟨Pose.id, wall⟩ [⟨exSensor, runPoints, []⟩, ⟨exSensor, runPoints, []⟩] = .ok (rs, s') :=
  ⟨_, _, rfl⟩

/-- **C107 (nothing to align with).** If the map is empty, the cloud or the batches have fewer than three points, then the cloud is integrated with the pose
looked up, corrected as before if corrections accumulate; and the correction stays as it was (as far as it can be kept: if only the yaw is
refined, it has to be a rotation about the vertical axis other than a half turn). -/
theorem C107_unmatched {c : Settings} (hL : LibOk c.lib) {s s' : State} {cl : Cloud} {r : Result} (h : scan c s cl = .ok (r, s')) (he : c.enable = true)
    (hu : c.icp.batch < 3 ∨ (c.shuffle cl.points).length < 3 ∨ s.map.blocks = []) :
    (c.accumulate = false → r.used = cl.pose ∧ (IsRotation cl.pose → s'.correction = Pose.id)) ∧
    (c.accumulate = true → r.used = s.correction.mul cl.pose ∧
      (IsRotation cl.pose → c.icp.refineRollPitch = true ∨ IsYaw s.correction ∧ (rotOf s.correction).trace ≠ -1 → s'.correction = s.correction)) := by
  obtain ⟨h1, h2, -⟩ := scan_inv h
  rcases refine_inv h1 with ⟨h3, -⟩ | ⟨-, t, ht, rfl⟩
  · rw [he] at h3; cases h3
  · have hp := (C87_pose_unchanged hu ht).1
    have key : ∀ k : Pose ℚ, t.shared.pose = k.mul cl.pose → IsRotation cl.pose →
        c.icp.refineRollPitch = true ∨ IsYaw k ∧ (rotOf k).trace ≠ -1 → s'.correction = k := by
      intro k hk hT hy
      have e : t.shared.pose.mul cl.pose.inverse = k := by rw [hk, pose_assoc, mul_inverse hT, mul_id]
      refine mul_right_cancel hT ?_
      rw [h2, ← hk]
      exact C90_correction hL.rotations hT _ (by rwa [e])
    refine ⟨fun ha => ?_, fun ha => ?_⟩
    · have hg : guess c s.correction cl.pose = Pose.id.mul cl.pose := by simp [guess, ha]
      rw [hg] at hp
      refine ⟨by rw [← id_mul cl.pose]; exact hp, fun hT => key _ hp hT (.inr ⟨id_yaw, ?_⟩)⟩
      simp [Matrix.trace, Fin.sum_univ_three, rotOf, Pose.id]
      norm_num
    · have hg : guess c s.correction cl.pose = s.correction.mul cl.pose := by simp [guess, ha]
      rw [hg] at hp
      exact ⟨hp, key _ hp⟩

/-! ### The blocks that are kept -/

theorem triangle {a b o : Pt} {d e : ℚ} (hd : 0 ≤ d) (he : 0 ≤ e) (ha : distSq o a ≤ d * d) (hb : distSq a b ≤ e * e) :
    distSq o b ≤ (d + e) * (d + e) := by
  unfold distSq at *
  have hcs : ((o.x - a.x) * (a.x - b.x) + (o.y - a.y) * (a.y - b.y) + (o.z - a.z) * (a.z - b.z)) ^ 2 ≤ (d * e) ^ 2 := by
    generalize o.x - a.x = u0 at *
    generalize o.y - a.y = u1 at *
    generalize o.z - a.z = u2 at *
    generalize a.x - b.x = v0 at *
    generalize a.y - b.y = v1 at *
    generalize a.z - b.z = v2 at *
    have h1 : (u0 * v0 + u1 * v1 + u2 * v2) ^ 2 ≤ (u0 ^ 2 + u1 ^ 2 + u2 ^ 2) * (v0 ^ 2 + v1 ^ 2 + v2 ^ 2) := by
      nlinarith [sq_nonneg (u0 * v1 - u1 * v0), sq_nonneg (u0 * v2 - u2 * v0), sq_nonneg (u1 * v2 - u2 * v1)]
    calc _ ≤ _ := h1
      _ ≤ (d * d) * (e * e) := mul_le_mul ha hb (by positivity) (by positivity)
      _ = _ := by ring
  have := (abs_le.1 (abs_le_of_sq_le_sq hcs (mul_nonneg hd he))).2
  nlinarith

theorem kept_iff {m : VLayer (TsdfVoxel ℚ)} (nd : (m.blocks.map (·.1)).Nodup) {i : Idx} {b : Layer.Block ℚ (TsdfVoxel ℚ)} (hb : block? m i = some b) (p : Pt) (d : ℚ) :
    (distSq b.origin p ≤ d * d → block? (ServerMesh.removeDistant m p d) i = some b) ∧
    (d * d < distSq b.origin p → block? (ServerMesh.removeDistant m p d) i = none) := by
  have e : Layer.sqNorm (b.origin - p) = distSq b.origin p := by
    unfold Layer.sqNorm distSq
    simp only [Vec3.sub_x, Vec3.sub_y, Vec3.sub_z]
    ring
  rw [ServerMesh.removeDistant_block? m p d nd, hb, Option.bind_some, e]
  exact ⟨fun h => by rw [if_pos h], fun h => by rw [if_neg (not_le.2 h)]⟩

/-- **C107 (blocks kept, partial).** After a cloud, the blocks within the maximum distance of the pose it was integrated with are kept and the others removed,
up to the distance `e` between that pose and the pose looked up. What is missing: the distances are measured from the pose looked up
(`C107_prune_violated`). -/
theorem C107_prune_partial {c : Settings} {s s' : State} {cl : Cloud} {r : Result} (h : scan c s cl = .ok (r, s')) {m : VLayer (TsdfVoxel ℚ)}
    (hm : c.integrate r.used cl.points s.map = .ok m) (nd : (m.blocks.map (·.1)).Nodup) {i : Idx} {b : Layer.Block ℚ (TsdfVoxel ℚ)} (hb : block? m i = some b)
    {d e : ℚ} (hd : 0 ≤ d) (he : 0 ≤ e) (hc : distSq r.used.t cl.pose.t ≤ e * e) :
    (distSq b.origin r.used.t ≤ d * d → d + e ≤ c.maxDistance → block? s'.map i = some b) ∧
    (0 ≤ c.maxDistance → (c.maxDistance + e) * (c.maxDistance + e) < distSq b.origin r.used.t → block? s'.map i = none) := by
  obtain ⟨-, -, m', hm', hs⟩ := scan_inv h
  obtain rfl := Outcome.ok.inj (hm.symm.trans hm')
  have k := kept_iff nd hb cl.pose.t c.maxDistance
  rw [hs]
  refine ⟨fun h1 h2 => k.1 ?_, fun h0 h1 => k.2 ?_⟩
  · refine (triangle hd he h1 hc).trans ?_
    have : 0 ≤ d + e := by linarith
    nlinarith
  · by_contra hn
    have hn := not_lt.1 hn
    have sym : distSq cl.pose.t r.used.t ≤ e * e := by
      have : distSq cl.pose.t r.used.t = distSq r.used.t cl.pose.t := by unfold distSq; ring
      rw [this]; exact hc
    exact absurd (triangle h0 he hn sym) (not_le.2 h1)

/-! ### Example: two clouds of a sensor before a wall -/

/-- The settings of the example; the map is updated by `f`. -/
def exSettings (f : Pose ℚ → List Pt → VLayer (TsdfVoxel ℚ) → Outcome (VLayer (TsdfVoxel ℚ))) : Settings :=
  ⟨true, true, runConfig, 14139 / 10000, runLib, id, f⟩

/-- The state before the cloud. -/
def exState : State := ⟨Pose.id, wall⟩

/-- The cloud. -/
def exCloud : Cloud := ⟨exSensor, runPoints, runSchedule⟩

theorem exLib : LibOk runLib := ⟨runLib_log, fun _ => ⟨by simp [runLib], by simp [runLib]⟩⟩

theorem ex_refine : ∃ r, (∀ f, refine (exSettings f) exState exCloud = .ok r) ∧ r.used ≠ exSensor ∧ r.reported = exSensor ∧
    distSq ⟨2, 0, 0⟩ r.used.t ≤ (14139 / 10000) * (14139 / 10000) ∧ (14139 / 10000) * (14139 / 10000) < distSq (⟨2, 0, 0⟩ : Pt) exSensor.t ∧
    (rotOf (r.used.mul exSensor.inverse)).trace ≠ -1 := by
  have h : (match runResult with
    | .ok s => decide (s.shared.pose ≠ exSensor ∧ distSq ⟨2, 0, 0⟩ s.shared.pose.t ≤ (14139 / 10000) * (14139 / 10000) ∧
        (14139 / 10000) * (14139 / 10000) < distSq (⟨2, 0, 0⟩ : Pt) exSensor.t ∧ (rotOf (s.shared.pose.mul exSensor.inverse)).trace ≠ -1)
    | _ => false) = true := by decide +kernel
  split at h
  · rename_i s e
    have h := of_decide_eq_true h
    refine ⟨⟨s.shared.pose, correction runLib runConfig.refineRollPitch s.shared.pose exSensor,
      some (correction runLib runConfig.refineRollPitch s.shared.pose exSensor, exSensor), exSensor⟩, fun f => ?_, h.1, rfl, h.2⟩
    unfold refine
    rw [if_pos (show (exSettings f).enable = true from rfl)]
    have hg : guess (exSettings f) exState.correction exCloud.pose = exSensor := id_mul _
    rw [hg]
    show (runResult >>= _) = _
    rw [e]
    rfl
  · cases h

/-- A whole run. -/
theorem ex_scan : ∃ r s', scan (exSettings fun _ _ l => .ok l) exState exCloud = .ok (r, s') ∧ r.used ≠ exSensor ∧
    (rotOf (r.used.mul exCloud.pose.inverse)).trace ≠ -1 := by
  obtain ⟨r, h, h1, -, -, -, h2⟩ := ex_refine
  refine ⟨r, ⟨r.correction, ServerMesh.removeDistant wall exSensor.t (14139 / 10000)⟩, ?_, h1, h2⟩
  unfold scan
  rw [h]
  rfl

example : ∃ rs s', scans (exSettings fun _ _ l => .ok l) exState [exCloud] = .ok (rs, s') ∧ (∀ cl ∈ [exCloud], IsYaw cl.pose) ∧
    IsYaw exState.correction ∧ (exSettings fun _ _ l => .ok l).icp.refineRollPitch = false ∧ rs ≠ [] := by
  obtain ⟨r, s', h, -⟩ := ex_scan
  refine ⟨[r], s', ?_, by simpa [exCloud] using exSensor_yaw, id_yaw, rfl, by simp⟩
  unfold scans
  rw [h]
  rfl

example : ∃ r s', scan (exSettings fun _ _ l => .ok l) exState exCloud = .ok (r, s') ∧ IsYaw exCloud.pose ∧ IsYaw exState.correction ∧
    (rotOf (r.used.mul exCloud.pose.inverse)).trace ≠ -1 := by
  obtain ⟨r, s', h, -, h2⟩ := ex_scan
  exact ⟨r, s', h, exSensor_yaw, id_yaw, h2⟩

example : ∃ r s', scan (exSettings fun _ _ l => .ok l) exState exCloud = .ok (r, s') ∧ (exSettings fun _ _ l => .ok l).accumulate = true ∧
    (exSettings fun _ _ l => .ok l).enable = true ∧ r.used ≠ exSensor := by
  obtain ⟨r, s', h, h1, -⟩ := ex_scan
  exact ⟨r, s', h, rfl, rfl, h1⟩

example : ∃ (c : Settings) (k : Pose ℚ), c.accumulate = false ∧ c.enable = true ∧ k ≠ exState.correction :=
  ⟨{ exSettings (fun _ _ l => .ok l) with accumulate := false }, exSensor, rfl, rfl, by decide +kernel⟩

/-- A cloud of two points. -/
def exFew : Cloud := ⟨exSensor, [exPoint, exPoint], [0, 1, 0, 1]⟩

example : ∃ r s', scan (exSettings fun _ _ l => .ok l) ⟨exSensor, wall⟩ exFew = .ok (r, s') ∧ (id exFew.points).length < 3 ∧
    IsYaw exSensor ∧ (rotOf exSensor).trace ≠ -1 := by
  have h : (match run runLib runConfig wall exFew.points exFew.schedule (start runConfig (exSensor.mul exSensor)) with
    | .ok _ => true
    | _ => false) = true := by decide +kernel
  split at h
  · rename_i t e
    let k := correction runLib false t.shared.pose exSensor
    refine ⟨⟨t.shared.pose, k, some (k, exSensor), exSensor⟩, ⟨k, ServerMesh.removeDistant wall exSensor.t (14139 / 10000)⟩, ?_, by decide,
      exSensor_yaw, by decide +kernel⟩
    unfold scan refine
    rw [if_pos (show (exSettings fun _ _ l => .ok l).enable = true from rfl)]
    show ((run runLib runConfig wall exFew.points exFew.schedule (start runConfig (exSensor.mul exSensor)) >>= _) >>= _) = _
    rw [e]
    rfl
  · cases h

example : ∃ r s', scan (exSettings fun _ _ l => .ok l) exState exCloud = .ok (r, s') ∧ (wall.blocks.map (·.1)).Nodup ∧
    (block? wall ⟨0, 0, 0⟩).isSome = true ∧ ∃ e, distSq r.used.t exCloud.pose.t ≤ e * e ∧ 0 ≤ e := by
  obtain ⟨r, s', h, -⟩ := ex_scan
  refine ⟨r, s', h, by decide, rfl, distSq r.used.t exCloud.pose.t + 1, ?_, ?_⟩
  · have : 0 ≤ distSq r.used.t exCloud.pose.t := by unfold distSq; positivity
    nlinarith
  · have : 0 ≤ distSq r.used.t exCloud.pose.t := by unfold distSq; positivity
    linarith

/-- **C107 (blocks kept, violated).** The distances are measured from the pose looked up, not from the refined pose the cloud was integrated with, which is
also not the pose reported: however clouds are integrated (as long as no blocks are lost), the cloud of the example loses a block whose origin
is within the maximum distance of the pose the cloud was integrated with. -/
theorem C107_prune_violated (f : Pose ℚ → List Pt → VLayer (TsdfVoxel ℚ) → Outcome (VLayer (TsdfVoxel ℚ)))
    (hf : ∀ T ps m, f T ps wall = .ok m → (m.blocks.map (·.1)).Nodup ∧
      ∀ i b, block? wall i = some b → ∃ b', block? m i = some b' ∧ b'.origin = b.origin)
    (hok : ∀ T ps, ∃ m, f T ps wall = .ok m) :
    ∃ r s' m b, scan (exSettings f) exState exCloud = .ok (r, s') ∧ f r.used exCloud.points exState.map = .ok m ∧ block? m ⟨1, 0, 0⟩ = some b ∧
      distSq b.origin r.used.t ≤ (exSettings f).maxDistance * (exSettings f).maxDistance ∧ block? s'.map ⟨1, 0, 0⟩ = none ∧ r.reported ≠ r.used := by
  obtain ⟨r, h, h1, h2, h3, h4, -⟩ := ex_refine
  obtain ⟨m, hm⟩ := hok r.used exCloud.points
  obtain ⟨nd, hb⟩ := hf _ _ _ hm
  obtain ⟨b, hb, ho⟩ := hb ⟨1, 0, 0⟩ _ (show block? wall ⟨1, 0, 0⟩ = some _ from rfl)
  have ho : b.origin = ⟨2, 0, 0⟩ := ho
  refine ⟨r, ⟨r.correction, ServerMesh.removeDistant m exSensor.t (14139 / 10000)⟩, m, b, ?_, hm, hb, ?_, ?_, ?_⟩
  · unfold scan
    rw [h]
    show (f r.used exCloud.points wall >>= _) = _
    rw [hm]
    rfl
  · rw [ho]; exact h3
  · refine (kept_iff nd hb _ _).2 ?_
    rw [ho]; exact h4
  · rw [h2]; exact fun e => h1 e.symm

example : ∃ f : Pose ℚ → List Pt → VLayer (TsdfVoxel ℚ) → Outcome (VLayer (TsdfVoxel ℚ)), (∀ T ps, ∃ m, f T ps wall = .ok m) ∧
    ∀ T ps m, f T ps wall = .ok m → (m.blocks.map (·.1)).Nodup ∧ ∀ i b, block? wall i = some b → ∃ b', block? m i = some b' ∧ b'.origin = b.origin :=
  ⟨fun _ _ l => .ok l, fun _ _ => ⟨_, rfl⟩, fun _ _ m h => by
    obtain rfl := Outcome.ok.inj h
    exact ⟨by decide, fun i b hb => ⟨b, hb, rfl⟩⟩⟩

end Vox.ServerIcp
