/-
Properties C89 and C90: the alignment of matched points and its fusion into the pose. (Exact arithmetic.)
-/
import Verif.Lemmas.Icp

namespace Vox.Icp

open Geo Spec

variable {F : Type} [Field F] [LinearOrder F] [IsStrictOrderedRing F]

/-! ## C89 the transform between matched points -/

/-! ### Example data: four points of the plane z = 1 and their images under a quarter turn about z and a shift -/

/-- The matched points. -/
def exPairs : List (Vec3 ℚ × Vec3 ℚ) :=
  [(⟨2, 0, 1⟩, ⟨5, 2, 3⟩), (⟨-2, 0, 1⟩, ⟨5, -2, 3⟩), (⟨0, 1, 1⟩, ⟨4, 0, 3⟩), (⟨0, -1, 1⟩, ⟨6, 0, 3⟩)]

/-- A library whose decompositions suit these points. -/
def exLib : Lib ℚ where
  sqrt := id
  svd2 := fun _ => (1, !![0, -1; 1, 0])
  svd3 := fun _ => (1, !![0, -1, 0; 1, 0, 0; 0, 0, 1])
  valid := fun _ => true
  log := fun _ => 0
  exp := fun _ => 1

theorem exPairs_svd3 : IsSvd (crossCovariance exPairs) (exLib.svd3 (crossCovariance exPairs)).1 (exLib.svd3 (crossCovariance exPairs)).2 := by
  refine ⟨by decide +kernel, by decide +kernel, ![8, 2, 0], by decide +kernel, by decide +kernel, by decide +kernel⟩

theorem exPairs_svd2 :
    IsSvd (planarCovariance exPairs) (exLib.svd2 (planarCovariance exPairs)).1 (exLib.svd2 (planarCovariance exPairs)).2 := by
  refine ⟨by decide +kernel, by decide +kernel, ![8, 2], by decide +kernel, by decide +kernel, by decide +kernel⟩

/-- **C89.** With roll and pitch refined, the transform found is a rigid motion, and no rigid motion brings the source points closer to
their targets (in the sum of the squared distances). -/
theorem C89_least_squares (L : Lib F) {ps : List (Vec3 F × Vec3 F)} (hn : ps ≠ [])
    (hs : IsSvd (crossCovariance ps) (L.svd3 (crossCovariance ps)).1 (L.svd3 (crossCovariance ps)).2) :
    ∃ T, transformFromMatched L true (ps.map (·.1)) (ps.map (·.2)) = .ok (T, L.valid (rotOf T)) ∧ IsRotation T ∧
      ∀ T', IsRotation T' → misfit T ps ≤ misfit T' ps := by
  have sp := rotation3_spec hs
  rw [crossCovariance_eq] at sp
  set R := rotation3 L.svd3 (correlation3 (demean (ps.map (·.1))) (demean (ps.map (·.2)))) with eR
  have hT : IsRotation (centred R ps) := by
    rw [isRotation_iff, centred, rotOf_poseOf]
    exact ⟨sp.1, sp.2.1⟩
  refine ⟨centred R ps, ?_, hT, ?_⟩
  · rw [matched_length]
    have er : rotationFromMatched L true (demean (ps.map (·.1))) (demean (ps.map (·.2))) = (R, L.valid R) := rfl
    rw [er, centred, rotOf_poseOf]
  · intro T' hT'
    have k := (isRotation_iff T').1 hT'
    have le := sp.2.2 _ k.1 k.2
    have ge := misfit_ge hT' hn
    rw [misfit_centred hT hn]
    linarith

example : exPairs ≠ [] ∧ transformFromMatched exLib true (exPairs.map (·.1)) (exPairs.map (·.2)) =
    .ok (⟨⟨0, -1, 0⟩, ⟨1, 0, 0⟩, ⟨0, 0, 1⟩, ⟨5, 0, 2⟩⟩, true) :=
  ⟨by decide, by decide +kernel⟩

/-- **C89.** With only the yaw refined, the transform found turns about the vertical axis, and no other turn about the vertical axis with any
translation brings the source points closer to their targets. -/
theorem C89_least_squares_yaw (L : Lib F) {ps : List (Vec3 F × Vec3 F)} (hn : ps ≠ [])
    (hs : IsSvd (planarCovariance ps) (L.svd2 (planarCovariance ps)).1 (L.svd2 (planarCovariance ps)).2) :
    ∃ T, transformFromMatched L false (ps.map (·.1)) (ps.map (·.2)) = .ok (T, L.valid (rotOf T)) ∧ IsYaw T ∧
      ∀ T', IsYaw T' → misfit T ps ≤ misfit T' ps := by
  have ec : planarCovariance ps = correlation2 (demean (ps.map (·.1))) (demean (ps.map (·.2))) := by
    unfold planarCovariance correlation2
    rw [crossCovariance_eq]
  have sp := rotation2_spec hs
  rw [ec] at sp
  set r := rotation2 L.svd2 (correlation2 (demean (ps.map (·.1))) (demean (ps.map (·.2)))) with eR
  have hT : IsYaw (centred (embed2 r) ps) := embed_rotation sp.1 sp.2.1 _
  refine ⟨centred (embed2 r) ps, ?_, hT, ?_⟩
  · rw [matched_length]
    have er : rotationFromMatched L false (demean (ps.map (·.1))) (demean (ps.map (·.2))) = (embed2 r, L.valid (embed2 r)) := rfl
    rw [er, centred, rotOf_poseOf]
  · intro T' hT'
    obtain ⟨k1, k2, k3⟩ := yaw_corner hT'
    have le := sp.2.2 _ k2 k3
    have ge := misfit_ge hT'.rotation hn
    rw [misfit_centred hT.rotation hn]
    rw [← k1, trace_embed] at ge
    rw [trace_embed]
    have ec2 : corner2 (correlation3 (demean (ps.map (·.1))) (demean (ps.map (·.2)))) =
        correlation2 (demean (ps.map (·.1))) (demean (ps.map (·.2))) := rfl
    rw [ec2] at ge ⊢
    linarith

example : exPairs ≠ [] ∧ transformFromMatched exLib false (exPairs.map (·.1)) (exPairs.map (·.2)) =
    .ok (⟨⟨0, -1, 0⟩, ⟨1, 0, 0⟩, ⟨0, 0, 1⟩, ⟨5, 0, 2⟩⟩, true) :=
  ⟨by decide, by decide +kernel⟩

/-- **C89.** If some rigid motion (or turn about the vertical axis) takes every source point to its target, then so does the transform found. -/
theorem C89_recovers_motion (L : Lib F) {ps : List (Vec3 F × Vec3 F)} (hn : ps ≠ []) :
    (IsSvd (crossCovariance ps) (L.svd3 (crossCovariance ps)).1 (L.svd3 (crossCovariance ps)).2 →
      (∃ T₀, IsRotation T₀ ∧ ∀ p ∈ ps, moved T₀ p.1 = p.2) →
      ∃ T ok, transformFromMatched L true (ps.map (·.1)) (ps.map (·.2)) = .ok (T, ok) ∧ ∀ p ∈ ps, moved T p.1 = p.2) ∧
    (IsSvd (planarCovariance ps) (L.svd2 (planarCovariance ps)).1 (L.svd2 (planarCovariance ps)).2 →
      (∃ T₀, IsYaw T₀ ∧ ∀ p ∈ ps, moved T₀ p.1 = p.2) →
      ∃ T ok, transformFromMatched L false (ps.map (·.1)) (ps.map (·.2)) = .ok (T, ok) ∧ ∀ p ∈ ps, moved T p.1 = p.2) := by
  constructor
  · rintro hs ⟨T₀, h₀, e₀⟩
    obtain ⟨T, e, -, le⟩ := C89_least_squares L hn hs
    have := le T₀ h₀
    rw [misfit_of_exact e₀] at this
    exact ⟨T, _, e, misfit_zero this⟩
  · rintro hs ⟨T₀, h₀, e₀⟩
    obtain ⟨T, e, -, le⟩ := C89_least_squares_yaw L hn hs
    have := le T₀ h₀
    rw [misfit_of_exact e₀] at this
    exact ⟨T, _, e, misfit_zero this⟩

example : ∃ T₀ : Pose ℚ, IsYaw T₀ ∧ ∀ p ∈ exPairs, moved T₀ p.1 = p.2 :=
  ⟨⟨⟨0, -1, 0⟩, ⟨1, 0, 0⟩, ⟨0, 0, 1⟩, ⟨5, 0, 2⟩⟩, ⟨by constructor <;> norm_num, rfl⟩, by decide +kernel⟩

omit [IsStrictOrderedRing F] in
/-- **C89.** Sets of different sizes are refused. -/
theorem C89_sizes_checked (L : Lib F) (b : Bool) {src tgt : List (Vec3 F)} (h : src.length ≠ tgt.length) :
    transformFromMatched L b src tgt = .fatal := by
  unfold transformFromMatched
  rw [beq_false_of_ne h]
  rfl

example : ([0] : List (Vec3 ℚ)).length ≠ ([] : List (Vec3 ℚ)).length := by decide

/-! ## C90 fusing a batch into the pose -/

/-! ### Example data: Rodrigues' parameters as rotation vectors, and some poses -/

/-- A library over the rationals whose rotation vectors are Rodrigues' parameters. -/
def cayleyLib : Lib ℚ := { exLib with log := cayleyLog, exp := cayleyExp }

theorem cayleyLib_log : IsRotationLog cayleyLib.log cayleyLib.exp := cayley_rotationLog

/-- A turn about the vertical axis with cosine 3/5 and sine 4/5, and a shift. -/
def exYaw : Pose ℚ := ⟨⟨3 / 5, -4 / 5, 0⟩, ⟨4 / 5, 3 / 5, 0⟩, ⟨0, 0, 1⟩, ⟨1, 0, 0⟩⟩

/-- A sensor rolled with cosine 3/5 and sine 4/5. -/
def exTilted : Pose ℚ := ⟨⟨1, 0, 0⟩, ⟨0, 3 / 5, -4 / 5⟩, ⟨0, 4 / 5, 3 / 5⟩, ⟨0, 0, 2⟩⟩

theorem exYaw_yaw : IsYaw exYaw := ⟨by constructor <;> norm_num [exYaw], rfl⟩

theorem exTilted_rotation : IsRotation exTilted := by constructor <;> norm_num [exTilted]

/-- The information at the beginning. -/
def exBase : Vec6 ℚ := Vec6.const 100

/-- The information of a batch. -/
def exEst : Vec6 ℚ := ⟨⟨2, 10, 100⟩, ⟨1, 50, 100⟩⟩

/-- **C90.** If no component of the information so far is negative and those of the batch are positive, then every weight is defined, positive
and at most one, and less than one if the information so far is positive. -/
theorem C90_weights (base est : Vec6 F) (hbt : Every (0 ≤ ·) base.t) (hbr : Every (0 ≤ ·) base.r) (het : Every (0 < ·) est.t)
    (her : Every (0 < ·) est.r) :
    Every (0 < ·) (base.add est).t ∧ Every (0 < ·) (base.add est).r ∧
    Every (fun w => 0 < w ∧ w ≤ 1) (weights base est).t ∧ Every (fun w => 0 < w ∧ w ≤ 1) (weights base est).r ∧
    (Every (0 < ·) base.t → Every (· < 1) (weights base est).t) ∧ (Every (0 < ·) base.r → Every (· < 1) (weights base est).r) := by
  obtain ⟨b1, b2, b3⟩ := hbt
  obtain ⟨b4, b5, b6⟩ := hbr
  obtain ⟨e1, e2, e3⟩ := het
  obtain ⟨e4, e5, e6⟩ := her
  have r1 := weight_range b1 e1; have r2 := weight_range b2 e2; have r3 := weight_range b3 e3
  have r4 := weight_range b4 e4; have r5 := weight_range b5 e5; have r6 := weight_range b6 e6
  exact ⟨⟨r1.1, r2.1, r3.1⟩, ⟨r4.1, r5.1, r6.1⟩, ⟨⟨r1.2.1, r1.2.2.1⟩, ⟨r2.2.1, r2.2.2.1⟩, ⟨r3.2.1, r3.2.2.1⟩⟩,
    ⟨⟨r4.2.1, r4.2.2.1⟩, ⟨r5.2.1, r5.2.2.1⟩, ⟨r6.2.1, r6.2.2.1⟩⟩, fun ⟨p, q, r⟩ => ⟨r1.2.2.2 p, r2.2.2.2 q, r3.2.2.2 r⟩,
    fun ⟨p, q, r⟩ => ⟨r4.2.2.2 p, r5.2.2.2 q, r6.2.2.2 r⟩⟩

example : Every (0 < ·) exBase.t ∧ Every (0 < ·) exBase.r ∧ Every (0 < ·) exEst.t ∧ Every (0 < ·) exEst.r := by
  refine ⟨⟨?_, ?_, ?_⟩, ⟨?_, ?_, ?_⟩, ⟨?_, ?_, ?_⟩, ⟨?_, ?_, ?_⟩⟩ <;> norm_num [exBase, exEst, Vec6.const]

omit [IsStrictOrderedRing F] in
/-- **C90.** Fusing keeps the pose a rigid motion, whatever the batch says. -/
theorem C90_rigid {L : Lib F} (hl : IsRotationLog L.log L.exp) (base est : Vec6 F) {current : Pose F} (hc : IsRotation current)
    (delta : Pose F) : IsRotation (fuse L base est current delta) := fuse_rotation hl base est hc delta

example : IsRotationLog cayleyLib.log cayleyLib.exp ∧ IsRotation exTilted ∧
    fuse cayleyLib exBase exEst exTilted exYaw ≠ exTilted := ⟨cayleyLib_log, exTilted_rotation, by decide +kernel⟩

omit [IsStrictOrderedRing F] in
/-- **C90.** A batch that finds the points aligned leaves the pose alone. -/
theorem C90_aligned {L : Lib F} (hl : IsRotationLog L.log L.exp) (base est : Vec6 F) {current : Pose F} (hc : IsRotation current) :
    fuse L base est current Pose.id = current := by
  have h := ((isRotation_iff current).1 hc).1
  have o : rotOf (Pose.id : Pose F) = 1 := by
    ext i j; fin_cases i <;> fin_cases j <;> simp [rotOf, Pose.id]
  have m : (Pose.id.mul current) = current := by
    apply pose_ext
    · rw [rotOf_mul, o, Matrix.one_mul]
    · ext <;> simp [Pose.mul, Pose.id, Pose.apply, Pose.rotate, dot]
  have sr : rotOf (seen current Pose.id) = 1 := by
    rw [rotOf_seen, o, Matrix.one_mul, orth_left h]
  have st : (seen current Pose.id).t = 0 := by
    rw [seen_t, m]
    ext <;> simp [turn]
  have lp : logPose L (seen current Pose.id) = ⟨0, 0⟩ := by
    unfold logPose; rw [sr, st, hl.log_one]
  apply pose_ext
  · rw [rotOf_fuse, lp]
    have : ((weights base est).cwise ⟨0, 0⟩).r = 0 := by ext <;> simp [Vec6.cwise]
    rw [this, hl.exp_zero, Matrix.mul_one]
  · rw [fuse_t, lp]
    ext <;> simp [Vec6.cwise, Pose.apply, Pose.rotate, dot]

omit [IsStrictOrderedRing F] in
/-- **C90.** If nothing is known so far, the correction of the batch is applied in full (half turns aside). -/
theorem C90_full {L : Lib F} (hl : IsRotationLog L.log L.exp) (est : Vec6 F) (het : Every (0 < ·) est.t) (her : Every (0 < ·) est.r)
    {current delta : Pose F} (hc : IsRotation current) (hd : IsRotation delta) (htr : (rotOf delta).trace ≠ -1) :
    fuse L (Vec6.const 0) est current delta = delta.mul current := by
  have one : ∀ e : F, 0 < e → weight 0 e = 1 := by
    intro e he
    unfold weight
    rw [zero_add, div_self he.ne']
  obtain ⟨e1, e2, e3⟩ := het
  obtain ⟨e4, e5, e6⟩ := her
  have w : ∀ v : Vec6 F, (weights (Vec6.const 0) est).cwise v = v := by
    intro v
    ext <;> simp [Vec6.cwise, weights, Vec6.const, one _ e1, one _ e2, one _ e3, one _ e4, one _ e5, one _ e6]
  have rs := (isRotation_rotMat _).1 (seen_rotation hc hd)
  rw [← mul_seen hc]
  apply pose_ext
  · rw [rotOf_fuse, w, rotOf_mul]
    unfold logPose
    rw [hl.exp_log _ rs (by rw [trace_seen hc]; exact htr)]
  · rw [fuse_t, w]
    rfl

example : (rotOf exYaw).trace ≠ -1 ∧ fuse cayleyLib (Vec6.const 0) exEst exTilted exYaw ≠ exTilted := by
  refine ⟨?_, by decide +kernel⟩
  decide +kernel

/-- **C90.** The position never moves farther than the batch asks for. -/
theorem C90_never_overshoots (L : Lib F) (base est : Vec6 F) (hbt : Every (0 ≤ ·) base.t) (het : Every (0 < ·) est.t)
    {current : Pose F} (hc : IsRotation current) (delta : Pose F) :
    distSq (fuse L base est current delta).t current.t ≤ distSq (delta.mul current).t current.t := by
  have h := ((isRotation_iff current).1 hc).1
  have ht : (rotOf current).transpose * (rotOf current).transpose.transpose = 1 := by rw [Matrix.transpose_transpose]; exact orth_left h
  obtain ⟨b1, b2, b3⟩ := hbt
  obtain ⟨e1, e2, e3⟩ := het
  set s := (seen current delta).t with es
  have l : distSq (delta.mul current).t current.t = Geo.sqNorm s := by
    rw [es, seen_t, turn_sqNorm ht]
    unfold distSq Geo.sqNorm dot
    simp
    ring
  have r : distSq (fuse L base est current delta).t current.t =
      Geo.sqNorm (⟨weight base.t.x est.t.x * s.x, weight base.t.y est.t.y * s.y, weight base.t.z est.t.z * s.z⟩ : Vec3 F) := by
    rw [fuse_t, ← turn_sqNorm h]
    have e : current.apply ((weights base est).cwise (logPose L (seen current delta))).t =
        turn (rotOf current) ⟨weight base.t.x est.t.x * s.x, weight base.t.y est.t.y * s.y, weight base.t.z est.t.z * s.z⟩ + current.t := rfl
    rw [e]
    unfold distSq Geo.sqNorm dot
    simp
    ring
  rw [l, r]
  have w1 := weight_sq (x := s.x) b1 e1; have w2 := weight_sq (x := s.y) b2 e2; have w3 := weight_sq (x := s.z) b3 e3
  simp only [Geo.sqNorm, dot]
  linarith

example : distSq (fuse cayleyLib exBase exEst exTilted exYaw).t exTilted.t < distSq (exYaw.mul exTilted).t exTilted.t := by
  decide +kernel

/-- **C90 (partial).** When only the yaw is refined, fusing turns the sensor about the vertical axis only - provided that the sensor is
level, or that the three weights of the rotation are the same. (The documentation promises it in general, see `C90_yaw_only_violated`.) -/
theorem C90_yaw_only_partial {L : Lib F} (hl : IsRotationLog L.log L.exp) (base est : Vec6 F) {current delta : Pose F}
    (hc : IsRotation current) (hd : IsYaw delta)
    (h : IsYaw current ∨ (weights base est).r.x = (weights base est).r.y ∧ (weights base est).r.y = (weights base est).r.z) :
    IsYaw ((fuse L base est current delta).mul current.inverse) := by
  have o := ((isRotation_iff current).1 hc).1
  have rot := Camera.rotation_mul (fuse_rotation hl base est hc delta) (Camera.rotation_inverse hc)
  rw [yaw_iff]
  refine ⟨rot, ?_⟩
  rw [rotOf_mul, rotOf_inverse, rotOf_fuse]
  have seenRot := (isRotation_rotMat _).1 (seen_rotation hc hd.rotation)
  have ax := hl.log_axis _ seenRot
  set v := L.log (rotOf (seen current delta)) with ev
  set w := ((weights base est).cwise (logPose L (seen current delta))).r with ew
  -- the rotation vector, scaled, is a multiple of the vertical direction as the sensor sees it
  have key : ∃ k, w = smul k (turn (rotOf current).transpose ⟨0, 0, 1⟩) := by
    by_cases h1 : rotOf delta = 1
    · have s1 : rotOf (seen current delta) = 1 := by rw [rotOf_seen, h1, Matrix.one_mul, orth_left o]
      have v0 : v = 0 := by rw [ev, s1, hl.log_one]
      refine ⟨0, ?_⟩
      have : w = ⟨(weights base est).r.x * v.x, (weights base est).r.y * v.y, (weights base est).r.z * v.z⟩ := rfl
      rw [this, v0]
      ext <;> simp [smul]
    · have fx : turn (rotOf delta) (turn (rotOf current) v) = turn (rotOf current) v := by
        have e := congrArg (turn (rotOf current)) ax
        rw [rotOf_seen, turn_mul, (turn_back o _).1, turn_mul] at e
        exact e
      obtain ⟨x0, y0⟩ := yaw_fixed hd h1 fx
      have tv : turn (rotOf current) v = smul (turn (rotOf current) v).z ⟨0, 0, 1⟩ := by
        ext <;> simp [smul, x0, y0]
      have vv : v = smul (turn (rotOf current) v).z (turn (rotOf current).transpose ⟨0, 0, 1⟩) := by
        rw [← turn_smul, ← tv, (turn_back o v).2]
      have we : w = ⟨(weights base est).r.x * v.x, (weights base est).r.y * v.y, (weights base est).r.z * v.z⟩ := rfl
      rcases h with hy | ⟨q1, q2⟩
      · have up := ((yaw_iff current).1 hy).2
        have up' : turn (rotOf current).transpose ⟨0, 0, 1⟩ = (⟨0, 0, 1⟩ : Vec3 F) := by
          conv_lhs => rw [← up]
          exact (turn_back o _).2
        rw [up'] at vv ⊢
        refine ⟨(weights base est).r.z * (turn (rotOf current) v).z, ?_⟩
        rw [we]
        have a := congrArg Vec3.x vv; have b := congrArg Vec3.y vv; have c := congrArg Vec3.z vv
        simp only [smul] at a b c
        ext
        · show _ * v.x = _; rw [a]; simp [smul]
        · show _ * v.y = _; rw [b]; simp [smul]
        · show _ * v.z = _
          conv_lhs => rw [c]
          simp only [smul]; ring
      · refine ⟨(weights base est).r.z * (turn (rotOf current) v).z, ?_⟩
        rw [we, q1, q2]
        have e : (⟨(weights base est).r.z * v.x, (weights base est).r.z * v.y, (weights base est).r.z * v.z⟩ : Vec3 F) =
            smul (weights base est).r.z v := rfl
        rw [e]
        conv_lhs => rw [vv]
        ext <;> simp only [smul] <;> ring
  obtain ⟨k, hk⟩ := key
  rw [turn_mul, turn_mul, exp_up hl hk, (turn_back o _).1]

example : IsYaw exYaw ∧ IsRotation exTilted ∧ (weights exBase (Vec6.const 2)).r.x = (weights exBase (Vec6.const 2)).r.y ∧
    fuse cayleyLib exBase (Vec6.const 2) exTilted exYaw ≠ exTilted :=
  ⟨exYaw_yaw, exTilted_rotation, rfl, by decide +kernel⟩

/-- **C90 (violated).** A sensor that is not level is tilted further by a refinement of the yaw alone: the weights of the three components of
the rotation vector differ, and the vector is expressed in the frame of the sensor, where the vertical axis is not an axis. -/
theorem C90_yaw_only_violated :
    ¬ ∀ (base est : Vec6 ℚ) (current delta : Pose ℚ), Every (0 < ·) base.r → Every (0 < ·) est.r → IsRotation current → IsYaw delta →
      IsYaw ((fuse cayleyLib base est current delta).mul current.inverse) := by
  intro h
  have k := (h exBase exEst exTilted exYaw ⟨by norm_num [exBase, Vec6.const], by norm_num [exBase, Vec6.const], by norm_num [exBase, Vec6.const]⟩
    ⟨by norm_num [exEst], by norm_num [exEst], by norm_num [exEst]⟩ exTilted_rotation exYaw_yaw).up
  revert k
  decide +kernel

/-- **C90 (partial).** Each coordinate of the displacement is weighted by the information the batch has about that coordinate - provided that
the axes of the sensor and of the layer agree. (The information is gathered along the axes of the layer, but it is applied along the axes of
the sensor, see `C90_axes_violated`.) -/
theorem C90_axes_partial (L : Lib F) (base est : Vec6 F) (hbt : Every (0 ≤ ·) base.t) (het : Every (0 < ·) est.t)
    {current : Pose F} (hc : rotOf current = 1) (delta : Pose F) :
    let full := (delta.mul current).t - current.t
    let done := (fuse L base est current delta).t - current.t
    done.x * (base.t.x + est.t.x) = full.x * est.t.x ∧ done.y * (base.t.y + est.t.y) = full.y * est.t.y ∧
    done.z * (base.t.z + est.t.z) = full.z * est.t.z := by
  obtain ⟨b1, b2, b3⟩ := hbt
  obtain ⟨e1, e2, e3⟩ := het
  have s : (seen current delta).t = (delta.mul current).t - current.t := by
    rw [seen_t, hc, Matrix.transpose_one, turn_one]
  have a : ∀ v, current.apply v - current.t = v := by
    intro v
    have : current.apply v = turn (rotOf current) v + current.t := rfl
    rw [this, hc, turn_one]
    ext <;> simp
  have w : ∀ b e x : F, 0 ≤ b → 0 < e → weight b e * x * (b + e) = x * e := by
    intro b e x hb he
    have p := (weight_range hb he).1.ne'
    unfold weight
    field_simp
  dsimp only
  rw [fuse_t, a]
  unfold logPose
  rw [s]
  exact ⟨w _ _ _ b1 e1, w _ _ _ b2 e2, w _ _ _ b3 e3⟩

example : rotOf (⟨⟨1, 0, 0⟩, ⟨0, 1, 0⟩, ⟨0, 0, 1⟩, ⟨1, 2, 3⟩⟩ : Pose ℚ) = 1 := by decide +kernel

/-- **C90 (violated).** A sensor turned by a quarter looks at a wall with normal x: the batch knows about the distance to the wall (information
102 along x and next to none along y), but the displacement towards the wall is weighted as if nothing were known about it. -/
theorem C90_axes_violated :
    ¬ ∀ (base est : Vec6 ℚ) (current delta : Pose ℚ), Every (0 < ·) base.t → Every (0 < ·) est.t → IsRotation current → IsYaw delta →
      ((fuse cayleyLib base est current delta).t - current.t).x * (base.t.x + est.t.x) =
        ((delta.mul current).t - current.t).x * est.t.x := by
  intro h
  have k := h exBase ⟨⟨102, 1 / 1000000, 1 / 1000000⟩, ⟨1, 1, 1⟩⟩ ⟨⟨0, -1, 0⟩, ⟨1, 0, 0⟩, ⟨0, 0, 1⟩, 0⟩
    ⟨⟨1, 0, 0⟩, ⟨0, 1, 0⟩, ⟨0, 0, 1⟩, ⟨1, 0, 0⟩⟩
    ⟨by norm_num [exBase, Vec6.const], by norm_num [exBase, Vec6.const], by norm_num [exBase, Vec6.const]⟩
    ⟨by norm_num, by norm_num, by norm_num⟩ (by constructor <;> norm_num) ⟨by constructor <;> norm_num, rfl⟩
  revert k
  decide +kernel

/-! ### The correction kept by the server -/

/-- **C90.** The correction the server keeps and publishes, applied to the pose received, is the refined pose that the points are integrated
with: always if roll and pitch are refined, and otherwise if the refinement only turned the sensor about the vertical axis (and not by half a
turn). -/
theorem C90_correction {L : Lib F} (hl : IsRotationLog L.log L.exp) {refined T_G_C : Pose F} (hT : IsRotation T_G_C)
    (refineRollPitch : Bool)
    (h : refineRollPitch = true ∨ (IsYaw (refined.mul T_G_C.inverse) ∧ (rotOf (refined.mul T_G_C.inverse)).trace ≠ -1)) :
    (correction L refineRollPitch refined T_G_C).mul T_G_C = refined := by
  have base := mul_inverse_mul (S := refined) hT
  cases refineRollPitch with
  | true => exact base
  | false =>
    obtain ⟨hy, ht⟩ := h.resolve_left (by decide)
    have e : correction L false refined T_G_C = yawOnly L (refined.mul T_G_C.inverse) := rfl
    rw [e]
    conv_rhs => rw [← base]
    congr 1
    set T := refined.mul T_G_C.inverse with eT
    obtain ⟨x, y⟩ := log_yaw hl hy
    have v : (⟨0, 0, (L.log (rotOf T)).z⟩ : Vec3 F) = L.log (rotOf T) := by
      ext
      · exact x.symm
      · exact y.symm
      · rfl
    apply pose_ext
    · have : rotOf (yawOnly L T) = L.exp ⟨0, 0, (L.log (rotOf T)).z⟩ := rotOf_poseOf _ _
      rw [this, v, hl.exp_log _ ((isRotation_rotMat T).1 hy.rotation) ht]
    · rfl

example : IsRotation exTilted ∧ IsYaw ((exYaw.mul exTilted).mul exTilted.inverse) ∧
    (rotOf ((exYaw.mul exTilted).mul exTilted.inverse)).trace ≠ -1 := by
  refine ⟨exTilted_rotation, ⟨?_, by decide +kernel⟩, by decide +kernel⟩
  exact Camera.rotation_mul (Camera.rotation_mul exYaw_yaw.rotation exTilted_rotation) (Camera.rotation_inverse exTilted_rotation)

/-- **C90.** Without refinement of roll and pitch the correction kept turns about the vertical axis only, whatever the refined pose is. -/
theorem C90_correction_level {L : Lib F} (hl : IsRotationLog L.log L.exp) (refined T_G_C : Pose F) :
    IsYaw (correction L false refined T_G_C) := exp_vertical hl _ _

example : correction cayleyLib false (fuse cayleyLib exBase exEst exTilted exYaw) exTilted ≠ Pose.id := by decide +kernel

/-- **C90 (violated).** For a sensor that is not level, the refined pose that the points are integrated with and the correction kept and
published differ after a refinement of the yaw alone, although the correction is meant to remove rounding errors only. -/
theorem C90_correction_violated :
    ¬ ∀ (base est : Vec6 ℚ) (T_G_C delta : Pose ℚ), Every (0 < ·) base.r → Every (0 < ·) est.r → IsRotation T_G_C → IsYaw delta →
      (correction cayleyLib false (fuse cayleyLib base est T_G_C delta) T_G_C).mul T_G_C = fuse cayleyLib base est T_G_C delta := by
  intro h
  have k := h exBase exEst exTilted exYaw ⟨by norm_num [exBase, Vec6.const], by norm_num [exBase, Vec6.const], by norm_num [exBase, Vec6.const]⟩
    ⟨by norm_num [exEst], by norm_num [exEst], by norm_num [exEst]⟩ exTilted_rotation exYaw_yaw
  revert k
  decide +kernel

end Vox.Icp
