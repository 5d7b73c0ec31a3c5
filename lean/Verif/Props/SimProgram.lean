/-
Property C131: the simulation program.
-/
import Verif.Lemmas.SimProgram
import Verif.Props.EvalProgram

namespace Vox.SimProgram

open Layer Grid Geo Sim Spec SimServer MC MeshInt Ieee PtCloud

section Room

variable {F : Type} [Field F] [LinearOrder F] [IsStrictOrderedRing F]

/-! ### The viewpoints -/

/-- **C131 (viewpoints).** A viewpoint of the program is in its room, the required distance away from the ground, the two walls, the ball and the box, and in the space
that the random positions span. If none is found, none of the positions tried was in the room (for distances from 1e-6). -/
theorem C131_viewpoints {sqrt : F → F} (hs : IsSqrt sqrt) {m : F} (hm : 0 ≤ m) (attempts : ℕ) {random : ℕ → Vec3 F}
    (hr : ∀ i, WithinBox ⟨-1, -1, -1⟩ ⟨1, 1, 1⟩ (random i)) (k : ℕ) :
    (∀ o d k', plausibleViewpoint sqrt room m attempts random k = (some (o, d), k') →
      InRoom m o ∧ WithinBox ⟨-5 / 2, -5 / 2, -1 / 2⟩ ⟨15 / 4, 15 / 4, 35 / 4⟩ o) ∧
    ∀ k', 1 / 1000000 ≤ m → plausibleViewpoint sqrt room m attempts random k = (none, k') →
      ∀ i < attempts, ∀ p : Vec3 F, 8 * p.x = 25 * (random (k + i)).x + 5 → 8 * p.y = 25 * (random (k + i)).y + 5 → 8 * p.z = 37 * (random (k + i)).z + 33 →
        ¬ InRoom m p := by
  obtain ⟨h1, h2⟩ := C106_attempts (sqrt := sqrt) (w := room) hm attempts random k
  refine ⟨fun o d k' h => ?_, fun k' he h i hi p px py pz hp => ?_⟩
  · obtain ⟨i, -, rfl, h4, -⟩ := h2 o d k' h
    refine ⟨room_away hs hm h4, ?_⟩
    have := (C106_box (room : World F) ⟨by norm_num [room], by norm_num [room], by norm_num [room]⟩).1 _ (hr (k + i))
    norm_num [room, Vec3.map, WithinBox] at this ⊢
    exact this
  · have e : candidate room (random (k + i)) = p := by
      ext <;> simp only [candidate, spaceMin, spaceSize, Vec3.map, room, Vec3.sub_x, Vec3.sub_y, Vec3.sub_z, Vec3.add_x, Vec3.add_y, Vec3.add_z] <;> linarith
    have := (h1 k' h).2 i hi
    rw [e] at this
    exact away_room hs he hp this

/-- A position in the room, from which a viewpoint is made. -/
example : IsSqrt Real.sqrt ∧ WithinBox (⟨-1, -1, -1⟩ : Vec3 ℝ) ⟨1, 1, 1⟩ ⟨3 / 5, -1 / 5, 7 / 37⟩ ∧ InRoom (1 / 4 : ℝ) ⟨5 / 2, 0, 5⟩ ∧
    ∃ d k, plausibleViewpoint Real.sqrt room (1 / 4 : ℝ) 1 (fun _ => ⟨3 / 5, -1 / 5, 7 / 37⟩) 0 = (some (⟨5 / 2, 0, 5⟩, d), k) := by
  have hr : ∀ _ : ℕ, WithinBox (⟨-1, -1, -1⟩ : Vec3 ℝ) ⟨1, 1, 1⟩ ⟨3 / 5, -1 / 5, 7 / 37⟩ := by
    intro _
    norm_num [WithinBox]
  have hroom : InRoom (1 / 4 : ℝ) ⟨5 / 2, 0, 5⟩ := by
    refine ⟨by norm_num, by norm_num, by norm_num, by norm_num, ?_⟩
    intro q hx _ _
    dsimp only
    nlinarith [sq_nonneg (0 - q.y), sq_nonneg (5 - q.z), hx.2]
  refine ⟨C60.real_sqrt, hr 0, hroom, ?_⟩
  obtain ⟨h1, h2⟩ := C106_attempts (sqrt := Real.sqrt) (w := room) (m := 1 / 4) (by norm_num) 1 (fun _ => ⟨3 / 5, -1 / 5, 7 / 37⟩) 0
  rcases hp : plausibleViewpoint Real.sqrt room (1 / 4 : ℝ) 1 (fun _ => ⟨3 / 5, -1 / 5, 7 / 37⟩) 0 with ⟨_ | ⟨o, d⟩, k'⟩
  · refine absurd hroom ((C131_viewpoints C60.real_sqrt (by norm_num) 1 hr 0).2 k' (by norm_num) hp 0 (by norm_num) _ ?_ ?_ ?_) <;> norm_num
  · obtain ⟨i, -, h3, -⟩ := h2 o d k' hp
    refine ⟨d, k', ?_⟩
    rw [h3]
    have : candidate room (⟨3 / 5, -1 / 5, 7 / 37⟩ : Vec3 ℝ) = ⟨5 / 2, 0, 5⟩ := by
      ext <;> norm_num [candidate, spaceMin, spaceSize, Vec3.map, room]
    rw [this]

end Room

/-! ### The ground truth -/

/-- **C131 (ground truth).** The layers of the ground truth hold, in every voxel whose centre is within the bounds and whose block is sampled (C71), the truncated distance
to the nearest of ball, walls, box and ground, the TSDF with its colour and weight one, the ESDF as observed. `sqrt` is any function with `sqrt 1 = 1`; the test layers are not
touched. -/
theorem C131_truth {sqrt : ℚ → ℚ} (h1 : sqrt 1 = 1) {τ M : ℚ} (hτ : 0 ≤ τ) (hM : 0 ≤ M) {m : Maps} (wt : WellFormed m.tsdfTruth) (we : WellFormed m.esdfTruth)
    (hs : 9 / 2 ^ 29 ≤ m.tsdfTruth.cfg.voxelSize) (hs' : 9 / 2 ^ 29 ≤ m.esdfTruth.cfg.voxelSize) :
    ∃ m', groundTruth sqrt room τ M m = .ok m' ∧ m'.tsdfTest = m.tsdfTest ∧ m'.esdfTest = m.esdfTest ∧
      (∀ g, InBox ⟨-5, -5, -1⟩ ⟨5, 5, 9⟩ (voxelCenter m.tsdfTruth.cfg.voxelSize g) →
        Sampled (m.tsdfTruth.cfg.voxelSize * m.tsdfTruth.cfg.vps) ⟨-5, -5, -1⟩ ⟨5, 5, 9⟩ (blockOf m.tsdfTruth.cfg.vps g) →
        ∃ v, content m'.tsdfTruth g = some v ∧ v.weight = 1 ∧ IsTruncatedDistance (roomThings sqrt) τ (voxelCenter m.tsdfTruth.cfg.voxelSize g) v.distance ∧
          IsNearestColor (roomThings sqrt) τ (voxelCenter m.tsdfTruth.cfg.voxelSize g) v.color) ∧
      ∀ g, InBox ⟨-5, -5, -1⟩ ⟨5, 5, 9⟩ (voxelCenter m.esdfTruth.cfg.voxelSize g) →
        Sampled (m.esdfTruth.cfg.voxelSize * m.esdfTruth.cfg.vps) ⟨-5, -5, -1⟩ ⟨5, 5, 9⟩ (blockOf m.esdfTruth.cfg.vps g) →
        ∃ v, content m'.esdfTruth g = some v ∧ v.observed = true ∧ IsTruncatedDistance (roomThings sqrt) M (voxelCenter m.esdfTruth.cfg.voxelSize g) v.distance := by
  have mod : ∀ {V : Type} (l : VLayer V), 9 / 2 ^ 29 ≤ l.cfg.voxelSize → C71.Moderate l ⟨-5, -5, -1⟩ ∧ C71.Moderate l ⟨5, 5, 9⟩ := by
    intro V l h
    rw [div_le_iff₀ (by positivity)] at h
    constructor <;> refine ⟨⟨?_, ?_⟩, ⟨?_, ?_⟩, ⟨?_, ?_⟩⟩ <;> dsimp only <;> linarith
  obtain ⟨t, e1, g1⟩ := C71.C71_tsdf_partial (roomThings sqrt) hτ wt (mod _ hs).1 (mod _ hs).2
  obtain ⟨e, e2, g2⟩ := C71.C71_esdf_partial (roomThings sqrt) hM we (mod _ hs').1 (mod _ hs').2
  refine ⟨{ m with tsdfTruth := t, esdfTruth := e }, ?_, rfl, rfl, fun g hb hg => ?_, fun g hb hg => ?_⟩
  · unfold groundTruth
    rw [things_room h1]
    show (Outcome.bind _ _) = _
    rw [show (room : World ℚ).minBound = ⟨-5, -5, -1⟩ from rfl, show (room : World ℚ).maxBound = ⟨5, 5, 9⟩ from rfl, e1]
    show (Outcome.bind _ _) = _
    rw [e2]
    rfl
  · exact g1.inside g hb hg
  · obtain ⟨v, a, b, c⟩ := g2.inside g hb hg
    exact ⟨v, a, by rw [c], b⟩

/-- Layers as the constructor makes them. -/
def newMaps : Maps := ⟨⟨⟨1 / 10, 16⟩, []⟩, ⟨⟨1 / 10, 16⟩, []⟩, ⟨⟨1 / 10, 16⟩, []⟩, ⟨⟨1 / 10, 16⟩, []⟩⟩

example : WellFormed newMaps.tsdfTruth ∧ WellFormed newMaps.esdfTruth ∧ 9 / 2 ^ 29 ≤ newMaps.tsdfTruth.cfg.voxelSize ∧
    InBox ⟨-5, -5, -1⟩ ⟨5, 5, 9⟩ (voxelCenter newMaps.tsdfTruth.cfg.voxelSize ⟨0, 0, 10⟩) ∧
    Sampled (newMaps.tsdfTruth.cfg.voxelSize * newMaps.tsdfTruth.cfg.vps) ⟨-5, -5, -1⟩ ⟨5, 5, 9⟩ (blockOf newMaps.tsdfTruth.cfg.vps ⟨0, 0, 10⟩) := by
  refine ⟨⟨by norm_num [newMaps], by norm_num [newMaps], by norm_num [newMaps], by simp [newMaps]⟩,
    ⟨by norm_num [newMaps], by norm_num [newMaps], by norm_num [newMaps], by simp [newMaps]⟩, by norm_num [newMaps], ?_, ?_⟩
  · norm_num [newMaps, InBox, voxelCenter]
  · refine ⟨⟨4, ?_⟩, ⟨4, ?_⟩, ⟨2, ?_⟩⟩ <;> norm_num [newMaps, blockOf, kEpsilon]

/-! ### The numbers -/

/-- **C131 (numbers, partial).** The two numbers printed are the root mean squares of the errors, tested minus true distance, over the voxels known in both layers where the
tested distance is not negative; zero if there are none. Known are TSDF voxels of weight above 1e-6 and observed ESDF voxels. `Lists`: each voxel of the two layers once.

Full statement: over all voxels known in both; see `C131_numbers_violated`. Missing besides: rounding of the sum. -/
theorem C131_numbers_partial (N : Eval.Num) (hN : ∀ q, N.rndD q = q) {m : Maps} (w1 : WellFormed m.tsdfTruth) (w2 : WellFormed m.tsdfTest) (w3 : WellFormed m.esdfTruth)
    (w4 : WellFormed m.esdfTest) (v1 : m.tsdfTruth.cfg.vps = m.tsdfTest.cfg.vps) (v2 : m.esdfTruth.cfg.vps = m.esdfTest.cfg.vps)
    (n1 : (m.tsdfTruth.blocks.map (·.1)).Nodup) (n2 : (m.tsdfTest.blocks.map (·.1)).Nodup) (n3 : (m.esdfTruth.blocks.map (·.1)).Nodup)
    (n4 : (m.esdfTest.blocks.map (·.1)).Nodup) {L L' : List Idx} (hL : Lists m.tsdfTruth m.tsdfTest L) (hL' : Lists m.esdfTruth m.esdfTest L') :
    ∃ w : ℚ, |w - 1 / 10 ^ 6| < 1 / 10 ^ 20 ∧ evaluate N m =
      .ok (rootMeanSquare N.rnd N.sqrt (L.filterMap (errorIn (heavyDistance w) m.tsdfTruth m.tsdfTest)),
        rootMeanSquare N.rnd N.sqrt (L'.filterMap (errorIn observedEsdf m.esdfTruth m.esdfTest))) := by
  obtain ⟨d, e1, r1⟩ := rmse_of N hN Eval.tsdf (known := heavyDistance Eval.kObserved) (fun v => by simp [heavyDistance, Eval.tsdf]) w1 w2 v1 n1 n2 hL
  obtain ⟨d', e2, r2⟩ := rmse_of N hN Eval.esdf (known := observedEsdf) (fun v => rfl) w3 w4 v2 n3 n4 hL'
  refine ⟨Eval.kObserved, by decide +kernel, ?_⟩
  unfold evaluate
  rw [e1, Outcome.bind_ok, e2, Outcome.bind_ok, r1, r2]
  rfl

/-- **C131 fails for the numbers**: errors behind the surface of the tested map do not count. A map that is behind the surface everywhere gets the numbers of a perfect one,
whatever the ground truth. -/
theorem C131_numbers_violated (N : Eval.Num) (hN : ∀ q, N.rndD q = q) {m : Maps} (w1 : WellFormed m.tsdfTruth) (w2 : WellFormed m.tsdfTest) (w3 : WellFormed m.esdfTruth)
    (w4 : WellFormed m.esdfTest) (v1 : m.tsdfTruth.cfg.vps = m.tsdfTest.cfg.vps) (v2 : m.esdfTruth.cfg.vps = m.esdfTest.cfg.vps)
    (n1 : (m.tsdfTruth.blocks.map (·.1)).Nodup) (n2 : (m.tsdfTest.blocks.map (·.1)).Nodup) (n3 : (m.esdfTruth.blocks.map (·.1)).Nodup)
    (n4 : (m.esdfTest.blocks.map (·.1)).Nodup) {L L' : List Idx} (hL : Lists m.tsdfTruth m.tsdfTest L) (hL' : Lists m.esdfTruth m.esdfTest L')
    (ht : ∀ g v, content m.tsdfTest g = some v → v.distance < 0) (he : ∀ g v, content m.esdfTest g = some v → v.distance < 0) : evaluate N m = .ok (0, 0) := by
  obtain ⟨w, -, h⟩ := C131_numbers_partial N hN w1 w2 w3 w4 v1 v2 n1 n2 n3 n4 hL hL'
  have none_of : ∀ {V : Type} {known : V → Option ℚ} {gt test : VLayer V}, (∀ g v d, content test g = some v → known v = some d → d < 0) →
      ∀ K : List Idx, K.filterMap (errorIn known gt test) = [] := by
    intro V known gt test hn K
    rw [List.filterMap_eq_nil_iff]
    intro g _
    unfold errorIn
    cases (content gt g).bind known with
    | none => rfl
    | some a =>
      cases hb : (content test g).bind known with
      | none => rfl
      | some b =>
        obtain ⟨v, hv, hk⟩ := Option.bind_eq_some_iff.1 hb
        exact if_neg (not_le.2 (hn g v b hv hk))
  rw [h, none_of, none_of]
  · rfl
  · intro g v d hv hk
    unfold observedEsdf at hk
    split_ifs at hk
    obtain rfl := Option.some.inj hk
    exact he g v hv
  · intro g v d hv hk
    unfold heavyDistance at hk
    split_ifs at hk
    obtain rfl := Option.some.inj hk
    exact ht g v hv

/-- One voxel, true distance 5, tested distance `d`. -/
def oneVoxel (d : ℚ) : Maps := ⟨Eval.exOne 1 ⟨0, 0, 0⟩ 5 1, ⟨⟨1, 1⟩, []⟩, Eval.exOne 1 ⟨0, 0, 0⟩ d 1, ⟨⟨1, 1⟩, []⟩⟩

theorem oneVoxel_lists (d : ℚ) : Lists (oneVoxel d).tsdfTruth (oneVoxel d).tsdfTest [⟨0, 0, 0⟩] ∧ Lists (oneVoxel d).esdfTruth (oneVoxel d).esdfTest [] := by
  refine ⟨⟨by simp, fun g => ?_⟩, by simp, fun g => by simp [oneVoxel, content]⟩
  have : ∀ x, (content (Eval.exOne 1 ⟨0, 0, 0⟩ x 1) g).isSome = true ↔ g = ⟨0, 0, 0⟩ := by
    intro x
    constructor
    · intro h
      rw [content_eq (Eval.exOne_wf (by norm_num) _ _ _)] at h
      have e1 : (Eval.exOne 1 ⟨0, 0, 0⟩ x 1).cfg.vps = 1 := rfl
      have e : blockOf 1 g = g := by ext <;> simp [blockOf, Vec3.map]
      rw [e1, e] at h
      unfold block? Eval.exOne at h
      dsimp only at h
      rw [lookup_cons_ite] at h
      split_ifs at h with hb
      · exact hb
      · simp at h
    · rintro rfl
      rw [content_eq (Eval.exOne_wf (by norm_num) _ _ _)]
      have e1 : (Eval.exOne 1 ⟨0, 0, 0⟩ x 1).cfg.vps = 1 := rfl
      have e : blockOf 1 ⟨0, 0, 0⟩ = ⟨0, 0, 0⟩ := by decide +kernel
      rw [e1, e, show linearIndex 1 (localOf 1 ⟨0, 0, 0⟩) = 0 by decide +kernel]
      unfold block? Eval.exOne
      dsimp only
      rw [lookup_cons_ite, if_pos rfl]
      rfl
  simp [oneVoxel, this]

/-- The hypotheses of both, with an error that counts and one that does not. -/
example : (∀ d, WellFormed (oneVoxel d).tsdfTruth ∧ WellFormed (oneVoxel d).tsdfTest ∧ WellFormed (oneVoxel d).esdfTruth) ∧
    (match evaluate Eval.exNum (oneVoxel 7) with | .ok r => decide (r = (4, 0)) | _ => false) = true ∧
    (match evaluate Eval.exNum (oneVoxel (-7)) with | .ok r => decide (r = (0, 0)) | _ => false) = true := by
  refine ⟨fun d => ⟨Eval.exOne_wf (by norm_num) _ _ _, Eval.exOne_wf (by norm_num) _ _ _, ?_⟩, by decide +kernel, by decide +kernel⟩
  exact ⟨by norm_num [oneVoxel], by simp [oneVoxel], by simp [oneVoxel], by simp [oneVoxel]⟩

/-! ### What is shown -/

/-- A message shows a layer. -/
def Slice (frame topic : String) {V : Type} (level : ℚ) (f : V → Option Fl) (l : VLayer V) (x : Message) : Prop :=
  x.topic = topic ∧ x.frame = frame ∧ ∃ E, x.content = .points E ∧ ShowsNear level f l E

/-- A message shows the surface of a layer: the corners of each triangle of each cube once. -/
def Surface (frame topic : String) (v : ℚ) (l : VLayer (TsdfVoxel ℚ)) (x : Message) : Prop :=
  x.topic = topic ∧ x.frame = frame ∧ ∃ mk cs, x.content = .marker mk ∧ EachCubeOnce l cs ∧ mk.points = (surfaceIn l (heavyDistance v) cs).map fun q => q.map .fin

/-- **C131 (display).** A run that ends shows nothing without `visualize`; with it, in the world frame, a slice of each of the four layers on its own topic, with the known voxels
near the level only, and with `generate_mesh` the surfaces of the two TSDF layers on theirs. Without meshes the display never fails. -/
theorem C131_display {E : Export.Env} (hE : AnyOrder E.iter) (o : Options) {m : Maps} (h1 : MapSound m.tsdfTruth) (h2 : MapSound m.tsdfTest)
    (h3 : WellFormed m.esdfTruth) (h4 : WellFormed m.esdfTest) (n3 : (m.esdfTruth.blocks.map (·.1)).Nodup) (n4 : (m.esdfTest.blocks.map (·.1)).Nodup) :
    (o.visualize = false → visualize E o m = .ok []) ∧ (o.mesh = false → ∃ ms, visualize E o m = .ok ms) ∧
    ∀ ms, o.visualize = true → visualize E o m = .ok ms → ∃ w v : ℚ, |w - 1 / 1000| < 1 / 10 ^ 9 ∧ |v - 1 / 10000| < 1 / 10 ^ 10 ∧ ∃ a b c d rest, ms = [a, b, c, d] ++ rest ∧
      Slice o.frame "tsdf_gt" o.level (fun x => (heavyDistance w x).map Fl.fin) m.tsdfTruth a ∧ Slice o.frame "esdf_gt" o.level (fun x => (observedEsdf x).map Fl.fin) m.esdfTruth b ∧
      Slice o.frame "tsdf_test" o.level (fun x => (heavyDistance w x).map Fl.fin) m.tsdfTest c ∧
      Slice o.frame "esdf_test" o.level (fun x => (observedEsdf x).map Fl.fin) m.esdfTest d ∧
      (o.mesh = false → rest = []) ∧
      (o.mesh = true → ∃ x y, rest = [x, y] ∧ Surface o.frame "tsdf_gt_mesh" v m.tsdfTruth x ∧ Surface o.frame "tsdf_test_mesh" v m.tsdfTest y) := by
  obtain ⟨w, hw, ca, cb⟩ : ∃ w : ℚ, |w - 1 / 1000| < 1 / 10 ^ 9 ∧ (∃ E, tsdfCloud o.level m.tsdfTruth = .ok E ∧
      ShowsNear o.level (fun x => (heavyDistance w x).map Fl.fin) m.tsdfTruth E) ∧ ∃ E, tsdfCloud o.level m.tsdfTest = .ok E ∧
      ShowsNear o.level (fun x => (heavyDistance w x).map Fl.fin) m.tsdfTest E := by
    obtain ⟨w, hw, hw'⟩ := minWeight_eq
    obtain ⟨A, a1, a2⟩ := tsdfCloud_ok h1.wf h1.nodup o.level hw
    obtain ⟨B, b1, b2⟩ := tsdfCloud_ok h2.wf h2.nodup o.level hw
    exact ⟨w, hw', ⟨A, a1, a2⟩, B, b1, b2⟩
  obtain ⟨A, a1, a2⟩ := ca
  obtain ⟨C, c1, c2⟩ := cb
  obtain ⟨B, b1, b2⟩ := esdfCloud_ok h3 n3 o.level
  obtain ⟨D, d1, d2⟩ := esdfCloud_ok h4 n4 o.level
  have hv : o.visualize = true → visualize E o m = (meshes E o m).bind fun ms => .ok ([⟨"tsdf_gt", o.frame, .points A⟩, ⟨"esdf_gt", o.frame, .points B⟩,
      ⟨"tsdf_test", o.frame, .points C⟩, ⟨"esdf_test", o.frame, .points D⟩] ++ ms) := by
    intro hv
    unfold visualize
    rw [if_pos hv, a1, Outcome.bind_ok, b1, Outcome.bind_ok, c1, Outcome.bind_ok, d1, Outcome.bind_ok]
    rfl
  have hoff : o.visualize = false → visualize E o m = .ok [] := fun h => by
    unfold visualize
    rw [h]
    rfl
  have hno : o.mesh = false → meshes E o m = .ok [] := fun h => by
    unfold meshes
    rw [h]
    rfl
  refine ⟨hoff, fun h => ?_, fun ms hvis h => ?_⟩
  · cases ho : o.visualize with
    | false => exact ⟨_, hoff ho⟩
    | true => exact ⟨_, by rw [hv ho, hno h]; rfl⟩
  · rw [hv hvis] at h
    obtain ⟨rest, hr, h⟩ := Outcome.bind_eq_ok.1 h
    obtain rfl := Outcome.ok.inj h
    refine ⟨w, Visualizer.meshMinWeight, hw, by decide +kernel, _, _, _, _, rest, rfl, ⟨rfl, rfl, A, rfl, a2⟩, ⟨rfl, rfl, B, rfl, b2⟩, ⟨rfl, rfl, C, rfl, c2⟩,
      ⟨rfl, rfl, D, rfl, d2⟩, fun hm => ?_, fun hm => ?_⟩
    · rw [hno hm] at hr
      exact (Outcome.ok.inj hr).symm
    · unfold meshes at hr
      rw [if_pos hm] at hr
      obtain ⟨x, x1, hr⟩ := Outcome.bind_eq_ok.1 hr
      obtain ⟨y, y1, hr⟩ := Outcome.bind_eq_ok.1 hr
      obtain rfl := Outcome.ok.inj hr
      obtain ⟨cs, s1, s2⟩ := meshMarker_shows hE h1 x1
      obtain ⟨cs', t1, t2⟩ := meshMarker_shows hE h2 y1
      exact ⟨_, _, rfl, ⟨rfl, rfl, x, cs, rfl, s1, s2⟩, rfl, rfl, y, cs', rfl, t1, t2⟩

/-- Two maps of one surface each, with empty ESDFs: the display of slices and surfaces is complete. -/
def shownMaps : Maps := ⟨EvalCloud.evLayer, ⟨⟨1, 1⟩, []⟩, EvalCloud.evLayer, ⟨⟨1, 1⟩, []⟩⟩

theorem shownMaps_wf : WellFormed shownMaps.esdfTruth ∧ WellFormed shownMaps.esdfTest := by
  constructor <;> exact ⟨by norm_num [shownMaps], by simp [shownMaps], by simp [shownMaps], by simp [shownMaps]⟩

example : AnyOrder Export.exEnv.iter ∧ MapSound shownMaps.tsdfTruth ∧ MapSound shownMaps.tsdfTest ∧ WellFormed shownMaps.esdfTruth ∧ WellFormed shownMaps.esdfTest ∧
    (match visualize Export.exEnv ⟨true, 1 / 2, true, "world"⟩ shownMaps with
      | .ok ms => decide (ms.map (fun x => x.topic) = ["tsdf_gt", "esdf_gt", "tsdf_test", "esdf_test", "tsdf_gt_mesh", "tsdf_test_mesh"])
      | _ => false) = true :=
  ⟨Export.exEnv_order, EvalProgram.evLayer_sound, EvalProgram.evLayer_sound, shownMaps_wf.1, shownMaps_wf.2, by decide +kernel⟩

/-- **C131 (run).** A run compares and shows what it has built: if the integration of the viewpoints touches the layers under test only, the numbers printed and the display are
those of four layers of which the first two hold the distances to the things of the room. -/
theorem C131_run {sqrt : ℚ → ℚ} (h1 : sqrt 1 = 1) {N : Eval.Num} {E : Export.Env} {o : Options} {τ M : ℚ} (hτ : 0 ≤ τ) (hM : 0 ≤ M) {build : Maps → Outcome Maps}
    (hb : ∀ a b, build a = .ok b → b.tsdfTruth = a.tsdfTruth ∧ b.esdfTruth = a.esdfTruth) {m m' : Maps} (wt : WellFormed m.tsdfTruth) (we : WellFormed m.esdfTruth)
    (hs : 9 / 2 ^ 29 ≤ m.tsdfTruth.cfg.voxelSize) (hs' : 9 / 2 ^ 29 ≤ m.esdfTruth.cfg.voxelSize) {r : ℚ × ℚ} {ms : List Message}
    (h : run sqrt N E o τ M build m = .ok (r, ms, m')) :
    evaluate N m' = .ok r ∧ visualize E o m' = .ok ms ∧
      (∀ g, InBox ⟨-5, -5, -1⟩ ⟨5, 5, 9⟩ (voxelCenter m.tsdfTruth.cfg.voxelSize g) →
        Sampled (m.tsdfTruth.cfg.voxelSize * m.tsdfTruth.cfg.vps) ⟨-5, -5, -1⟩ ⟨5, 5, 9⟩ (blockOf m.tsdfTruth.cfg.vps g) →
        ∃ v, content m'.tsdfTruth g = some v ∧ IsTruncatedDistance (roomThings sqrt) τ (voxelCenter m.tsdfTruth.cfg.voxelSize g) v.distance) ∧
      ∀ g, InBox ⟨-5, -5, -1⟩ ⟨5, 5, 9⟩ (voxelCenter m.esdfTruth.cfg.voxelSize g) →
        Sampled (m.esdfTruth.cfg.voxelSize * m.esdfTruth.cfg.vps) ⟨-5, -5, -1⟩ ⟨5, 5, 9⟩ (blockOf m.esdfTruth.cfg.vps g) →
        ∃ v, content m'.esdfTruth g = some v ∧ IsTruncatedDistance (roomThings sqrt) M (voxelCenter m.esdfTruth.cfg.voxelSize g) v.distance := by
  unfold run at h
  obtain ⟨m₁, e1, h⟩ := Outcome.bind_eq_ok.1 h
  obtain ⟨m₂, e2, h⟩ := Outcome.bind_eq_ok.1 h
  obtain ⟨r', e3, h⟩ := Outcome.bind_eq_ok.1 h
  obtain ⟨ms', e4, h⟩ := Outcome.bind_eq_ok.1 h
  have h5 := Outcome.ok.inj h
  simp only [Prod.mk.injEq] at h5
  obtain ⟨rfl, rfl, rfl⟩ := h5
  obtain ⟨m₃, f1, -, -, f2, f3⟩ := C131_truth h1 hτ hM wt we hs hs'
  obtain rfl := Outcome.ok.inj (f1.symm.trans e1)
  obtain ⟨b1, b2⟩ := hb _ _ e2
  refine ⟨e3, e4, fun g hg hg' => ?_, fun g hg hg' => ?_⟩
  · obtain ⟨v, a1, -, a2, -⟩ := f2 g hg hg'
    exact ⟨v, by rw [b1, a1], a2⟩
  · obtain ⟨v, a1, -, a2⟩ := f3 g hg hg'
    exact ⟨v, by rw [b2, a1], a2⟩

/-- A run, of a coarse map. -/
example : (match run (fun x => x) Eval.exNum Export.exEnv ⟨true, 1 / 2, false, "world"⟩ 1 2 (fun m => .ok { m with tsdfTest := m.tsdfTruth, esdfTest := m.esdfTruth })
      ⟨⟨⟨5, 1⟩, []⟩, ⟨⟨5, 1⟩, []⟩, ⟨⟨5, 1⟩, []⟩, ⟨⟨5, 1⟩, []⟩⟩ with
    | .ok (r, ms, m) => decide (r = (0, 0) ∧ ms.length = 4 ∧ m.tsdfTruth.blocks.length = 64)
    | _ => false) = true := by decide +kernel

end Vox.SimProgram
