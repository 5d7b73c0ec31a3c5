/-
Property C126: the evaluation program.
-/
import Verif.Lemmas.EvalProgram
import Verif.Props.Visualizer

namespace Vox.EvalProgram

open Layer Grid MC MeshInt Spec Vox.IO ServerMesh Export EvalCloud

theorem run_ok {E : Export.Env} {p : Params} {l : VLayer (TsdfVoxel ℚ)} {cloud : List Pt} {r : Report} (h : run E p l cloud = .ok r) :
    ∃ x, evaluate (p.visualize && p.recolorByError) p.toV l cloud = .ok x ∧ r.stats = x.1 ∧ r.meanSquare = x.2.1 ∧ r.stays = p.visualize ∧
      (p.visualize = false → r.sent = none) ∧ (p.visualize = true → ∃ s, r.sent = some s ∧ visualize E p x.2.2 (cloud.map p.toV) = .ok s) := by
  unfold run at h
  obtain ⟨x, h1, h⟩ := Outcome.bind_eq_ok.1 h
  refine ⟨x, h1, ?_⟩
  cases hv : p.visualize with
  | false =>
    rw [hv, if_neg (by simp)] at h
    obtain rfl := Outcome.ok.inj h
    exact ⟨rfl, rfl, rfl, fun _ => rfl, fun h => by cases h⟩
  | true =>
    rw [hv, if_pos rfl] at h
    obtain ⟨s, h2, h⟩ := Outcome.bind_eq_ok.1 h
    obtain rfl := Outcome.ok.inj h
    exact ⟨rfl, rfl, rfl, (fun h => by cases h), fun _ => ⟨s, rfl, h2⟩⟩

/-! ### Examples -/

/-- A quarter turn about the z axis and a shift. -/
def exT : Merge.Rigid := ⟨⟨0, -1, 0⟩, ⟨1, 0, 0⟩, ⟨0, 0, 1⟩, ⟨4, 0, 0⟩⟩

theorem exT_orthonormal : Orthonormal exT := by unfold Orthonormal; decide +kernel

/-- The map of C99 with a cloud that the transformation brings there. -/
def exCloud : List Pt := [⟨3 / 2, 2, 3 / 2⟩, ⟨9, -5, 9⟩]

/-- Where it is then, with the errors. -/
def exErrors : List (Pt × Option (Bool × ℚ)) := [(⟨2, 3 / 2, 3 / 2⟩, some (false, 0)), (⟨9, 9, 9⟩, none)]

theorem exErrors_judged : Judged evLayer exErrors := by
  intro x hx
  refine evCloud_judged x ?_
  simp only [exErrors, List.mem_cons, List.not_mem_nil, or_false] at hx
  rcases hx with rfl | rfl <;> simp [evCloud]

theorem evLayer_sound : MapSound evLayer := by
  refine ⟨evLayer_wf, by decide, fun i hi => ?_⟩
  rw [block_isSome_iff] at hi
  have : i = ⟨0, 0, 0⟩ := by simpa [evLayer] using hi
  subst this
  unfold BlockInRange Vec3.All
  decide +kernel

theorem exErrors_small : ∀ q b d, (q, some (b, d)) ∈ exErrors → |d| < 511 / 510 * (2 * evLayer.cfg.voxelSize) := by
  intro q b d h
  simp only [exErrors, List.mem_cons, Prod.mk.injEq, Option.some.injEq, reduceCtorEq, and_false, List.not_mem_nil, or_false] at h
  rw [h.2.2]
  decide +kernel

/-! ### The frame -/

/-- **C126 (frame).** For every transformation the cloud is judged where it lies in the map: moved by `T_V_G`, or, if that is said to be inverted, at the points that
`T_V_G` takes to the given ones; unmoved without it. -/
theorem C126_frame {p : Params} (hT : ∀ T, p.tVG = some T → Orthonormal T) (cloud : List Pt) : List.Forall₂ (InMap p) cloud (cloud.map p.toV) := by
  induction cloud with
  | nil => exact .nil
  | cons x c ih => exact .cons (toV_inMap hT x) ih

example : (∀ T, ({ tVG := some exT, invert := true } : Params).tVG = some T → Orthonormal T) ∧
    ({ tVG := some exT } : Params).toV ⟨1, 2, 3⟩ = ⟨2, 1, 3⟩ ∧ ({ tVG := some exT, invert := true } : Params).toV ⟨2, 1, 3⟩ = ⟨1, 2, 3⟩ := by
  refine ⟨fun T h => ?_, by decide +kernel, by decide +kernel⟩
  obtain rfl := Option.some.inj h
  exact exT_orthonormal

/-! ### The numbers -/

/-- **C126 (report).** Whatever is displayed or painted: a run that ends has counted every point once, and its mean square error is over the known points, with the band's
edge for those outside; it is NaN if there are none. -/
theorem C126_report {E : Export.Env} {p : Params} {l : VLayer (TsdfVoxel ℚ)} (wf : WellFormed l) {cloud : List Pt} {z : List (Pt × Option (Bool × ℚ))}
    (hc : cloud.map p.toV = z.map (·.1)) (hz : Judged l z) {r : Report} (h : run E p l cloud = .ok r) :
    r.stats.total = cloud.length ∧ r.stats.unknown = z.countP (fun x => x.2.isNone) ∧ r.stats.outside = z.countP (fun x => x.2.elim false (·.1)) ∧
    (z.countP (fun x => x.2.isSome) = 0 → r.meanSquare = none) ∧
    (z.countP (fun x => x.2.isSome) ≠ 0 →
      r.meanSquare = some ((z.map fun x => squared (2 * l.cfg.voxelSize) x.2).sum / (z.countP (fun x => x.2.isSome) : ℕ))) := by
  obtain ⟨x, h1, h2, h3, -⟩ := run_ok h
  have e : evaluate false p.toV l cloud = .ok (x.1, x.2.1, l) := by
    cases hp : (p.visualize && p.recolorByError) with
    | false =>
      rw [hp] at h1
      have := C99_statistics wf p.toV cloud z hc hz
      rw [h1] at this
      obtain rfl := Outcome.ok.inj this
      exact h1
    | true =>
      rw [hp] at h1
      by_cases hd : ∀ q b d, (q, some (b, d)) ∈ z → |d| < 511 / 510 * (2 * l.cfg.voxelSize)
      · obtain ⟨s, q, l', a1, a2, -⟩ := C99_recolor_partial wf p.toV cloud z hc hz hd
        rw [h1] at a2
        obtain rfl := Outcome.ok.inj a2
        exact a1
      · push Not at hd
        obtain ⟨q, b, d, hq, hd⟩ := hd
        rw [C99_recolor_undefined wf p.toV cloud z hc hz hq hd] at h1
        cases h1
  rw [C99_statistics wf p.toV cloud z hc hz] at e
  have e := Outcome.ok.inj e
  have e1 := (Prod.mk.inj e).1
  have e2 := (Prod.mk.inj (Prod.mk.inj e).2).1
  rw [h2, h3, ← e1, ← e2]
  exact ⟨rfl, rfl, rfl, fun h => if_pos h, fun h => if_neg h⟩

example : exCloud.map ({ tVG := some exT } : Params).toV = exErrors.map (·.1) ∧ Judged evLayer exErrors ∧ WellFormed evLayer :=
  ⟨by decide +kernel, exErrors_judged, evLayer_wf⟩

/-! ### What is shown -/

/-- **C126 (silent).** Without display the run ends for every map and cloud, sends nothing, does not stay and leaves no undefined conversion of colours, even if painting
is asked for. -/
theorem C126_silent {E : Export.Env} {p : Params} (hp : p.visualize = false) {l : VLayer (TsdfVoxel ℚ)} (wf : WellFormed l) {cloud : List Pt}
    {z : List (Pt × Option (Bool × ℚ))} (hc : cloud.map p.toV = z.map (·.1)) (hz : Judged l z) :
    ∃ r, run E p l cloud = .ok r ∧ r.sent = none ∧ r.stays = false := by
  unfold run
  rw [hp, Bool.false_and, C99_statistics wf p.toV cloud z hc hz, Outcome.bind_ok, if_neg (by simp)]
  exact ⟨_, rfl, rfl, rfl⟩

example : evCloud.map (·.1) = (evCloud.map (·.1)).map ({ visualize := false, recolorByError := true } : Params).toV ∧ Judged evLayer evCloud :=
  ⟨by decide +kernel, evCloud_judged⟩

/-- **C126 (display).** With display the node stays, and both messages are in the given frame: the cloud where it was judged, and a marker with the surface of the loaded map,
the corners of each triangle of each cube once, whether the map was painted or not. The surface is that of the voxels of weight above 0.0001 (a `float`). -/
theorem C126_display {E : Export.Env} (hE : AnyOrder E.iter) {p : Params} (hp : p.visualize = true) {l : VLayer (TsdfVoxel ℚ)} (hm : MapSound l) {cloud : List Pt}
    {z : List (Pt × Option (Bool × ℚ))} (hc : cloud.map p.toV = z.map (·.1)) (hz : Judged l z) {r : Report} (h : run E p l cloud = .ok r) :
    r.stays = true ∧ ∃ s v cs, r.sent = some s ∧ s.frame = p.frame ∧ s.cloud = z.map (·.1) ∧ |v - 1 / 10000| < 1 / 10 ^ 10 ∧ EachCubeOnce l cs ∧
      s.marker.points = (surfaceIn l (heavyDistance v) cs).map fun q => q.map .fin := by
  obtain ⟨x, h1, -, -, h4, -, h6⟩ := run_ok h
  obtain ⟨s, hs, h6⟩ := h6 hp
  have hx : SameField l x.2.2 ∧ WellFormed x.2.2 := by
    rw [hp, Bool.true_and] at h1
    cases hq : p.recolorByError with
    | false =>
      rw [hq, C99_statistics hm.wf p.toV cloud z hc hz] at h1
      obtain rfl := Outcome.ok.inj h1
      exact ⟨SameField.refl l, hm.wf⟩
    | true =>
      rw [hq] at h1
      by_cases hd : ∀ q b d, (q, some (b, d)) ∈ z → |d| < 511 / 510 * (2 * l.cfg.voxelSize)
      · obtain ⟨s, q, l', -, a2, a3, a4, -⟩ := C99_recolor_partial hm.wf p.toV cloud z hc hz hd
        rw [h1] at a2
        obtain rfl := Outcome.ok.inj a2
        exact ⟨a4, a3⟩
      · push Not at hd
        obtain ⟨q, b, d, hq, hd⟩ := hd
        rw [C99_recolor_undefined hm.wf p.toV cloud z hc hz hq hd] at h1
        cases h1
  obtain ⟨a1, a2, cs, a3, a4⟩ := visualize_shows hE (same_sound hx.1 hm hx.2 (evaluate_once h1 hm.nodup)) h6
  refine ⟨h4.trans hp, s, Visualizer.meshMinWeight, cs, hs, a1, a2.trans hc, by decide +kernel, same_cubes hx.1 a3, ?_⟩
  rw [a4, same_surface hx.1]

/-- **C126 (completion).** With the modes that need no normals, a run with display ends if the known errors are below 511/510 of the band when painting. Full statement: without
the bound, and for all modes; the bound is needed, see `C126_paint_violated`, and normals depend on the rounding of meshes of thin triangles. -/
theorem C126_completes_partial {E : Export.Env} (hE : AnyOrder E.iter) {p : Params} (hp : p.visualize = true)
    (hmode : colorModeOf p.colorMode = .color ∨ colorModeOf p.colorMode = .height ∨ colorModeOf p.colorMode = .gray)
    {l : VLayer (TsdfVoxel ℚ)} (hm : MapSound l) {cloud : List Pt} {z : List (Pt × Option (Bool × ℚ))} (hc : cloud.map p.toV = z.map (·.1)) (hz : Judged l z)
    (hd : p.recolorByError = true → ∀ q b d, (q, some (b, d)) ∈ z → |d| < 511 / 510 * (2 * l.cfg.voxelSize)) : ∃ r, run E p l cloud = .ok r := by
  have hx : ∃ x, evaluate p.recolorByError p.toV l cloud = .ok x ∧ SameField l x.2.2 ∧ WellFormed x.2.2 := by
    cases hq : p.recolorByError with
    | false => exact ⟨_, C99_statistics hm.wf p.toV cloud z hc hz, SameField.refl l, hm.wf⟩
    | true =>
      obtain ⟨s, q, l', -, a2, a3, a4, -⟩ := C99_recolor_partial hm.wf p.toV cloud z hc hz (hd hq)
      exact ⟨_, a2, a4, a3⟩
  obtain ⟨x, h1, h2, h3⟩ := hx
  obtain ⟨s, hs⟩ := visualize_ok hE hmode (same_sound h2 hm h3 (evaluate_once h1 hm.nodup)) (cloud.map p.toV)
  unfold run
  rw [hp, Bool.true_and, h1, Outcome.bind_ok, if_pos rfl, hs]
  exact ⟨_, rfl⟩

/-- A painted run. -/
theorem ex_runs : ∃ r, run exEnv { tVG := some exT, recolorByError := true } evLayer exCloud = .ok r :=
  C126_completes_partial exEnv_order rfl (Or.inl (by decide)) evLayer_sound (z := exErrors) (by decide +kernel) exErrors_judged fun _ => exErrors_small

example : AnyOrder exEnv.iter ∧ MapSound evLayer ∧ ∃ r, run exEnv { tVG := some exT, recolorByError := true } evLayer exCloud = .ok r ∧ r.stays = true ∧
    r.stats.total = 2 ∧ r.meanSquare = some 0 := by
  obtain ⟨r, hr⟩ := ex_runs
  have h := C126_report evLayer_wf (z := exErrors) (by decide +kernel) exErrors_judged hr
  have h' := C126_display exEnv_order rfl evLayer_sound (z := exErrors) (by decide +kernel) exErrors_judged hr
  refine ⟨exEnv_order, evLayer_sound, r, hr, h'.1, h.1, ?_⟩
  rw [h.2.2.2.2 (by decide +kernel)]
  decide +kernel

/-- **C126 (painting, violated).** With display and painting, a known error of 511/510 of the band or more makes the program undefined. -/
theorem C126_paint_violated {E : Export.Env} {p : Params} (hp : p.visualize = true) (hq : p.recolorByError = true) {l : VLayer (TsdfVoxel ℚ)} (wf : WellFormed l)
    {cloud : List Pt} {z : List (Pt × Option (Bool × ℚ))} (hc : cloud.map p.toV = z.map (·.1)) (hz : Judged l z) {x : Pt} {b : Bool} {d : ℚ}
    (hx : (x, some (b, d)) ∈ z) (hd : 511 / 510 * (2 * l.cfg.voxelSize) ≤ |d|) : run E p l cloud = .ub := by
  unfold run
  rw [hp, hq, Bool.and_true, C99_recolor_undefined wf p.toV cloud z hc hz hx hd]
  rfl

example : run exEnv { recolorByError := true } evLayer (evCloud.map (·.1)) = .ub :=
  C126_paint_violated rfl rfl evLayer_wf (by decide +kernel) evCloud_judged (x := ⟨1 / 2, 3 / 2, 3 / 2⟩) (b := true) (d := 3) (by simp [evCloud]) (by decide +kernel)

/-- **C126 (colour modes).** Four names give their modes; all other names, also `lambert_color`, give grey. -/
theorem C126_color_modes (s : String) : (s, colorModeOf s) ∈ [("color", MeshMsg.ColorMode.color), ("height", .height), ("normals", .normals), ("lambert", .lambert)] ∨
    s ∉ ["color", "height", "normals", "lambert"] ∧ colorModeOf s = .gray := by
  unfold colorModeOf
  split_ifs with a b c d
  · subst a; left; decide
  · subst b; left; decide
  · subst c; left; decide
  · subst d; left; decide
  · right; simp [a, b, c, d]

example : colorModeOf "lambert_color" = .gray ∧ colorModeOf "normals" = .normals := by decide +kernel

/-! ### Files -/

/-- **C126 (a saved map is evaluated).** On a map file that `saveLayer` wrote (with whatever behind it) and a readable cloud, the program is the run on a layer with the voxels of
the saved map. -/
theorem C126_saved {io : IO.Env (TsdfVoxel Word)} (hio : EnvOk io fun _ => True) {l : FLayer (TsdfVoxel Word)} (hl : Storable io (fun _ => True) l)
    (hr : readable l = true) (hm : MapSound (layerOfFile l)) (rest : List Proto.Byte) :
    ∃ (file : List Proto.Byte) (L : VLayer (TsdfVoxel ℚ)), saveLayer io l = .ok file ∧ MapSound L ∧ L.cfg = (layerOfFile l).cfg ∧
      (∀ g, content L g = content (layerOfFile l) g) ∧
      ∀ (d : ServerIO.Disk) (clouds : String → Option (List Pt)) (E : Export.Env) (p : Params) (mp gp : String) (c : List Pt), p.mapPath = some mp → p.gtPath = some gp →
        mp ≠ "" → d.files mp = some (file ++ rest) → clouds gp = some c → main io d clouds E p = run E p L c := by
  obtain ⟨file, l', h1, h2, h3⟩ := Props.C17_save_load hio hl false rest
  refine ⟨file, layerOfFile l', h1, restricted_sound h3 hm, (restricted_content h3 ⟨0, 0, 0⟩).1, fun g => (restricted_content h3 g).2, ?_⟩
  intro d clouds E p mp gp c h4 h5 hp hd hc
  have e : Visualizer.loadFile io d mp = .ok (true, some l') := by
    unfold Visualizer.loadFile
    rw [hd]
    simp only [hp, ne_eq, not_false_eq_true, decide_true, Outcome.check, if_true, Outcome.bind_ok]
    exact h2
  unfold main start
  rw [h4, h5]
  dsimp only
  rw [e, Outcome.bind_ok, hc]
  dsimp only
  rw [restricted_readable h3 hr]
  rfl

theorem exFile_eval : readable Visualizer.exFile = true ∧ MapSound (layerOfFile Visualizer.exFile) := by
  refine ⟨by decide +kernel, ?_⟩
  have hcfg : (layerOfFile Visualizer.exFile).cfg = ⟨1, 1⟩ := by
    show (⟨Visualizer.numberOf 0x3F800000#32, 1⟩ : Cfg) = _
    rw [show Visualizer.numberOf 0x3F800000#32 = 1 by decide +kernel]
  have hkeys : (layerOfFile Visualizer.exFile).blocks.map (·.1) = cubeOffsets := by decide +kernel
  refine ⟨⟨by rw [hcfg]; norm_num, by rw [hcfg]; norm_num, by rw [hcfg]; norm_num, ?_⟩, by rw [hkeys]; decide, ?_⟩
  · intro i b hb
    have h := mem_keys_of_lookup hb
    have : ∀ e ∈ (layerOfFile Visualizer.exFile).blocks, e.2.vps = 1 ∧ e.2.voxelSize = 1 ∧
        e.2.origin = ⟨e.1.x * (1 * (1 : ℕ)), e.1.y * (1 * (1 : ℕ)), e.1.z * (1 * (1 : ℕ))⟩ ∧ e.2.voxels.length = 1 := by decide +kernel
    rw [hcfg]
    exact this (i, b) h
  · intro i hi
    rw [block_isSome_iff, hkeys] at hi
    have : ∀ k ∈ cubeOffsets, (k : Idx).All fun (c : ℤ) => -2 ^ 30 ≤ c * (1 : ℕ) ∧ (c + 2) * (1 : ℕ) ≤ 2 ^ 30 := by
      unfold Vec3.All
      decide +kernel
    unfold BlockInRange
    rw [hcfg]
    exact this i hi

/-- A saved map, evaluated and shown. -/
example : EnvOk Props.tsdfEnv (fun _ => True) ∧ Storable Props.tsdfEnv (fun _ => True) Visualizer.exFile ∧ readable Visualizer.exFile = true ∧
    MapSound (layerOfFile Visualizer.exFile) ∧
    (do
      let file ← saveLayer Props.tsdfEnv Visualizer.exFile
      let r ← main Props.tsdfEnv ⟨fun q => if q = "map.vxblx" then some file else none, fun _ => true⟩ (fun q => if q = "gt.ply" then some [⟨1, 1 / 2, 1 / 2⟩, ⟨7, 7, 7⟩] else none)
        exEnv { mapPath := some "map.vxblx", gtPath := some "gt.ply" }
      pure (r.stats.total, r.stats.unknown, r.meanSquare, r.sent.map fun s => s.marker.points.length)) = Outcome.ok (2, 1, some 0, some 3) :=
  ⟨Props.tsdfEnv_ok, Visualizer.exFile_storable, exFile_eval.1, exFile_eval.2, by decide +kernel⟩

/-- **C126 (refusal).** Without one of the paths, without a map file, if loading reports failure or the cloud cannot be read, the program is aborted by a check. -/
theorem C126_refused (io : IO.Env (TsdfVoxel Word)) (d : ServerIO.Disk) (clouds : String → Option (List Pt)) (E : Export.Env) (p : Params) :
    (p.mapPath = none ∨ p.gtPath = none → main io d clouds E p = .fatal) ∧ (p.mapPath = some "" → main io d clouds E p = .fatal) ∧
    (∀ mp, p.mapPath = some mp → d.files mp = none → main io d clouds E p = .fatal) ∧
    (∀ mp file L, p.mapPath = some mp → d.files mp = some file → loadLayer io false file = .ok (false, L) → main io d clouds E p = .fatal) ∧
    ∀ mp gp file L, p.mapPath = some mp → p.gtPath = some gp → d.files mp = some file → loadLayer io false file = .ok (true, L) → clouds gp = none →
      main io d clouds E p = .fatal := by
  have hg : ∀ {mp : String} {o : Outcome (Bool × Option (FLayer (TsdfVoxel Word)))}, p.mapPath = some mp → Visualizer.loadFile io d mp = o →
      (o = .fatal ∨ (∃ L, o = .ok (false, L)) ∨ ∃ L gp, o = .ok (true, L) ∧ p.gtPath = some gp ∧ clouds gp = none) → main io d clouds E p = .fatal := by
    intro mp o h1 h2 h3
    unfold main start
    rw [h1]
    cases h4 : p.gtPath with
    | none => rfl
    | some gp =>
      dsimp only
      rw [h2]
      rcases h3 with rfl | ⟨L, rfl⟩ | ⟨L, gp', rfl, h5, h6⟩
      · rfl
      · rfl
      · obtain rfl := Option.some.inj (h4.symm.trans h5)
        rw [Outcome.bind_ok, h6]
        rfl
  have hf : ∀ {mp : String} {file : List Proto.Byte}, d.files mp = some file →
      Visualizer.loadFile io d mp = .fatal ∨ Visualizer.loadFile io d mp = loadLayer io false file := by
    intro mp file hd
    unfold Visualizer.loadFile
    rw [hd]
    by_cases hp : mp = ""
    · left
      subst hp
      rfl
    · right
      simp only [hp, ne_eq, not_false_eq_true, decide_true, Outcome.check, if_true, Outcome.bind_ok]
  refine ⟨fun h => ?_, fun h => hg h rfl (Or.inl rfl), fun mp h1 h2 => ?_, fun mp file L h1 h2 h3 => ?_, fun mp gp file L h1 h2 h3 h4 h5 => ?_⟩
  · unfold main start
    rcases h with h | h
    · rw [h]; rfl
    · rw [h]
      cases p.mapPath <;> rfl
  · refine hg h1 rfl ?_
    unfold Visualizer.loadFile
    rw [h2]
    by_cases hp : mp = ""
    · left
      subst hp
      rfl
    · right; left
      simp only [hp, ne_eq, not_false_eq_true, decide_true, Outcome.check, if_true, Outcome.bind_ok]
      exact ⟨none, rfl⟩
  · refine hg h1 rfl ?_
    rcases hf h2 with h | h
    · exact Or.inl h
    · rw [h, h3]
      exact Or.inr (Or.inl ⟨L, rfl⟩)
  · refine hg h1 rfl ?_
    rcases hf h3 with h | h
    · exact Or.inl h
    · rw [h, h4]
      exact Or.inr (Or.inr ⟨L, gp, rfl, h2, h5⟩)

/-- An empty file is no map. -/
example : (∃ L, loadLayer Props.tsdfEnv false [] = .ok (false, L)) ∧ ∃ file L, saveLayer Props.tsdfEnv Visualizer.exFile = .ok file ∧
    loadLayer Props.tsdfEnv false file = .ok (true, L) := by
  refine ⟨⟨none, by decide +kernel⟩, ?_⟩
  obtain ⟨file, l', h1, h2, -⟩ := Props.C17_save_load Props.tsdfEnv_ok Visualizer.exFile_storable false []
  rw [List.append_nil] at h2
  exact ⟨file, _, h1, h2⟩

end Vox.EvalProgram
