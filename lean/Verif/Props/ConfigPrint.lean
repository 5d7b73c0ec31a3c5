/-
C134: settings that are printed can be read back.
-/
import Verif.Lemmas.ConfigPrint

namespace Vox.Props

open PlySpec ConfigPrint Ply

/-- **C134 (partial).** What the settings of a TSDF integrator print names all of them but one, each once, with its value: numbers to six digits, the others
exactly. Full statement: every setting is named; see `C134_order_violated`. -/
theorem C134_tsdf_partial : ∃ sh, SixDigits sh ∧ ∀ c : TsdfConfig, settings c.print =
      [("default_truncation_distance".toList, sh c.defaultTruncationDistance),
        ("max_weight".toList, sh c.maxWeight),
        ("voxel_carving_enabled".toList, .fin (if c.voxelCarvingEnabled then 1 else 0)),
        ("min_ray_length_m".toList, sh c.minRayLengthM),
        ("max_ray_length_m".toList, sh c.maxRayLengthM),
        ("use_const_weight".toList, .fin (if c.useConstWeight then 1 else 0)),
        ("allow_clear".toList, .fin (if c.allowClear then 1 else 0)),
        ("use_weight_dropoff".toList, .fin (if c.useWeightDropoff then 1 else 0)),
        ("use_sparsity_compensation_factor".toList, .fin (if c.useSparsityCompensationFactor then 1 else 0)),
        ("sparsity_compensation_factor".toList, sh c.sparsityCompensationFactor),
        ("integrator_threads".toList, .fin c.integratorThreads),
        ("enable_anti_grazing".toList, .fin (if c.enableAntiGrazing then 1 else 0)),
        ("start_voxel_subsampling_factor".toList, sh c.startVoxelSubsamplingFactor),
        ("max_consecutive_ray_collisions".toList, .fin c.maxConsecutiveRayCollisions),
        ("clear_checks_every_n_frames".toList, .fin c.clearChecksEveryNFrames),
        ("max_integration_time_s".toList, sh c.maxIntegrationTimeS)] := by
  refine ⟨shown, shown_six, fun c => ?_⟩
  unfold TsdfConfig.print
  rw [settings_line ⟨by decide, rfl, rfl⟩ (by decide),
      settings_line ⟨by decide, rfl, rfl⟩ (by decide),
      settings_item (n := "default_truncation_distance".toList) (by decide +kernel),
      settings_item (n := "max_weight".toList) (by decide +kernel),
      settings_item (n := "voxel_carving_enabled".toList) (by decide +kernel),
      settings_item (n := "min_ray_length_m".toList) (by decide +kernel),
      settings_item (n := "max_ray_length_m".toList) (by decide +kernel),
      settings_item (n := "use_const_weight".toList) (by decide +kernel),
      settings_item (n := "allow_clear".toList) (by decide +kernel),
      settings_item (n := "use_weight_dropoff".toList) (by decide +kernel),
      settings_item (n := "use_sparsity_compensation_factor".toList) (by decide +kernel),
      settings_item (n := "sparsity_compensation_factor".toList) (by decide +kernel),
      settings_item (n := "integrator_threads".toList) (by decide +kernel),
      settings_line ⟨by decide, rfl, rfl⟩ (by decide),
      settings_item (n := "enable_anti_grazing".toList) (by decide +kernel),
      settings_line ⟨by decide, rfl, rfl⟩ (by decide),
      settings_item (n := "start_voxel_subsampling_factor".toList) (by decide +kernel),
      settings_item (n := "max_consecutive_ray_collisions".toList) (by decide +kernel),
      settings_item (n := "clear_checks_every_n_frames".toList) (by decide +kernel),
      settings_item (n := "max_integration_time_s".toList) (by decide +kernel)]
  rfl

private def usual : TsdfConfig :=
  ⟨.fin (1 / 10), .fin 10000, true, .fin (1 / 10), .fin 5, false, true, true, false, .fin 1, 8, "mixed", false, .fin 2, -3, 1, .fin (34 * 10 ^ 37)⟩

example : (settings usual.print).length = 16 ∧ (settings usual.print).lookup "max_consecutive_ray_collisions".toList = some (.fin (-3)) ∧
    (settings usual.print).lookup "default_truncation_distance".toList = some (.fin (1 / 10)) ∧
    (settings usual.print).lookup "max_integration_time_s".toList = some (.fin (34 * 10 ^ 37)) := by decide +kernel

/-- **C134**, violation: the order in which rays are integrated is not printed: whatever it is, the text is the same. -/
theorem C134_order_violated (c : TsdfConfig) (mode : String) : TsdfConfig.print { c with integrationOrderMode := mode } = c.print ∧
    (settings c.print).lookup "integration_order_mode".toList = none := by
  refine ⟨rfl, ?_⟩
  obtain ⟨sh, -, h⟩ := C134_tsdf_partial
  rw [h c]
  rfl

/-- **C134**, violation: numbers that agree in six digits are printed alike. -/
theorem C134_digits_violated : TsdfConfig.print { usual with maxWeight := .fin 1000000 } = TsdfConfig.print { usual with maxWeight := .fin 1000001 } := by
  unfold TsdfConfig.print usual
  have : floatText (.fin 1000000) = floatText (.fin 1000001) := by decide +kernel
  simp only [item, Value.text, this]

/-- **C134**: equal texts mean equal settings, up to the order of integration and six digits. -/
theorem C134_same_text {c d : TsdfConfig} (h : c.print = d.print) :
    c.voxelCarvingEnabled = d.voxelCarvingEnabled ∧ c.useConstWeight = d.useConstWeight ∧ c.allowClear = d.allowClear ∧
    c.useWeightDropoff = d.useWeightDropoff ∧ c.useSparsityCompensationFactor = d.useSparsityCompensationFactor ∧
    c.integratorThreads = d.integratorThreads ∧ c.enableAntiGrazing = d.enableAntiGrazing ∧
    c.maxConsecutiveRayCollisions = d.maxConsecutiveRayCollisions ∧ c.clearChecksEveryNFrames = d.clearChecksEveryNFrames ∧
    ∀ p q : ℚ, (c.maxWeight = .fin p ∧ d.maxWeight = .fin q ∨ c.defaultTruncationDistance = .fin p ∧ d.defaultTruncationDistance = .fin q ∨
      c.minRayLengthM = .fin p ∧ d.minRayLengthM = .fin q ∨ c.maxRayLengthM = .fin p ∧ d.maxRayLengthM = .fin q ∨
      c.sparsityCompensationFactor = .fin p ∧ d.sparsityCompensationFactor = .fin q ∨
      c.startVoxelSubsamplingFactor = .fin p ∧ d.startVoxelSubsamplingFactor = .fin q ∨
      c.maxIntegrationTimeS = .fin p ∧ d.maxIntegrationTimeS = .fin q) → |p - q| ≤ (|p| + |q|) / 200000 := by
  obtain ⟨sh, hs, hp⟩ := C134_tsdf_partial
  have e := congrArg settings h
  rw [hp, hp] at e
  simp only [List.cons.injEq, Prod.mk.injEq, true_and, and_true, Fl.fin.injEq, Nat.cast_inj, Int.cast_inj] at e
  obtain ⟨e1, e2, e3, e4, e5, e6, e7, e8, e9, e10, e11, e12, e13, e14, e15, e16⟩ := e
  have bools : ∀ {x y : Bool}, (if x = true then (1 : ℚ) else 0) = (if y = true then 1 else 0) → x = y := by
    intro x y
    cases x <;> cases y <;> simp
  have near : ∀ {x y : Fl} {p q : ℚ}, sh x = sh y → x = .fin p → y = .fin q → |p - q| ≤ (|p| + |q|) / 200000 := by
    rintro x y p q he rfl rfl
    obtain ⟨r, h1, h2⟩ := hs.close p
    obtain ⟨r', h3, h4⟩ := hs.close q
    rw [h1, h3] at he
    obtain rfl := Fl.fin.inj he
    have := abs_sub_le p r q
    rw [abs_sub_comm p r] at this
    linarith
  refine ⟨bools e3, bools e6, bools e7, bools e8, bools e9, e11, bools e12, e14, e15, ?_⟩
  rintro p q (⟨h1, h2⟩ | ⟨h1, h2⟩ | ⟨h1, h2⟩ | ⟨h1, h2⟩ | ⟨h1, h2⟩ | ⟨h1, h2⟩ | ⟨h1, h2⟩)
  exacts [near e2 h1 h2, near e1 h1 h2, near e4 h1 h2, near e5 h1 h2, near e10 h1 h2, near e13 h1 h2, near e16 h1 h2]

example : TsdfConfig.print { usual with maxWeight := .fin 1000000 } = TsdfConfig.print { usual with maxWeight := .fin 1000001, integrationOrderMode := "sorted" } :=
  C134_digits_violated

/-- **C134**: the settings of a TSDF map are all printed. -/
theorem C134_map : ∃ sh, SixDigits sh ∧ ∀ c : MapConfig, settings c.print =
      [("tsdf_voxel_size".toList, sh c.tsdfVoxelSize),
        ("tsdf_voxels_per_side".toList, .fin c.tsdfVoxelsPerSide)] := by
  refine ⟨shown, shown_six, fun c => ?_⟩
  unfold MapConfig.print
  rw [settings_line ⟨by decide, rfl, rfl⟩ (by decide),
      settings_item (n := "tsdf_voxel_size".toList) (by decide +kernel),
      settings_item (n := "tsdf_voxels_per_side".toList) (by decide +kernel)]
  rfl

example : settings (MapConfig.print ⟨.fin (1 / 5), 16⟩) = [("tsdf_voxel_size".toList, .fin (1 / 5)), ("tsdf_voxels_per_side".toList, .fin 16)] := by
  decide +kernel

/-- **C134**: the settings of a mesh integrator are all printed. -/
theorem C134_mesh : ∃ sh, SixDigits sh ∧ ∀ c : MeshConfig, settings c.print =
      [("use_color".toList, .fin (if c.useColor then 1 else 0)),
        ("min_weight".toList, sh c.minWeight),
        ("integrator_threads".toList, .fin c.integratorThreads)] := by
  refine ⟨shown, shown_six, fun c => ?_⟩
  unfold MeshConfig.print
  rw [settings_line ⟨by decide, rfl, rfl⟩ (by decide),
      settings_item (n := "use_color".toList) (by decide +kernel),
      settings_item (n := "min_weight".toList) (by decide +kernel),
      settings_item (n := "integrator_threads".toList) (by decide +kernel)]
  rfl

example : settings (MeshConfig.print ⟨true, .fin (1 / 10000), 4⟩) =
    [("use_color".toList, .fin 1), ("min_weight".toList, .fin (1 / 10000)), ("integrator_threads".toList, .fin 4)] := by
  decide +kernel

end Vox.Props
