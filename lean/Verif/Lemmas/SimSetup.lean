/-
The construction of the simulation server.
-/
import Verif.Spec.SimSetup
import Verif.Lemmas.Setup

namespace Vox.Setup

open Ieee MeshMsg Spec

theorem intOf_small {n : ℕ} (h : n < 2 ^ 31) : intOf n = n := by
  unfold intOf
  omega

theorem sizeT_pos {v : ℤ} (h0 : v ≠ 0) (h1 : -2 ^ 31 ≤ v) (h2 : v < 2 ^ 31) : 0 < sizeT v ∧ sizeT v < 2 ^ 64 := by
  unfold sizeT
  omega

/-- A side that is no power of two is recognised. -/
theorem not_pow {v : ℤ} (h0 : v ≠ 0) (h1 : -2 ^ 31 ≤ v) (h2 : v < 2 ^ 31) (h3 : v ≠ -2 ^ 31) (hn : ∀ k : ℕ, k < 31 → v ≠ 2 ^ k) :
    isPowerOfTwo v = .ok false := by
  rcases lt_or_gt_of_ne h0 with hv | hv
  · exact negative_not_pow hv (by omega)
  · obtain ⟨n, rfl⟩ : ∃ n : ℕ, v = n := ⟨v.toNat, by omega⟩
    rw [isPowerOfTwo_iff (x := n) (by omega) (by omega), decide_eq_false]
    rintro ⟨k, hk, e⟩
    exact hn k hk (by exact_mod_cast e)

/-- The side of the other servers. -/
theorem esdf_side {hw : ℕ} {P : Params} (hf : IntsFit P) {s : EsdfSetup} (h : esdfServer hw P = .ok s)
    (hn : ∀ k : ℕ, k < 31 → P.int "tsdf_voxels_per_side" ≠ some (2 ^ k)) : s.geometry.side = 16 := by
  obtain ⟨m, tr, g, hm, -, hg, -, rfl⟩ := esdf_inv h
  obtain ⟨-, h2, rfl⟩ := makeLayer_inv hg
  have h3 : P.int "tsdf_voxels_per_side" ≠ some (-2 ^ 31) := fun c => by rw [map_ub c] at hm; cases hm
  rw [map_eq hf h3] at hm
  obtain rfl := Outcome.ok.inj hm
  dsimp only at h2
  show sideOf (P.int "tsdf_voxels_per_side") = 16
  cases hv : P.int "tsdf_voxels_per_side" with
  | none => rfl
  | some v =>
    rw [hv] at hn h2
    unfold sideOf at h2 ⊢
    dsimp only at h2 ⊢
    by_cases h0 : v = 0
    · rw [if_pos h0] at h2; omega
    · rw [if_neg h0, if_neg]
      rintro ⟨k, hk, rfl⟩
      exact hn k hk rfl

/-- A block of any positive side has a positive size. -/
theorem blockSize_side {x : Fl} (hx : Fl.lt (.fin 0) (toFloat x) = true) {n : ℕ} (hn : 0 < n) (hn' : n < 2 ^ 64) :
    Fl.lt (.fin 0) (blockSizeFl (toFloat x) n) = true := by
  have r1 : 1 ≤ rnd32 (n : ℚ) := by
    have := rne_mono (p := 24) (qmin := -149) (by norm_num) (show (1 : ℚ) ≤ n by exact_mod_cast hn)
    rwa [show rne 24 (-149) 1 = 1 by decide +kernel] at this
  have r2 : rnd32 (n : ℚ) ≤ 2 ^ 64 := by
    have := rne_mono (p := 24) (qmin := -149) (by norm_num) (show (n : ℚ) ≤ 2 ^ 64 by exact_mod_cast hn'.le)
    rwa [show rne 24 (-149) (2 ^ 64) = 2 ^ 64 from rnd32_pow 64] at this
  have e : float32.rnd n = .fin (rnd32 n) := overflow_of_lt (by rw [abs_of_pos (by linarith)]; exact lt_of_le_of_lt r2 (by norm_num))
  unfold blockSizeFl
  rw [e]
  cases h : toFloat x with
  | nan => rw [h] at hx; exact absurd hx (by decide)
  | ninf => rw [h] at hx; exact absurd hx (by decide)
  | pinf =>
    show Fl.lt (.fin 0) (Fl.infOfSign _) = true
    unfold Fl.infOfSign
    rw [if_pos (by linarith)]
    rfl
  | fin q =>
    rw [h] at hx
    have hq : 0 < q := by simpa [Fl.lt] using hx
    have hqi : rnd32 q = q := by
      obtain ⟨k, e, hk, he, rfl, -⟩ := float_form h
      exact rne_exact (by norm_num) hk he
    have hm : q ≤ rnd32 (q * rnd32 n) := by
      have := rne_mono (p := 24) (qmin := -149) (by norm_num) (show q ≤ q * rnd32 n by nlinarith)
      rwa [show rne 24 (-149) q = q from hqi] at this
    show Fl.lt (.fin 0) (overflow (2 ^ 128) (rnd32 (q * rnd32 n))) = true
    unfold overflow
    split_ifs with h1 h2
    · rfl
    · exfalso
      have : (0 : ℚ) < 2 ^ 128 := by norm_num
      linarith
    · have : 0 < rnd32 (q * rnd32 n) := by linarith
      simpa [Fl.lt] using this

theorem makeLayer_side {x : Fl} (hx : Fl.lt (.fin 0) (toFloat x) = true) {n : ℕ} (hn : 0 < n) (hn' : n < 2 ^ 64) :
    makeLayer ⟨toFloat x, n⟩ = .ok (geometryOf (toFloat x) n) := by
  unfold makeLayer
  dsimp only
  rw [hx, blockSize_side hx hn hn', decide_eq_true hn]
  rfl

theorem sameFl_self {x : Fl} (h : x ≠ .nan) : sameFl x x = true := by
  cases x with
  | nan => exact absurd rfl h
  | fin q => simp [sameFl, Fl.le]
  | ninf => rfl
  | pinf => rfl

theorem pos_ne_nan {x : Fl} (h : Fl.lt (.fin 0) x = true) : x ≠ .nan := by
  rintro rfl
  exact absurd h (by decide)

/-- What the server has, given the voxel size and the side it reads. -/
def simOf (hw : ℕ) (P : Params) (map : MapConfig) (g : Geometry) : SimSetup :=
  let tsdf := tsdfConfigOf hw P map
  let esdf := esdfConfigOf P tsdf
  let occupancy := P.getFlag "generate_occupancy" false
  { tsdfTruth := g
    esdfTruth := g
    tsdfTest := g
    esdfTest := g
    occTest := if occupancy then some g else none
    integrator := tsdf.corrected
    esdf := { esdf with clearRadius := P.getFloat "min_dist" (float32.rnd (1 / 2)) }
    occRange := if occupancy then some tsdf.params.tsdf.maxRay else none
    occEsdf := if occupancy then some (esdf.maxDistance, esdf.maxDistance) else none
    truncation := P.getFloat "truncation_distance" tsdf.params.tsdf.truncation
    esdfMax := esdf.maxDistance
    worldFrame := P.getText "world_frame" "world"
    visualize := P.getFlag "visualize" true
    sliceLevel := P.getFloat "visualization_slice_level" (.fin 2)
    generateMesh := P.getFlag "generate_mesh" true
    incremental := P.getFlag "incremental" true
    addRobotPose := P.getFlag "add_robot_pose" false
    attempts := sizeT (P.getInt "max_attempts_to_generate_viewpoint" 50)
    resolution := (P.getInt "depth_camera_resolution_u" 320, P.getInt "depth_camera_resolution_v" 240)
    fov := P.getFloat "fov_h_rad" (float32.rnd (15708 / 10000))
    maxDist := P.getFloat "max_dist" (float32.rnd 10)
    minDist := P.getFloat "min_dist" (float32.rnd (1 / 2))
    viewpoints := P.getInt "num_viewpoints" 50 }

theorem reread {P : Params} {m : MapConfig} (hm : tsdfMapConfig P = .ok m) : P.getFloat "tsdf_voxel_size" m.voxelSize = m.voxelSize := by
  rw [map_float hm]
  unfold Params.getFloat sizeOf_ Params.getDouble
  cases P.double "tsdf_voxel_size" <;> rfl

/-- What a constructed simulation server consists of. -/
theorem sim_inv {hw : ℕ} {P : Params} {s : SimSetup} (h : simServer hw P = .ok s) :
    ∃ m g, tsdfMapConfig P = .ok m ∧ makeLayer ⟨m.voxelSize, sizeT (P.getInt "tsdf_voxels_per_side" (intOf m.side))⟩ = .ok g ∧
      0 < P.getInt "max_attempts_to_generate_viewpoint" 50 ∧ s = simOf hw P m g := by
  unfold simServer at h
  obtain ⟨em, hem, h⟩ := Outcome.bind_eq_ok.1 h
  obtain ⟨ec, hec, h⟩ := Outcome.bind_eq_ok.1 h
  obtain ⟨m, hm, h⟩ := Outcome.bind_eq_ok.1 h
  obtain ⟨tc, htc, h⟩ := Outcome.bind_eq_ok.1 h
  unfold tsdfConfig at htc
  rw [hm] at htc
  obtain rfl := Outcome.ok.inj htc
  unfold esdfConfig tsdfConfig at hec
  rw [hm] at hec
  obtain rfl := Outcome.ok.inj hec
  unfold simServerWith at h
  obtain ⟨-, -, h⟩ := Outcome.bind_eq_ok.1 h
  obtain ⟨-, -, h⟩ := Outcome.bind_eq_ok.1 h
  unfold simMembers at h
  dsimp only at h
  rw [reread hm] at h
  obtain ⟨u, hu, h⟩ := Outcome.bind_eq_ok.1 h
  obtain ⟨g, hg, h⟩ := Outcome.bind_eq_ok.1 h
  rw [hg] at h
  simp only [Outcome.bind_ok] at h
  obtain ⟨u', -, h⟩ := Outcome.bind_eq_ok.1 h
  refine ⟨m, g, hm, hg, ?_, ?_⟩
  · unfold Outcome.check at hu
    split at hu
    · rename_i e; exact of_decide_eq_true e
    · cases hu
  · unfold simOf
    cases hb : P.getFlag "generate_occupancy" false
    · rw [hb] at h
      exact (Outcome.ok.inj h).symm
    · rw [hb] at h
      exact (Outcome.ok.inj h).symm

/-- The constructor succeeds. -/
theorem sim_ok (hw : ℕ) {P : Params} {m : MapConfig} (hm : tsdfMapConfig P = .ok m) (hs : m.side < 2 ^ 31) {g : Geometry}
    (hg : makeLayer ⟨m.voxelSize, sizeT (P.getInt "tsdf_voxels_per_side" (intOf m.side))⟩ = .ok g)
    (ha : 0 < P.getInt "max_attempts_to_generate_viewpoint" 50) : simServer hw P = .ok (simOf hw P m g) := by
  obtain ⟨hp, -, rfl⟩ := makeLayer_inv hg
  dsimp only at hp
  have hn := pos_ne_nan hp
  have hsz : sizeT (intOf m.side) = m.side := by rw [intOf_small hs]; exact sizeT_nat (by omega)
  have hc : checkConfig m.voxelSize (intOf m.side) m = .ok () := by
    unfold checkConfig
    rw [sameFl_self hn, hsz, decide_eq_true rfl]
    rfl
  have hl : checkLayers (geometryOf m.voxelSize (sizeT (P.getInt "tsdf_voxels_per_side" (intOf m.side))))
      (geometryOf m.voxelSize (sizeT (P.getInt "tsdf_voxels_per_side" (intOf m.side)))) = .ok () := by
    unfold checkLayers
    rw [decide_eq_true rfl]
    have := map_float hm
    unfold geometryOf
    dsimp only
    rw [this] at hn ⊢
    exact checkNear_self hn
  unfold simServer esdfMapConfig esdfConfig tsdfConfig
  rw [hm]
  simp only [Outcome.bind_ok, Outcome.pure_eq]
  unfold simServerWith
  rw [hc]
  simp only [Outcome.bind_ok]
  unfold simMembers
  dsimp only
  rw [reread hm, hg, decide_eq_true ha]
  simp only [Outcome.bind_ok]
  rw [hl]
  unfold simOf
  cases P.getFlag "generate_occupancy" false <;> rfl

/-! ### Refusal -/

theorem bind_ne_ub {α β : Type} {o : Outcome α} {f : α → Outcome β} (h : o ≠ .ub) (hf : ∀ a, f a ≠ .ub) : (o >>= f) ≠ .ub := by
  cases o with
  | ok a => exact hf a
  | fatal => intro c; cases c
  | ub => exact absurd rfl h

theorem check_ne_ub (b : Bool) : Outcome.check b ≠ .ub := by
  cases b <;> (intro c; cases c)

theorem makeLayer_ne_ub (c : MapConfig) : makeLayer c ≠ .ub := by
  unfold makeLayer
  refine bind_ne_ub (check_ne_ub _) fun _ => bind_ne_ub (check_ne_ub _) fun _ => bind_ne_ub (check_ne_ub _) fun _ => ?_
  intro c
  cases c

theorem checkLayers_ne_ub (a b : Geometry) : checkLayers a b ≠ .ub := by
  unfold checkLayers checkNear
  exact bind_ne_ub (check_ne_ub _) fun _ => bind_ne_ub (check_ne_ub _) fun _ => check_ne_ub _

theorem simMembers_ne_ub (P : Params) (map : MapConfig) (tsdf : TsdfConfig) (esdf : EsdfConfig) : simMembers P map tsdf esdf ≠ .ub := by
  unfold simMembers
  refine bind_ne_ub (check_ne_ub _) fun _ => bind_ne_ub (makeLayer_ne_ub _) fun _ => bind_ne_ub (makeLayer_ne_ub _) fun _ =>
    bind_ne_ub (makeLayer_ne_ub _) fun _ => bind_ne_ub (makeLayer_ne_ub _) fun _ => bind_ne_ub (checkLayers_ne_ub _ _) fun _ =>
    ?_
  dsimp only
  split
  · refine bind_ne_ub (makeLayer_ne_ub _) fun _ => ?_
    intro c
    cases c
  · intro c
    cases c

theorem sim_ne_ub (hw : ℕ) {P : Params} {m : MapConfig} (hm : tsdfMapConfig P = .ok m) : simServer hw P ≠ .ub := by
  have h1 : tsdfMapConfig P ≠ .ub := by rw [hm]; intro c; cases c
  have h2 : esdfMapConfig P ≠ .ub := bind_ne_ub h1 fun _ c => by cases c
  have h3 : tsdfConfig hw P ≠ .ub := bind_ne_ub h1 fun _ c => by cases c
  have h4 : esdfConfig hw P ≠ .ub := bind_ne_ub h3 fun _ c => by cases c
  refine bind_ne_ub h2 fun _ => bind_ne_ub h4 fun _ => bind_ne_ub h1 fun _ => bind_ne_ub h3 fun _ => ?_
  unfold simServerWith checkConfig
  exact bind_ne_ub (bind_ne_ub (check_ne_ub _) fun _ => check_ne_ub _) fun _ =>
    bind_ne_ub (bind_ne_ub (check_ne_ub _) fun _ => check_ne_ub _) fun _ => simMembers_ne_ub _ _ _ _

end Vox.Setup
