/-
**C122**: the construction of the simulation server.
-/
import Verif.Lemmas.SimSetup

namespace Vox.Setup

open Ieee MeshMsg Spec

/-- No parameters. -/
private def bare : Params := ⟨fun _ => none, fun _ => none, fun _ => none, fun _ => none⟩

/-- Blocks of a given side. -/
private def sided (v : ℤ) : Params := { bare with int := fun n => if n = "tsdf_voxels_per_side" then some v else none }

/-- Some parameters. -/
private def some_ : Params :=
  { bare with
    double := fun n => if n = "tsdf_voxel_size" then some (.fin (1 / 10)) else if n = "min_dist" then some (.fin 1) else none
    int := fun n => if n = "tsdf_voxels_per_side" then some 8 else if n = "num_viewpoints" then some 7 else none
    flag := fun n => if n = "generate_occupancy" then some true else none }

/-- Parts of a server for examples. -/
private def part {α : Type} (f : SimSetup → α) (P : Params) : Option α :=
  match simServer 4 P with
  | .ok s => some (f s)
  | _ => none

private theorem sided_fit {v : ℤ} (h1 : -2 ^ 31 ≤ v) (h2 : v < 2 ^ 31) : IntsFit (sided v) := fun n w h => by
  simp only [sided] at h
  split at h <;> simp at h
  omega

private theorem some_fit : IntsFit some_ := fun n v h => by
  simp only [some_] at h
  split at h
  · simp at h; omega
  · split at h <;> simp at h
    omega

private theorem intOf_side (p : Option ℤ) : sideOf p < 2 ^ 31 := by
  rcases sideOf_pow p with ⟨h, -⟩ | ⟨k, hk, h⟩
  · omega
  · rw [h]; exact Nat.pow_lt_pow_right (by norm_num) hk

/-- The side that is read the second time. -/
private theorem second_side {P : Params} {m : MapConfig} (hf : IntsFit P) (hm : tsdfMapConfig P = .ok m) :
    P.getInt "tsdf_voxels_per_side" (intOf m.side) = askedSide P := by
  have h3 : P.int "tsdf_voxels_per_side" ≠ some (-2 ^ 31) := fun c => by rw [map_ub c] at hm; cases hm
  rw [map_eq hf h3] at hm
  obtain rfl := Outcome.ok.inj hm
  unfold Params.getInt askedSide
  dsimp only
  cases P.int "tsdf_voxels_per_side" with
  | none =>
    simp only [Option.getD_none]
    have e : sideOf none = 16 := rfl
    rw [e, intOf_small (by norm_num)]
    norm_num
  | some v => simp only [Option.getD_some]

/-! ### Start -/

/-- **C122**, start: the server starts if and only if the voxel size is positive in single precision, the side is neither zero nor the smallest
integer, and at least one attempt per viewpoint is allowed. In particular it starts for sides that are no power of two, and for negative ones. -/
theorem C122_starts (hw : ℕ) {P : Params} (hf : IntsFit P) :
    (∃ s, simServer hw P = .ok s) ↔
      Fl.lt (.fin 0) (toFloat ((P.double "tsdf_voxel_size").getD (float32.rnd (2 / 10)))) = true ∧
      askedSide P ≠ 0 ∧ askedSide P ≠ -2 ^ 31 ∧ 0 < (P.int "max_attempts_to_generate_viewpoint").getD 50 := by
  have e5 : (2 / 10 : ℚ) = 1 / 5 := by norm_num
  rw [e5]
  constructor
  · rintro ⟨s, h⟩
    obtain ⟨m, g, hm, hg, ha, -⟩ := sim_inv h
    obtain ⟨h1, h2, -⟩ := makeLayer_inv hg
    rw [second_side hf hm] at h2
    dsimp only at h1 h2
    rw [map_float hm] at h1
    refine ⟨h1, fun c => ?_, fun c => ?_, ha⟩
    · rw [c] at h2
      exact absurd h2 (by decide)
    · refine absurd hm ?_
      rw [map_ub]
      · intro h; cases h
      · unfold askedSide at c
        cases hv : P.int "tsdf_voxels_per_side" with
        | none => rw [hv] at c; exact absurd c (by decide)
        | some v => rw [hv] at c; exact congrArg some c
  · rintro ⟨h1, h2, h3, h4⟩
    have h3' : P.int "tsdf_voxels_per_side" ≠ some (-2 ^ 31) := fun c => h3 (by unfold askedSide; rw [c]; rfl)
    have hm := map_eq hf h3'
    have hr : -2 ^ 31 ≤ askedSide P ∧ askedSide P < 2 ^ 31 := by
      unfold askedSide
      cases hv : P.int "tsdf_voxels_per_side" with
      | none => decide
      | some v => exact hf _ _ hv
    obtain ⟨p1, p2⟩ := sizeT_pos h2 hr.1 hr.2
    have hg := makeLayer_side h1 p1 p2
    rw [← second_side hf hm] at hg
    exact ⟨_, sim_ok hw hm (intOf_side _) hg h4⟩

example : IntsFit some_ ∧ askedSide some_ = 8 ∧ (∃ s, simServer 4 some_ = .ok s) := by
  refine ⟨some_fit, by decide, (C122_starts 4 some_fit).2 ⟨?_, by decide, by decide, by decide⟩⟩
  decide +kernel

/-- **C122**, start: otherwise the process ends with an error message; only for the smallest integer as the side its outcome is undefined. -/
theorem C122_refused (hw : ℕ) {P : Params} (hf : IntsFit P) (hn : ∀ s, simServer hw P ≠ .ok s) :
    simServer hw P = if askedSide P = -2 ^ 31 then .ub else .fatal := by
  split_ifs with h3
  · have hu : tsdfMapConfig P = .ub := map_ub (by
      unfold askedSide at h3
      cases hv : P.int "tsdf_voxels_per_side" with
      | none => rw [hv] at h3; exact absurd h3 (by decide)
      | some v => rw [hv] at h3; exact congrArg some h3)
    unfold simServer esdfMapConfig
    rw [hu]
    rfl
  · have h3' : P.int "tsdf_voxels_per_side" ≠ some (-2 ^ 31) := fun c => h3 (by unfold askedSide; rw [c]; rfl)
    have hm := map_eq hf h3'
    cases ho : simServer hw P with
    | ok s => exact absurd ho (hn s)
    | fatal => rfl
    | ub => exact absurd ho (sim_ne_ub hw hm)

example : simServer 4 (sided 0) = .fatal ∧ simServer 4 (sided (-2 ^ 31)) = .ub := by
  have h : ∀ v : ℤ, askedSide (sided v) = v := fun v => rfl
  constructor
  · have := C122_refused 4 (sided_fit (v := 0) (by norm_num) (by norm_num)) (fun s hs =>
      ((C122_starts 4 (sided_fit (v := 0) (by norm_num) (by norm_num))).1 ⟨s, hs⟩).2.1 rfl)
    rw [this, h, if_neg (by norm_num)]
  · have := C122_refused 4 (sided_fit (v := -2 ^ 31) (by norm_num) (by norm_num)) (fun s hs =>
      ((C122_starts 4 (sided_fit (v := -2 ^ 31) (by norm_num) (by norm_num))).1 ⟨s, hs⟩).2.2.1 rfl)
    rw [this, h, if_pos rfl]

/-! ### Contents -/

/-- **C122**, maps: the true and the built maps have the same voxels, of the size asked for. The true distances are cut off where the
integrators cut theirs off: at the truncation distance, and at the largest distance of the ESDF. The ESDF frees a sphere of the radius in which
viewpoints keep clear of obstacles. -/
theorem C122_consistent {hw : ℕ} {P : Params} (hf : IntsFit P) {s : SimSetup} (h : simServer hw P = .ok s) :
    s.esdfTruth = s.tsdfTruth ∧ s.tsdfTest = s.tsdfTruth ∧ s.esdfTest = s.tsdfTruth ∧
    s.tsdfTruth.voxelSize = toFloat ((P.double "tsdf_voxel_size").getD (float32.rnd (2 / 10))) ∧
    s.truncation = s.integrator.params.tsdf.truncation ∧ s.esdfMax = s.esdf.maxDistance ∧ s.esdf.clearRadius = s.minDist ∧
    s.esdfMax = toFloat ((P.double "esdf_max_distance_m").getD (float32.rnd 2)) ∧
    (s.attempts : ℤ) = (P.int "max_attempts_to_generate_viewpoint").getD 50 := by
  obtain ⟨m, g, hm, hg, ha, rfl⟩ := sim_inv h
  obtain ⟨-, -, rfl⟩ := makeLayer_inv hg
  refine ⟨rfl, rfl, rfl, ?_, ?_, rfl, rfl, ?_, ?_⟩
  · have e5 : (2 / 10 : ℚ) = 1 / 5 := by norm_num
    rw [e5]
    exact map_float hm
  · show P.getFloat "truncation_distance" (toFloat (P.getDouble "truncation_distance" _)) = toFloat (P.getDouble "truncation_distance" _)
    unfold Params.getFloat Params.getDouble
    cases P.double "truncation_distance" <;> rfl
  · show P.getFloat "esdf_max_distance_m" (float32.rnd 2) = _
    unfold Params.getFloat
    cases P.double "esdf_max_distance_m" with
    | none => exact (toFloat_rnd 2).symm
    | some x => rfl
  · show ((sizeT (P.getInt "max_attempts_to_generate_viewpoint" 50) : ℕ) : ℤ) = _
    have hr : P.getInt "max_attempts_to_generate_viewpoint" 50 < 2 ^ 31 := by
      unfold Params.getInt
      cases hv : P.int "max_attempts_to_generate_viewpoint" with
      | none => decide
      | some v => exact (hf _ _ hv).2
    change _ = P.getInt "max_attempts_to_generate_viewpoint" 50
    generalize P.getInt "max_attempts_to_generate_viewpoint" 50 = a at *
    unfold sizeT
    omega

example : part (fun s => (s.attempts, s.esdf.clearRadius, s.esdfMax, s.esdfTest.side)) some_ = some (50, .fin 1, .fin 2, 8) := by
  decide +kernel

/-- **C122**, occupancy: the occupancy map exists exactly if it is asked for; it has the same voxels, and its integrators have the ray length of the
TSDF integrator and the largest distance of the ESDF, which is also their default. -/
theorem C122_occupancy {hw : ℕ} {P : Params} {s : SimSetup} (h : simServer hw P = .ok s) :
    (P.flag "generate_occupancy" = some true →
      s.occTest = some s.tsdfTruth ∧ s.occRange = some s.integrator.params.tsdf.maxRay ∧ s.occEsdf = some (s.esdfMax, s.esdfMax)) ∧
    (P.flag "generate_occupancy" ≠ some true → s.occTest = none ∧ s.occRange = none ∧ s.occEsdf = none) := by
  obtain ⟨m, g, hm, hg, ha, rfl⟩ := sim_inv h
  have hb : P.getFlag "generate_occupancy" false = decide (P.flag "generate_occupancy" = some true) := by
    unfold Params.getFlag
    rcases P.flag "generate_occupancy" with _ | _ | _ <;> rfl
  constructor
  · intro hp
    rw [decide_eq_true hp] at hb
    unfold simOf
    dsimp only
    rw [hb]
    exact ⟨rfl, rfl, rfl⟩
  · intro hp
    rw [decide_eq_false hp] at hb
    unfold simOf
    dsimp only
    rw [hb]
    exact ⟨rfl, rfl, rfl⟩

example : part (fun s => (s.occTest.map (·.side), s.occRange, s.tsdfTruth.side)) some_ = some (some 8, some (.fin 5), 8) ∧
    part (fun s => (s.occTest.map (·.side), s.tsdfTest.side)) bare = some (none, 16) := by
  constructor <;> decide +kernel

/-- **C122**, parameters: every parameter of the table has the value given to it, in the precision it is used in, or its default. -/
theorem C122_parameters {hw : ℕ} {P : Params} {s : SimSetup} (h : simServer hw P = .ok s) :
    ∀ e ∈ simParameters, simValue s e.1 = some (expected P e.1 e.2) := by
  obtain ⟨m, g, hm, hg, ha, rfl⟩ := sim_inv h
  intro e he
  have fl : ∀ n d q, d = float32.rnd q → some (Value.single (P.getFloat n d)) = some (expected P n (decimal q)) := by
    rintro n _ q rfl
    unfold Params.getFloat expected decimal
    cases P.double n <;> rfl
  have hint : ∀ n d, some (Value.int (P.getInt n d)) = some (expected P n (.int d)) := by
    intro n d
    unfold Params.getInt expected
    cases P.int n <;> rfl
  have hflag : ∀ n d, some (Value.flag (P.getFlag n d)) = some (expected P n (.flag d)) := by
    intro n d
    unfold Params.getFlag expected
    cases P.flag n <;> rfl
  have htext : ∀ n d, some (Value.text (P.getText n d)) = some (expected P n (.text d)) := by
    intro n d
    unfold Params.getText expected
    cases P.text n <;> rfl
  have two : Fl.fin 2 = float32.rnd 2 := by decide +kernel
  simp only [simParameters, List.mem_cons, List.not_mem_nil, or_false] at he
  rcases he with rfl | rfl | rfl | rfl | rfl | rfl | rfl | rfl | rfl | rfl | rfl | rfl
  · exact htext _ _
  · exact hflag _ _
  · exact fl _ _ _ two
  · exact hflag _ _
  · exact hflag _ _
  · exact hflag _ _
  · exact hint _ _
  · exact hint _ _
  · exact fl _ _ _ rfl
  · exact fl _ _ _ rfl
  · exact fl _ _ _ (by norm_num)
  · exact hint _ _

example : part (fun s => simValue s "num_viewpoints") some_ = some (some (.int 7)) ∧
    part (fun s => simValue s "min_dist") some_ = some (some (.single (.fin 1))) ∧
    part (fun s => simValue s "num_viewpoints") bare = some (some (.int 50)) := by
  refine ⟨?_, ?_, ?_⟩ <;> decide +kernel

/-! ### The side of the blocks -/

/-- **C122**, side: a side that is a power of two is used. -/
theorem C122_side_partial {hw : ℕ} {P : Params} (hf : IntsFit P) {s : SimSetup} (h : simServer hw P = .ok s) {k : ℕ} (hk : k < 31)
    (ha : askedSide P = 2 ^ k) : s.tsdfTruth.side = 2 ^ k := by
  obtain ⟨m, g, hm, hg, -, rfl⟩ := sim_inv h
  obtain ⟨-, -, rfl⟩ := makeLayer_inv hg
  show sizeT (P.getInt "tsdf_voxels_per_side" (intOf m.side)) = 2 ^ k
  rw [second_side hf hm, ha]
  have : ((2 : ℤ) ^ k) = ((2 ^ k : ℕ) : ℤ) := by push_cast; rfl
  rw [this]
  refine sizeT_nat (lt_of_lt_of_le (Nat.pow_lt_pow_right (by norm_num) hk) (by norm_num))

example : part (fun s => s.tsdfTruth.side) (sided 32) = some 32 ∧ askedSide (sided 32) = 2 ^ 5 := by
  constructor <;> decide +kernel

/-- **C122**, violation: sides that are not a power of two are to be replaced by the default, as the other servers do, but the simulation server reads
the side a second time and uses it as it is, although its integrators cannot: the first voxel they ask a layer for by its global index ends the
process. -/
theorem C122_side_violated (hw : ℕ) {P : Params} (hf : IntsFit P) {s : SimSetup} (h : simServer hw P = .ok s)
    (hn : ∀ k : ℕ, k < 31 → askedSide P ≠ 2 ^ k) :
    (s.tsdfTruth.side : ℤ) = askedSide P % 2 ^ 64 ∧ s.tsdfTruth.side ≠ 16 ∧
    (∀ t, esdfServer hw P = .ok t → t.geometry.side = 16) ∧
    ∀ g, localFromGlobal (askedSide P) g = .fatal := by
  obtain ⟨m, g, hm, hg, -, rfl⟩ := sim_inv h
  obtain ⟨-, h2, rfl⟩ := makeLayer_inv hg
  rw [second_side hf hm] at h2
  dsimp only at h2
  have h3 : P.int "tsdf_voxels_per_side" ≠ some (-2 ^ 31) := fun c => by rw [map_ub c] at hm; cases hm
  obtain ⟨v, hv⟩ : ∃ v, P.int "tsdf_voxels_per_side" = some v := by
    cases hv : P.int "tsdf_voxels_per_side" with
    | none => exact absurd (show askedSide P = 2 ^ 4 by unfold askedSide; rw [hv]; rfl) (hn 4 (by norm_num))
    | some v => exact ⟨v, rfl⟩
  have hav : askedSide P = v := by unfold askedSide; rw [hv]; rfl
  have hside : (simOf hw P m (geometryOf m.voxelSize (sizeT (P.getInt "tsdf_voxels_per_side" (intOf m.side))))).tsdfTruth.side = sizeT v := by
    show sizeT (P.getInt "tsdf_voxels_per_side" (intOf m.side)) = _
    rw [second_side hf hm, hav]
  obtain ⟨r1, r2⟩ := hf _ _ hv
  have r3 : v ≠ -2 ^ 31 := fun c => h3 (by rw [hv, c])
  rw [hav] at hn h2 ⊢
  have h16 : v ≠ 16 := fun c => hn 4 (by norm_num) (by rw [c]; norm_num)
  have h0 : v ≠ 0 := by
    rintro rfl
    exact absurd h2 (by decide)
  have hp : isPowerOfTwo v = .ok false := not_pow h0 r1 r2 r3 hn
  refine ⟨?_, ?_, fun t ht => ?_, fun g => ?_⟩
  · rw [hside]
    unfold sizeT
    omega
  · rw [hside]
    unfold sizeT
    omega
  · refine (esdf_side hf ht) fun k hk c => ?_
    rw [hv] at c
    exact hn k hk (Option.some.inj c)
  · unfold localFromGlobal
    rw [hp]
    rfl

example : IntsFit (sided 12) ∧ part (fun s => s.tsdfTruth.side) (sided 12) = some 12 ∧ (∀ k : ℕ, k < 31 → askedSide (sided 12) ≠ 2 ^ k) ∧
    part (fun s => s.tsdfTruth.side) (sided (-8)) = some (2 ^ 64 - 8) := by
  refine ⟨sided_fit (by norm_num) (by norm_num), by decide +kernel, ?_, by decide +kernel⟩
  show ∀ k : ℕ, k < 31 → (12 : ℤ) ≠ 2 ^ k
  decide

end Vox.Setup
