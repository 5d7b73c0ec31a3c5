/-
Properties C01 - C07: index arithmetic and neighbourhoods.
-/
import Verif.Lemmas.Index

namespace Vox.Props
open Vox Vox.Spec

/-! ## C01 linear and 3-D addressing of a block are inverse -/

/-- The validity test of the API accepts exactly the voxels of the block. -/
theorem C01_valid_voxel_iff {vps : ℕ} (hv : vps < 2 ^ 31) (v : Idx) :
    isValidVoxelIndex vps v = true ↔ InBlock vps v :=
  isValidVoxelIndex_iff hv v

example : isValidVoxelIndex 16 ⟨15, 0, 7⟩ = true ∧ isValidVoxelIndex 16 ⟨16, 0, 7⟩ = false := by
  decide +kernel

/-- 3-D index to linear position and back (block of at most 2^31 voxels, the range of the `int`
arithmetic in the code). The linear position is valid. -/
theorem C01_voxel_to_linear_to_voxel {vps : ℕ} (hsz : numVoxels vps ≤ 2 ^ 31) {v : Idx}
    (hin : InBlock vps v) :
    linearIndex vps v < vps * vps * vps ∧
    voxelIndexFromLinear vps (linearIndex vps v) = .ok v := by
  have h1290 := vps_le_1290 hsz
  obtain ⟨hx, hy, hz⟩ := hin
  have hn : 0 < vps := by omega
  obtain ⟨l0, l1⟩ := linear_lt hx hy hz
  have hcube : (vps : ℤ) * vps * vps ≤ 2 ^ 31 := by
    unfold numVoxels at hsz; exact_mod_cast hsz
  have hlin : ((linearIndex vps v : ℕ) : ℤ) = v.x + vps * (v.y + v.z * vps) := by
    unfold linearIndex
    rw [wrapU64_of_range l0 (by omega)]
    omega
  constructor
  · have : ((linearIndex vps v : ℕ) : ℤ) < ((vps * vps * vps : ℕ) : ℤ) := by
      rw [hlin]; push_cast; exact l1
    exact_mod_cast this
  · have hsq : (vps : ℤ) * vps ≤ 1290 * 1290 :=
      Int.mul_le_mul (by omega) (by omega) (by omega) (by omega)
    have hsq0 : 0 < (vps : ℤ) * vps := Int.mul_pos (by omega) (by omega)
    unfold voxelIndexFromLinear
    rw [hlin, wrap32_of_range (n := v.x + vps * (v.y + v.z * vps)) ⟨by omega, by omega⟩,
      wrap32_of_range (n := (vps : ℤ) * vps) ⟨by omega, by omega⟩,
      wrap32_of_range (n := (vps : ℤ)) ⟨by omega, by omega⟩]
    simp only
    rw [if_neg (by omega)]
    have hxy0 : 0 ≤ v.x + vps * v.y := by
      have := Int.mul_nonneg (by omega : 0 ≤ (vps : ℤ)) hy.1; omega
    have hxy1 : v.x + vps * v.y < (vps : ℤ) * vps := by
      have : (vps : ℤ) * v.y ≤ vps * (vps - 1) := Int.mul_le_mul_of_nonneg_left (by omega) (by omega)
      nlinarith
    have hdiv : (v.x + vps * (v.y + v.z * vps)).tdiv ((vps : ℤ) * vps) = v.z := by
      rw [Int.tdiv_eq_ediv_of_nonneg l0,
        show v.x + vps * (v.y + v.z * vps) = (v.x + vps * v.y) + v.z * (vps * vps) by ring,
        Int.add_mul_ediv_right _ _ (by omega), Int.ediv_eq_zero_of_lt hxy0 hxy1]
      omega
    have hmod : (v.x + vps * (v.y + v.z * vps)).tmod ((vps : ℤ) * vps) = v.x + vps * v.y := by
      rw [Int.tmod_eq_emod_of_nonneg l0,
        show v.x + vps * (v.y + v.z * vps) = (v.x + vps * v.y) + v.z * (vps * vps) by ring,
        Int.add_mul_emod_self_right, Int.emod_eq_of_lt hxy0 hxy1]
    rw [hdiv, hmod, Int.tmod_eq_emod_of_nonneg hxy0, Int.tdiv_eq_ediv_of_nonneg hxy0,
      Int.add_mul_emod_self_left, Int.emod_eq_of_lt hx.1 hx.2,
      Int.add_mul_ediv_left _ _ (by omega), Int.ediv_eq_zero_of_lt hx.1 hx.2]
    congr 1
    ext <;> simp

example : numVoxels 16 ≤ 2 ^ 31 ∧ InBlock 16 ⟨15, 3, 7⟩ ∧ linearIndex 16 ⟨15, 3, 7⟩ = 1855 := by
  decide +kernel

/-- Linear position to 3-D index and back: every position below `num_voxels` is reached by a valid
voxel index. -/
theorem C01_linear_to_voxel_to_linear {vps : ℕ} (hsz : numVoxels vps ≤ 2 ^ 31) {l : ℕ}
    (hl : isValidLinearIndex vps l = true) :
    ∃ v, voxelIndexFromLinear vps l = .ok v ∧ InBlock vps v ∧ linearIndex vps v = l := by
  have hl' : l < vps * vps * vps := by
    unfold isValidLinearIndex numVoxels at hl
    by_contra hc
    rw [if_pos (by omega)] at hl
    cases hl
  have hn : 0 < vps := by
    rcases Nat.eq_zero_or_pos vps with h | h
    · subst h; omega
    · exact h
  set v : Idx := ⟨(l % vps : ℕ), (l / vps % vps : ℕ), (l / vps / vps : ℕ)⟩ with hvdef
  have hin : InBlock vps v := by
    refine ⟨⟨by positivity, ?_⟩, ⟨by positivity, ?_⟩, ⟨by positivity, ?_⟩⟩ <;>
      simp only [hvdef, Nat.cast_lt]
    · exact Nat.mod_lt _ hn
    · exact Nat.mod_lt _ hn
    · exact Nat.div_lt_of_lt_mul (Nat.div_lt_of_lt_mul (by rw [← mul_assoc]; exact hl'))
  have hval : linearIndex vps v = l := by
    unfold linearIndex
    have e : v.x + vps * (v.y + v.z * vps) = (l : ℤ) := by
      simp only [hvdef]
      have e1 := Nat.div_add_mod l vps
      have e2 := Nat.div_add_mod (l / vps) vps
      rw [← e2] at e1
      have e3 : ((vps * (vps * (l / vps / vps) + l / vps % vps) + l % vps : ℕ) : ℤ) = (l : ℤ) := by
        exact_mod_cast e1
      push_cast at e3 ⊢
      linarith
    rw [e, wrapU64_of_range (by positivity) (by unfold numVoxels at hsz; omega)]
    simp
  obtain ⟨_, h2⟩ := C01_voxel_to_linear_to_voxel hsz hin
  rw [hval] at h2
  exact ⟨v, h2, hin, hval⟩

example : numVoxels 16 ≤ 2 ^ 31 ∧ isValidLinearIndex 16 4095 = true := by decide +kernel

/-- Consequence: different voxels of a block never share storage. -/
theorem C01_no_aliasing {vps : ℕ} (hsz : numVoxels vps ≤ 2 ^ 31) {v w : Idx}
    (hv : InBlock vps v) (hw : InBlock vps w) (h : linearIndex vps v = linearIndex vps w) :
    v = w := by
  have a := (C01_voxel_to_linear_to_voxel hsz hv).2
  have b := (C01_voxel_to_linear_to_voxel hsz hw).2
  rw [h, b] at a
  exact (Outcome.ok.inj a).symm

example : InBlock 8 ⟨7, 0, 0⟩ ∧ InBlock 8 ⟨7, 0, 0⟩ ∧
    linearIndex 8 ⟨7, 0, 0⟩ ≠ linearIndex 8 ⟨0, 1, 0⟩ := by decide +kernel

/-- Without the size bound the claim fails: in a block of side 1291 a valid linear position converts
to an invalid (negative) voxel index, because the position is narrowed to `int`. -/
theorem C01_huge_block_violated :
    ∃ vps l, isValidLinearIndex vps l = true ∧
      ∃ v, voxelIndexFromLinear vps l = .ok v ∧ ¬ InBlock vps v :=
  ⟨1291, 2147483648, by decide +kernel, ⟨⟨-682, -618, -1288⟩, by decide +kernel, by decide +kernel⟩⟩

/-! ## C02 global index splits and recombines -/

/-- Splitting and recombining is the identity, for indices within the exactly representable range of
`float` (`|index| ≤ 2^24`). The unrestricted statement is false, see `C02_split_violated`. -/
theorem C02_split_recombine_partial {k : ℕ} (hk : k < 31) {g : Idx}
    (hg : g.All fun c => |c| ≤ 2 ^ 24) :
    ∃ b v, blockAndVoxelFromGlobal k g = .ok (b, v) ∧ InBlock (2 ^ k) v ∧ SitsAt (2 ^ k) b v g ∧
      globalIndex (2 ^ k) b v = g := by
  obtain ⟨hx, hy, hz⟩ := hg
  have hk1 : (0 : ℤ) < 2 ^ k := by positivity
  have loc : ∀ c : ℤ, |c| ≤ 2 ^ 24 → localFromGlobal1 (2 ^ k) c = .ok (c % 2 ^ k) := by
    intro c hc
    apply localFromGlobal1_two_pow hk
    have := abs_le.1 hc
    unfold localOffset
    exact ⟨by omega, by omega⟩
  refine ⟨⟨g.x / 2 ^ k, g.y / 2 ^ k, g.z / 2 ^ k⟩, ⟨g.x % 2 ^ k, g.y % 2 ^ k, g.z % 2 ^ k⟩,
    ?_, ?_, ?_, ?_⟩
  · unfold blockAndVoxelFromGlobal blockFromGlobal localFromGlobal
    simp [blockFromGlobal1_exact k hx, blockFromGlobal1_exact k hy, blockFromGlobal1_exact k hz,
      isPowerOfTwo_two_pow hk, loc _ hx, loc _ hy, loc _ hz, Outcome.check]
  · refine ⟨⟨Int.emod_nonneg _ hk1.ne', ?_⟩, ⟨Int.emod_nonneg _ hk1.ne', ?_⟩,
      ⟨Int.emod_nonneg _ hk1.ne', ?_⟩⟩ <;> push_cast <;> exact Int.emod_lt_of_pos _ hk1
  · refine ⟨?_, ?_, ?_⟩ <;> push_cast <;> rw [mul_comm, Int.mul_ediv_add_emod]
  · unfold globalIndex
    ext <;> simp only [Vec3.map₂_x, Vec3.map₂_y, Vec3.map₂_z] <;> push_cast <;>
      rw [mul_comm, Int.mul_ediv_add_emod]

example : (⟨-16777216, 5, -1⟩ : Idx).All fun c => |c| ≤ 2 ^ 24 := by decide +kernel

/-- A valid (block, voxel) pair is recovered from its global index, in the same range. -/
theorem C02_pair_roundtrip_partial {k : ℕ} (hk : k < 31) {b v : Idx} (hv : InBlock (2 ^ k) v)
    (hg : (globalIndex (2 ^ k) b v).All fun c => |c| ≤ 2 ^ 24) :
    blockAndVoxelFromGlobal k (globalIndex (2 ^ k) b v) = .ok (b, v) := by
  obtain ⟨b', v', h1, h2, ⟨sx, sy, sz⟩, _⟩ := C02_split_recombine_partial hk hg
  rw [h1]
  simp only [globalIndex, Vec3.map₂_x, Vec3.map₂_y, Vec3.map₂_z] at sx sy sz
  obtain ⟨ax, bx⟩ := div_mod_unique sx hv.1 h2.1
  obtain ⟨ay, by'⟩ := div_mod_unique sy hv.2.1 h2.2.1
  obtain ⟨az, bz⟩ := div_mod_unique sz hv.2.2 h2.2.2
  congr 2 <;> ext <;> simp [*]

example : InBlock (2 ^ 4) ⟨15, 0, 3⟩ ∧
    (globalIndex (2 ^ 4) ⟨-1000, 77, 1048575⟩ ⟨15, 0, 3⟩).All fun c => |c| ≤ 2 ^ 24 := by
  decide +kernel

/-- The code violates C02: a 32-bit global index whose split is a valid looking pair that recombines
to a different voxel (block side 16, index 16777231). -/
theorem C02_split_violated :
    ∃ (g b v : Idx), g.All IsI32 ∧ blockAndVoxelFromGlobal 4 g = .ok (b, v) ∧ InBlock (2 ^ 4) v ∧
      globalIndex (2 ^ 4) b v ≠ g :=
  ⟨⟨16777231, 0, 0⟩, ⟨1048577, 0, 0⟩, ⟨15, 0, 0⟩, by decide +kernel, by decide +kernel,
    by decide +kernel, by decide +kernel⟩

/-! ## C03 the local index is the Euclidean remainder -/

/-- For every power-of-two side and every global index (as long as adding the constant offset does not
overflow 64 bits) the local index is in the block and congruent to the global index. -/
theorem C03_local_index {k : ℕ} (hk : k < 31) {g : Idx}
    (hg : g.All fun c => -2 ^ 63 + 2 ^ 31 ≤ c ∧ c < 2 ^ 63) :
    ∃ v, localFromGlobal (2 ^ k) g = .ok v ∧ InBlock (2 ^ k) v ∧
      Vec3.All₂ (fun gc vc => (2 ^ k : ℤ) ∣ gc - vc) g v := by
  have hk1 : (0 : ℤ) < 2 ^ k := by positivity
  have loc : ∀ c : ℤ, (-2 ^ 63 + 2 ^ 31 ≤ c ∧ c < 2 ^ 63) →
      localFromGlobal1 (2 ^ k) c = .ok (c % 2 ^ k) := by
    intro c hc
    apply localFromGlobal1_two_pow hk
    unfold localOffset
    exact ⟨by omega, by omega⟩
  obtain ⟨hx, hy, hz⟩ := hg
  refine ⟨⟨g.x % 2 ^ k, g.y % 2 ^ k, g.z % 2 ^ k⟩, ?_, ?_, ?_⟩
  · unfold localFromGlobal
    simp [isPowerOfTwo_two_pow hk, loc _ hx, loc _ hy, loc _ hz, Outcome.check]
  · refine ⟨⟨Int.emod_nonneg _ hk1.ne', ?_⟩, ⟨Int.emod_nonneg _ hk1.ne', ?_⟩,
      ⟨Int.emod_nonneg _ hk1.ne', ?_⟩⟩ <;> push_cast <;> exact Int.emod_lt_of_pos _ hk1
  · exact ⟨Int.dvd_self_sub_emod, Int.dvd_self_sub_emod, Int.dvd_self_sub_emod⟩

example : ((⟨-1, -2 ^ 40, 2 ^ 62⟩ : Idx).All fun c => -2 ^ 63 + 2 ^ 31 ≤ c ∧ c < 2 ^ 63) ∧
    localFromGlobal 16 ⟨-1, -2 ^ 40, 2 ^ 62⟩ = .ok ⟨15, 0, 0⟩ := by decide +kernel

/-- Every positive side that is not a power of two is refused. -/
theorem C03_other_sides_refused {side : ℕ} (h0 : 0 < side) (h1 : side < 2 ^ 31)
    (hne : ∀ k, side ≠ 2 ^ k) (g : Idx) : localFromGlobal side g = .fatal := by
  unfold localFromGlobal
  have : decide (∃ k, k < 31 ∧ side = 2 ^ k) = false := by
    simp only [decide_eq_false_iff_not]
    rintro ⟨k, _, h⟩
    exact hne k h
  rw [isPowerOfTwo_iff h0 h1, this]
  simp [Outcome.check]

example : ∀ k, (12 : ℕ) ≠ 2 ^ k := by
  intro k h
  rcases lt_or_ge k 4 with hk | hk
  · interval_cases k <;> omega
  · have : 2 ^ 4 ≤ 2 ^ k := Nat.pow_le_pow_right (by norm_num) hk
    omega

/-- The guard accepts side zero, for which the result is not a voxel of the block. -/
theorem C03_zero_side_accepted :
    ∃ g v, localFromGlobal 0 g = .ok v ∧ ¬ InBlock 0 v :=
  ⟨⟨5, 5, 5⟩, ⟨-2147483643, -2147483643, -2147483643⟩, by decide +kernel, by decide +kernel⟩

/-! ## C04 points and grid indices -/

/-- A cell centre maps back to its own index. -/
theorem C04_center_roundtrip {s : ℚ} (hs : 0 < s) (i : Idx) :
    gridIndex (centerPoint i s) (1 / s) = i := by
  have h : ∀ c : ℤ, ⌊((c : ℚ) + 1 / 2) * s * (1 / s) + kEpsilon⌋ = c := by
    intro c
    have : ((c : ℚ) + 1 / 2) * s * (1 / s) = c + 1 / 2 := by field_simp
    rw [this, Int.floor_eq_iff]
    unfold kEpsilon
    constructor <;> linarith
  unfold gridIndex centerPoint
  ext <;> simp only [Vec3.map_x, Vec3.map_y, Vec3.map_z] <;> apply h

example : (0 : ℚ) < 1 / 10 ∧ gridIndex (centerPoint ⟨-3, 0, 7⟩ (1 / 10)) 10 = ⟨-3, 0, 7⟩ := by
  refine ⟨by norm_num, by decide +kernel⟩

/-- A cell origin maps back to its own index through the origin-point query. -/
theorem C04_origin_roundtrip {s : ℚ} (hs : 0 < s) (i : Idx) :
    gridIndexFromOrigin (originPoint i s) (1 / s) = i := by
  have h : ∀ c : ℤ, roundHalfAway ((c : ℚ) * s * (1 / s)) = c := by
    intro c
    have : (c : ℚ) * s * (1 / s) = c := by field_simp
    rw [this]
    unfold roundHalfAway
    split_ifs
    · rw [Int.floor_eq_iff]; constructor <;> linarith
    · rw [Int.ceil_eq_iff]; constructor <;> linarith
  unfold gridIndexFromOrigin originPoint
  ext <;> simp only [Vec3.map_x, Vec3.map_y, Vec3.map_z] <;> apply h

example : (0 : ℚ) < 1 / 10 ∧ originPoint ⟨-3, 0, 7⟩ (1 / 10) = ⟨-3 / 10, 0, 7 / 10⟩ := by
  refine ⟨by norm_num, by decide +kernel⟩

/-- The origin-point query tolerates any error below half a cell in the origin. -/
theorem C04_origin_robust {s : ℚ} (hs : 0 < s) (i : Idx) (p : Pt)
    (hp : Vec3.All₂ (fun (c : ℤ) (q : ℚ) => |q - c * s| < s / 2) i p) :
    gridIndexFromOrigin p (1 / s) = i := by
  have h : ∀ (c : ℤ) (q : ℚ), |q - c * s| < s / 2 → roundHalfAway (q * (1 / s)) = c := by
    intro c q hq
    obtain ⟨h1, h2⟩ := abs_lt.1 hq
    have e : q * (1 / s) = q / s := by ring
    have l : (c : ℚ) - 1 / 2 < q / s := by rw [lt_div_iff₀ hs]; linarith
    have u : q / s < (c : ℚ) + 1 / 2 := by rw [div_lt_iff₀ hs]; linarith
    rw [e]
    unfold roundHalfAway
    split_ifs
    · rw [Int.floor_eq_iff]; constructor <;> linarith
    · rw [Int.ceil_eq_iff]; constructor <;> linarith
  unfold gridIndexFromOrigin
  obtain ⟨hx, hy, hz⟩ := hp
  ext <;> simp only [Vec3.map_x, Vec3.map_y, Vec3.map_z]
  · exact h _ _ hx
  · exact h _ _ hy
  · exact h _ _ hz

example : Vec3.All₂ (fun (c : ℤ) (q : ℚ) => |q - c * (16 / 10)| < (16 / 10) / 2)
    (⟨-3, 0, 7⟩ : Idx) (⟨-48 / 10 + 7 / 10, 1 / 10, 112 / 10 - 1 / 2⟩ : Pt) := by
  refine ⟨?_, ?_, ?_⟩ <;> norm_num [abs_lt]

/-- Every point lies in the cell of its reported index, up to the tolerance of `1e-6` cells. -/
theorem C04_point_in_reported_cell {s : ℚ} (hs : 0 < s) (p : Pt) :
    InCell s (s / 1000000) (gridIndex p (1 / s)) p := by
  have h : ∀ q : ℚ, (⌊q * (1 / s) + kEpsilon⌋ : ℚ) * s - s / 1000000 ≤ q ∧
      q < ((⌊q * (1 / s) + kEpsilon⌋ : ℚ) + 1) * s := by
    intro q
    have e : q * (1 / s) = q / s := by ring
    rw [e]
    have h1 := Int.floor_le (q / s + kEpsilon)
    have h2 := Int.lt_floor_add_one (q / s + kEpsilon)
    unfold kEpsilon at *
    have h3 : q / s * s = q := by field_simp
    constructor
    · nlinarith
    · nlinarith
  exact ⟨h _, h _, h _⟩

example : InCell (1 / 10) (1 / 10 / 1000000) ⟨2, -1, 0⟩ ⟨29 / 100, -1 / 100, 0⟩ := by
  refine ⟨?_, ?_, ?_⟩ <;> constructor <;> norm_num

/-- Conversely the reported index is the only cell that contains the point away from the tolerance
band. -/
theorem C04_index_of_cell {s : ℚ} (hs : 0 < s) (p : Pt) (i : Idx)
    (h : Vec3.All₂ (fun (c : ℤ) (q : ℚ) => (c : ℚ) * s ≤ q ∧ q < ((c : ℚ) + 1) * s - s / 1000000) i p) :
    gridIndex p (1 / s) = i := by
  have key : ∀ (c : ℤ) (q : ℚ), ((c : ℚ) * s ≤ q ∧ q < ((c : ℚ) + 1) * s - s / 1000000) →
      ⌊q * (1 / s) + kEpsilon⌋ = c := by
    intro c q ⟨h1, h2⟩
    have e : q * (1 / s) = q / s := by ring
    rw [e, Int.floor_eq_iff]
    have l : (c : ℚ) ≤ q / s := by rw [le_div_iff₀ hs]; linarith
    have u : q / s < (c : ℚ) + 1 - 1 / 1000000 := by
      rw [div_lt_iff₀ hs]; linarith
    unfold kEpsilon
    constructor <;> linarith
  unfold gridIndex
  obtain ⟨hx, hy, hz⟩ := h
  ext <;> simp only [Vec3.map_x, Vec3.map_y, Vec3.map_z]
  · exact key _ _ hx
  · exact key _ _ hy
  · exact key _ _ hz

example : Vec3.All₂ (fun (c : ℤ) (q : ℚ) => (c : ℚ) * (1 / 10) ≤ q ∧
    q < ((c : ℚ) + 1) * (1 / 10) - 1 / 10 / 1000000) (⟨2, -1, 0⟩ : Idx)
    (⟨29 / 100, -1 / 100, 0⟩ : Pt) := by
  refine ⟨?_, ?_, ?_⟩ <;> constructor <;> norm_num

/-! ## C05 coordinate lookup inside a block -/

/-- Whenever the coordinate conversion is defined (the point is within 2^31 voxels of the block
origin) the resulting voxel belongs to the block, and each component is the grid component clamped to
the block. -/
theorem C05_truncated_in_block {vps : ℕ} (h0 : 0 < vps) (h1 : vps < 2 ^ 31) (origin : Pt) {s : ℚ}
    {p : Pt} (hp : (gridIndex (p - origin) (1 / s)).All IsI32) :
    ∃ v, truncatedVoxelIndex vps origin s p = .ok v ∧ InBlock vps v ∧
      Vec3.All₂ (fun c vc => (c < 0 → vc = 0) ∧ (0 ≤ c ∧ c < (vps : ℤ) → vc = c) ∧
        ((vps : ℤ) ≤ c → vc = vps - 1)) (gridIndex (p - origin) (1 / s)) v := by
  have hw : wrap32 ((vps : ℤ) - 1) = vps - 1 := wrap32_of_range ⟨by omega, by omega⟩
  refine ⟨(gridIndex (p - origin) (1 / s)).map fun c => max (min c ((vps : ℤ) - 1)) 0, ?_, ?_, ?_⟩
  · unfold truncatedVoxelIndex gridIndex32 toIdx32
    rw [if_pos hp]
    simp [hw]
  · refine ⟨?_, ?_, ?_⟩ <;> simp only [Vec3.map_x, Vec3.map_y, Vec3.map_z] <;> omega
  · refine ⟨?_, ?_, ?_⟩ <;> simp only [Vec3.map_x, Vec3.map_y, Vec3.map_z] <;> omega

example : (gridIndex ((⟨5, -3, 1 / 2⟩ : Pt) - ⟨0, 0, 0⟩) (1 / (1 / 10))).All IsI32 ∧
    truncatedVoxelIndex 16 ⟨0, 0, 0⟩ (1 / 10) ⟨5, -3, 1 / 2⟩ = .ok ⟨15, 0, 5⟩ := by
  decide +kernel

/-- Looking up the centre of a voxel of the block gives that voxel. -/
theorem C05_center_roundtrip {vps : ℕ} (h1 : vps < 2 ^ 31) (origin : Pt) {s : ℚ} (hs : 0 < s)
    {v : Idx} (hv : InBlock vps v) :
    truncatedVoxelIndex vps origin s (coordinatesFromVoxelIndex origin s v) = .ok v := by
  obtain ⟨hx, hy, hz⟩ := hv
  have e : coordinatesFromVoxelIndex origin s v - origin = centerPoint v s := by
    unfold coordinatesFromVoxelIndex
    ext <;> simp
  have g : gridIndex (coordinatesFromVoxelIndex origin s v - origin) (1 / s) = v := by
    rw [e]; exact C04_center_roundtrip hs v
  obtain ⟨w, hw, _, cx, cy, cz⟩ := C05_truncated_in_block (by omega) h1 origin
    (s := s) (p := coordinatesFromVoxelIndex origin s v)
    (by rw [g]; exact ⟨⟨by omega, by omega⟩, ⟨by omega, by omega⟩, ⟨by omega, by omega⟩⟩)
  rw [hw]
  rw [g] at cx cy cz
  congr 1
  ext
  · exact cx.2.1 hx
  · exact cy.2.1 hy
  · exact cz.2.1 hz

example : InBlock 16 ⟨15, 0, 3⟩ := by decide +kernel

/-- A point outside that range is undefined behaviour (conversion of an out-of-range float). -/
theorem C05_far_point_undefined :
    ∃ p, truncatedVoxelIndex 16 ⟨0, 0, 0⟩ (1 / 10) p = .ub :=
  ⟨⟨300000000, 0, 0⟩, by decide +kernel⟩

/-! ## C06 neighbour lookup across block borders -/

/-- The neighbour in any direction (also longer than one voxel) is a valid voxel whose global position
is the original position plus the direction. -/
theorem C06_neighbor_position {vps : ℕ} (hv : 0 < vps) (b v d : Idx) :
    ∃ nb nv, neighborFromDirection vps b v d = .ok (nb, nv) ∧ InBlock vps nv ∧
      SitsAt vps nb nv (globalIndex vps b v + d) := by
  obtain ⟨x1, x2, x3⟩ := neighborAxis_spec hv b.x (v.x + d.x)
  obtain ⟨y1, y2, y3⟩ := neighborAxis_spec hv b.y (v.y + d.y)
  obtain ⟨z1, z2, z3⟩ := neighborAxis_spec hv b.z (v.z + d.z)
  refine ⟨⟨(neighborAxis vps b.x (v.x + d.x)).1, (neighborAxis vps b.y (v.y + d.y)).1,
    (neighborAxis vps b.z (v.z + d.z)).1⟩, ⟨(neighborAxis vps b.x (v.x + d.x)).2,
    (neighborAxis vps b.y (v.y + d.y)).2, (neighborAxis vps b.z (v.z + d.z)).2⟩, ?_,
    ⟨⟨x2, x3⟩, ⟨y2, y3⟩, ⟨z2, z3⟩⟩, ?_⟩
  · unfold neighborFromDirection
    simp only [Outcome.check, hv, decide_true, if_true, Outcome.bind_ok, Outcome.pure_eq]
  · refine ⟨?_, ?_, ?_⟩ <;> simp only [globalIndex, Vec3.add_x, Vec3.add_y, Vec3.add_z, Vec3.map₂_x,
      Vec3.map₂_y, Vec3.map₂_z] <;> omega

example : (0 : ℕ) < 16 ∧ neighborFromDirection 16 ⟨0, -1, 4⟩ ⟨15, 0, 3⟩ ⟨1, -1, 0⟩ =
    .ok (⟨1, -2, 4⟩, ⟨0, 15, 3⟩) := by decide +kernel

/-- A zero block side is refused. -/
theorem C06_zero_side_refused (b v d : Idx) : neighborFromDirection 0 b v d = .fatal := by
  simp [neighborFromDirection, Outcome.check]

/-- The occupancy-ESDF neighbour routine agrees with the shared tool for voxels of the block and
directions of at most one block side per axis. -/
theorem C06_occ_neighbor_agrees {vps : ℕ} (hv : 0 < vps) {b v d : Idx} (hin : InBlock vps v)
    (hd : d.All fun c => -(vps : ℤ) ≤ c ∧ c ≤ vps) :
    neighborFromDirection vps b v d = .ok (occNeighbor vps b v d) := by
  have key : ∀ b v d : ℤ, (0 ≤ v ∧ v < vps) → (-(vps : ℤ) ≤ d ∧ d ≤ vps) →
      neighborAxis vps b (v + d) = occNeighborAxis vps b (v + d) := by
    intro b v d h1 h2
    obtain ⟨a1, a2, a3⟩ := neighborAxis_spec hv b (v + d)
    have o : (occNeighborAxis vps b (v + d)).1 * vps + (occNeighborAxis vps b (v + d)).2
        = b * vps + (v + d) ∧ 0 ≤ (occNeighborAxis vps b (v + d)).2 ∧
        (occNeighborAxis vps b (v + d)).2 < vps := by
      unfold occNeighborAxis
      split_ifs
      · exact ⟨by ring, by simp only; omega, by simp only; omega⟩
      · exact ⟨by ring, by simp only; omega, by simp only; omega⟩
      · exact ⟨rfl, by simp only; omega, by simp only; omega⟩
    obtain ⟨e1, e2⟩ := div_mod_unique (a1.trans o.1.symm) ⟨a2, a3⟩ o.2
    exact Prod.ext e1 e2
  obtain ⟨hx, hy, hz⟩ := hin
  obtain ⟨dx, dy, dz⟩ := hd
  unfold neighborFromDirection occNeighbor
  simp only [Outcome.check, hv, decide_true, if_true, Outcome.bind_ok, Outcome.pure_eq,
    key _ _ _ hx dx, key _ _ _ hy dy, key _ _ _ hz dz]

example : InBlock 16 ⟨15, 0, 3⟩ ∧ (⟨1, -1, 1⟩ : Idx).All fun c => -((16 : ℕ) : ℤ) ≤ c ∧ c ≤ (16 : ℕ) := by
  decide +kernel

/-- Neighbour queries by (block, voxel) and by global index give the same voxels, in the same order,
for every connectivity. -/
theorem C06_hierarchical_agrees_with_global {vps : ℕ} (hv : 0 < vps) (n : ℕ) (b v : Idx) :
    ∃ l, neighborsFromBlockAndVoxel n vps b v = .ok l ∧
      (∀ p ∈ l, InBlock vps p.2) ∧
      l.map (fun p => globalIndex vps p.1 p.2) = neighborsFromGlobal n (globalIndex vps b v) := by
  unfold neighborsFromBlockAndVoxel neighborsFromGlobal
  generalize kOffsets.take n = ds
  induction ds with
  | nil => exact ⟨[], rfl, by simp, rfl⟩
  | cons d ds ih =>
    obtain ⟨l, h1, h2, h3⟩ := ih
    obtain ⟨nb, nv, e1, e2, e3⟩ := C06_neighbor_position hv b v d
    refine ⟨(nb, nv) :: l, ?_, ?_, ?_⟩
    · rw [List.mapM_cons, e1, h1]; rfl
    · intro p hp
      rcases List.mem_cons.1 hp with h | h
      · subst h; exact e2
      · exact h2 p h
    · rw [List.map_cons, List.map_cons, h3]
      congr 1
      obtain ⟨s1, s2, s3⟩ := e3
      ext <;> simp only [globalIndex, Vec3.map₂_x, Vec3.map₂_y, Vec3.map₂_z] <;>
        simp only [globalIndex, Vec3.add_x, Vec3.add_y, Vec3.add_z, Vec3.map₂_x, Vec3.map₂_y,
          Vec3.map₂_z] at s1 s2 s3 ⊢ <;> omega

example : ∃ l, neighborsFromBlockAndVoxel 26 8 ⟨0, 0, -1⟩ ⟨7, 0, 0⟩ = .ok l ∧ l.length = 26 :=
  ⟨_, rfl, by decide +kernel⟩

/-- The offset between two voxels is the difference of their global positions. -/
theorem C06_offset_between {vps : ℕ} (hv : 0 < vps) (sb sv eb ev : Idx) :
    offsetBetweenVoxels vps sb sv eb ev = .ok (globalIndex vps eb ev - globalIndex vps sb sv) := by
  unfold offsetBetweenVoxels globalIndex
  simp only [Outcome.check, Nat.ne_of_gt hv, ne_eq, not_false_eq_true, decide_true, if_true,
    Outcome.bind_ok, Outcome.pure_eq]
  congr 1
  ext <;> simp <;> ring

example : (0 : ℕ) < 16 ∧
    offsetBetweenVoxels 16 ⟨0, 0, 0⟩ ⟨15, 0, 3⟩ ⟨1, -1, 0⟩ ⟨0, 15, 3⟩ = .ok ⟨1, -1, 0⟩ := by
  refine ⟨by norm_num, by decide +kernel⟩

/-! ## C07 neighbourhood tables -/

/-- The table lists exactly the 26 nonzero offsets, without duplicates. -/
theorem C07_table_complete : kOffsets.length = 26 ∧ kOffsets.Nodup ∧
    ∀ d : Idx, d ∈ kOffsets ↔ IsNeighborOffset d := by
  refine ⟨by decide +kernel, by decide +kernel, ?_⟩
  intro d
  constructor
  · have : ∀ d ∈ kOffsets, (-1 ≤ d.x ∧ d.x ≤ 1) ∧ (-1 ≤ d.y ∧ d.y ≤ 1) ∧ (-1 ≤ d.z ∧ d.z ≤ 1) ∧
        d ≠ ⟨0, 0, 0⟩ := by decide +kernel
    intro h
    obtain ⟨a, b, c, e⟩ := this d h
    exact ⟨⟨a, b, c⟩, e⟩
  · rintro ⟨⟨hx, hy, hz⟩, hne⟩
    obtain ⟨x, y, z⟩ := d
    simp only at hx hy hz
    obtain ⟨x0, x1⟩ := hx
    obtain ⟨y0, y1⟩ := hy
    obtain ⟨z0, z1⟩ := hz
    interval_cases x <;> interval_cases y <;> interval_cases z <;>
      first
        | exact absurd rfl hne
        | decide +kernel

/-- The first 6 entries are exactly the face neighbours and the first 18 exactly the face and edge
neighbours. -/
theorem C07_connectivity_prefixes (d : Idx) :
    (d ∈ kOffsets.take 6 ↔ IsNeighborOffset d ∧ sqLen d ≤ 1) ∧
    (d ∈ kOffsets.take 18 ↔ IsNeighborOffset d ∧ sqLen d ≤ 2) := by
  have h6 : kOffsets.take 6 = kOffsets.filter fun d => sqLen d ≤ 1 := by decide +kernel
  have h18 : kOffsets.take 18 = kOffsets.filter fun d => sqLen d ≤ 2 := by decide +kernel
  rw [h6, h18, List.mem_filter, List.mem_filter, C07_table_complete.2.2 d]
  simp

/-- Every entry's distance is the Euclidean length of its offset (as squares). -/
theorem C07_distances : kDistancesSq.length = 26 ∧
    List.zipWith (fun d n => decide (sqLen d = (n : ℤ))) kOffsets kDistancesSq =
      List.replicate 26 true := by decide +kernel

/-- The table is closed under negation. -/
theorem C07_symmetric (d : Idx) : d ∈ kOffsets → -d ∈ kOffsets := by
  have : ∀ d ∈ kOffsets, -d ∈ kOffsets := by decide +kernel
  exact this d

example : (⟨1, -1, 0⟩ : Idx) ∈ kOffsets := by decide +kernel

/-- The occupancy-ESDF enumeration visits the same 26 offsets, each once, with the same distances. -/
theorem C07_occ_enumeration :
    (occDirections.map Prod.fst).Perm kOffsets ∧
    (∀ e ∈ occDirections, sqLen e.1 = (e.2 : ℤ)) := by
  refine ⟨?_, by decide +kernel⟩
  rw [List.perm_iff_count]
  intro a
  by_cases h : a ∈ kOffsets
  · have : ∀ a ∈ kOffsets, List.count a (occDirections.map Prod.fst) = List.count a kOffsets := by
      decide +kernel
    exact this a h
  · have h2 : a ∉ occDirections.map Prod.fst := by
      have : ∀ a ∈ occDirections.map Prod.fst, a ∈ kOffsets := by decide +kernel
      exact fun hm => h (this a hm)
    rw [List.count_eq_zero_of_not_mem h, List.count_eq_zero_of_not_mem h2]

end Vox.Props
