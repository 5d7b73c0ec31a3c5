/-
C73: voxel lookup by coordinates in single precision, and the rounding assumptions of other properties for `float`.
-/
import Verif.Lemmas.IndexFloat
import Verif.Lemmas.Esdf
import Verif.Spec.LayerUtils
import Verif.Spec.Index

namespace Vox.Props.IndexFloat

open Ieee IndexF Spec

/-- A voxel size of ten centimetres, as a `float`. -/
def tenth : ℚ := rnd32 (1 / 10)

/-- A voxel size of two centimetres, as a `float`. -/
def fiftieth : ℚ := rnd32 (1 / 50)

theorem tenth_size : Size tenth := ⟨by decide +kernel, by decide +kernel, by decide +kernel⟩

theorem fiftieth_size : Size fiftieth := ⟨by decide +kernel, by decide +kernel, by decide +kernel⟩

/-! ### Rounding -/

/-- Rounding to `float` picks a nearest number of at most 24 binary digits. -/
theorem C73_nearest (x : ℚ) {k e : ℤ} (hk : |k| ≤ 2 ^ 24) (he : -149 ≤ e) : |rnd32 x - x| ≤ |(k : ℚ) * 2 ^ e - x| := by
  have := rne_nearest (p := 24) (qmin := -149) (by norm_num) x hk he
  rwa [pow2_eq] at this

/-- 0.1 is not a `float`; the nearest is 13421773 / 2²⁷. -/
example : rnd32 (1 / 10) = 13421773 / 2 ^ 27 ∧ |(13421773 : ℤ)| ≤ 2 ^ 24 := by decide +kernel

/-- Its results are such numbers. -/
theorem C73_representable (x : ℚ) : ∃ k e : ℤ, |k| ≤ 2 ^ 24 ∧ -149 ≤ e ∧ rnd32 x = k * 2 ^ e := by
  obtain ⟨k, e, h1, h2, h3⟩ := rne_form (p := 24) (qmin := -149) x
  exact ⟨k, e, h1, h2, by rw [← pow2_eq]; exact h3⟩

/-- The square root is correctly rounded. -/
theorem C73_sqrt {q : ℚ} (h0 : 0 ≤ q) : (∀ a, 0 ≤ a → a * a ≤ q → rnd32 a ≤ sqrtRound 24 (-149) q) ∧
    (∀ a, 0 ≤ a → q ≤ a * a → sqrtRound 24 (-149) q ≤ rnd32 a) := sqrtRound_correct (by norm_num) h0

example : sqrtRound 24 (-149) 2 = 11863283 / 2 ^ 23 := by decide +kernel

/-- `float` meets the assumptions of C24, C27, C40 and C62 on rounding. -/
theorem C73_faithful : float32.Faithful := float32_faithful

/-- … of C63 … -/
theorem C73_odd : OddRounding float32 := float32_odd

/-- … and of C42 to C46 (whatever the norms of the directions are). -/
theorem C73_esdf (norm : Idx → ℚ) : Esdf.Rounding ⟨rnd32, norm⟩ (2 ^ (-149 : ℤ)) where
  mono x y h := rne_mono (by norm_num) h
  odd x := rne_neg x
  idem x := rne_idem (by norm_num) x
  unit_pos := by positivity
  grid x := by
    obtain ⟨k, hk⟩ := rne_grid (p := 24) (qmin := -149) x
    exact ⟨k, by rw [← pow2_eq]; exact hk⟩

/-! ### C73 lookup by coordinates -/

/-- The point cell `i` of the grid is reported for clearly contains `p` up to the rounding of the code: `tol` cells on either side. -/
def NearCell (S tol : ℚ) (i : ℤ) (p : ℚ) : Prop := ((i : ℚ) - tol) * S ≤ p ∧ p < ((i : ℚ) + 1 + tol) * S

/-- Whatever cell is reported, the point is in it up to a tolerance of 1.5e-6 cells plus four roundings. -/
theorem C73_point {S : ℚ} (h : Size S) (p : ℚ) :
    NearCell S (4 / 2 ^ 24 * |p / S| + 3 / 2 / 1000000) (gridIndex1 p (inverse S)) p := by
  have e := raw_err h p
  have hS := h.pos
  obtain ⟨e1, e2⟩ := abs_le.1 e
  have f1 := Int.floor_le (rnd32 (rnd32 (p * inverse S) + kEps))
  have f2 := Int.lt_floor_add_one (rnd32 (rnd32 (p * inverse S) + kEps))
  have hp : p = p / S * S := by field_simp
  have hu : 4 * u = 4 / 2 ^ 24 := by unfold u; ring
  rw [hu] at e1 e2
  unfold NearCell gridIndex1
  constructor
  · conv_rhs => rw [hp]
    exact mul_le_mul_of_nonneg_right (by linarith) hS.le
  · conv_lhs => rw [hp]
    exact mul_lt_mul_of_pos_right (by linarith) hS

example : Size tenth := tenth_size

theorem i32_of_small {c : ℤ} (h : |c| ≤ 2 ^ 30) : IsI32 c := by
  obtain ⟨h1, h2⟩ := abs_le.1 h
  unfold IsI32
  omega

/-- The centre of every cell within a million cells of the origin belongs to its cell. -/
theorem C73_center {s : ℚ} (h : Size s) {i : Idx} (hi : i.All fun c => |c| ≤ 2 ^ 20) :
    IndexF.gridIndex (IndexF.centerPoint i s) (inverse s) = .ok i := by
  have hs := h.pos
  have key : ∀ c : ℤ, |c| ≤ 2 ^ 20 → gridIndex1 (center1 c s) (inverse s) = c := by
    intro c hc
    have he := center1_err h (hc.trans (by norm_num))
    have hcq : |(c : ℚ)| ≤ 2 ^ 20 := by exact_mod_cast hc
    have hca : |(c : ℚ) + 1 / 2| ≤ 2 ^ 20 + 1 / 2 := by
      refine (abs_add_le _ _).trans ?_
      rw [abs_of_pos (show (0 : ℚ) < 1 / 2 by norm_num)]
      linarith
    have e : |center1 c s / s - ((c : ℚ) + 1 / 2)| ≤ u * |(c : ℚ) + 1 / 2| + 1 / 2 ^ 60 := by
      have e1 : center1 c s / s - ((c : ℚ) + 1 / 2) = (center1 c s - ((c : ℚ) + 1 / 2) * s) / s := by field_simp
      rw [e1, abs_div, abs_of_pos hs, div_le_iff₀ hs]
      exact he
    have e' : |center1 c s / s - ((c : ℚ) + 1 / 2)| ≤ 1 / 8 := by
      refine e.trans ?_
      have n1 : u = 1 / 16777216 := by unfold u; norm_num
      have n2 : (2 : ℚ) ^ 20 = 1048576 := by norm_num
      have n3 : (1 : ℚ) / 2 ^ 60 ≤ 1 / 1000 := by norm_num
      rw [n1]
      rw [n2] at hca
      linarith
    obtain ⟨a1, a2⟩ := abs_le.1 e'
    have n1 : u = 1 / 16777216 := by unfold u; norm_num
    have n2 : (2 : ℚ) ^ 20 = 1048576 := by norm_num
    refine gridIndex1_inside h (X := 1048577) ?_ ?_ ?_
    · have := abs_sub_abs_le_abs_sub (center1 c s / s) ((c : ℚ) + 1 / 2)
      rw [n2] at hca
      linarith
    · rw [n1]; linarith
    · rw [n1]; linarith
  obtain ⟨hx, hy, hz⟩ := hi
  have e : (IndexF.centerPoint i s).map (fun c => gridIndex1 c (inverse s)) = i := by
    ext
    · exact key _ hx
    · exact key _ hy
    · exact key _ hz
  unfold IndexF.gridIndex toIdx32
  rw [e, if_pos ⟨i32_of_small (hx.trans (by norm_num)), i32_of_small (hy.trans (by norm_num)), i32_of_small (hz.trans (by norm_num))⟩]

example : Size tenth ∧ (⟨1000000, -999999, 7⟩ : Idx).All (fun c => |c| ≤ 2 ^ 20) := ⟨tenth_size, by decide⟩

/-- Five million cells away it no longer does. -/
theorem C73_center_violated : ∃ i : Idx, Size tenth ∧ i.All (fun c => |c| ≤ 5242881) ∧ IndexF.gridIndex (IndexF.centerPoint i tenth) (inverse tenth) ≠ .ok i :=
  ⟨⟨5242881, 0, 0⟩, tenth_size, by decide, by decide +kernel⟩

/-- The origin of every block within two million blocks belongs to its block if the index is found by rounding. -/
theorem C73_origin {S : ℚ} (h : Size S) {i : Idx} (hi : i.All fun c => |c| ≤ 2 ^ 20) :
    originIndex (IndexF.originPoint i S) (inverse S) = .ok i := by
  have hs := h.pos
  have key : ∀ c : ℤ, |c| ≤ 2 ^ 20 → originIndex1 (origin1 c S) (inverse S) = c := by
    intro c hc
    refine originIndex1_near h (hc.trans (by norm_num)) ?_
    have he := origin1_err h (hc.trans (by norm_num))
    have hcq : |(c : ℚ)| ≤ 2 ^ 20 := by exact_mod_cast hc
    have e1 : origin1 c S / S - (c : ℚ) = (origin1 c S - (c : ℚ) * S) / S := by field_simp
    rw [e1, abs_div, abs_of_pos hs, div_le_iff₀ hs]
    refine he.trans (mul_le_mul_of_nonneg_right ?_ hs.le)
    have n1 : u = 1 / 16777216 := by unfold u; norm_num
    have n2 : (2 : ℚ) ^ 20 = 1048576 := by norm_num
    have n3 : (1 : ℚ) / 2 ^ 60 ≤ 1 / 1000 := by norm_num
    rw [n1]
    rw [n2] at hcq
    linarith
  obtain ⟨hx, hy, hz⟩ := hi
  have e : (IndexF.originPoint i S).map (fun c => originIndex1 c (inverse S)) = i := by
    ext
    · exact key _ hx
    · exact key _ hy
    · exact key _ hz
  unfold originIndex toIdx32
  rw [e, if_pos ⟨i32_of_small (hx.trans (by norm_num)), i32_of_small (hy.trans (by norm_num)), i32_of_small (hz.trans (by norm_num))⟩]

example : Size fiftieth ∧ (⟨40, -999999, 7⟩ : Idx).All (fun c => |c| ≤ 2 ^ 20) := ⟨fiftieth_size, by decide⟩

/-- Found by `getGridIndexFromPoint` instead, the origin of cell 40 of a 2 cm grid is assigned to cell 39: the epsilon of 1e-6 does not
cover the rounding of the product. -/
theorem C73_floor_violated : IndexF.gridIndex (IndexF.originPoint ⟨40, 0, 0⟩ fiftieth) (inverse fiftieth) = .ok ⟨39, 0, 0⟩ := by decide +kernel

/-- The coordinates of every voxel within half a million voxels of the origin lead back to its block and voxel, for every power-of-two
side up to 1024 and every voxel size. -/
theorem C73_lookup {s : ℚ} (h : Size s) (hS : s ≤ 2 ^ 80) {k : ℕ} (hk : k ≤ 10) {b v g : Idx} (hv : InBlock (2 ^ k) v)
    (hg : SitsAt (2 ^ k) b v g) (hr : g.All fun c => |c| ≤ 2 ^ 19) : lookup s (2 ^ k) (coordinatesOf s (2 ^ k) b v) = .ok (b, v) := by
  obtain ⟨vx, vy, vz⟩ := hv
  obtain ⟨gx, gy, gz⟩ := hg
  obtain ⟨rx, ry, rz⟩ := hr
  rw [gx] at rx
  rw [gy] at ry
  rw [gz] at rz
  push_cast at vx vy vz rx ry rz
  obtain ⟨bx, wx⟩ := axis_lookup h hS hk vx.1 vx.2 rx
  obtain ⟨b_y, wy⟩ := axis_lookup h hS hk vy.1 vy.2 ry
  obtain ⟨bz, wz⟩ := axis_lookup h hS hk vz.1 vz.2 rz
  have hbs := blockSize_eq h (k := k) (by omega)
  have hside : (2 : ℤ) ^ k ≤ 1024 := by
    calc (2 : ℤ) ^ k ≤ 2 ^ 10 := pow_le_pow_right₀ (by norm_num) hk
      _ = 1024 := by norm_num
  have hpos : (1 : ℤ) ≤ 2 ^ k := one_le_pow₀ (by norm_num)
  have small : ∀ c d : ℤ, 0 ≤ d ∧ d < 2 ^ k → |c * 2 ^ k + d| ≤ 2 ^ 19 → IsI32 c := by
    intro c d hd hc
    refine i32_of_small ?_
    have h1 : |c * 2 ^ k| ≤ 2 ^ 19 + 1024 := by
      have := abs_sub (c * 2 ^ k + d) d
      rw [add_sub_cancel_right, abs_of_nonneg hd.1] at this
      omega
    rw [abs_mul, abs_of_pos (show (0 : ℤ) < 2 ^ k by omega)] at h1
    have h2 := mul_le_mul_of_nonneg_left hpos (abs_nonneg c)
    have h3 : (2 : ℤ) ^ 19 + 1024 ≤ 2 ^ 30 := by norm_num
    linarith
  have vsmall : ∀ d : ℤ, 0 ≤ d ∧ d < 2 ^ k → IsI32 d := by
    intro d hd
    unfold IsI32
    omega
  have hb : blockIndex s (2 ^ k) (coordinatesOf s (2 ^ k) b v) = .ok b := by
    unfold blockIndex IndexF.gridIndex toIdx32 coordinatesOf voxelCoordinates
    rw [hbs]
    have e : (Vec3.map₂ (fun o c => rnd32 (o + c)) (IndexF.originPoint b (2 ^ k * s)) (IndexF.centerPoint v s)).map
        (fun c => gridIndex1 c (inverse (2 ^ k * s))) = b := by
      ext
      · exact bx
      · exact b_y
      · exact bz
    rw [e, if_pos ⟨small _ _ vx rx, small _ _ vy ry, small _ _ vz rz⟩]
  have hv' : IndexF.truncatedVoxelIndex (IndexF.originPoint b (blockSize s (2 ^ k))) s (2 ^ k) (coordinatesOf s (2 ^ k) b v) = .ok v := by
    unfold IndexF.truncatedVoxelIndex IndexF.gridIndex toIdx32 coordinatesOf voxelCoordinates
    rw [hbs]
    have e : (Vec3.map₂ (fun c o => rnd32 (c - o)) (Vec3.map₂ (fun o c => rnd32 (o + c)) (IndexF.originPoint b (2 ^ k * s)) (IndexF.centerPoint v s))
        (IndexF.originPoint b (2 ^ k * s))).map (fun c => gridIndex1 c (inverse s)) = v := by
      ext
      · exact wx
      · exact wy
      · exact wz
    rw [e, if_pos ⟨vsmall _ vx, vsmall _ vy, vsmall _ vz⟩]
    have hw : wrap32 (((2 ^ k : ℕ) : ℤ) - 1) = 2 ^ k - 1 := by
      push_cast
      exact wrap32_of_range ⟨by omega, by omega⟩
    show Outcome.ok (v.map fun c => max (min c (wrap32 (((2 ^ k : ℕ) : ℤ) - 1))) 0) = _
    rw [hw]
    congr 1
    ext <;> simp only [Vec3.map_x, Vec3.map_y, Vec3.map_z] <;> omega
  unfold lookup
  rw [hb]
  simp only [Outcome.bind_ok]
  rw [hv']
  rfl

example : Size tenth ∧ tenth ≤ 2 ^ 80 ∧ InBlock (2 ^ 4) ⟨3, 0, 15⟩ ∧ SitsAt (2 ^ 4) ⟨30000, -30000, 5⟩ ⟨3, 0, 15⟩ ⟨480003, -480000, 95⟩ ∧
    (⟨480003, -480000, 95⟩ : Idx).All (fun c => |c| ≤ 2 ^ 19) :=
  ⟨tenth_size, by decide +kernel, by decide, ⟨by norm_num, by norm_num, by norm_num⟩, by decide⟩

/-- A block read from a file is inserted under its own index: this is what C16 to C19 assume of the origin. -/
theorem C73_stored_index {w : Word} {vps : ℕ} {s : ℚ} {o : Vec3 Word} {i : Idx} (hw : FloatBits.fl32 w = .fin s) (hB : Size (blockSize s vps))
    (ho : o.map FloatBits.fl32 = (IndexF.originPoint i (blockSize s vps)).map Fl.fin) (hi : i.All fun c => |c| ≤ 2 ^ 20) :
    idxOfBits w vps o = .ok i := by
  have hx : FloatBits.fl32 o.x = .fin (IndexF.originPoint i (blockSize s vps)).x := congrArg Vec3.x ho
  have hy : FloatBits.fl32 o.y = .fin (IndexF.originPoint i (blockSize s vps)).y := congrArg Vec3.y ho
  have hz : FloatBits.fl32 o.z = .fin (IndexF.originPoint i (blockSize s vps)).z := congrArg Vec3.z ho
  unfold idxOfBits finite
  rw [hw, hx, hy, hz]
  exact C73_origin hB hi

/-- Block (-1, 2, 0) of a map with 16 voxels of 10 cm per side. -/
example : FloatBits.fl32 0x3DCCCCCD = .fin tenth ∧ Size (blockSize tenth 16) ∧
    (⟨0xBFCCCCCD, 0x404CCCCD, 0⟩ : Vec3 Word).map FloatBits.fl32 = (IndexF.originPoint ⟨-1, 2, 0⟩ (blockSize tenth 16)).map Fl.fin :=
  ⟨by decide +kernel, ⟨by decide +kernel, by decide +kernel, by decide +kernel⟩, by decide +kernel⟩

end Vox.Props.IndexFloat
