import Verif.Spec.Grid
import Verif.Lemmas.Index
import Mathlib.Tactic.Linarith
import Mathlib.Tactic.FieldSimp
import Mathlib.Tactic.Ring

namespace Vox.Grid

open Layer Spec

variable {V : Type}

/-- Block index of a coordinate along one axis. -/
def bAx (n : ℕ) (s p : ℚ) : ℤ := ⌊p * (1 / (s * n)) + kEpsilon⌋

/-- Truncated voxel index of a coordinate along one axis. -/
def vAx (n : ℕ) (s p : ℚ) : ℤ := max (min ⌊(p - bAx n s p * (s * n)) * (1 / s) + kEpsilon⌋ ((n : ℤ) - 1)) 0

theorem bAx_bounds {n : ℕ} {s p : ℚ} (hn : 0 < n) (hs : 0 < s) :
    (bAx n s p : ℚ) * n ≤ p / s + n * kEpsilon ∧ p / s + n * kEpsilon < ((bAx n s p : ℚ) + 1) * n := by
  have hn' : (0 : ℚ) < n := by exact_mod_cast hn
  have h1 := Int.floor_le (p * (1 / (s * n)) + kEpsilon)
  have h2 := Int.lt_floor_add_one (p * (1 / (s * n)) + kEpsilon)
  have e : p * (1 / (s * n)) * n = p / s := by field_simp
  unfold bAx
  constructor
  · nlinarith [mul_le_mul_of_nonneg_right h1 hn'.le]
  · nlinarith [mul_lt_mul_of_pos_right h2 hn']

theorem vAx_range {n : ℕ} {s p : ℚ} (hn : 0 < n) : 0 ≤ vAx n s p ∧ vAx n s p < n := by
  unfold vAx; omega

/-- Raw voxel index along one axis: from -1 to n - 1. -/
theorem raw_bounds {n : ℕ} {s p : ℚ} (hn : 0 < n) (hn' : n ≤ 1290) (hs : 0 < s) :
    -1 ≤ ⌊(p - bAx n s p * (s * n)) * (1 / s) + kEpsilon⌋ ∧
    ⌊(p - bAx n s p * (s * n)) * (1 / s) + kEpsilon⌋ ≤ (n : ℤ) - 1 := by
  obtain ⟨h1, h2⟩ := bAx_bounds (p := p) hn hs
  have e : (p - bAx n s p * (s * n)) * (1 / s) = p / s - bAx n s p * n := by field_simp
  rw [e]
  have hn1 : (1 : ℚ) ≤ n := by exact_mod_cast hn
  have hn2 : (n : ℚ) ≤ 1290 := by exact_mod_cast hn'
  unfold kEpsilon at *
  constructor
  · rw [Int.le_floor]; push_cast; linarith
  · rw [← Int.lt_add_one_iff, Int.floor_lt]; push_cast; linarith

/-- The voxel found for a coordinate: the coordinate is at most half a voxel below it. -/
theorem vAx_bounds {n : ℕ} {s p : ℚ} (hn : 0 < n) (hn' : n ≤ 1290) (hs : 0 < s) :
    (bAx n s p : ℚ) * n + vAx n s p - 1 / 2 < p / s ∧ p / s < (bAx n s p : ℚ) * n + vAx n s p + 1 := by
  obtain ⟨h1, h2⟩ := bAx_bounds (p := p) hn hs
  obtain ⟨r1, r2⟩ := raw_bounds (p := p) hn hn' hs
  have e : (p - bAx n s p * (s * n)) * (1 / s) = p / s - bAx n s p * n := by field_simp
  have hn1 : (1 : ℚ) ≤ n := by exact_mod_cast hn
  have hn2 : (n : ℚ) ≤ 1290 := by exact_mod_cast hn'
  unfold vAx
  rw [e] at r1 r2 ⊢
  set r := ⌊p / s - bAx n s p * n + kEpsilon⌋ with hr
  have f1 := Int.floor_le (p / s - bAx n s p * n + kEpsilon)
  have f2 := Int.lt_floor_add_one (p / s - bAx n s p * n + kEpsilon)
  rw [← hr] at f1 f2
  unfold kEpsilon at *
  rcases lt_or_ge r 0 with h | h
  · have : max (min r ((n : ℤ) - 1)) 0 = 0 := by omega
    rw [this]
    have hr1 : r = -1 := by omega
    rw [hr1] at f1 f2
    push_cast at *
    constructor <;> linarith
  · have : max (min r ((n : ℤ) - 1)) 0 = r := by omega
    rw [this]
    constructor <;> linarith

/-- Clear of the upper border of the cell the found voxel is the one that contains the coordinate. -/
theorem vAx_eq {n : ℕ} {s p : ℚ} (hn : 0 < n) (hn' : n ≤ 1290) (hs : 0 < s) {g : ℤ} (h1 : (g : ℚ) * s ≤ p)
    (h2 : p < ((g : ℚ) + 1 - n * kEpsilon) * s) : bAx n s p * n + vAx n s p = g := by
  obtain ⟨b1, b2⟩ := vAx_bounds (p := p) hn hn' hs
  obtain ⟨c1, c2⟩ := bAx_bounds (p := p) hn hs
  have l1 : (g : ℚ) ≤ p / s := by rw [le_div_iff₀ hs]; exact h1
  have l2 : p / s < (g : ℚ) + 1 - n * kEpsilon := by rw [div_lt_iff₀ hs]; exact h2
  have hn1 : (1 : ℚ) ≤ n := by exact_mod_cast hn
  have hn2 : (n : ℚ) ≤ 1290 := by exact_mod_cast hn'
  have ke : kEpsilon = 1 / 1000000 := rfl
  -- the block contains the coordinate
  have hb : (bAx n s p : ℤ) * n < g + 1 := by
    have : ((bAx n s p * n : ℤ) : ℚ) < ((g + 1 : ℤ) : ℚ) := by push_cast; linarith
    exact_mod_cast this
  have e : (p - bAx n s p * (s * n)) * (1 / s) = p / s - bAx n s p * n := by field_simp
  have hfl : ⌊p / s - bAx n s p * n + kEpsilon⌋ = g - bAx n s p * n := by
    rw [Int.floor_eq_iff]
    push_cast
    constructor <;> nlinarith
  obtain ⟨r1, r2⟩ := raw_bounds (p := p) hn hn' hs
  unfold vAx
  rw [e, hfl] at *
  omega

theorem div_mod_of {n : ℕ} {b v g : ℤ} (h0 : 0 ≤ v) (h1 : v < n) (h : b * n + v = g) : b = g / n ∧ v = g % n := by
  subst h
  have hn : (n : ℤ) ≠ 0 := by omega
  constructor
  · rw [add_comm, Int.add_mul_ediv_right _ _ hn, Int.ediv_eq_zero_of_lt h0 h1]; simp
  · rw [add_comm, Int.add_mul_emod_self_right, Int.emod_eq_of_lt h0 h1]

theorem bAx_i32 {n : ℕ} {s p : ℚ} (hn : 0 < n) (hs : 0 < s) (hp : -2 ^ 30 * s ≤ p ∧ p ≤ 2 ^ 30 * s) :
    -2 ^ 30 - 1 ≤ bAx n s p ∧ bAx n s p ≤ 2 ^ 30 := by
  have hn1 : (1 : ℚ) ≤ n := by exact_mod_cast hn
  have e : p * (1 / (s * n)) = p / s / n := by field_simp
  have l : -2 ^ 30 ≤ p / s / n := by
    rw [le_div_iff₀ (by linarith), le_div_iff₀ hs]
    nlinarith [hp.1]
  have u : p / s / n ≤ 2 ^ 30 := by
    rw [div_le_iff₀ (by linarith), div_le_iff₀ hs]
    nlinarith [hp.2]
  unfold bAx
  rw [e]
  unfold kEpsilon
  constructor
  · rw [Int.le_floor]; push_cast; linarith
  · rw [← Int.lt_add_one_iff, Int.floor_lt]; push_cast; linarith

/-- The block index found for a position. -/
def bIdx (l : VLayer V) (p : Pt) : Idx := p.map (bAx l.cfg.vps l.cfg.voxelSize)
/-- The (truncated) voxel index found for a position. -/
def vIdx (l : VLayer V) (p : Pt) : Idx := p.map (vAx l.cfg.vps l.cfg.voxelSize)
/-- The global index of the voxel found for a position. -/
def gIdx (l : VLayer V) (p : Pt) : Idx :=
  p.map fun c => bAx l.cfg.vps l.cfg.voxelSize c * l.cfg.vps + vAx l.cfg.vps l.cfg.voxelSize c

theorem blockIndexOf_ok {l : VLayer V} (wf : WellFormed l) {p : Pt} (hp : Addressable l p) :
    blockIndexOf l p = .ok (bIdx l p) := by
  obtain ⟨hx, hy, hz⟩ := hp
  have X := bAx_i32 (n := l.cfg.vps) wf.side_pos wf.size_pos hx
  have Y := bAx_i32 (n := l.cfg.vps) wf.side_pos wf.size_pos hy
  have Z := bAx_i32 (n := l.cfg.vps) wf.side_pos wf.size_pos hz
  have e : gridIndex p (1 / l.cfg.blockSize) = bIdx l p := rfl
  unfold blockIndexOf gridIndex32 toIdx32
  rw [e, if_pos]
  refine ⟨?_, ?_, ?_⟩ <;> (unfold IsI32 bIdx; simp only [Vec3.map_x, Vec3.map_y, Vec3.map_z]; omega)

theorem truncated_ok {l : VLayer V} (wf : WellFormed l) {p : Pt} {b : Block ℚ V}
    (hb : block? l (bIdx l p) = some b) :
    truncatedVoxelIndex b.vps b.origin b.voxelSize p = .ok (vIdx l p) := by
  obtain ⟨h1, h2, h3, -⟩ := wf.block _ _ hb
  have hn := wf.side_pos
  have hn' := wf.side_le
  have hw : wrap32 ((l.cfg.vps : ℤ) - 1) = l.cfg.vps - 1 := wrap32_of_range ⟨by omega, by omega⟩
  have X := raw_bounds (n := l.cfg.vps) (p := p.x) hn hn' wf.size_pos
  have Y := raw_bounds (n := l.cfg.vps) (p := p.y) hn hn' wf.size_pos
  have Z := raw_bounds (n := l.cfg.vps) (p := p.z) hn hn' wf.size_pos
  have e : gridIndex (p - b.origin) (1 / b.voxelSize) =
      p.map fun c => ⌊(c - bAx l.cfg.vps l.cfg.voxelSize c * (l.cfg.voxelSize * l.cfg.vps)) *
        (1 / l.cfg.voxelSize) + kEpsilon⌋ := by
    rw [h2, h3]; rfl
  unfold truncatedVoxelIndex gridIndex32 toIdx32
  rw [e, if_pos, h1, hw]
  · rfl
  · refine ⟨?_, ?_, ?_⟩ <;> (unfold IsI32; simp only [Vec3.map_x, Vec3.map_y, Vec3.map_z]; omega)

theorem vIdx_inBlock {l : VLayer V} (wf : WellFormed l) (p : Pt) : InBlock l.cfg.vps (vIdx l p) :=
  ⟨vAx_range wf.side_pos, vAx_range wf.side_pos, vAx_range wf.side_pos⟩

theorem linearIndex_eq {n : ℕ} (hn' : n ≤ 1290) {v : Idx} (hv : InBlock n v) :
    linearIndex n v = (v.x + n * (v.y + n * v.z)).toNat ∧ linearIndex n v < n * n * n := by
  obtain ⟨l0, l1⟩ := linear_lt hv.1 hv.2.1 hv.2.2
  have hc : (n : ℤ) * n * n ≤ 1290 * 1290 * 1290 := by
    have h0 : (0 : ℤ) ≤ n := by omega
    have h1 : (n : ℤ) ≤ 1290 := by omega
    have := mul_le_mul h1 h1 h0 (by norm_num)
    exact mul_le_mul this h1 h0 (by norm_num)
  have e : v.x + (n : ℤ) * (v.y + v.z * n) = v.x + n * (v.y + n * v.z) := by ring
  have ew : linearIndex n v = (v.x + (n : ℤ) * (v.y + v.z * n)).toNat :=
    wrapU64_of_range l0 (by omega)
  refine ⟨by rw [ew, e], ?_⟩
  rw [ew]
  have : ((n * n * n : ℕ) : ℤ) = n * n * n := by push_cast; ring
  omega

/-- Reading a voxel of an existing block is the content at the global index. -/
theorem voxelByIndex_content {l : VLayer V} (wf : WellFormed l) {i v : Idx} {b : Block ℚ V}
    (hb : block? l i = some b) (hv : InBlock l.cfg.vps v) :
    ∃ x, voxelByIndex b v = .ok x ∧ content l (globalIndex l.cfg.vps i v) = some x := by
  obtain ⟨h1, -, -, h4⟩ := wf.block _ _ hb
  obtain ⟨e, lt⟩ := linearIndex_eq wf.side_le hv
  have hlen : linearIndex l.cfg.vps v < b.voxels.length := by rw [h4]; exact lt
  refine ⟨b.voxels[linearIndex l.cfg.vps v], ?_, ?_⟩
  · unfold voxelByIndex voxelAt
    rw [h1, List.getElem?_eq_getElem hlen]
  · obtain ⟨⟨x0, x1⟩, ⟨y0, y1⟩, ⟨z0, z1⟩⟩ := hv
    have X := div_mod_of (b := i.x) x0 x1 rfl
    have Y := div_mod_of (b := i.y) y0 y1 rfl
    have Z := div_mod_of (b := i.z) z0 z1 rfl
    unfold content
    have ei : (globalIndex l.cfg.vps i v).map (· / (l.cfg.vps : ℤ)) = i := by
      ext <;> simp only [Vec3.map_x, Vec3.map_y, Vec3.map_z, globalIndex, Vec3.map₂_x, Vec3.map₂_y, Vec3.map₂_z]
      · exact X.1.symm
      · exact Y.1.symm
      · exact Z.1.symm
    have hb' : l.blocks.lookup i = some b := hb
    rw [ei, hb']
    simp only [globalIndex, Vec3.map₂_x, Vec3.map₂_y, Vec3.map₂_z, ← X.2, ← Y.2, ← Z.2, Option.bind_some, ← e]
    exact List.getElem?_eq_getElem hlen

/-- A missing block has no content. -/
theorem content_none {l : VLayer V} {i v : Idx} (hb : block? l i = none)
    (hv : InBlock l.cfg.vps v) : content l (globalIndex l.cfg.vps i v) = none := by
  obtain ⟨⟨x0, x1⟩, ⟨y0, y1⟩, ⟨z0, z1⟩⟩ := hv
  have X := div_mod_of (b := i.x) x0 x1 rfl
  have Y := div_mod_of (b := i.y) y0 y1 rfl
  have Z := div_mod_of (b := i.z) z0 z1 rfl
  unfold content
  have ei : (globalIndex l.cfg.vps i v).map (· / (l.cfg.vps : ℤ)) = i := by
    ext <;> simp only [Vec3.map_x, Vec3.map_y, Vec3.map_z, globalIndex, Vec3.map₂_x, Vec3.map₂_y, Vec3.map₂_z]
    · exact X.1.symm
    · exact Y.1.symm
    · exact Z.1.symm
  have hb' : l.blocks.lookup i = none := hb
  rw [ei, hb']
  rfl

theorem centerOf_eq {l : VLayer V} (wf : WellFormed l) {i v : Idx} {b : Block ℚ V} (hb : block? l i = some b) :
    centerOf b v = voxelCenter l.cfg.voxelSize (globalIndex l.cfg.vps i v) := by
  obtain ⟨-, h2, h3, -⟩ := wf.block _ _ hb
  unfold centerOf coordinatesFromVoxelIndex voxelCenter centerPoint globalIndex
  rw [h2, h3]
  ext <;> simp <;> ring

end Vox.Grid
