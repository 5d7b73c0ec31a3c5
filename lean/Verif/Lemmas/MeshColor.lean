/-
Vertex colours: the voxel a vertex of the surface takes its colour from.
-/
import Verif.Lemmas.MeshIntegrator
import Verif.Lemmas.Serial

namespace Vox.MeshInt

open Spec Layer Grid MC

variable {V : Type}

/-! ### One axis -/

/-- The coordinate of a vertex along one axis: `τ` above the centre of voxel `g`. -/
def vertexCoord (s : ℚ) (g : ℤ) (τ : ℚ) : ℚ := ((g : ℚ) + 1 / 2 + τ) * s

theorem own_axis {n : ℕ} {s : ℚ} (hs : 0 < s) (i g : ℤ) {τ : ℚ} (h0 : 0 ≤ τ) (h1 : τ ≤ 1) :
    ⌊(vertexCoord s g τ - i * (s * n)) * (1 / s) + kEpsilon⌋ =
      g - i * n + if τ + 1 / 2 + kEpsilon < 1 then 0 else 1 := by
  have e : (vertexCoord s g τ - i * (s * n)) * (1 / s) = g + 1 / 2 + τ - i * n := by
    unfold vertexCoord; field_simp
  rw [e, Int.floor_eq_iff]
  unfold kEpsilon
  split_ifs with h <;> push_cast <;> constructor <;> linarith

theorem look_axis {n : ℕ} {s : ℚ} (hn : 0 < n) (hn' : n ≤ 1290) (hs : 0 < s) (g : ℤ) {τ : ℚ} (h0 : 0 ≤ τ) (h1 : τ ≤ 1) :
    bAx n s (vertexCoord s g τ) * n + vAx n s (vertexCoord s g τ) = g ∧ τ < 1 / 2 ∨
    bAx n s (vertexCoord s g τ) * n + vAx n s (vertexCoord s g τ) = g + 1 ∧ 1 / 2 - n * kEpsilon ≤ τ := by
  have e : vertexCoord s g τ / s = g + 1 / 2 + τ := by unfold vertexCoord; field_simp
  obtain ⟨b1, b2⟩ := vAx_bounds (p := vertexCoord s g τ) hn hn' hs
  rw [e] at b1 b2
  have l1 : g ≤ bAx n s (vertexCoord s g τ) * n + vAx n s (vertexCoord s g τ) := by
    have : ((g : ℤ) : ℚ) < ((bAx n s (vertexCoord s g τ) * n + vAx n s (vertexCoord s g τ) + 1 : ℤ) : ℚ) := by
      push_cast; linarith
    have := Int.cast_lt.1 this
    omega
  have l2 : bAx n s (vertexCoord s g τ) * n + vAx n s (vertexCoord s g τ) ≤ g + 1 := by
    have : ((bAx n s (vertexCoord s g τ) * n + vAx n s (vertexCoord s g τ) : ℤ) : ℚ) < ((g + 2 : ℤ) : ℚ) := by
      push_cast; linarith
    have := Int.cast_lt.1 this
    omega
  rcases (show bAx n s (vertexCoord s g τ) * n + vAx n s (vertexCoord s g τ) = g ∨
    bAx n s (vertexCoord s g τ) * n + vAx n s (vertexCoord s g τ) = g + 1 by omega) with h | h
  · refine Or.inl ⟨h, ?_⟩
    have : ((bAx n s (vertexCoord s g τ) * n + vAx n s (vertexCoord s g τ) : ℤ) : ℚ) = g := by rw [h]
    push_cast at this
    linarith
  · refine Or.inr ⟨h, ?_⟩
    by_contra hlt
    push Not at hlt
    have := vAx_eq (p := vertexCoord s g τ) hn hn' hs (g := g) (by unfold vertexCoord; nlinarith)
      (by unfold vertexCoord; nlinarith)
    omega

/-! ### The vertex of a grid edge -/

theorem zeroParam_range {a b : ℚ} (h : decide (a < 0) ≠ decide (b < 0)) : 0 ≤ zeroParam a b ∧ zeroParam a b ≤ 1 := by
  have hab : (a < 0 ∧ 0 ≤ b) ∨ (b < 0 ∧ 0 ≤ a) := by
    by_cases ha : a < 0 <;> by_cases hb : b < 0 <;> simp only [ha, hb, decide_true, decide_false, ne_eq, not_true_eq_false] at h
    · exact Or.inl ⟨ha, not_lt.1 hb⟩
    · exact Or.inr ⟨hb, not_lt.1 ha⟩
  unfold zeroParam
  split_ifs
  · rcases hab with ⟨ha, hb⟩ | ⟨hb, ha⟩
    · have hd : a - b < 0 := by linarith
      constructor
      · exact div_nonneg_of_nonpos ha.le hd.le
      · rw [div_le_one_of_neg hd]; linarith
    · have hd : 0 < a - b := by linarith
      constructor
      · exact div_nonneg ha hd.le
      · rw [div_le_one hd]; linarith
  · norm_num

/-- How far along its edge the surface point lies. -/
def edgeParam (l : VLayer V) (sdf : V → Option ℚ) (e : GridEdge) : ℚ :=
  zeroParam (fieldOf l sdf e.base) (fieldOf l sdf e.tip)

theorem surfacePoint_coords (l : VLayer V) (sdf : V → Option ℚ) (e : GridEdge) :
    surfacePoint l sdf e =
      ⟨vertexCoord l.cfg.voxelSize e.base.x (edgeParam l sdf e * (unitStep e.axis).x),
       vertexCoord l.cfg.voxelSize e.base.y (edgeParam l sdf e * (unitStep e.axis).y),
       vertexCoord l.cfg.voxelSize e.base.z (edgeParam l sdf e * (unitStep e.axis).z)⟩ := by
  unfold surfacePoint crossing lerp gridPoint edgeParam vertexCoord GridEdge.tip
  ext <;> simp <;> ring

/-- The voxel that a position reads in `updateMeshColor`, by global index. -/
def colorIdx (l : VLayer V) (i : Idx) (p : Pt) : Idx :=
  let own : Idx := ⟨⌊(p.x - i.x * (l.cfg.voxelSize * l.cfg.vps)) * (1 / l.cfg.voxelSize) + kEpsilon⌋,
    ⌊(p.y - i.y * (l.cfg.voxelSize * l.cfg.vps)) * (1 / l.cfg.voxelSize) + kEpsilon⌋,
    ⌊(p.z - i.z * (l.cfg.voxelSize * l.cfg.vps)) * (1 / l.cfg.voxelSize) + kEpsilon⌋⟩
  if isValidVoxelIndex l.cfg.vps own then globalIndex l.cfg.vps i own else gIdx l p

theorem gIdx_eq (l : VLayer V) (p : Pt) : globalIndex l.cfg.vps (bIdx l p) (vIdx l p) = gIdx l p := by
  unfold globalIndex bIdx vIdx gIdx
  ext <;> simp

theorem axis_cases {n : ℕ} {s : ℚ} (hn : 0 < n) (hn' : n ≤ 1290) (hs : 0 < s) (i g : ℤ) {τ : ℚ} (h0 : 0 ≤ τ) (h1 : τ ≤ 1)
    {r : ℤ} (hr : r = i * n + ⌊(vertexCoord s g τ - i * (s * n)) * (1 / s) + kEpsilon⌋ ∨
      r = bAx n s (vertexCoord s g τ) * n + vAx n s (vertexCoord s g τ)) :
    r = g ∧ τ < 1 / 2 ∨ r = g + 1 ∧ 1 / 2 - n * kEpsilon ≤ τ := by
  rcases hr with rfl | rfl
  · rw [own_axis hs i g h0 h1]
    have hn1 : (1 : ℚ) ≤ n := by exact_mod_cast hn
    split_ifs with h
    · refine Or.inl ⟨by ring, ?_⟩
      unfold kEpsilon at h
      linarith
    · refine Or.inr ⟨by ring, ?_⟩
      unfold kEpsilon at h ⊢
      linarith
  · exact look_axis hn hn' hs g h0 h1

theorem axis_zero {n : ℕ} (hn' : n ≤ 1290) {r g : ℤ} {τ : ℚ} (hτ : τ = 0)
    (h : r = g ∧ τ < 1 / 2 ∨ r = g + 1 ∧ 1 / 2 - n * kEpsilon ≤ τ) : r = g := by
  rcases h with h | ⟨-, h⟩
  · exact h.1
  · have hn2 : (n : ℚ) ≤ 1290 := by exact_mod_cast hn'
    unfold kEpsilon at h
    linarith

/-- The voxel read for the vertex on an edge is one of the two ends: the nearer one, up to the tolerance of
the block index. -/
theorem colorIdx_cases {l : VLayer V} (wf : WellFormed l) (sdf : V → Option ℚ) (i : Idx) (e : GridEdge)
    (h0 : 0 ≤ edgeParam l sdf e) (h1 : edgeParam l sdf e ≤ 1) :
    colorIdx l i (surfacePoint l sdf e) = e.base ∧ edgeParam l sdf e < 1 / 2 ∨
    colorIdx l i (surfacePoint l sdf e) = e.tip ∧ 1 / 2 - l.cfg.vps * kEpsilon ≤ edgeParam l sdf e := by
  have hn := wf.side_pos
  have hn' := wf.side_le
  have hs := wf.size_pos
  set t := edgeParam l sdf e with ht
  have hu : ((unitStep e.axis).x = 1 ∧ (unitStep e.axis).y = 0 ∧ (unitStep e.axis).z = 0) ∨
      ((unitStep e.axis).x = 0 ∧ (unitStep e.axis).y = 1 ∧ (unitStep e.axis).z = 0) ∨
      ((unitStep e.axis).x = 0 ∧ (unitStep e.axis).y = 0 ∧ (unitStep e.axis).z = 1) := by
    unfold unitStep
    split_ifs <;> simp
  have X := fun (τ : ℚ) h0 h1 r => axis_cases (τ := τ) hn hn' hs i.x e.base.x h0 h1 (r := r)
  have Y := fun (τ : ℚ) h0 h1 r => axis_cases (τ := τ) hn hn' hs i.y e.base.y h0 h1 (r := r)
  have Z := fun (τ : ℚ) h0 h1 r => axis_cases (τ := τ) hn hn' hs i.z e.base.z h0 h1 (r := r)
  set c := colorIdx l i (surfacePoint l sdf e) with hc
  have key : (c.x = e.base.x ∧ t * (unitStep e.axis).x < 1 / 2 ∨ c.x = e.base.x + 1 ∧ 1 / 2 - l.cfg.vps * kEpsilon ≤ t * (unitStep e.axis).x) ∧
      (c.y = e.base.y ∧ t * (unitStep e.axis).y < 1 / 2 ∨ c.y = e.base.y + 1 ∧ 1 / 2 - l.cfg.vps * kEpsilon ≤ t * (unitStep e.axis).y) ∧
      (c.z = e.base.z ∧ t * (unitStep e.axis).z < 1 / 2 ∨ c.z = e.base.z + 1 ∧ 1 / 2 - l.cfg.vps * kEpsilon ≤ t * (unitStep e.axis).z) := by
    have b : ∀ u : ℤ, u = 0 ∨ u = 1 → 0 ≤ t * u ∧ t * u ≤ 1 := by
      rintro u (rfl | rfl) <;> constructor <;> push_cast <;> linarith
    obtain ⟨bx, by', bz⟩ : ((unitStep e.axis).x = 0 ∨ (unitStep e.axis).x = 1) ∧
      ((unitStep e.axis).y = 0 ∨ (unitStep e.axis).y = 1) ∧ ((unitStep e.axis).z = 0 ∨ (unitStep e.axis).z = 1) := by omega
    have hc' := hc
    rw [surfacePoint_coords, ← ht] at hc'
    unfold colorIdx at hc'
    simp only at hc'
    split_ifs at hc' with hv
    · rw [hc']
      exact ⟨X _ (b _ bx).1 (b _ bx).2 _ (Or.inl rfl), Y _ (b _ by').1 (b _ by').2 _ (Or.inl rfl),
        Z _ (b _ bz).1 (b _ bz).2 _ (Or.inl rfl)⟩
    · rw [hc']
      exact ⟨X _ (b _ bx).1 (b _ bx).2 _ (Or.inr rfl), Y _ (b _ by').1 (b _ by').2 _ (Or.inr rfl),
        Z _ (b _ bz).1 (b _ bz).2 _ (Or.inr rfl)⟩
  obtain ⟨kx, ky, kz⟩ := key
  have fin : ∀ a b d : ℤ, c = ⟨a, b, d⟩ ↔ c.x = a ∧ c.y = b ∧ c.z = d := by
    intro a b d
    constructor
    · intro h; rw [h]; exact ⟨rfl, rfl, rfl⟩
    · rintro ⟨h1, h2, h3⟩; ext <;> assumption
  have tip : e.tip = ⟨e.base.x + (unitStep e.axis).x, e.base.y + (unitStep e.axis).y, e.base.z + (unitStep e.axis).z⟩ := rfl
  have base : e.base = ⟨e.base.x, e.base.y, e.base.z⟩ := rfl
  rcases hu with ⟨ux, uy, uz⟩ | ⟨ux, uy, uz⟩ | ⟨ux, uy, uz⟩ <;> rw [tip, base, fin, fin] <;>
    rw [ux] at kx <;> rw [uy] at ky <;> rw [uz] at kz <;> rw [ux, uy, uz] <;> simp only [Int.cast_one, Int.cast_zero, mul_one, mul_zero] at kx ky kz
  · have y0 := axis_zero hn' rfl ky
    have z0 := axis_zero hn' rfl kz
    rcases kx with ⟨h, h'⟩ | ⟨h, h'⟩
    · exact Or.inl ⟨⟨h, y0, z0⟩, h'⟩
    · exact Or.inr ⟨⟨h, by simp only; omega, by simp only; omega⟩, h'⟩
  · have x0 := axis_zero hn' rfl kx
    have z0 := axis_zero hn' rfl kz
    rcases ky with ⟨h, h'⟩ | ⟨h, h'⟩
    · exact Or.inl ⟨⟨x0, h, z0⟩, h'⟩
    · exact Or.inr ⟨⟨by simp only; omega, h, by simp only; omega⟩, h'⟩
  · have x0 := axis_zero hn' rfl kx
    have y0 := axis_zero hn' rfl ky
    rcases kz with ⟨h, h'⟩ | ⟨h, h'⟩
    · exact Or.inl ⟨⟨x0, y0, h⟩, h'⟩
    · exact Or.inr ⟨⟨by simp only; omega, by simp only; omega, h⟩, h'⟩

/-- Reading the colour of a vertex. -/
theorem colorVertex_eq {l : VLayer V} (wf : WellFormed l) (fns : VoxelFns V) {i v : Idx} {b : Block ℚ V}
    (hb : block? l i = some b) (hr : BlockInRange l i) (hv : InBlock l.cfg.vps v) (e : GridEdge)
    (he : EdgeOfCube (globalIndex l.cfg.vps i v) e)
    (h0 : 0 ≤ edgeParam l fns.sdf e) (h1 : edgeParam l fns.sdf e ≤ 1)
    (hc : (content l (colorIdx l i (surfacePoint l fns.sdf e))).isSome = true) :
    colorVertex l fns b ((surfacePoint l fns.sdf e).map .fin) =
      .ok (((content l (colorIdx l i (surfacePoint l fns.sdf e))).bind fns.color).getD Color.default) := by
  have hn := wf.side_pos
  have hn' := wf.side_le
  have hs := wf.size_pos
  obtain ⟨w1, w2, w3, w4⟩ := wf.block _ _ hb
  have hp := surfacePoint_coords l fns.sdf e
  set p := surfacePoint l fns.sdf e with hpdef
  set t := edgeParam l fns.sdf e with ht
  have hu : ((unitStep e.axis).x = 1 ∧ (unitStep e.axis).y = 0 ∧ (unitStep e.axis).z = 0 ∧ e.axis = 0) ∨
      ((unitStep e.axis).x = 0 ∧ (unitStep e.axis).y = 1 ∧ (unitStep e.axis).z = 0 ∧ e.axis = 1) ∨
      ((unitStep e.axis).x = 0 ∧ (unitStep e.axis).y = 0 ∧ (unitStep e.axis).z = 1 ∧ e.axis = 2) := by
    have := he.1
    unfold unitStep
    split_ifs with a1 a2
    · exact Or.inl ⟨rfl, rfl, rfl, a1⟩
    · exact Or.inr (Or.inl ⟨rfl, rfl, rfl, a2⟩)
    · exact Or.inr (Or.inr ⟨rfl, rfl, rfl, by omega⟩)
  have hx := he.2.1
  have hy := he.2.2.1
  have hz := he.2.2.2
  simp only [globalIndex, Vec3.map₂_x, Vec3.map₂_y, Vec3.map₂_z] at hx hy hz
  obtain ⟨⟨vx0, vx1⟩, ⟨vy0, vy1⟩, ⟨vz0, vz1⟩⟩ := hv
  obtain ⟨⟨rx0, rx1⟩, ⟨ry0, ry1⟩, ⟨rz0, rz1⟩⟩ := hr
  have b' : ∀ u : ℤ, u = 0 ∨ u = 1 → 0 ≤ t * u ∧ t * u ≤ 1 := by
    rintro u (rfl | rfl) <;> constructor <;> push_cast <;> linarith
  obtain ⟨bx, by', bz⟩ : ((unitStep e.axis).x = 0 ∨ (unitStep e.axis).x = 1) ∧
    ((unitStep e.axis).y = 0 ∨ (unitStep e.axis).y = 1) ∧ ((unitStep e.axis).z = 0 ∨ (unitStep e.axis).z = 1) := by omega
  have tx : e.base.x = i.x * l.cfg.vps + v.x ∨ e.base.x = i.x * l.cfg.vps + v.x + 1 ∧ t * (unitStep e.axis).x = 0 := by
    rcases hx with h | ⟨h, h'⟩
    · exact Or.inl h
    · refine Or.inr ⟨h, ?_⟩
      have : (unitStep e.axis).x = 0 := by omega
      rw [this]; simp
  have ty : e.base.y = i.y * l.cfg.vps + v.y ∨ e.base.y = i.y * l.cfg.vps + v.y + 1 ∧ t * (unitStep e.axis).y = 0 := by
    rcases hy with h | ⟨h, h'⟩
    · exact Or.inl h
    · refine Or.inr ⟨h, ?_⟩
      have : (unitStep e.axis).y = 0 := by omega
      rw [this]; simp
  have tz : e.base.z = i.z * l.cfg.vps + v.z ∨ e.base.z = i.z * l.cfg.vps + v.z + 1 ∧ t * (unitStep e.axis).z = 0 := by
    rcases hz with h | ⟨h, h'⟩
    · exact Or.inl h
    · refine Or.inr ⟨h, ?_⟩
      have : (unitStep e.axis).z = 0 := by omega
      rw [this]; simp
  have adr : ∀ (g c w : ℤ) (τ : ℚ), 0 ≤ τ → τ ≤ 1 → 0 ≤ w → w < l.cfg.vps → -2 ^ 30 ≤ c * l.cfg.vps →
      (c + 2) * l.cfg.vps ≤ 2 ^ 30 → g = c * l.cfg.vps + w ∨ g = c * l.cfg.vps + w + 1 ∧ τ = 0 →
      (-2 ^ 30 * l.cfg.voxelSize ≤ vertexCoord l.cfg.voxelSize g τ ∧
        vertexCoord l.cfg.voxelSize g τ ≤ 2 ^ 30 * l.cfg.voxelSize) ∧
      IsI32 ⌊(vertexCoord l.cfg.voxelSize g τ - c * (l.cfg.voxelSize * l.cfg.vps)) * (1 / l.cfg.voxelSize) + kEpsilon⌋ := by
    intro g c w τ t0 t1 w0 w1 c0 c1 hg
    have q0 : -2 ^ 30 ≤ g := by omega
    have q1 : (g : ℚ) + τ ≤ 2 ^ 30 - 1 / 2 := by
      have e1 : (c + 2) * (l.cfg.vps : ℤ) = c * l.cfg.vps + 2 * l.cfg.vps := by ring
      have e2 : c * (l.cfg.vps : ℤ) + w + 1 ≤ 2 ^ 30 - 1 := by omega
      have e3 : ((c * (l.cfg.vps : ℤ) + w + 1 : ℤ) : ℚ) ≤ ((2 ^ 30 - 1 : ℤ) : ℚ) := Int.cast_le.2 e2
      push_cast at e3
      rcases hg with rfl | ⟨rfl, rfl⟩ <;> push_cast <;> linarith
    have q0' : (-2 ^ 30 : ℚ) ≤ g := by exact_mod_cast q0
    refine ⟨?_, ?_⟩
    · unfold vertexCoord
      constructor <;> nlinarith
    · rw [own_axis hs c g t0 t1]
      unfold IsI32
      split_ifs <;> omega
  obtain ⟨ax, ox⟩ := adr _ i.x v.x _ (b' _ bx).1 (b' _ bx).2 vx0 vx1 rx0 rx1 tx
  obtain ⟨ay, oy⟩ := adr _ i.y v.y _ (b' _ by').1 (b' _ by').2 vy0 vy1 ry0 ry1 ty
  obtain ⟨az, oz⟩ := adr _ i.z v.z _ (b' _ bz).1 (b' _ bz).2 vz0 vz1 rz0 rz1 tz
  have px : p.x = vertexCoord l.cfg.voxelSize e.base.x (t * (unitStep e.axis).x) := by rw [hp]
  have py : p.y = vertexCoord l.cfg.voxelSize e.base.y (t * (unitStep e.axis).y) := by rw [hp]
  have pz : p.z = vertexCoord l.cfg.voxelSize e.base.z (t * (unitStep e.axis).z) := by rw [hp]
  rw [← px] at ax ox
  rw [← py] at ay oy
  rw [← pz] at az oz
  have had : Addressable l p := ⟨ax, ay, az⟩
  have hfin : finitePoint (p.map .fin) = .ok p := rfl
  have hown : voxelIndexFromCoordinates b.origin b.voxelSize p =
      ⟨⌊(p.x - i.x * (l.cfg.voxelSize * l.cfg.vps)) * (1 / l.cfg.voxelSize) + kEpsilon⌋,
       ⌊(p.y - i.y * (l.cfg.voxelSize * l.cfg.vps)) * (1 / l.cfg.voxelSize) + kEpsilon⌋,
       ⌊(p.z - i.z * (l.cfg.voxelSize * l.cfg.vps)) * (1 / l.cfg.voxelSize) + kEpsilon⌋⟩ := by
    rw [w2, w3]; rfl
  unfold colorVertex
  rw [hfin, Outcome.bind_ok, hown]
  unfold toIdx32
  rw [if_pos ⟨ox, oy, oz⟩, Outcome.bind_ok, w1]
  unfold colorIdx at hc ⊢
  simp only at hc ⊢
  generalize hO : (⟨⌊(p.x - i.x * (l.cfg.voxelSize * l.cfg.vps)) * (1 / l.cfg.voxelSize) + kEpsilon⌋,
       ⌊(p.y - i.y * (l.cfg.voxelSize * l.cfg.vps)) * (1 / l.cfg.voxelSize) + kEpsilon⌋,
       ⌊(p.z - i.z * (l.cfg.voxelSize * l.cfg.vps)) * (1 / l.cfg.voxelSize) + kEpsilon⌋⟩ : Idx) = O at hc ⊢
  by_cases hval : isValidVoxelIndex l.cfg.vps O = true
  · rw [if_pos hval] at hc ⊢
    rw [if_pos hval]
    obtain ⟨x, e1, e2⟩ := voxelByIndex_content wf hb ((isValidVoxelIndex_iff (by omega) _).1 hval)
    rw [e1, e2]
    rfl
  · rw [if_neg hval] at hc ⊢
    rw [if_neg hval]
    unfold blockAtCoords
    rw [blockIndexOf_ok wf had]
    simp only [Outcome.bind_ok, Outcome.pure_eq]
    cases hnb : block? l (bIdx l p) with
    | none =>
      have := content_none hnb (vIdx_inBlock wf p)
      rw [gIdx_eq] at this
      rw [this] at hc
      simp at hc
    | some nb =>
      obtain ⟨x, e1, e2⟩ := voxelByIndex_content wf hnb (vIdx_inBlock wf p)
      rw [gIdx_eq] at e2
      simp only [voxelByCoords, truncated_ok wf hnb, Outcome.bind_ok, e1, e2]
      rfl

end Vox.MeshInt
