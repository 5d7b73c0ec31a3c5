import Verif.Model.Interp
import Verif.Lemmas.Grid
import Verif.Spec.Interp

namespace Vox.Interp

open Layer Grid Spec

variable {V : Type}

theorem shiftAxis_spec {n : ℕ} {s p : ℚ} (hn : 0 < n) (hn' : n ≤ 1290) (hs : 0 < s) {g : ℤ}
    (h1 : ((g : ℚ) + 1 / 2) * s ≤ p) (h2 : p < ((g : ℚ) + 3 / 2) * s) :
    shiftAxis n (p - (bAx n s p * (s * n) + ((vAx n s p : ℚ) + 1 / 2) * s)) (bAx n s p) (vAx n s p) =
      (g / n, g % n) ∧
    (bAx n s p * n + vAx n s p = g ∨ bAx n s p * n + vAx n s p = g + 1) := by
  obtain ⟨b1, b2⟩ := vAx_bounds (p := p) hn hn' hs
  obtain ⟨v0, v1⟩ := vAx_range (s := s) (p := p) hn
  have l1 : (g : ℚ) + 1 / 2 ≤ p / s := by rw [le_div_iff₀ hs]; exact h1
  have l2 : p / s < (g : ℚ) + 3 / 2 := by rw [div_lt_iff₀ hs]; exact h2
  have hp : p = p / s * s := by field_simp
  set b := bAx n s p
  set v := vAx n s p
  have eoff : p - (b * (s * n) + ((v : ℚ) + 1 / 2) * s) = (p / s - ((b : ℚ) * n + v + 1 / 2)) * s := by
    conv_lhs => rw [hp]
    ring
  unfold shiftAxis
  rw [eoff]
  by_cases hneg : (p / s - ((b : ℚ) * n + v + 1 / 2)) * s < 0
  · rw [if_pos hneg]
    have hlt : p / s < (b : ℚ) * n + v + 1 / 2 := by
      by_contra hc
      push Not at hc
      have := mul_nonneg (sub_nonneg.2 hc) hs.le
      linarith
    have hg : b * n + v = g + 1 := by
      have a1 : ((b * n + v : ℤ) : ℚ) < ((g + 2 : ℤ) : ℚ) := by push_cast; linarith
      have a2 : ((g : ℤ) : ℚ) < ((b * n + v : ℤ) : ℚ) := by push_cast; linarith
      have a1' : b * n + v < g + 2 := by exact_mod_cast a1
      have a2' : g < b * n + v := by exact_mod_cast a2
      omega
    refine ⟨?_, Or.inr hg⟩
    by_cases hv : v - 1 < 0
    · rw [if_pos hv]
      have := div_mod_of (n := n) (b := b - 1) (v := v - 1 + n) (g := g) (by omega) (by omega) (by nlinarith)
      rw [← this.1, ← this.2]
    · rw [if_neg hv]
      have := div_mod_of (n := n) (b := b) (v := v - 1) (g := g) (by omega) (by omega) (by omega)
      rw [← this.1, ← this.2]
  · rw [if_neg hneg]
    have hge : (b : ℚ) * n + v + 1 / 2 ≤ p / s := by
      by_contra hc
      push Not at hc
      exact hneg (mul_neg_of_neg_of_pos (by linarith) hs)
    have hg : b * n + v = g := by
      have a1 : ((b * n + v : ℤ) : ℚ) < ((g + 1 : ℤ) : ℚ) := by push_cast; linarith
      have a2 : ((g - 1 : ℤ) : ℚ) < ((b * n + v : ℤ) : ℚ) := by push_cast; linarith
      have a1' : b * n + v < g + 1 := by exact_mod_cast a1
      have a2' : g - 1 < b * n + v := by exact_mod_cast a2
      omega
    refine ⟨?_, Or.inl hg⟩
    have := div_mod_of (n := n) (b := b) (v := v) (g := g) v0 v1 hg
    rw [← this.1, ← this.2]

/-- The block index and the local index of a global index. -/
def bOf (n : ℕ) (g : Idx) : Idx := g.map (· / (n : ℤ))
def vOf (n : ℕ) (g : Idx) : Idx := g.map (· % (n : ℤ))

theorem vOf_inBlock {n : ℕ} (hn : 0 < n) (g : Idx) : InBlock n (vOf n g) := by
  have hn' : (0 : ℤ) < n := by exact_mod_cast hn
  refine ⟨?_, ?_, ?_⟩ <;>
    exact ⟨Int.emod_nonneg _ hn'.ne', Int.emod_lt_of_pos _ hn'⟩

theorem globalIndex_of {n : ℕ} (g : Idx) : globalIndex n (bOf n g) (vOf n g) = g := by
  unfold globalIndex bOf vOf
  ext <;> simp only [Vec3.map₂_x, Vec3.map₂_y, Vec3.map₂_z, Vec3.map_x, Vec3.map_y, Vec3.map_z]
  · rw [mul_comm]; exact Int.mul_ediv_add_emod _ _
  · rw [mul_comm]; exact Int.mul_ediv_add_emod _ _
  · rw [mul_comm]; exact Int.mul_ediv_add_emod _ _

theorem dual_range {s p : ℚ} {g : ℤ} (hs : 0 < s) (hp : -2 ^ 30 * s ≤ p ∧ p ≤ 2 ^ 30 * s)
    (h1 : ((g : ℚ) + 1 / 2) * s ≤ p) (h2 : p < ((g : ℚ) + 3 / 2) * s) : -2 ^ 30 - 2 ≤ g ∧ g ≤ 2 ^ 30 := by
  have a : ((g : ℚ) + 1 / 2) ≤ 2 ^ 30 := le_of_mul_le_mul_right (h1.trans hp.2) hs
  have b : (-2 ^ 30 : ℚ) < (g : ℚ) + 3 / 2 := lt_of_mul_lt_mul_right (lt_of_le_of_lt hp.1 h2) hs.le
  constructor
  · have : ((-2 ^ 30 - 2 : ℤ) : ℚ) < (g : ℚ) := by push_cast; linarith
    exact le_of_lt (by exact_mod_cast this)
  · have : (g : ℚ) ≤ ((2 ^ 30 : ℤ) : ℚ) := by push_cast; linarith
    exact_mod_cast this

theorem ediv_range {n : ℕ} (hn : 0 < n) {g : ℤ} (h : -2 ^ 30 - 2 ≤ g ∧ g ≤ 2 ^ 30 + 1) :
    -2 ^ 30 - 2 ≤ g / n ∧ g / n ≤ 2 ^ 30 + 1 := by
  have hn' : (0 : ℤ) < n := by exact_mod_cast hn
  constructor
  · rw [Int.le_ediv_iff_mul_le hn']
    nlinarith [h.1]
  · rw [← Int.lt_add_one_iff, Int.ediv_lt_iff_lt_mul hn']
    nlinarith [h.2]

/-- A global index all of whose blocks are addressable. -/
def Range (g : Idx) : Prop := g.All fun c => -2 ^ 30 - 2 ≤ c ∧ c ≤ 2 ^ 30

theorem bOf_i32 {n : ℕ} (hn : 0 < n) {g : Idx} (h : g.All fun c => -2 ^ 30 - 2 ≤ c ∧ c ≤ 2 ^ 30 + 1) :
    (bOf n g).All IsI32 := by
  obtain ⟨hx, hy, hz⟩ := h
  have X := ediv_range hn hx
  have Y := ediv_range hn hy
  have Z := ediv_range hn hz
  refine ⟨?_, ?_, ?_⟩ <;> (unfold IsI32 bOf; simp only [Vec3.map_x, Vec3.map_y, Vec3.map_z]; omega)

theorem setIndexes_spec {l : VLayer V} (wf : WellFormed l) {pos : Pt} (hp : Addressable l pos) {g : Idx}
    (hg : InDualCell l.cfg.voxelSize g pos) :
    setIndexes l pos = .ok ((block? l (bIdx l pos)).map fun _ => (bOf l.cfg.vps g, vOf l.cfg.vps g)) := by
  unfold setIndexes
  rw [blockIndexOf_ok wf hp]
  simp only [Outcome.bind_ok]
  cases hb : block? l (bIdx l pos) with
  | none => rfl
  | some b =>
    obtain ⟨h1, h2, h3, -⟩ := wf.block _ _ hb
    simp only [truncated_ok wf hb, Outcome.bind_ok]
    obtain ⟨⟨gx1, gx2⟩, ⟨gy1, gy2⟩, ⟨gz1, gz2⟩⟩ := hg
    have X := (shiftAxis_spec wf.side_pos wf.side_le wf.size_pos gx1 gx2).1
    have Y := (shiftAxis_spec wf.side_pos wf.side_le wf.size_pos gy1 gy2).1
    have Z := (shiftAxis_spec wf.side_pos wf.side_le wf.size_pos gz1 gz2).1
    have ec : centerOf b (vIdx l pos) = ⟨bAx l.cfg.vps l.cfg.voxelSize pos.x * (l.cfg.voxelSize * l.cfg.vps) +
          ((vAx l.cfg.vps l.cfg.voxelSize pos.x : ℚ) + 1 / 2) * l.cfg.voxelSize,
        bAx l.cfg.vps l.cfg.voxelSize pos.y * (l.cfg.voxelSize * l.cfg.vps) +
          ((vAx l.cfg.vps l.cfg.voxelSize pos.y : ℚ) + 1 / 2) * l.cfg.voxelSize,
        bAx l.cfg.vps l.cfg.voxelSize pos.z * (l.cfg.voxelSize * l.cfg.vps) +
          ((vAx l.cfg.vps l.cfg.voxelSize pos.z : ℚ) + 1 / 2) * l.cfg.voxelSize⟩ := by
      unfold centerOf coordinatesFromVoxelIndex
      rw [h2, h3]
      rfl
    rw [ec, h1]
    simp only [bIdx, vIdx, Vec3.map_x, Vec3.map_y, Vec3.map_z, Vec3.sub_x, Vec3.sub_y, Vec3.sub_z, X, Y, Z]
    have hr := bOf_i32 (n := l.cfg.vps) (g := g) wf.side_pos
      ⟨⟨(dual_range wf.size_pos hp.1 gx1 gx2).1, by linarith [(dual_range wf.size_pos hp.1 gx1 gx2).2]⟩,
       ⟨(dual_range wf.size_pos hp.2.1 gy1 gy2).1, by linarith [(dual_range wf.size_pos hp.2.1 gy1 gy2).2]⟩,
       ⟨(dual_range wf.size_pos hp.2.2 gz1 gz2).1, by linarith [(dual_range wf.size_pos hp.2.2 gz1 gz2).2]⟩⟩
    have : toIdx32 ⟨g.x / (l.cfg.vps : ℤ), g.y / (l.cfg.vps : ℤ), g.z / (l.cfg.vps : ℤ)⟩ = .ok (bOf l.cfg.vps g) := by
      unfold toIdx32
      exact if_pos hr
    rw [this]
    rfl

theorem carryAxis_spec {n : ℕ} (hn : 0 < n) {g c : ℤ} (hc : c = 0 ∨ c = 1) :
    carryAxis n (g / n) (g % n + c) = ((g + c) / n, (g + c) % n) := by
  have hn' : (0 : ℤ) < n := by exact_mod_cast hn
  have e := Int.mul_ediv_add_emod g n
  have m0 := Int.emod_nonneg g hn'.ne'
  have m1 := Int.emod_lt_of_pos g hn'
  unfold carryAxis
  split
  · rename_i h
    have := div_mod_of (n := n) (b := g / n + 1) (v := g % n + c - n) (g := g + c) (by omega) (by omega)
      (by linarith [add_mul (g / n) 1 (n : ℤ), mul_comm (n : ℤ) (g / n)])
    rw [← this.1, ← this.2]
  · rename_i h
    have := div_mod_of (n := n) (b := g / n) (v := g % n + c) (g := g + c) (by omega) (by omega)
      (by linarith [mul_comm (n : ℤ) (g / n)])
    rw [← this.1, ← this.2]

/-- The block and voxel index used for a corner. -/
theorem cornerBlock_spec {l : VLayer V} (wf : WellFormed l) {g c : Idx} (hg : Range g) (hc : IsCorner c)
    {b : Block ℚ V} (hb : block? l (bOf l.cfg.vps g) = some b) :
    cornerBlock l (bOf l.cfg.vps g) (vOf l.cfg.vps g + c) =
      .ok ((block? l (bOf l.cfg.vps (g + c))).map fun b' => (b', vOf l.cfg.vps (g + c))) := by
  obtain ⟨h1, -, -, -⟩ := wf.block _ _ hb
  have hn' : (0 : ℤ) < l.cfg.vps := by exact_mod_cast wf.side_pos
  have X := carryAxis_spec (g := g.x) wf.side_pos hc.1
  have Y := carryAxis_spec (g := g.y) wf.side_pos hc.2.1
  have Z := carryAxis_spec (g := g.z) wf.side_pos hc.2.2
  have hr : (bOf l.cfg.vps (g + c)).All IsI32 := by
    apply bOf_i32 wf.side_pos
    obtain ⟨a1, a2, a3⟩ := hg
    obtain ⟨c1, c2, c3⟩ := hc
    refine ⟨?_, ?_, ?_⟩ <;> simp only [Vec3.add_x, Vec3.add_y, Vec3.add_z] <;> omega
  unfold cornerBlock
  simp only [hb, h1]
  by_cases hbig : (vOf l.cfg.vps g + c).x ≥ (l.cfg.vps : ℤ) ∨ (vOf l.cfg.vps g + c).y ≥ (l.cfg.vps : ℤ) ∨
      (vOf l.cfg.vps g + c).z ≥ (l.cfg.vps : ℤ)
  · rw [if_pos hbig]
    simp only [bOf, vOf, Vec3.map_x, Vec3.map_y, Vec3.map_z, Vec3.add_x, Vec3.add_y, Vec3.add_z, X, Y, Z]
    have : toIdx32 ⟨(g.x + c.x) / (l.cfg.vps : ℤ), (g.y + c.y) / (l.cfg.vps : ℤ), (g.z + c.z) / (l.cfg.vps : ℤ)⟩ =
        .ok (bOf l.cfg.vps (g + c)) := by
      unfold toIdx32
      exact if_pos hr
    rw [this]
    rfl
  · rw [if_neg hbig]
    push Not at hbig
    simp only [vOf, Vec3.map_x, Vec3.map_y, Vec3.map_z, Vec3.add_x, Vec3.add_y, Vec3.add_z] at hbig
    obtain ⟨k1, k2, k3⟩ := hbig
    have k1' : ¬ (g.x % (l.cfg.vps : ℤ) + c.x ≥ l.cfg.vps) := by omega
    have k2' : ¬ (g.y % (l.cfg.vps : ℤ) + c.y ≥ l.cfg.vps) := by omega
    have k3' : ¬ (g.z % (l.cfg.vps : ℤ) + c.z ≥ l.cfg.vps) := by omega
    unfold carryAxis at X Y Z
    rw [if_neg k1', Prod.mk.injEq] at X
    rw [if_neg k2', Prod.mk.injEq] at Y
    rw [if_neg k3', Prod.mk.injEq] at Z
    have e1 : bOf l.cfg.vps (g + c) = bOf l.cfg.vps g := by
      ext
      · exact X.1.symm
      · exact Y.1.symm
      · exact Z.1.symm
    have e2 : vOf l.cfg.vps (g + c) = vOf l.cfg.vps g + c := by
      ext
      · exact X.2.symm
      · exact Y.2.symm
      · exact Z.2.symm
    rw [e1, e2, hb]
    rfl

theorem cornerVoxel_spec {l : VLayer V} (wf : WellFormed l) (obs : V → Bool) {g c : Idx} (hg : Range g)
    (hc : IsCorner c) {b : Block ℚ V} (hb : block? l (bOf l.cfg.vps g) = some b) :
    cornerVoxel l obs (bOf l.cfg.vps g) (vOf l.cfg.vps g) c = .ok ((content l (g + c)).filter obs) := by
  unfold cornerVoxel
  rw [cornerBlock_spec wf hg hc hb]
  simp only [Outcome.bind_ok]
  have hin := vOf_inBlock (n := l.cfg.vps) wf.side_pos (g + c)
  cases hb' : block? l (bOf l.cfg.vps (g + c)) with
  | none =>
    have := content_none hb' hin
    rw [globalIndex_of] at this
    rw [this]
    rfl
  | some b' =>
    obtain ⟨x, hx, hcont⟩ := voxelByIndex_content wf hb' hin
    rw [globalIndex_of] at hcont
    rw [hcont]
    simp only [Option.map_some, hx, Outcome.bind_ok, Outcome.pure_eq, Option.filter_some]

/-- The corner values, as long as all are present and observed. -/
def gather (l : VLayer V) (obs : V → Bool) (g : Idx) : List Idx → Option (List V)
  | [] => some []
  | c :: cs => ((content l (g + c)).filter obs).bind fun x => (gather l obs g cs).map (x :: ·)

theorem cornerVoxels_spec {l : VLayer V} (wf : WellFormed l) (obs : V → Bool) {g : Idx} (hg : Range g)
    {b : Block ℚ V} (hb : block? l (bOf l.cfg.vps g) = some b) :
    ∀ cs : List Idx, (∀ c ∈ cs, IsCorner c) →
      cornerVoxels l obs (bOf l.cfg.vps g) (vOf l.cfg.vps g) cs = .ok (gather l obs g cs)
  | [], _ => rfl
  | c :: cs, h => by
    unfold cornerVoxels gather
    rw [cornerVoxel_spec wf obs hg (h c (by simp)) hb]
    simp only [Outcome.bind_ok]
    cases (content l (g + c)).filter obs with
    | none => rfl
    | some x =>
      simp only [cornerVoxels_spec wf obs hg hb cs fun c' hc' => h c' (by simp [hc']), Outcome.bind_ok]
      rfl

theorem gather_none {l : VLayer V} {obs : V → Bool} {g c : Idx} (h : (content l (g + c)).filter obs = none) :
    ∀ cs : List Idx, c ∈ cs → gather l obs g cs = none
  | c' :: cs, hm => by
    unfold gather
    rcases List.mem_cons.1 hm with rfl | hm'
    · rw [h]; rfl
    · rw [gather_none h cs hm']
      cases (content l (g + c')).filter obs <;> rfl

theorem corner_mem {c : Idx} (h : IsCorner c) : c ∈ corners := by
  obtain ⟨x, y, z⟩ := c
  obtain ⟨h1, h2, h3⟩ := h
  simp only at h1 h2 h3
  rcases h1 with rfl | rfl <;> rcases h2 with rfl | rfl <;> rcases h3 with rfl | rfl <;> decide

theorem mem_corner {c : Idx} (h : c ∈ corners) : IsCorner c := by
  revert c
  decide

/-- The weight vector for the relative position `o`. -/
def qOf (o : Pt) : List ℚ := [1, o.x, o.y, o.z, o.x * o.y, o.y * o.z, o.z * o.x, o.x * o.y * o.z]

/-- Relative position in the dual cell. -/
def relPos (s : ℚ) (g : Idx) (p : Pt) : Pt := (p - voxelCenter s g).map (· * (1 / s))

theorem relPos_range {s : ℚ} (hs : 0 < s) {g : Idx} {p : Pt} (h : InDualCell s g p) :
    (relPos s g p).All fun t => 0 ≤ t ∧ t < 1 := by
  have key : ∀ (c : ℤ) (q : ℚ), (((c : ℚ) + 1 / 2) * s ≤ q ∧ q < ((c : ℚ) + 3 / 2) * s) →
      0 ≤ (q - (c + 1 / 2) * s) * (1 / s) ∧ (q - (c + 1 / 2) * s) * (1 / s) < 1 := by
    intro c q ⟨h1, h2⟩
    rw [mul_one_div]
    constructor
    · exact div_nonneg (by linarith) hs.le
    · rw [div_lt_one hs]; linarith
  exact ⟨key _ _ h.1, key _ _ h.2.1, key _ _ h.2.2⟩

theorem dual_Range {l : VLayer V} (wf : WellFormed l) {pos : Pt} (hp : Addressable l pos) {g : Idx}
    (hg : InDualCell l.cfg.voxelSize g pos) : Range g :=
  ⟨dual_range wf.size_pos hp.1 hg.1.1 hg.1.2, dual_range wf.size_pos hp.2.1 hg.2.1.1 hg.2.1.2,
    dual_range wf.size_pos hp.2.2 hg.2.2.1 hg.2.2.2⟩

/-- The whole query. -/
theorem voxelsAndQ_spec {l : VLayer V} (wf : WellFormed l) (obs : V → Bool) {pos : Pt} (hp : Addressable l pos)
    {g : Idx} (hg : InDualCell l.cfg.voxelSize g pos) :
    voxelsAndQ l obs pos = .ok ((gather l obs g corners).map fun xs => (xs, qOf (relPos l.cfg.voxelSize g pos))) := by
  have hr := dual_Range wf hp hg
  unfold voxelsAndQ
  rw [setIndexes_spec wf hp hg]
  simp only [Outcome.bind_ok]
  cases hb0 : block? l (bIdx l pos) with
  | none =>
    -- the block of the position is the block of one of the corners
    obtain ⟨⟨gx1, gx2⟩, ⟨gy1, gy2⟩, ⟨gz1, gz2⟩⟩ := hg
    have X := (shiftAxis_spec wf.side_pos wf.side_le wf.size_pos gx1 gx2).2
    have Y := (shiftAxis_spec wf.side_pos wf.side_le wf.size_pos gy1 gy2).2
    have Z := (shiftAxis_spec wf.side_pos wf.side_le wf.size_pos gz1 gz2).2
    have hcn := content_none hb0 (vIdx_inBlock wf pos)
    have hc : IsCorner (globalIndex l.cfg.vps (bIdx l pos) (vIdx l pos) - g) := by
      refine ⟨?_, ?_, ?_⟩ <;>
        simp only [globalIndex, bIdx, vIdx, Vec3.sub_x, Vec3.sub_y, Vec3.sub_z, Vec3.map₂_x, Vec3.map₂_y,
          Vec3.map₂_z, Vec3.map_x, Vec3.map_y, Vec3.map_z] <;> omega
    have hsum : g + (globalIndex l.cfg.vps (bIdx l pos) (vIdx l pos) - g) =
        globalIndex l.cfg.vps (bIdx l pos) (vIdx l pos) := by
      ext <;> simp
    have : gather l obs g corners = none :=
      gather_none (c := globalIndex l.cfg.vps (bIdx l pos) (vIdx l pos) - g) (by rw [hsum, hcn]; rfl) _
        (corner_mem hc)
    rw [this]
    rfl
  | some b0 =>
    simp only [Option.map_some]
    have hz : g + (⟨0, 0, 0⟩ : Idx) = g := by ext <;> simp
    have hz' : vOf l.cfg.vps g + (⟨0, 0, 0⟩ : Idx) = vOf l.cfg.vps g := by ext <;> simp
    unfold cornerQ
    cases hb : block? l (bOf l.cfg.vps g) with
    | none =>
      have hcn := content_none hb (vOf_inBlock wf.side_pos g)
      rw [globalIndex_of] at hcn
      have : gather l obs g corners = none :=
        gather_none (c := ⟨0, 0, 0⟩) (by rw [hz, hcn]; rfl) _ (by decide)
      rw [this]
      unfold cornerBlock
      simp only [hb]
      rfl
    | some b =>
      have hcb := cornerBlock_spec wf hr (c := ⟨0, 0, 0⟩) (by decide) hb
      rw [hz, hz', hb] at hcb
      rw [hcb]
      obtain ⟨-, h2, -, -⟩ := wf.block _ _ hb
      have hrel := relPos_range wf.size_pos hg
      have hq : qVector (centerOf b (vOf l.cfg.vps g)) pos (1 / b.voxelSize) =
          .ok (qOf (relPos l.cfg.voxelSize g pos)) := by
        rw [centerOf_eq wf hb, globalIndex_of, h2]
        unfold qVector
        have : decide (0 ≤ ((pos - voxelCenter l.cfg.voxelSize g).map (· * (1 / l.cfg.voxelSize))).x ∧
            0 ≤ ((pos - voxelCenter l.cfg.voxelSize g).map (· * (1 / l.cfg.voxelSize))).y ∧
            0 ≤ ((pos - voxelCenter l.cfg.voxelSize g).map (· * (1 / l.cfg.voxelSize))).z) = true :=
          decide_eq_true ⟨hrel.1.1, hrel.2.1.1, hrel.2.2.1⟩
        simp only [this, Outcome.check]
        rfl
      simp only [Outcome.bind_ok, Option.map_some, hq, Outcome.pure_eq]
      rw [cornerVoxels_spec wf obs hr hb corners fun c hc => mem_corner hc]
      rfl

/-- Successful gathering. -/
theorem gather_some {l : VLayer V} {obs : V → Bool} {g : Idx} {f : Idx → V} :
    ∀ cs : List Idx, (∀ c ∈ cs, content l (g + c) = some (f c) ∧ obs (f c) = true) →
      gather l obs g cs = some (cs.map f)
  | [], _ => rfl
  | c :: cs, h => by
    unfold gather
    rw [(h c (by simp)).1, Option.filter_some, if_pos (h c (by simp)).2,
      gather_some cs fun c' hc' => h c' (by simp [hc'])]
    rfl

theorem gather_inv {l : VLayer V} {obs : V → Bool} {g : Idx} :
    ∀ (cs : List Idx) (xs : List V), gather l obs g cs = some xs →
      ∀ c ∈ cs, ∃ x, content l (g + c) = some x ∧ obs x = true
  | c :: cs, xs, h, c', hm => by
    unfold gather at h
    obtain ⟨x, hx, hr⟩ := Option.bind_eq_some_iff.1 h
    obtain ⟨ys, hys, -⟩ := Option.map_eq_some_iff.1 hr
    rcases List.mem_cons.1 hm with rfl | hm'
    · obtain ⟨hx1, hx2⟩ := Option.filter_eq_some_iff.1 hx
      exact ⟨x, hx1, hx2⟩
    · exact gather_inv cs ys hys c' hm'

/-- The matrix form is the trilinear sum. -/
theorem interpMember_trilinear (f : Idx → ℚ) (o : Pt) :
    interpMember (qOf o) (corners.map f) = trilinear f o := by
  simp only [interpMember, qOf, corners, interpTable, rowDot, List.map_cons, List.map_nil, List.zipWith_cons_cons,
    List.zipWith_nil_right, List.sum_cons, List.sum_nil, trilinear, triWeight, linWeight, if_true,
    one_ne_zero, if_false]
  ring

theorem linWeight_nonneg {t : ℚ} (h : 0 ≤ t ∧ t ≤ 1) (k : ℤ) : 0 ≤ linWeight k t := by
  unfold linWeight; split <;> linarith [h.1, h.2]

theorem triWeight_nonneg {o : Pt} (h : o.All fun t => 0 ≤ t ∧ t ≤ 1) (c : Idx) : 0 ≤ triWeight c o :=
  mul_nonneg (mul_nonneg (linWeight_nonneg h.1 _) (linWeight_nonneg h.2.1 _)) (linWeight_nonneg h.2.2 _)

theorem trilinear_const (m : ℚ) (o : Pt) : trilinear (fun _ => m) o = m := by
  simp only [trilinear, triWeight, linWeight, if_true, one_ne_zero, if_false]
  ring

theorem trilinear_mono {f h : Idx → ℚ} {o : Pt} (ho : o.All fun t => 0 ≤ t ∧ t ≤ 1)
    (hfh : ∀ c, IsCorner c → f c ≤ h c) : trilinear f o ≤ trilinear h o := by
  unfold trilinear
  have k : ∀ c, IsCorner c → triWeight c o * f c ≤ triWeight c o * h c := fun c hc =>
    mul_le_mul_of_nonneg_left (hfh c hc) (triWeight_nonneg ho c)
  have := k ⟨0, 0, 0⟩ (by decide)
  have := k ⟨0, 0, 1⟩ (by decide)
  have := k ⟨0, 1, 0⟩ (by decide)
  have := k ⟨0, 1, 1⟩ (by decide)
  have := k ⟨1, 0, 0⟩ (by decide)
  have := k ⟨1, 0, 1⟩ (by decide)
  have := k ⟨1, 1, 0⟩ (by decide)
  have := k ⟨1, 1, 1⟩ (by decide)
  linarith

theorem trilinear_affine (a : Pt) (d : ℚ) {s : ℚ} (hs : 0 < s) (g : Idx) (p : Pt) :
    trilinear (fun c => affine a d (voxelCenter s (g + c))) (relPos s g p) = affine a d p := by
  simp only [trilinear, triWeight, linWeight, if_true, one_ne_zero, if_false, affine, voxelCenter, relPos,
    Vec3.map_x, Vec3.map_y, Vec3.map_z, Vec3.sub_x, Vec3.sub_y, Vec3.sub_z, Vec3.add_x, Vec3.add_y, Vec3.add_z]
  push_cast
  field_simp
  ring

theorem nearest_spec {l : VLayer V} (wf : WellFormed l) (obs : V → Bool) (sdf : V → ℚ) {pos : Pt}
    (hp : Addressable l pos) :
    nearestDistance l obs sdf pos = .ok (((content l (gIdx l pos)).filter obs).map sdf) := by
  unfold nearestDistance blockAtCoords
  rw [blockIndexOf_ok wf hp]
  simp only [Outcome.bind_ok, Outcome.pure_eq]
  have eg : gIdx l pos = globalIndex l.cfg.vps (bIdx l pos) (vIdx l pos) := rfl
  cases hb : block? l (bIdx l pos) with
  | none => rw [eg, content_none hb (vIdx_inBlock wf pos)]; rfl
  | some b =>
    obtain ⟨x, hx, hc⟩ := voxelByIndex_content wf hb (vIdx_inBlock wf pos)
    unfold voxelByCoords
    simp only [truncated_ok wf hb, Outcome.bind_ok, hx]
    rw [eg, hc, Option.filter_some]
    split <;> rfl

end Vox.Interp
