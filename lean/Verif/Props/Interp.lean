/-
Properties C47, C48, C49: interpolation and gradients. (Exact arithmetic.)
-/
import Verif.Lemmas.Interp
import Mathlib.Tactic.FinCases

namespace Vox.Interp

open Layer Grid Spec

variable {V : Type}

/-! ### Example data: two blocks of side 4 along x, voxel size 1/2, holding an affine field -/

/-- The field used in the examples. -/
def exField (g : Idx) : ℚ := affine ⟨2, -1, 3⟩ (1 / 4) (voxelCenter (1 / 2) g)

/-- The voxel array of block `i`. -/
def exVoxels (i : Idx) : List (TsdfVoxel ℚ) :=
  (List.range 64).map fun (n : ℕ) =>
    ⟨exField ⟨i.x * 4 + (n % 4 : ℕ), i.y * 4 + (n / 4 % 4 : ℕ), i.z * 4 + (n / 16 : ℕ)⟩, 1, ⟨200#8, 100#8, 0#8, 255#8⟩⟩

def exLayer : VLayer (TsdfVoxel ℚ) :=
  { cfg := ⟨1 / 2, 4⟩
    blocks := [(⟨0, 0, 0⟩, { vps := 4, voxelSize := 1 / 2, origin := ⟨0, 0, 0⟩, hasData := true,
                              updated := Flags.setAll, voxels := exVoxels ⟨0, 0, 0⟩ }),
               (⟨1, 0, 0⟩, { vps := 4, voxelSize := 1 / 2, origin := ⟨2, 0, 0⟩, hasData := true,
                              updated := Flags.setAll, voxels := exVoxels ⟨1, 0, 0⟩ })] }

theorem exLayer_wf : WellFormed exLayer where
  size_pos := by decide +kernel
  side_pos := by decide
  side_le := by decide
  block := by
    intro i b h
    unfold exLayer at h
    simp only [List.lookup_cons, List.lookup_nil] at h
    by_cases h0 : i = ⟨0, 0, 0⟩
    · subst h0
      simp only [BEq.rfl, Option.some.injEq] at h
      subst h
      decide +kernel
    · by_cases h1 : i = ⟨1, 0, 0⟩
      · subst h1
        have e : ((⟨1, 0, 0⟩ : Idx) == ⟨0, 0, 0⟩) = false := by decide
        rw [e] at h
        simp only [BEq.rfl, Option.some.injEq] at h
        subst h
        decide +kernel
      · have e0 : (i == (⟨0, 0, 0⟩ : Idx)) = false := by simpa using h0
        have e1 : (i == (⟨1, 0, 0⟩ : Idx)) = false := by simpa using h1
        rw [e0, e1] at h
        cases h

/-- A point whose cell straddles the two blocks. -/
def exPos : Pt := ⟨21 / 10, 1, 9 / 10⟩

theorem exPos_dual : InDualCell (1 / 2) ⟨3, 1, 1⟩ exPos := by
  unfold InDualCell Vec3.All₂ exPos
  norm_num

theorem exPos_addressable : Addressable exLayer exPos := by
  unfold Addressable Vec3.All exPos exLayer
  norm_num

/-! ## C48 the eight surrounding voxels -/

/-- **C48.** Every position has exactly one cell of voxel centres around it. -/
theorem C48_cell_exists_unique {s : ℚ} (hs : 0 < s) (p : Pt) : ∃! g : Idx, InDualCell s g p := by
  have ex : ∀ q : ℚ, (((⌊q / s - 1 / 2⌋ : ℤ) : ℚ) + 1 / 2) * s ≤ q ∧ q < (((⌊q / s - 1 / 2⌋ : ℤ) : ℚ) + 3 / 2) * s := by
    intro q
    have h1 := Int.floor_le (q / s - 1 / 2)
    have h2 := Int.lt_floor_add_one (q / s - 1 / 2)
    constructor
    · rw [← le_div_iff₀ hs]; linarith
    · rw [← div_lt_iff₀ hs]; linarith
  have un : ∀ (q : ℚ) (a b : ℤ), (((a : ℚ) + 1 / 2) * s ≤ q ∧ q < ((a : ℚ) + 3 / 2) * s) →
      (((b : ℚ) + 1 / 2) * s ≤ q ∧ q < ((b : ℚ) + 3 / 2) * s) → a = b := by
    intro q a b ⟨a1, a2⟩ ⟨b1, b2⟩
    have x : ((a : ℚ) + 1 / 2) < (b : ℚ) + 3 / 2 := lt_of_mul_lt_mul_right (lt_of_le_of_lt a1 b2) hs.le
    have y : ((b : ℚ) + 1 / 2) < (a : ℚ) + 3 / 2 := lt_of_mul_lt_mul_right (lt_of_le_of_lt b1 a2) hs.le
    have x' : (a : ℚ) < ((b + 1 : ℤ) : ℚ) := by push_cast; linarith
    have y' : (b : ℚ) < ((a + 1 : ℤ) : ℚ) := by push_cast; linarith
    have x'' : a < b + 1 := by exact_mod_cast x'
    have y'' : b < a + 1 := by exact_mod_cast y'
    omega
  refine ⟨⟨⌊p.x / s - 1 / 2⌋, ⌊p.y / s - 1 / 2⌋, ⌊p.z / s - 1 / 2⌋⟩, ⟨ex p.x, ex p.y, ex p.z⟩, ?_⟩
  intro g hg
  ext
  · exact un _ _ _ hg.1 (ex p.x)
  · exact un _ _ _ hg.2.1 (ex p.y)
  · exact un _ _ _ hg.2.2 (ex p.z)

example : ∃! g : Idx, InDualCell (1 / 2) g exPos := C48_cell_exists_unique (by norm_num) _

/-- **C48.** If the eight voxels around the query position are present and observed — in whichever blocks
they are — then exactly these eight are returned, corner `(cx, cy, cz)` at position `4 cx + 2 cy + cz`. -/
theorem C48_returns_surrounding {l : VLayer V} (wf : WellFormed l) (obs : V → Bool) {pos : Pt}
    (hp : Addressable l pos) {g : Idx} (hg : InDualCell l.cfg.voxelSize g pos)
    (h : ∀ c, IsCorner c → ∃ x, content l (g + c) = some x ∧ obs x = true) :
    ∃ xs q, voxelsAndQ l obs pos = .ok (some (xs, q)) ∧ xs.length = 8 ∧
      ∀ c, IsCorner c → xs[(4 * c.x + 2 * c.y + c.z).toNat]? = content l (g + c) := by
  classical
  have hd : ∃ f : Idx → V, ∀ c, IsCorner c → content l (g + c) = some (f c) ∧ obs (f c) = true := by
    obtain ⟨x0, -, -⟩ := h ⟨0, 0, 0⟩ (by decide)
    refine ⟨fun c => if hc : IsCorner c then (h c hc).choose else x0, fun c hc => ?_⟩
    simp only [dif_pos hc]
    exact (h c hc).choose_spec
  obtain ⟨f, hf⟩ := hd
  refine ⟨corners.map f, qOf (relPos l.cfg.voxelSize g pos), ?_, rfl, ?_⟩
  · rw [voxelsAndQ_spec wf obs hp hg, gather_some corners fun c hc => hf c (mem_corner hc)]
    rfl
  · intro c hc
    rw [(hf c hc).1]
    obtain ⟨x, y, z⟩ := c
    obtain ⟨h1, h2, h3⟩ := hc
    simp only at h1 h2 h3
    rcases h1 with rfl | rfl <;> rcases h2 with rfl | rfl <;> rcases h3 with rfl | rfl <;> rfl

example : ∀ c, IsCorner c → ∃ x, content exLayer ((⟨3, 1, 1⟩ : Idx) + c) = some x ∧ obsTsdf x = true := by
  intro c hc
  have := corner_mem hc
  revert c
  have : ∀ c ∈ corners, ((content exLayer ((⟨3, 1, 1⟩ : Idx) + c)).filter obsTsdf).isSome = true := by decide +kernel
  intro c hc hm
  obtain ⟨x, hx⟩ := Option.isSome_iff_exists.1 (this c hm)
  obtain ⟨h1, h2⟩ := Option.filter_eq_some_iff.1 hx
  exact ⟨x, h1, h2⟩

/-- **C48.** If any of the eight voxels is missing or unobserved, every interpolating query answers false. -/
theorem C48_refuses {l : VLayer V} (wf : WellFormed l) (obs : V → Bool) {pos : Pt} (hp : Addressable l pos)
    {g : Idx} (hg : InDualCell l.cfg.voxelSize g pos) {c : Idx} (hc : IsCorner c)
    (h : ∀ x, content l (g + c) = some x → obs x = false) :
    voxelsAndQ l obs pos = .ok none ∧ ∀ sdf, interpDistance l obs sdf pos = .ok none := by
  have hn : (content l (g + c)).filter obs = none := by
    rw [Option.filter_eq_none_iff]
    intro x hx
    rw [h x hx]
    exact Bool.false_ne_true
  have e : voxelsAndQ l obs pos = .ok none := by
    rw [voxelsAndQ_spec wf obs hp hg, gather_none hn corners (corner_mem hc)]
    rfl
  refine ⟨e, fun sdf => ?_⟩
  unfold interpDistance
  rw [e]
  rfl

/-- At the upper end of the map the corner with x = 8 has no block. -/
example : voxelsAndQ exLayer obsTsdf ⟨39 / 10, 1, 1⟩ = .ok none ∧
    InDualCell (1 / 2) ⟨7, 1, 1⟩ ⟨39 / 10, 1, 1⟩ ∧ content exLayer ((⟨7, 1, 1⟩ : Idx) + ⟨1, 0, 0⟩) = none := by
  refine ⟨by decide +kernel, ?_, by decide +kernel⟩
  unfold InDualCell Vec3.All₂
  norm_num

/-- **C48 (never-observed voxels).** In a TSDF layer a surrounding voxel without weight, and in an ESDF layer
one not marked observed, makes the interpolated distance and voxel queries answer false. -/
theorem C48_fresh_refused :
    (∀ {l : VLayer (TsdfVoxel ℚ)}, WellFormed l → ∀ {pos : Pt}, Addressable l pos → ∀ {g : Idx},
      InDualCell l.cfg.voxelSize g pos → ∀ {c : Idx}, IsCorner c → ∀ {x}, content l (g + c) = some x → x.weight ≤ 0 →
      getInterpVoxel l pos = .ok none ∧ interpDistance l obsTsdf (·.distance) pos = .ok none) ∧
    (∀ {l : VLayer (EsdfVoxel ℚ)}, WellFormed l → ∀ {pos : Pt}, Addressable l pos → ∀ {g : Idx},
      InDualCell l.cfg.voxelSize g pos → ∀ {c : Idx}, IsCorner c → ∀ {x}, content l (g + c) = some x →
      x.observed = false → interpDistance l obsEsdf (·.distance) pos = .ok none) := by
  constructor
  · intro l wf pos hp g hg c hc x hx hw
    have h := C48_refuses wf obsTsdf hp hg hc (by
      intro y hy
      rw [hx] at hy
      cases hy
      unfold obsTsdf
      rw [decide_eq_false_iff_not]
      intro h
      have : (0 : ℚ) < 1 / 1000000 := by norm_num
      linarith)
    refine ⟨?_, h.2 _⟩
    unfold getInterpVoxel
    rw [h.1]
    rfl
  · intro l wf pos hp g hg c hc x hx hw
    exact (C48_refuses wf obsEsdf hp hg hc (by
      intro y hy
      rw [hx] at hy
      cases hy
      exact hw)).2 _

/-- `exLayer` with every weight zero. -/
example : interpDistance { exLayer with blocks := exLayer.blocks.map fun p =>
      (p.1, { p.2 with voxels := p.2.voxels.map fun v => { v with weight := 0 } }) } obsTsdf (·.distance) exPos =
    .ok none := by decide +kernel

/-! ## C47 the interpolated value -/

/-- **C47.** The interpolated distance is the trilinear combination of the eight surrounding values. -/
theorem C47_trilinear {l : VLayer V} (wf : WellFormed l) (obs : V → Bool) (sdf : V → ℚ) {pos : Pt}
    (hp : Addressable l pos) {g : Idx} (hg : InDualCell l.cfg.voxelSize g pos) {f : Idx → V}
    (h : ∀ c, IsCorner c → content l (g + c) = some (f c) ∧ obs (f c) = true) :
    interpDistance l obs sdf pos = .ok (some (trilinear (fun c => sdf (f c))
      ⟨(pos.x - (g.x + 1 / 2) * l.cfg.voxelSize) / l.cfg.voxelSize,
       (pos.y - (g.y + 1 / 2) * l.cfg.voxelSize) / l.cfg.voxelSize,
       (pos.z - (g.z + 1 / 2) * l.cfg.voxelSize) / l.cfg.voxelSize⟩)) := by
  unfold interpDistance
  rw [voxelsAndQ_spec wf obs hp hg, gather_some corners fun c hc => h c (mem_corner hc)]
  simp only [Outcome.bind_ok, Outcome.pure_eq, Option.map_some, List.map_map]
  have := interpMember_trilinear (sdf ∘ f) (relPos l.cfg.voxelSize g pos)
  rw [this]
  unfold relPos voxelCenter
  congr 3
  ext <;> simp <;> ring

example : interpDistance exLayer obsTsdf (·.distance) exPos = .ok (some (affine ⟨2, -1, 3⟩ (1 / 4) exPos)) := by
  decide +kernel

/-- What a successful interpolation means. -/
theorem interp_some_inv {l : VLayer V} (wf : WellFormed l) {obs : V → Bool} {sdf : V → ℚ} {pos : Pt}
    (hp : Addressable l pos) {g : Idx} (hg : InDualCell l.cfg.voxelSize g pos) {d : ℚ}
    (h : interpDistance l obs sdf pos = .ok (some d)) :
    ∃ f : Idx → V, (∀ c, IsCorner c → content l (g + c) = some (f c) ∧ obs (f c) = true) ∧
      d = trilinear (fun c => sdf (f c)) (relPos l.cfg.voxelSize g pos) := by
  classical
  have h' := h
  unfold interpDistance at h
  rw [voxelsAndQ_spec wf obs hp hg] at h
  simp only [Outcome.bind_ok, Outcome.pure_eq, Outcome.ok.injEq, Option.map_map] at h
  obtain ⟨xs, hxs, -⟩ := Option.map_eq_some_iff.1 h
  have inv := gather_inv corners xs hxs
  obtain ⟨x0, -, -⟩ := inv ⟨0, 0, 0⟩ (by decide)
  have hf : ∀ c, IsCorner c → content l (g + c) =
      some ((fun c => if hc : c ∈ corners then (inv c hc).choose else x0) c) ∧
      obs ((fun c => if hc : c ∈ corners then (inv c hc).choose else x0) c) = true := by
    intro c hc
    have hm := corner_mem hc
    simp only [dif_pos hm]
    exact (inv c hm).choose_spec
  refine ⟨_, hf, ?_⟩
  have := C47_trilinear wf obs sdf hp hg hf
  rw [h'] at this
  simp only [Outcome.ok.injEq, Option.some.injEq] at this
  rw [this]
  unfold relPos voxelCenter
  congr 1
  ext <;> simp <;> ring

/-- **C47.** Bounds: an interpolated distance lies between any bounds of the observed corner values. -/
theorem C47_bounded {l : VLayer V} (wf : WellFormed l) (obs : V → Bool) (sdf : V → ℚ) {pos : Pt}
    (hp : Addressable l pos) {g : Idx} (hg : InDualCell l.cfg.voxelSize g pos) {lo hi d : ℚ}
    (hb : ∀ c, IsCorner c → ∀ x, content l (g + c) = some x → lo ≤ sdf x ∧ sdf x ≤ hi)
    (h : interpDistance l obs sdf pos = .ok (some d)) : lo ≤ d ∧ d ≤ hi := by
  obtain ⟨f, hf, rfl⟩ := interp_some_inv wf hp hg h
  have hr := relPos_range wf.size_pos hg
  have hr' : (relPos l.cfg.voxelSize g pos).All fun t => 0 ≤ t ∧ t ≤ 1 :=
    ⟨⟨hr.1.1, hr.1.2.le⟩, ⟨hr.2.1.1, hr.2.1.2.le⟩, ⟨hr.2.2.1, hr.2.2.2.le⟩⟩
  constructor
  · have := trilinear_mono (f := fun _ => lo) (h := fun c => sdf (f c)) hr'
      fun c hc => (hb c hc _ (hf c hc).1).1
    rwa [trilinear_const] at this
  · have := trilinear_mono (f := fun c => sdf (f c)) (h := fun _ => hi) hr'
      fun c hc => (hb c hc _ (hf c hc).1).2
    rwa [trilinear_const] at this

example : ∀ c ∈ corners, ((content exLayer ((⟨3, 1, 1⟩ : Idx) + c)).map fun x =>
    decide (4 ≤ x.distance ∧ x.distance ≤ 8)) = some true := by decide +kernel

/-- **C47.** At the centre of a voxel the interpolated distance is the voxel's own value. -/
theorem C47_exact_at_center {l : VLayer V} (wf : WellFormed l) (obs : V → Bool) (sdf : V → ℚ) {g : Idx}
    (hp : Addressable l (voxelCenter l.cfg.voxelSize g)) {d : ℚ}
    (h : interpDistance l obs sdf (voxelCenter l.cfg.voxelSize g) = .ok (some d)) :
    ∃ x, content l g = some x ∧ obs x = true ∧ d = sdf x := by
  have hs := wf.size_pos
  have hg : InDualCell l.cfg.voxelSize g (voxelCenter l.cfg.voxelSize g) := by
    refine ⟨⟨le_rfl, ?_⟩, ⟨le_rfl, ?_⟩, ⟨le_rfl, ?_⟩⟩ <;>
      exact mul_lt_mul_of_pos_right (by linarith) hs
  obtain ⟨f, hf, rfl⟩ := interp_some_inv wf hp hg h
  have h0 := hf ⟨0, 0, 0⟩ (by decide)
  have hz : g + (⟨0, 0, 0⟩ : Idx) = g := by ext <;> simp
  rw [hz] at h0
  refine ⟨_, h0.1, h0.2, ?_⟩
  have : relPos l.cfg.voxelSize g (voxelCenter l.cfg.voxelSize g) = ⟨0, 0, 0⟩ := by
    unfold relPos
    ext <;> simp
  rw [this]
  simp [trilinear, triWeight, linWeight]

example : interpDistance exLayer obsTsdf (·.distance) (voxelCenter (1 / 2) ⟨3, 2, 1⟩) =
    .ok (some (exField ⟨3, 2, 1⟩)) := by decide +kernel

/-- The observed voxels of the layer sample an affine field at their centres. -/
def AffineField (l : VLayer V) (obs : V → Bool) (sdf : V → ℚ) (a : Pt) (d : ℚ) : Prop :=
  ∀ g x, content l g = some x → obs x = true → sdf x = affine a d (voxelCenter l.cfg.voxelSize g)

/-- **C47.** An affine field is reproduced exactly at every position where interpolation succeeds. -/
theorem C47_exact_on_affine {l : VLayer V} (wf : WellFormed l) (obs : V → Bool) (sdf : V → ℚ) {pos : Pt}
    (hp : Addressable l pos) (a : Pt) (k : ℚ) (hf : AffineField l obs sdf a k) {d : ℚ}
    (h : interpDistance l obs sdf pos = .ok (some d)) : d = affine a k pos := by
  obtain ⟨g, hg, -⟩ := C48_cell_exists_unique wf.size_pos pos
  obtain ⟨f, hf', rfl⟩ := interp_some_inv wf hp hg h
  rw [← trilinear_affine a k wf.size_pos g pos]
  have : ∀ c, IsCorner c → sdf (f c) = affine a k (voxelCenter l.cfg.voxelSize (g + c)) := fun c hc =>
    hf _ _ (hf' c hc).1 (hf' c hc).2
  unfold trilinear
  beta_reduce
  rw [this ⟨0, 0, 0⟩ (by decide), this ⟨0, 0, 1⟩ (by decide), this ⟨0, 1, 0⟩ (by decide),
    this ⟨0, 1, 1⟩ (by decide), this ⟨1, 0, 0⟩ (by decide), this ⟨1, 0, 1⟩ (by decide),
    this ⟨1, 1, 0⟩ (by decide), this ⟨1, 1, 1⟩ (by decide)]

/-- All voxels of the example layer lie on the field. -/
theorem exLayer_affine : AffineField exLayer obsTsdf (·.distance) ⟨2, -1, 3⟩ (1 / 4) := by
  intro g x hx _
  have hmod : ∀ a : ℤ, 0 ≤ a % (4 : ℤ) ∧ a % (4 : ℤ) < 4 := fun a => ⟨Int.emod_nonneg _ (by norm_num), Int.emod_lt_of_pos _ (by norm_num)⟩
  have hdm : ∀ a : ℤ, 4 * (a / 4) + a % 4 = a := fun a => Int.mul_ediv_add_emod a 4
  unfold content at hx
  obtain ⟨b, hb, hv⟩ := Option.bind_eq_some_iff.1 hx
  have hcfg : (exLayer.cfg.vps : ℤ) = 4 := rfl
  rw [hcfg] at hb hv
  have hgen : ∀ i : Idx, (g.map (· / (4 : ℤ))) = i →
      (exVoxels i)[((g.x % (4 : ℤ)) + 4 * ((g.y % (4 : ℤ)) + 4 * (g.z % (4 : ℤ)))).toNat]? = some x →
      x.distance = exField g := by
    intro i hi hvx
    have hX := hmod g.x
    have hY := hmod g.y
    have hZ := hmod g.z
    unfold exVoxels at hvx
    rw [List.getElem?_map] at hvx
    obtain ⟨n, hn, rfl⟩ := Option.map_eq_some_iff.1 hvx
    have hn' := List.getElem?_eq_some_iff.1 hn
    obtain ⟨hlt, hn''⟩ := hn'
    rw [List.getElem_range] at hn''
    subst hn''
    subst hi
    simp only [Vec3.map_x, Vec3.map_y, Vec3.map_z]
    congr 1
    have := hdm g.x
    have := hdm g.y
    have := hdm g.z
    ext <;> simp only <;> omega
  unfold exLayer at hb
  simp only [List.lookup_cons, List.lookup_nil] at hb
  by_cases h0 : (g.map (· / (4 : ℤ))) = ⟨0, 0, 0⟩
  · rw [h0] at hb
    simp only [BEq.rfl, Option.some.injEq] at hb
    subst hb
    exact hgen _ h0 hv
  · have e0 : ((g.map (· / (4 : ℤ))) == (⟨0, 0, 0⟩ : Idx)) = false := by simpa using h0
    rw [e0] at hb
    by_cases h1 : (g.map (· / (4 : ℤ))) = ⟨1, 0, 0⟩
    · rw [h1] at hb
      simp only [BEq.rfl, Option.some.injEq] at hb
      subst hb
      exact hgen _ h1 hv
    · have e1 : ((g.map (· / (4 : ℤ))) == (⟨1, 0, 0⟩ : Idx)) = false := by simpa using h1
      rw [e1] at hb
      cases hb

example : interpDistance exLayer obsTsdf (·.distance) ⟨21 / 10, 12 / 10, 9 / 10⟩ =
    .ok (some (affine ⟨2, -1, 3⟩ (1 / 4) ⟨21 / 10, 12 / 10, 9 / 10⟩)) := by decide +kernel

theorem truncByte_between {q : ℚ} {lo hi : ℕ} (h1 : (lo : ℚ) ≤ q) (h2 : q ≤ hi) (hhi : hi ≤ 255) :
    ∃ b, truncByte q = .ok b ∧ lo ≤ b.toNat ∧ b.toNat ≤ hi := by
  have q0 : 0 ≤ q := le_trans (by positivity) h1
  have f1 : (lo : ℤ) ≤ ⌊q⌋ := Int.le_floor.2 (by exact_mod_cast h1)
  have f2 : ⌊q⌋ ≤ (hi : ℤ) := by
    have : ((⌊q⌋ : ℤ) : ℚ) ≤ ((hi : ℤ) : ℚ) := le_trans (Int.floor_le q) (by exact_mod_cast h2)
    exact_mod_cast this
  have hv : (BitVec.ofInt 8 ⌊q⌋).toNat = ⌊q⌋.toNat := by
    rw [BitVec.toNat_ofInt, Int.emod_eq_of_lt (by omega) (by omega)]
  refine ⟨BitVec.ofInt 8 ⌊q⌋, ?_, ?_, ?_⟩
  · unfold truncByte
    rw [if_pos q0]
    exact if_pos ⟨by omega, by omega⟩
  · rw [hv]; omega
  · rw [hv]; omega

/-- **C47.** Interpolating whole TSDF voxels never converts an out-of-range float to a colour byte, and
every colour channel lies between the corners' values. -/
theorem C47_colour_defined {l : VLayer (TsdfVoxel ℚ)} (wf : WellFormed l) {pos : Pt} (hp : Addressable l pos)
    {g : Idx} (hg : InDualCell l.cfg.voxelSize g pos) :
    ∃ r, getInterpVoxel l pos = .ok r ∧ ∀ v, r = some v →
      (∀ lo hi : ℕ, (∀ c, IsCorner c → ∀ x, content l (g + c) = some x → lo ≤ x.color.r.toNat ∧ x.color.r.toNat ≤ hi) →
        hi ≤ 255 → lo ≤ v.color.r.toNat ∧ v.color.r.toNat ≤ hi) ∧
      (∀ lo hi : ℕ, (∀ c, IsCorner c → ∀ x, content l (g + c) = some x → lo ≤ x.color.g.toNat ∧ x.color.g.toNat ≤ hi) →
        hi ≤ 255 → lo ≤ v.color.g.toNat ∧ v.color.g.toNat ≤ hi) ∧
      (∀ lo hi : ℕ, (∀ c, IsCorner c → ∀ x, content l (g + c) = some x → lo ≤ x.color.b.toNat ∧ x.color.b.toNat ≤ hi) →
        hi ≤ 255 → lo ≤ v.color.b.toNat ∧ v.color.b.toNat ≤ hi) ∧
      (∀ lo hi : ℕ, (∀ c, IsCorner c → ∀ x, content l (g + c) = some x → lo ≤ x.color.a.toNat ∧ x.color.a.toNat ≤ hi) →
        hi ≤ 255 → lo ≤ v.color.a.toNat ∧ v.color.a.toNat ≤ hi) := by
  unfold getInterpVoxel
  rw [voxelsAndQ_spec wf obsTsdf hp hg]
  simp only [Outcome.bind_ok]
  cases hgat : gather l obsTsdf g corners with
  | none => exact ⟨none, rfl, fun v h => by cases h⟩
  | some xs =>
    have hr := relPos_range wf.size_pos hg
    have hr' : (relPos l.cfg.voxelSize g pos).All fun t => 0 ≤ t ∧ t ≤ 1 :=
      ⟨⟨hr.1.1, hr.1.2.le⟩, ⟨hr.2.1.1, hr.2.1.2.le⟩, ⟨hr.2.2.1, hr.2.2.2.le⟩⟩
    classical
    have inv := gather_inv corners xs hgat
    obtain ⟨x0, -, -⟩ := inv ⟨0, 0, 0⟩ (by decide)
    obtain ⟨f, hf⟩ : ∃ f : Idx → TsdfVoxel ℚ, ∀ c, IsCorner c → content l (g + c) = some (f c) ∧ obsTsdf (f c) = true := by
      refine ⟨fun c => if hc : c ∈ corners then (inv c hc).choose else x0, fun c hc => ?_⟩
      have hm := corner_mem hc
      simp only [dif_pos hm]
      exact (inv c hm).choose_spec
    have hxs : xs = corners.map f := by
      have := gather_some (l := l) (obs := obsTsdf) (g := g) corners fun c hc => hf c (mem_corner hc)
      rw [hgat] at this
      exact Option.some.inj this
    have chan : ∀ ch : TsdfVoxel ℚ → BitVec 8, ∃ b,
        truncByte (interpMember (qOf (relPos l.cfg.voxelSize g pos)) (xs.map fun v => ((ch v).toNat : ℚ))) = .ok b ∧
        ∀ lo hi : ℕ, (∀ c, IsCorner c → ∀ x, content l (g + c) = some x → lo ≤ (ch x).toNat ∧ (ch x).toNat ≤ hi) →
          hi ≤ 255 → lo ≤ b.toNat ∧ b.toNat ≤ hi := by
      intro ch
      have e : interpMember (qOf (relPos l.cfg.voxelSize g pos)) (xs.map fun v => ((ch v).toNat : ℚ)) =
          trilinear (fun c => ((ch (f c)).toNat : ℚ)) (relPos l.cfg.voxelSize g pos) := by
        rw [hxs, List.map_map]
        exact interpMember_trilinear (fun c => ((ch (f c)).toNat : ℚ)) _
      rw [e]
      have bd : ∀ lo hi : ℕ, (∀ c, IsCorner c → ∀ x, content l (g + c) = some x → lo ≤ (ch x).toNat ∧ (ch x).toNat ≤ hi) →
          (lo : ℚ) ≤ trilinear (fun c => ((ch (f c)).toNat : ℚ)) (relPos l.cfg.voxelSize g pos) ∧
          trilinear (fun c => ((ch (f c)).toNat : ℚ)) (relPos l.cfg.voxelSize g pos) ≤ hi := by
        intro lo hi hb
        constructor
        · have := trilinear_mono (f := fun _ => (lo : ℚ)) (h := fun c => ((ch (f c)).toNat : ℚ)) hr'
            fun c hc => by exact_mod_cast (hb c hc _ (hf c hc).1).1
          rwa [trilinear_const] at this
        · have := trilinear_mono (f := fun c => ((ch (f c)).toNat : ℚ)) (h := fun _ => (hi : ℚ)) hr'
            fun c hc => by exact_mod_cast (hb c hc _ (hf c hc).1).2
          rwa [trilinear_const] at this
      obtain ⟨a1, a2⟩ := bd 0 255 fun c hc x _ => ⟨Nat.zero_le _, by have := (ch x).isLt; omega⟩
      obtain ⟨b, hb, -⟩ := truncByte_between a1 a2 le_rfl
      refine ⟨b, hb, fun lo hi hlh hhi => ?_⟩
      obtain ⟨c1, c2⟩ := bd lo hi hlh
      obtain ⟨b', hb', hres⟩ := truncByte_between c1 c2 hhi
      rw [hb] at hb'
      cases hb'
      exact hres
    obtain ⟨br, er, hbr⟩ := chan fun v => v.color.r
    obtain ⟨bg, eg, hbg⟩ := chan fun v => v.color.g
    obtain ⟨bb, eb, hbb⟩ := chan fun v => v.color.b
    obtain ⟨ba, ea, hba⟩ := chan fun v => v.color.a
    simp only [Option.map_some, interpVoxel, er, eg, eb, ea, Outcome.bind_ok, Outcome.pure_eq]
    refine ⟨_, rfl, ?_⟩
    intro v hv
    cases hv
    exact ⟨hbr, hbg, hbb, hba⟩

example : getInterpVoxel exLayer exPos =
    .ok (some ⟨affine ⟨2, -1, 3⟩ (1 / 4) exPos, 1, ⟨200#8, 100#8, 0#8, 255#8⟩⟩) := by decide +kernel

/-! ## C49 gradients -/

/-- A position with all its one-voxel shifts addressable. -/
def Interior (l : VLayer V) (pos : Pt) : Prop :=
  pos.All fun c => (-2 ^ 30 + 1) * l.cfg.voxelSize ≤ c ∧ c ≤ (2 ^ 30 - 1) * l.cfg.voxelSize

theorem addressable_of_interior {l : VLayer V} (wf : WellFormed l) {pos : Pt} (h : Interior l pos) :
    Addressable l pos ∧ ∀ i : Fin 3, Addressable l (pos + axisOffset i l.cfg.voxelSize) ∧
      Addressable l (pos + axisOffset i (-l.cfg.voxelSize)) ∧ Addressable l (pos - axisOffset i l.cfg.voxelSize) := by
  have hs := wf.size_pos
  obtain ⟨⟨x1, x2⟩, ⟨y1, y2⟩, ⟨z1, z2⟩⟩ := h
  refine ⟨⟨⟨by nlinarith, by nlinarith⟩, ⟨by nlinarith, by nlinarith⟩, ⟨by nlinarith, by nlinarith⟩⟩, fun i => ?_⟩
  fin_cases i <;>
    (refine ⟨⟨?_, ?_, ?_⟩, ⟨?_, ?_, ?_⟩, ⟨?_, ?_, ?_⟩⟩ <;>
      simp only [axisOffset, Vec3.add_x, Vec3.add_y, Vec3.add_z, Vec3.sub_x, Vec3.sub_y, Vec3.sub_z] <;>
      constructor <;> nlinarith)

theorem interp_defined {l : VLayer V} (wf : WellFormed l) (obs : V → Bool) (sdf : V → ℚ) {pos : Pt}
    (hp : Addressable l pos) : ∃ r, interpDistance l obs sdf pos = .ok r := by
  obtain ⟨g, hg, -⟩ := C48_cell_exists_unique wf.size_pos pos
  unfold interpDistance
  rw [voxelsAndQ_spec wf obs hp hg]
  exact ⟨_, rfl⟩

/-- Component of a gradient. -/
def comp3 (a : Pt) : Fin 3 → ℚ
  | 0 => a.x
  | 1 => a.y
  | 2 => a.z

/-- The sample values of a distance query that is exact in the sense of `ex`. -/
theorem gradient_core {l : VLayer V} (wf : WellFormed l) (obs : V → Bool) (sdf : V → ℚ) (interpolate : Bool)
    {pos : Pt} (hp : Interior l pos) (a : Pt) (k : ℚ)
    (ex : ∀ i : Fin 3, ∃ rp rn δ, getDistance l obs sdf interpolate (pos + axisOffset i l.cfg.voxelSize) = .ok rp ∧
      getDistance l obs sdf interpolate (pos + axisOffset i (-l.cfg.voxelSize)) = .ok rn ∧
      (∀ d, rp = some d → d = affine a k (pos + axisOffset i l.cfg.voxelSize) + δ) ∧
      (∀ d, rn = some d → d = affine a k (pos + axisOffset i (-l.cfg.voxelSize)) + δ)) :
    ∃ r, getGradient l obs sdf interpolate pos = .ok r ∧ (∀ v, r = some v → v = a) := by
  have hs := wf.size_pos
  have hb := blockIndexOf_ok wf (addressable_of_interior wf hp).1
  unfold getGradient blockAtCoords
  rw [hb]
  simp only [Outcome.bind_ok, Outcome.pure_eq]
  cases hblk : block? l (bIdx l pos) with
  | none => exact ⟨none, rfl, fun v h => by cases h⟩
  | some b =>
    obtain ⟨-, h2, -, -⟩ := wf.block _ _ hblk
    have axis : ∀ i : Fin 3, ∃ r, gradientAxis l obs sdf interpolate pos b.voxelSize i = .ok r ∧
        ∀ d, r = some d → d / (2 * b.voxelSize) = comp3 a i := by
      intro i
      obtain ⟨rp, rn, δ, e1, e2, p1, p2⟩ := ex i
      unfold gradientAxis
      rw [h2, e2]
      simp only [Outcome.bind_ok]
      cases rn with
      | none => exact ⟨none, rfl, fun d h => by cases h⟩
      | some dn =>
        simp only [e1, Outcome.bind_ok]
        cases rp with
        | none => exact ⟨none, rfl, fun d h => by cases h⟩
        | some dp =>
          refine ⟨_, rfl, fun d h => ?_⟩
          cases h
          rw [p1 dp rfl, p2 dn rfl]
          have hs' : l.cfg.voxelSize ≠ 0 := hs.ne'
          fin_cases i <;> simp only [axisOffset, affine, comp3, Vec3.add_x, Vec3.add_y, Vec3.add_z] <;>
            field_simp <;> ring
    obtain ⟨r0, e0, q0⟩ := axis 0
    obtain ⟨r1, e1, q1⟩ := axis 1
    obtain ⟨r2, e2, q2⟩ := axis 2
    simp only [e0, e1, e2, Outcome.bind_ok]
    cases r0 with
    | none => exact ⟨none, rfl, fun v h => by cases h⟩
    | some d0 =>
      cases r1 with
      | none => exact ⟨none, rfl, fun v h => by cases h⟩
      | some d1 =>
        cases r2 with
        | none => exact ⟨none, rfl, fun v h => by cases h⟩
        | some d2 =>
          refine ⟨_, rfl, fun v h => ?_⟩
          cases h
          ext
          · exact q0 d0 rfl
          · exact q1 d1 rfl
          · exact q2 d2 rfl

/-- **C49 (interpolated).** On an affine field, wherever the interpolating gradient query succeeds it returns
the field's gradient; it is always well defined. -/
theorem C49_interpolated_exact {l : VLayer V} (wf : WellFormed l) (obs : V → Bool) (sdf : V → ℚ) {pos : Pt}
    (hp : Interior l pos) (a : Pt) (k : ℚ) (hf : AffineField l obs sdf a k) :
    ∃ r, getGradient l obs sdf true pos = .ok r ∧ (∀ v, r = some v → v = a) := by
  apply gradient_core wf obs sdf true hp a k
  intro i
  obtain ⟨-, hadd⟩ := addressable_of_interior wf hp
  obtain ⟨rp, hrp⟩ := interp_defined wf obs sdf (hadd i).1
  obtain ⟨rn, hrn⟩ := interp_defined wf obs sdf (hadd i).2.1
  refine ⟨rp, rn, 0, hrp, hrn, ?_, ?_⟩
  · rintro d rfl
    rw [add_zero]
    exact C47_exact_on_affine wf obs sdf (hadd i).1 a k hf hrp
  · rintro d rfl
    rw [add_zero]
    exact C47_exact_on_affine wf obs sdf (hadd i).2.1 a k hf hrn

example : Interior exLayer exPos := by
  unfold Interior Vec3.All exPos exLayer
  norm_num

example : getGradient exLayer obsTsdf (·.distance) true exPos = .ok (some ⟨2, -1, 3⟩) := by decide +kernel

/-- The position lies in voxel `g`, and not in the sliver of relative width `side * 1e-6` at the voxel's
upper faces in which the code's tolerance may attribute it to the next block. -/
def ClearInVoxel (l : VLayer V) (g : Idx) (p : Pt) : Prop :=
  Vec3.All₂ (fun (c : ℤ) (q : ℚ) => (c : ℚ) * l.cfg.voxelSize ≤ q ∧
    q < ((c : ℚ) + 1 - l.cfg.vps * (1 / 1000000)) * l.cfg.voxelSize) g p

theorem gIdx_eq {l : VLayer V} (wf : WellFormed l) {g : Idx} {p : Pt} (h : ClearInVoxel l g p) : gIdx l p = g := by
  ext
  · exact vAx_eq wf.side_pos wf.side_le wf.size_pos h.1.1 h.1.2
  · exact vAx_eq wf.side_pos wf.side_le wf.size_pos h.2.1.1 h.2.1.2
  · exact vAx_eq wf.side_pos wf.side_le wf.size_pos h.2.2.1 h.2.2.2

/-- Unit index along an axis. -/
def unitIdx (i : Fin 3) (k : ℤ) : Idx :=
  match i with
  | 0 => ⟨k, 0, 0⟩
  | 1 => ⟨0, k, 0⟩
  | 2 => ⟨0, 0, k⟩

theorem clear_shift {l : VLayer V} {g : Idx} {p : Pt} (h : ClearInVoxel l g p) (i : Fin 3) (k : ℤ) :
    ClearInVoxel l (g + unitIdx i k) (p + axisOffset i (k * l.cfg.voxelSize)) := by
  obtain ⟨⟨x1, x2⟩, ⟨y1, y2⟩, ⟨z1, z2⟩⟩ := h
  fin_cases i <;>
    (refine ⟨?_, ?_, ?_⟩ <;>
      simp only [axisOffset, unitIdx, Vec3.add_x, Vec3.add_y, Vec3.add_z] <;> push_cast <;>
      constructor <;> linarith)

theorem nearest_affine {l : VLayer V} (wf : WellFormed l) {obs : V → Bool} {sdf : V → ℚ} {a : Pt} {k : ℚ}
    (hf : AffineField l obs sdf a k) {g : Idx} {p : Pt} (hp : Addressable l p) (hg : ClearInVoxel l g p) :
    ∃ r, nearestDistance l obs sdf p = .ok r ∧
      ∀ d, r = some d → d = affine a k (voxelCenter l.cfg.voxelSize g) := by
  refine ⟨_, nearest_spec wf obs sdf hp, fun d hd => ?_⟩
  rw [gIdx_eq wf hg] at hd
  obtain ⟨x, hx, rfl⟩ := Option.map_eq_some_iff.1 hd
  obtain ⟨h1, h2⟩ := Option.filter_eq_some_iff.1 hx
  exact hf g x h1 h2

theorem affine_center_shift (a : Pt) (k s : ℚ) (g : Idx) (p : Pt) (i : Fin 3) (m : ℤ) :
    affine a k (voxelCenter s (g + unitIdx i m)) =
      affine a k (p + axisOffset i (m * s)) + (affine a k (voxelCenter s g) - affine a k p) := by
  fin_cases i <;> simp only [affine, voxelCenter, unitIdx, axisOffset, Vec3.add_x, Vec3.add_y, Vec3.add_z] <;>
    push_cast <;> ring

/-- **C49 (nearest), away from the slivers at the voxels' upper faces** (see `C49_nearest_border_violated`):
on an affine field the non-interpolating gradient query returns the field's gradient wherever it succeeds. -/
theorem C49_nearest_exact_partial {l : VLayer V} (wf : WellFormed l) (obs : V → Bool) (sdf : V → ℚ) {pos : Pt}
    (hp : Interior l pos) (a : Pt) (k : ℚ) (hf : AffineField l obs sdf a k) {g : Idx}
    (hg : ClearInVoxel l g pos) :
    ∃ r, getGradient l obs sdf false pos = .ok r ∧ (∀ v, r = some v → v = a) := by
  apply gradient_core wf obs sdf false hp a k
  intro i
  obtain ⟨-, hadd⟩ := addressable_of_interior wf hp
  have hpl := clear_shift hg i 1
  have hmi := clear_shift hg i (-1)
  have e1 : ((1 : ℤ) : ℚ) * l.cfg.voxelSize = l.cfg.voxelSize := by push_cast; ring
  have e2 : ((-1 : ℤ) : ℚ) * l.cfg.voxelSize = -l.cfg.voxelSize := by push_cast; ring
  rw [e1] at hpl
  rw [e2] at hmi
  obtain ⟨rp, hrp, vp⟩ := nearest_affine wf hf (hadd i).1 hpl
  obtain ⟨rn, hrn, vn⟩ := nearest_affine wf hf (hadd i).2.1 hmi
  refine ⟨rp, rn, affine a k (voxelCenter l.cfg.voxelSize g) - affine a k pos, hrp, hrn, ?_, ?_⟩
  · intro d hd
    rw [vp d hd, affine_center_shift a k _ g pos i 1, e1]
  · intro d hd
    rw [vn d hd, affine_center_shift a k _ g pos i (-1), e2]

example : ClearInVoxel exLayer ⟨4, 2, 1⟩ exPos := by
  unfold ClearInVoxel Vec3.All₂ exPos exLayer
  norm_num

example : getGradient exLayer obsTsdf (·.distance) false exPos = .ok (some ⟨2, -1, 3⟩) := by decide +kernel

/-- **C49 is violated (nearest) in a sliver below block borders**: a sample position within
`side * 1e-6` of a voxel below a block border is attributed to the next block's first voxel; here the field
has slope 2 along x and the query answers 3. -/
theorem C49_nearest_border_violated :
    getGradient exLayer obsTsdf (·.distance) false ⟨3 / 2 - 1 / 1000000, 1, 9 / 10⟩ = .ok (some ⟨3, -1, 3⟩) ∧
    AffineField exLayer obsTsdf (·.distance) ⟨2, -1, 3⟩ (1 / 4) ∧ WellFormed exLayer :=
  ⟨by decide +kernel, exLayer_affine, exLayer_wf⟩

/-- **C49.** The gradient query refuses when one of its six samples is missing. -/
theorem C49_refuses {l : VLayer V} (wf : WellFormed l) (obs : V → Bool) (sdf : V → ℚ) (interpolate : Bool)
    {pos : Pt} (hp : Interior l pos) (i : Fin 3) (sign : Bool)
    (hmiss : getDistance l obs sdf interpolate
      (pos + axisOffset i (if sign then l.cfg.voxelSize else -l.cfg.voxelSize)) = .ok none) :
    getGradient l obs sdf interpolate pos = .ok none := by
  obtain ⟨h0, hadd⟩ := addressable_of_interior wf hp
  have dd : ∀ p, Addressable l p → ∃ r, getDistance l obs sdf interpolate p = .ok r := by
    intro p hp
    unfold getDistance
    cases interpolate
    · exact ⟨_, nearest_spec wf obs sdf hp⟩
    · exact interp_defined wf obs sdf hp
  have ax : ∀ j : Fin 3, ∃ r, gradientAxis l obs sdf interpolate pos l.cfg.voxelSize j = .ok r ∧ (j = i → r = none) := by
    intro j
    obtain ⟨rp, hrp⟩ := dd _ (hadd j).1
    obtain ⟨rn, hrn⟩ := dd _ (hadd j).2.1
    unfold gradientAxis
    rw [hrn]
    simp only [Outcome.bind_ok]
    cases rn with
    | none => exact ⟨none, rfl, fun _ => rfl⟩
    | some dn =>
      simp only [hrp, Outcome.bind_ok]
      cases rp with
      | none => exact ⟨none, rfl, fun _ => rfl⟩
      | some dp =>
        refine ⟨_, rfl, ?_⟩
        rintro rfl
        cases sign
        · simp only [Bool.false_eq_true, if_false] at hmiss
          rw [hmiss] at hrn
          cases hrn
        · simp only [if_true] at hmiss
          rw [hmiss] at hrp
          cases hrp
  unfold getGradient blockAtCoords
  rw [blockIndexOf_ok wf h0]
  simp only [Outcome.bind_ok, Outcome.pure_eq]
  cases hblk : block? l (bIdx l pos) with
  | none => rfl
  | some b =>
    obtain ⟨-, h2, -, -⟩ := wf.block _ _ hblk
    obtain ⟨r0, e0, q0⟩ := ax 0
    obtain ⟨r1, e1, q1⟩ := ax 1
    obtain ⟨r2, e2, q2⟩ := ax 2
    simp only [h2, e0, e1, e2, Outcome.bind_ok]
    cases r0 with
    | none => rfl
    | some d0 =>
      cases r1 with
      | none => rfl
      | some d1 =>
        cases r2 with
        | none => rfl
        | some d2 =>
          exfalso
          fin_cases i
          · cases q0 rfl
          · cases q1 rfl
          · cases q2 rfl

example : getDistance exLayer obsTsdf (·.distance) true ((⟨35 / 10, 1, 1⟩ : Pt) + axisOffset 0 (1 / 2)) = .ok none ∧
    getGradient exLayer obsTsdf (·.distance) true ⟨35 / 10, 1, 1⟩ = .ok none ∧
    getGradient exLayer obsTsdf (·.distance) false ⟨35 / 10, 1, 1⟩ = .ok none := by decide +kernel

theorem fallback_affine {l : VLayer V} (wf : WellFormed l) {obs : V → Bool} {sdf : V → ℚ} {a : Pt} {k : ℚ}
    (hf : AffineField l obs sdf a k) {g : Idx} {pos : Pt} (hp : Interior l pos) (hg : ClearInVoxel l g pos)
    (i : Fin 3) :
    ∃ r, fallbackAxis l obs sdf pos l.cfg.voxelSize (affine a k (voxelCenter l.cfg.voxelSize g)) i = .ok r ∧
      ∀ d, r = some d → d = comp3 a i := by
  obtain ⟨-, hadd⟩ := addressable_of_interior wf hp
  have hs : l.cfg.voxelSize ≠ 0 := wf.size_pos.ne'
  have hpl := clear_shift hg i 1
  have hmi := clear_shift hg i (-1)
  have e1 : ((1 : ℤ) : ℚ) * l.cfg.voxelSize = l.cfg.voxelSize := by push_cast; ring
  have e2 : pos + axisOffset i (((-1 : ℤ) : ℚ) * l.cfg.voxelSize) = pos - axisOffset i l.cfg.voxelSize := by
    fin_cases i <;> (ext <;> simp [axisOffset] <;> ring)
  rw [e1] at hpl
  rw [e2] at hmi
  obtain ⟨rp, hrp, vp⟩ := nearest_affine wf hf (hadd i).1 hpl
  obtain ⟨rn, hrn, vn⟩ := nearest_affine wf hf (hadd i).2.2 hmi
  unfold fallbackAxis
  rw [hrn, hrp]
  simp only [Outcome.bind_ok]
  cases rn with
  | none =>
    cases rp with
    | none => exact ⟨none, rfl, fun d h => by cases h⟩
    | some dp =>
      refine ⟨_, rfl, fun d h => ?_⟩
      cases h
      rw [vp dp rfl]
      fin_cases i <;> simp only [comp3, affine, voxelCenter, unitIdx, Vec3.add_x, Vec3.add_y, Vec3.add_z] <;>
        push_cast <;> field_simp <;> ring
  | some dn =>
    cases rp with
    | none =>
      refine ⟨_, rfl, fun d h => ?_⟩
      cases h
      rw [vn dn rfl]
      fin_cases i <;> simp only [comp3, affine, voxelCenter, unitIdx, Vec3.add_x, Vec3.add_y, Vec3.add_z] <;>
        push_cast <;> field_simp <;> ring
    | some dp =>
      refine ⟨_, rfl, fun d h => ?_⟩
      cases h
      rw [vp dp rfl, vn dn rfl]
      fin_cases i <;> simp only [comp3, affine, voxelCenter, unitIdx, Vec3.add_x, Vec3.add_y, Vec3.add_z] <;>
        push_cast <;> field_simp <;> ring

theorem fallbackGradient_affine {l : VLayer V} (wf : WellFormed l) {obs : V → Bool} {sdf : V → ℚ} {a : Pt} {k : ℚ}
    (hf : AffineField l obs sdf a k) {g : Idx} {pos : Pt} (hp : Interior l pos) (hg : ClearInVoxel l g pos) :
    ∃ r, fallbackGradient l obs sdf pos l.cfg.voxelSize (affine a k (voxelCenter l.cfg.voxelSize g)) = .ok r ∧
      ∀ v, r = some v → v = a := by
  obtain ⟨r0, e0, q0⟩ := fallback_affine wf hf hp hg 0
  obtain ⟨r1, e1, q1⟩ := fallback_affine wf hf hp hg 1
  obtain ⟨r2, e2, q2⟩ := fallback_affine wf hf hp hg 2
  unfold fallbackGradient
  simp only [e0, e1, e2, Outcome.bind_ok]
  cases r0 with
  | none => exact ⟨none, rfl, fun v h => by cases h⟩
  | some d0 =>
    cases r1 with
    | none => exact ⟨none, rfl, fun v h => by cases h⟩
    | some d1 =>
      cases r2 with
      | none => exact ⟨none, rfl, fun v h => by cases h⟩
      | some d2 =>
        refine ⟨_, rfl, fun v h => ?_⟩
        cases h
        ext
        · exact q0 d0 rfl
        · exact q1 d1 rfl
        · exact q2 d2 rfl

/-- **C49 (adaptive).** The adaptive query, whichever of its methods it falls back to (central, left or
right differences, extrapolation from the nearest voxel), reports the exact distance and the exact gradient
of an affine field, for positions outside the slivers. -/
theorem C49_adaptive_exact_partial {l : VLayer V} (wf : WellFormed l) (obs : V → Bool) (sdf : V → ℚ) {pos : Pt}
    (hp : Interior l pos) (a : Pt) (k : ℚ) (hf : AffineField l obs sdf a k) {g : Idx}
    (hg : ClearInVoxel l g pos) :
    ∃ r, adaptive l obs sdf pos = .ok r ∧ ∀ d v, r = some (d, v) → d = affine a k pos ∧ v = a := by
  obtain ⟨h0, -⟩ := addressable_of_interior wf hp
  obtain ⟨rn, hrn, vn⟩ := nearest_affine wf hf h0 hg
  obtain ⟨ri, hri⟩ := interp_defined wf obs sdf h0
  unfold adaptive
  rw [hrn]
  simp only [Outcome.bind_ok]
  cases rn with
  | none => exact ⟨none, rfl, fun d v h => by cases h⟩
  | some nn =>
    have hnn := vn nn rfl
    unfold blockAtCoords
    simp only [hri, Outcome.bind_ok, blockIndexOf_ok wf h0, Outcome.pure_eq]
    cases hblk : block? l (bIdx l pos) with
    | none => exact ⟨none, rfl, fun d v h => by cases h⟩
    | some b =>
      obtain ⟨-, h2, -, -⟩ := wf.block _ _ hblk
      have hgrad : ∃ r, adaptiveGradient l obs sdf pos b.voxelSize nn ri.isSome = .ok r ∧ ∀ v, r = some v → v = a := by
        obtain ⟨rf, hrf, vf⟩ := fallbackGradient_affine wf hf hp hg
        obtain ⟨rg, hrg, vg⟩ := C49_interpolated_exact wf obs sdf hp a k hf
        unfold adaptiveGradient fullGradient
        rw [h2, hnn]
        cases hi : ri.isSome with
        | false =>
          simp only [Bool.false_eq_true, if_false, Outcome.bind_ok]
          exact ⟨rf, hrf, vf⟩
        | true =>
          simp only [if_true, hrg, Outcome.bind_ok]
          cases rg with
          | none => exact ⟨rf, hrf, vf⟩
          | some w => exact ⟨some w, rfl, vg⟩
      obtain ⟨rg, hrg, vg⟩ := hgrad
      simp only [hrg, Outcome.bind_ok]
      cases rg with
      | none => exact ⟨none, rfl, fun d v h => by cases h⟩
      | some w =>
        have hw := vg w rfl
        subst hw
        have hd : ∃ d, adaptiveDistance b pos nn w ri = .ok d ∧ d = affine w k pos := by
          cases ri with
          | some d => exact ⟨d, rfl, C47_exact_on_affine wf obs sdf h0 w k hf hri⟩
          | none =>
            refine ⟨nn + dot (pos - centerOf b (vIdx l pos)) w, ?_, ?_⟩
            · unfold adaptiveDistance
              simp only [truncated_ok wf hblk, Outcome.bind_ok, Outcome.pure_eq]
            · have eg : globalIndex l.cfg.vps (bIdx l pos) (vIdx l pos) = g := gIdx_eq wf hg
              rw [centerOf_eq wf hblk, eg, hnn]
              simp only [dot, affine, voxelCenter, Vec3.sub_x, Vec3.sub_y, Vec3.sub_z]
              ring
        obtain ⟨d, hd1, hd2⟩ := hd
        simp only [hd1, Outcome.bind_ok]
        refine ⟨_, rfl, fun d' v' h => ?_⟩
        cases h
        exact ⟨hd2, rfl⟩

/-- Near the border of the map, where interpolation fails, the one-sided differences are used. -/
example : adaptive exLayer obsTsdf (·.distance) ⟨1 / 10, 1 / 5, 1 / 10⟩ =
    .ok (some (affine ⟨2, -1, 3⟩ (1 / 4) ⟨1 / 10, 1 / 5, 1 / 10⟩, ⟨2, -1, 3⟩)) := by decide +kernel

end Vox.Interp
