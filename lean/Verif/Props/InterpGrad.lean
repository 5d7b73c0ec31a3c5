/-
Property C118: gradients, in `float` arithmetic.
-/
import Verif.Lemmas.InterpGrad
import Verif.Props.InterpVoxel

namespace Vox.InterpF

open Layer Grid Ieee Spec IndexF

open Props.IndexFloat (tenth tenth_size)

variable {V : Type}

/-! ### Example data -/

/-- A block of 8³ voxels of size `s` that hold `a` times the number of their column, all observed. -/
def rampBlock (s a : ℚ) (i : Idx) : Block ℚ (TsdfVoxel Fl) where
  vps := 8
  voxelSize := s
  origin := IndexF.originPoint i (blockSize s 8)
  voxels := (List.range 512).map fun n => voxelOf (a * (n % 8 : ℕ)) 1 0
  hasData := true
  updated := ⟨false, false, false⟩

/-- A layer with one such block. -/
def ramp (s a : ℚ) (i : ℤ) : VLayer (TsdfVoxel Fl) := ⟨⟨s, 8⟩, [(⟨i, 0, 0⟩, rampBlock s a ⟨i, 0, 0⟩)]⟩

theorem ramp_shaped (s a : ℚ) (i : ℤ) : Shaped (ramp s a i) := by
  refine ⟨by simp [ramp], by simp [ramp], ?_⟩
  intro j b h
  have := Layer.lookup_some_mem h
  simp only [ramp, List.mem_cons, Prod.mk.injEq, List.not_mem_nil, or_false] at this
  rw [this.2]
  exact ⟨by simp [rampBlock, ramp], by simp [rampBlock, ramp]⟩

theorem eighth_size : Size (1 / 8) := ⟨by decide +kernel, by norm_num, by norm_num⟩

/-- The ramp samples the plane of slope `a / s` around the middle of its block. -/
theorem ramp_plane : PlaneAround (ramp (1 / 8) (1 / 2) 0) tsdfAccess.obs tsdfAccess.sdf ⟨4, 0, 0⟩ (-1 / 4) 0 4 (9 / 4) ⟨1 / 2, 17 / 32, 1 / 2⟩ := by
  rintro ⟨x, y, z⟩ ⟨hx, hy, hz⟩
  have one : ∀ (c : ℤ) (q : ℚ), 7 / 2 ≤ q → q ≤ 9 / 2 → |q - ((c : ℚ) + 1 / 2)| ≤ 9 / 4 → c ∈ ([1, 2, 3, 4, 5, 6] : List ℤ) := by
    intro c q h1 h2 h
    rw [abs_le] at h
    have a1 : (0 : ℚ) < c := by linarith [h.1, h.2]
    have a2 : (c : ℚ) < 7 := by linarith [h.1, h.2]
    have b1 : (0 : ℤ) < c := by exact_mod_cast a1
    have b2 : c < (7 : ℤ) := by exact_mod_cast a2
    have : c = 1 ∨ c = 2 ∨ c = 3 ∨ c = 4 ∨ c = 5 ∨ c = 6 := by omega
    simpa using this
  have mx := one x _ (by norm_num [ramp]) (by norm_num [ramp]) hx
  have my := one y _ (by norm_num [ramp]) (by norm_num [ramp]) hy
  have mz := one z _ (by norm_num [ramp]) (by norm_num [ramp]) hz
  have all : ∀ x ∈ ([1, 2, 3, 4, 5, 6] : List ℤ), ∀ y ∈ ([1, 2, 3, 4, 5, 6] : List ℤ), ∀ z ∈ ([1, 2, 3, 4, 5, 6] : List ℤ),
      content (ramp (1 / 8) (1 / 2) 0) ⟨x, y, z⟩ = some (voxelOf (1 / 2 * x) 1 0) := by decide +kernel
  have vals : ∀ x ∈ ([1, 2, 3, 4, 5, 6] : List ℤ), rnd32 (1 / 2 * x) = 1 / 2 * (x : ℚ) ∧ |1 / 2 * (x : ℚ)| ≤ 4 := by decide +kernel
  refine ⟨_, 1 / 2 * x, all x mx y my z mz, show (Fl.fin Eval.kObserved).lt (Fl.fin 1) = true by decide +kernel, rfl, (vals x mx).1, (vals x mx).2, ?_⟩
  simp only [affine, voxelCenter, ramp]
  refine le_of_eq (abs_eq_zero.2 ?_)
  ring

/-! ## C118 -/

/-- **C118.** Where the voxels around a position are observed and sample a plane up to `e`, the interpolated gradient exists and its components
are those of the plane, up to the rounding of the arithmetic. `X` is the distance from the origin in voxels, `D` the largest value. -/
theorem C118_plane {l : VLayer V} (sh : Shaped l) (hs : Size l.cfg.voxelSize) (hS : l.cfg.voxelSize ≤ 2 ^ 80) {k : ℕ} (hk : k ≤ 10)
    (hn : l.cfg.vps = 2 ^ k) (A : Access V) {pos : Pt} {X : ℚ} (hX : WithinVoxels l.cfg.voxelSize X pos) (hX2 : X ≤ 2 ^ 17)
    {rows : ℕ → Order} {last : Order} (hrows : ∀ i < 8, Complete (rows i)) (hlast : Complete last) {a : Pt} {k0 e D : ℚ} (hD : D ≤ 2 ^ 27)
    (hp : PlaneAround l A.obs A.sdf a k0 e D (9 / 4) pos) (out : Vec3 Fl) :
    ∃ v : Pt, getGradient rows last A l true pos out = .ok (true, v.map .fin) ∧
      Vec3.All₂ (fun c t => |c - t| ≤ (D / 2 ^ 13 + (sumAbs a * l.cfg.voxelSize + 2 * e) * ((9 * X + 8 * 2 ^ k + 70) / 2 ^ 24) + 3 / 2 * e +
        1 / 2 ^ 130) / l.cfg.voxelSize + 1 / 2 ^ 140) v a := by
  obtain ⟨-, hN1, hN2⟩ := size_block hs hS hk
  have hX0 : 0 ≤ X := le_trans (abs_nonneg _) hX.1
  have H := plane_axis sh hs hS hk hn A hX hX2 hrows hlast hD hp
  choose t g h1 h2 h3 using H
  obtain ⟨g0, n1, n2⟩ := nearest sh hs hS hk hn hX (hX2.trans (by norm_num))
  obtain ⟨x, d, hx, -⟩ := hp g0 (by
    have tol : lookupTol X (2 ^ k) ≤ 1 := by
      unfold lookupTol
      generalize (2 : ℚ) ^ k = N at *
      clear n1 n2 h3
      norm_num at *
      linarith
    have one : ∀ c q : ℚ, (c - lookupTol X (2 ^ k) ≤ q ∧ q ≤ c + 1 + lookupTol X (2 ^ k)) → |q - (c + 1 / 2)| ≤ 9 / 4 := by
      rintro c q ⟨a1, a2⟩
      rw [abs_le]
      constructor <;> linarith
    exact ⟨one _ _ n1.1, one _ _ n1.2.1, one _ _ n1.2.2⟩)
  rw [hx] at n2
  obtain ⟨bi, b, hbi, hb⟩ := block_of_content n2
  refine ⟨⟨g 0, g 1, g 2⟩, ?_, ?_⟩
  · rw [gradient_ok hbi hb (t := fun i => .fin (t i)) h1, h2, h2, h2]
    rfl
  · have e0 : affine a 0 (Interp.axisOffset 0 1) = a.x := by simp [affine, Interp.axisOffset]
    have e1 : affine a 0 (Interp.axisOffset 1 1) = a.y := by simp [affine, Interp.axisOffset]
    have e2 : affine a 0 (Interp.axisOffset 2 1) = a.z := by simp [affine, Interp.axisOffset]
    have h30 := h3 0
    have h31 := h3 1
    have h32 := h3 2
    rw [e0] at h30
    rw [e1] at h31
    rw [e2] at h32
    exact ⟨h30, h31, h32⟩

example : Shaped (ramp (1 / 8) (1 / 2) 0) ∧ Size (1 / 8) ∧ WithinVoxels (1 / 8) 5 ⟨1 / 2, 17 / 32, 1 / 2⟩ ∧
    PlaneAround (ramp (1 / 8) (1 / 2) 0) tsdfAccess.obs tsdfAccess.sdf ⟨4, 0, 0⟩ (-1 / 4) 0 4 (9 / 4) ⟨1 / 2, 17 / 32, 1 / 2⟩ ∧
    getGradient (fun _ => byHalves) byHalves tsdfAccess (ramp (1 / 8) (1 / 2) 0) true ⟨1 / 2, 17 / 32, 1 / 2⟩ ⟨.nan, .nan, .nan⟩ =
      .ok (true, ⟨.fin 4, .fin 0, .fin 0⟩) :=
  ⟨ramp_shaped _ _ _, eighth_size, ⟨by decide +kernel, by decide +kernel, by decide +kernel⟩, ramp_plane, by decide +kernel⟩

/-- **C118 (nearest).** In nearest-neighbour mode, at a position inside voxel `g` and not too near its borders, the gradient has the central
differences of the six neighbours of `g`, up to rounding, if they are all observed; otherwise the query returns false. Missing for the full claim:
positions near the borders, where it fails, see `C118_border_violated`. -/
theorem C118_nearest_partial {l : VLayer V} (sh : Shaped l) (hs : Size l.cfg.voxelSize) (hS : l.cfg.voxelSize ≤ 2 ^ 80) {k : ℕ} (hk : k ≤ 10)
    (hn : l.cfg.vps = 2 ^ k) (A : Access V) {pos : Pt} {X T : ℚ} (hX : WithinVoxels l.cfg.voxelSize X pos) (hX2 : X ≤ 2 ^ 18) {g : Idx}
    (hT : (5 * X + 6 * 2 ^ k + 26) / 2 ^ 24 + 2 / 1000000 * 2 ^ k < T) (hg : NearVoxel l.cfg.voxelSize (-T) g pos) (rows : ℕ → Order) (last : Order)
    (out : Vec3 Fl) :
    (content l g = none → getGradient rows last A l false pos out = .ok (false, out)) ∧
    ((∃ i, reading l A.obs A.sdf (g - axisStep i) = none ∨ reading l A.obs A.sdf (g + axisStep i) = none) →
      ∃ v, getGradient rows last A l false pos out = .ok (false, v)) ∧
    ∀ (lo hi : Fin 3 → ℚ) (D : ℚ), D ≤ 2 ^ 27 → content l g ≠ none →
      (∀ i, reading l A.obs A.sdf (g - axisStep i) = some (.fin (lo i)) ∧ reading l A.obs A.sdf (g + axisStep i) = some (.fin (hi i)) ∧
        |lo i| ≤ D ∧ |hi i| ≤ D) →
      ∃ v : Pt, getGradient rows last A l false pos out = .ok (true, v.map .fin) ∧
        ∀ i, |component v i - (hi i - lo i) / (2 * l.cfg.voxelSize)| ≤ (D / 2 ^ 21 + 1 / 2 ^ 140) / l.cfg.voxelSize + 1 / 2 ^ 150 := by
  have h0 := hs.pos
  have hX0 : 0 ≤ X := le_trans (abs_nonneg _) hX.1
  have tol : lookupTol (X + 2) (2 ^ k) + (X + 2) / 2 ^ 24 = (5 * X + 6 * 2 ^ k + 26) / 2 ^ 24 + 2 / 1000000 * 2 ^ k := by
    unfold lookupTol
    ring
  have hT' : lookupTol (X + 2) (2 ^ k) + (X + 2) / 2 ^ 24 < T := by rw [tol]; exact hT
  have here : voxelAtCoords l pos = .ok (content l g) := by
    refine inside_lookup sh hs hS hk hn hX (hX2.trans (by norm_num)) (lt_of_le_of_lt ?_ hT') hg
    unfold lookupTol
    have : 0 ≤ (X + 2) / 2 ^ 24 := by positivity
    have : (4 * X + 6 * 2 ^ k + 16) / 2 ^ 24 ≤ (4 * (X + 2) + 6 * 2 ^ k + 16) / 2 ^ 24 := div_le_div_of_nonneg_right (by linarith) (by positivity)
    linarith
  have up : ∀ i acc, gradSample rows last A l false pos i 1 acc =
      .ok ((reading l A.obs A.sdf (g + axisStep i)).map fun d => float32.add acc (float32.mul d (.fin 1))) := by
    intro i acc
    have := inside_sample sh hs hS hk hn hX hX2 hT' hg i (n := 1) (Or.inl rfl)
    have e : (g + ⟨1 * (axisStep i).x, 1 * (axisStep i).y, 1 * (axisStep i).z⟩ : Idx) = g + axisStep i := by
      simp only [one_mul]
    rw [e] at this
    exact sample_reading (n := 1) (by simpa using this) acc
  have down : ∀ i acc, gradSample rows last A l false pos i (-1) acc =
      .ok ((reading l A.obs A.sdf (g - axisStep i)).map fun d => float32.add acc (float32.mul d (.fin (-1)))) := by
    intro i acc
    have := inside_sample sh hs hS hk hn hX hX2 hT' hg i (n := -1) (Or.inr rfl)
    have e : (g + ⟨-1 * (axisStep i).x, -1 * (axisStep i).y, -1 * (axisStep i).z⟩ : Idx) = g - axisStep i := by
      ext <;> simp only [Vec3.add_x, Vec3.add_y, Vec3.add_z, Vec3.sub_x, Vec3.sub_y, Vec3.sub_z] <;> ring
    rw [e] at this
    exact sample_reading (n := -1) (by simpa using this) acc
  refine ⟨?_, ?_, ?_⟩
  · intro hc
    rw [hc] at here
    obtain ⟨bi, h1, h2⟩ := no_block_of_content here
    unfold getGradient
    rw [h1, Outcome.bind_ok]
    simp only [h2]
    rfl
  · intro hf
    have ax : ∀ i, ∃ r, gradAxis rows last A l false pos i = .ok r ∧
        ((reading l A.obs A.sdf (g - axisStep i) = none ∨ reading l A.obs A.sdf (g + axisStep i) = none) → r.1 = false) := by
      intro i
      unfold gradAxis
      rw [down, Outcome.bind_ok]
      cases hd : reading l A.obs A.sdf (g - axisStep i) with
      | none => exact ⟨_, rfl, fun _ => rfl⟩
      | some d =>
        show ∃ r, (gradSample rows last A l false pos i 1 _ >>= _) = Outcome.ok r ∧ _
        rw [up, Outcome.bind_ok]
        cases hu : reading l A.obs A.sdf (g + axisStep i) with
        | none => exact ⟨_, rfl, fun _ => rfl⟩
        | some d' => exact ⟨_, rfl, fun h => by simp at h⟩
    choose r h1 h2 using ax
    obtain ⟨i, hi⟩ := hf
    cases hc : voxelAtCoords l pos with
    | ok o =>
      obtain ⟨bi, hbi, -⟩ := Outcome.bind_eq_ok.1 (show (IndexF.blockIndex l.cfg.voxelSize l.cfg.vps pos >>= _) = .ok o from hc)
      exact gradient_false out hbi h1 ⟨i, h2 i hi⟩
    | fatal => rw [here] at hc; cases hc
    | ub => rw [here] at hc; cases hc
  · intro lo hi D hD hc hv
    have ax : ∀ i, ∃ t q, gradAxis rows last A l false pos i = .ok (true, .fin t) ∧ float32.div (.fin t) (.fin (rnd32 (2 * l.cfg.voxelSize))) = .fin q ∧
        |q - (hi i - lo i) / (2 * l.cfg.voxelSize)| ≤ (D / 2 ^ 21 + 1 / 2 ^ 140) / l.cfg.voxelSize + 1 / 2 ^ 150 := by
      intro i
      obtain ⟨v1, v2, v3, v4⟩ := hv i
      have hD0 : 0 ≤ D := le_trans (abs_nonneg _) v3
      obtain ⟨t, t1, t2⟩ := difference v3 v4 (hD.trans (by norm_num))
      have ht : |t| ≤ 4 * D + 1 / 2 ^ 140 := by
        rw [abs_le] at v3 v4 t2
        rw [abs_le]
        norm_num at *
        constructor <;> linarith [v3.1, v3.2, v4.1, v4.2, t2.1, t2.2]
      obtain ⟨q, q1, q2⟩ := scaled (T := hi i - lo i) hs ht (by norm_num at *; linarith)
      refine ⟨t, q, ?_, q1, q2.trans ?_⟩
      · unfold gradAxis
        rw [down, v1, Outcome.bind_ok]
        show (gradSample rows last A l false pos i 1 (float32.add (.fin 0) (float32.mul (.fin (lo i)) (.fin (-1)))) >>= _) = _
        rw [up, v2, Outcome.bind_ok]
        show Outcome.ok (true, float32.add (float32.add (.fin 0) (float32.mul (.fin (lo i)) (.fin (-1)))) (float32.mul (.fin (hi i)) (.fin 1))) = _
        rw [t1]
      · rw [show ∀ w : ℚ, w / (2 * l.cfg.voxelSize) = w / 2 / l.cfg.voxelSize from fun w => (div_div _ _ _).symm]
        refine add_le_add (div_le_div_of_nonneg_right ?_ h0.le) le_rfl
        generalize |t - (hi i - lo i)| = w at *
        clear ht q2 v3 v4
        norm_num at *
        linarith
    choose t q h1 h2 h3 using ax
    cases hx : content l g with
    | none => exact absurd hx hc
    | some x =>
      rw [hx] at here
      obtain ⟨bi, b, hbi, hb⟩ := block_of_content here
      refine ⟨⟨q 0, q 1, q 2⟩, ?_, ?_⟩
      · rw [gradient_ok hbi hb (t := fun i => .fin (t i)) h1, h2, h2, h2]
        rfl
      · intro i
        have := h3 i
        fin_cases i <;> exact this

example : NearVoxel tenth (-(1 / 10)) ⟨66, 3, 3⟩ ⟨53 / 8, 3 / 8, 3 / 8⟩ ∧ (5 * 70 + 6 * 2 ^ 3 + 26) / 2 ^ 24 + 2 / 1000000 * 2 ^ 3 < (1 / 10 : ℚ) ∧
    WithinVoxels tenth 70 ⟨53 / 8, 3 / 8, 3 / 8⟩ ∧
    (∀ i, reading (ramp tenth 1 8) tsdfAccess.obs tsdfAccess.sdf (⟨66, 3, 3⟩ + axisStep i) = some (.fin (if i = 0 then 3 else 2))) ∧
    (∀ i, reading (ramp tenth 1 8) tsdfAccess.obs tsdfAccess.sdf (⟨66, 3, 3⟩ - axisStep i) = some (.fin (if i = 0 then 1 else 2))) ∧
    getGradient (fun _ => byHalves) byHalves tsdfAccess (ramp tenth 1 8) false ⟨53 / 8, 3 / 8, 3 / 8⟩ ⟨.nan, .nan, .nan⟩ =
      .ok (true, ⟨.fin (rnd32 (1 / tenth)), .fin 0, .fin 0⟩) := by
  unfold NearVoxel WithinVoxels Vec3.All₂ Vec3.All
  decide +kernel

/-- The voxels of the ramp. -/
theorem ramp_content {s a : ℚ} {i : ℤ} {g : Idx} {x : TsdfVoxel Fl} (h : content (ramp s a i) g = some x) :
    x = voxelOf (a * ((g.x : ℚ) - 8 * i)) 1 0 := by
  unfold content at h
  cases hl : (ramp s a i).blocks.lookup (g.map (· / ((ramp s a i).cfg.vps : ℤ))) with
  | none => rw [hl] at h; cases h
  | some b =>
    rw [hl] at h
    have := Layer.lookup_some_mem hl
    simp only [ramp, List.mem_cons, Prod.mk.injEq, List.not_mem_nil, or_false] at this
    obtain ⟨e1, e2⟩ := this
    have ex : g.x / 8 = i := congrArg Vec3.x e1
    subst e2
    simp only [Option.bind_some, rampBlock, ramp, List.getElem?_map] at h
    cases hn : (List.range 512)[((g.x % ((8 : ℕ) : ℤ)) + (8 : ℕ) * ((g.y % ((8 : ℕ) : ℤ)) + (8 : ℕ) * (g.z % ((8 : ℕ) : ℤ)))).toNat]? with
    | none => rw [hn] at h; cases h
    | some n =>
      rw [hn] at h
      obtain ⟨_, hn'⟩ := List.getElem?_eq_some_iff.1 hn
      rw [List.getElem_range] at hn'
      have hm : ((n % 8 : ℕ) : ℤ) = g.x - 8 * i := by
        push_cast at hn' ⊢
        omega
      have hm' : ((n % 8 : ℕ) : ℚ) = (g.x : ℚ) - 8 * i := by
        have : (((n % 8 : ℕ) : ℤ) : ℚ) = ((g.x - 8 * i : ℤ) : ℚ) := by rw [hm]
        rw [← Int.cast_natCast, this]
        push_cast
        ring
      have hx : x = voxelOf (a * (n % 8 : ℕ)) 1 0 := (Option.some.inj h).symm
      rw [hx, hm']

/-- The claim of C118 at any position fails near the borders of the voxels: at x = 7 m in a map with voxels of 0.1 m the position and the position
plus one voxel are looked up in the same voxel, and the gradient of a ramp comes out as half its slope. -/
theorem C118_border_violated : ∃ (l : VLayer (TsdfVoxel Fl)) (pos : Pt) (q : ℚ), Shaped l ∧ Size l.cfg.voxelSize ∧
    (∀ g x, content l g = some x → tsdfAccess.obs x = true ∧ x.distance = .fin ((g.x : ℚ) - 64)) ∧
    (∀ rows last out, getGradient rows last tsdfAccess l false pos out = .ok (true, ⟨.fin q, .fin 0, .fin 0⟩)) ∧
    q < 51 / 100 * (1 / l.cfg.voxelSize) := by
  refine ⟨ramp tenth 1 8, ⟨7, 3 / 8, 3 / 8⟩, rnd32 (1 / 2 / tenth), ramp_shaped _ _ _, tenth_size, ?_, ?_, by decide +kernel⟩
  · intro g x h
    rw [ramp_content h]
    refine ⟨show (Fl.fin Eval.kObserved).lt (Fl.fin 1) = true by decide +kernel, ?_⟩
    show Fl.fin (1 * ((g.x : ℚ) - 8 * (8 : ℤ))) = _
    norm_num
  · intro rows last out
    have ax : ∀ i, gradAxis rows last tsdfAccess (ramp tenth 1 8) false ⟨7, 3 / 8, 3 / 8⟩ i = .ok (true, .fin (if i = 0 then 1 else 0)) := by
      intro i
      show gradAxis (fun _ => byHalves) byHalves tsdfAccess (ramp tenth 1 8) false ⟨7, 3 / 8, 3 / 8⟩ i = _
      revert i
      decide +kernel
    rw [gradient_ok (bi := ⟨8, 0, 0⟩) (b := rampBlock tenth 1 ⟨8, 0, 0⟩) (by decide +kernel) rfl (t := fun i => .fin (if i = 0 then 1 else 0)) ax]
    decide +kernel

/-- A failing query does not leave the gradient alone: here the first component is a difference that has not been divided by the voxel size. -/
theorem C118_output_violated : ∃ (l : VLayer (TsdfVoxel Fl)) (pos : Pt), Shaped l ∧ Size l.cfg.voxelSize ∧ content l ⟨66, 0, 3⟩ ≠ none ∧
    NearVoxel l.cfg.voxelSize (-(1 / 10)) ⟨66, 0, 3⟩ pos ∧
    ∀ rows last out, getGradient rows last tsdfAccess l false pos out = .ok (false, ⟨.fin 2, .fin 0, .fin 0⟩) := by
  refine ⟨ramp tenth 1 8, ⟨53 / 8, 1 / 16, 3 / 8⟩, ramp_shaped _ _ _, tenth_size, by decide +kernel, ?_, ?_⟩
  · unfold NearVoxel Vec3.All₂
    decide +kernel
  · intro rows last out
    have ax : gradAxes rows last tsdfAccess (ramp tenth 1 8) false ⟨53 / 8, 1 / 16, 3 / 8⟩ = .ok (false, ⟨.fin 2, .fin 0, .fin 0⟩) := by
      show gradAxes (fun _ => byHalves) byHalves tsdfAccess (ramp tenth 1 8) false ⟨53 / 8, 1 / 16, 3 / 8⟩ = _
      decide +kernel
    unfold getGradient
    rw [show IndexF.blockIndex (ramp tenth 1 8).cfg.voxelSize (ramp tenth 1 8).cfg.vps ⟨53 / 8, 1 / 16, 3 / 8⟩ = .ok ⟨8, 0, 0⟩ by decide +kernel,
      Outcome.bind_ok]
    show (gradAxes rows last tsdfAccess (ramp tenth 1 8) false ⟨53 / 8, 1 / 16, 3 / 8⟩ >>= _) = _
    rw [ax]
    rfl

end Vox.InterpF
