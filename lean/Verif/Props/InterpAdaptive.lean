/-
Property C119: the adaptive query, in `float` arithmetic.
-/
import Verif.Lemmas.InterpAdaptive
import Verif.Props.InterpGrad

namespace Vox.InterpF

open Layer Grid Ieee Spec IndexF

open Props.IndexFloat (tenth tenth_size)

variable {V : Type}

theorem tol_eq (X N : ℚ) : lookupTol (X + 2) N + (X + 2) / 2 ^ 24 = (5 * X + 6 * N + 26) / 2 ^ 24 + 2 / 1000000 * N := by
  unfold lookupTol
  ring

theorem tol_pos {X N : ℚ} (hX : 0 ≤ X) (hN : 1 ≤ N) : lookupTol X N ≤ lookupTol (X + 2) N + (X + 2) / 2 ^ 24 ∧ 0 < lookupTol X N := by
  unfold lookupTol
  have : 0 ≤ (X + 2) / 2 ^ 24 := by positivity
  have : (4 * X + 6 * N + 16) / 2 ^ 24 ≤ (4 * (X + 2) + 6 * N + 16) / 2 ^ 24 := div_le_div_of_nonneg_right (by linarith) (by positivity)
  have : 0 < (4 * X + 6 * N + 16) / 2 ^ 24 := div_pos (by linarith) (by positivity)
  constructor <;> linarith

theorem reading_some {l : VLayer V} {obs : V → Bool} {sdf : V → Fl} {g : Idx} {x : V} (h : content l g = some x) (ho : obs x = true) :
    reading l obs sdf g = some (sdf x) := by
  unfold reading
  rw [h]
  simp [ho]

theorem reading_plane {l : VLayer V} {obs : V → Bool} {sdf : V → Fl} {a : Pt} {k0 e D r : ℚ} {p : Pt} (hp : PlaneData l obs sdf a k0 e D r p) {g : Idx}
    (hg : Around l.cfg.voxelSize r p g) : ∀ y, reading l obs sdf g = some y →
      ∃ x, y = .fin x ∧ |x| ≤ D ∧ |x - affine a k0 (voxelCenter l.cfg.voxelSize g)| ≤ e := by
  intro y hy
  unfold reading at hy
  cases hc : content l g with
  | none => rw [hc] at hy; cases hy
  | some x =>
    rw [hc] at hy
    cases ho : obs x with
    | false => simp [ho] at hy
    | true =>
      obtain ⟨d, d1, -, d3, d4⟩ := hp g hg x hc ho
      have : sdf x = y := by simpa [ho] using hy
      exact ⟨d, by rw [← this, d1], d3, d4⟩

theorem affine_step (a : Pt) (k0 s : ℚ) (g : Idx) (i : Fin 3) :
    affine a k0 (voxelCenter s (g - axisStep i)) = affine a k0 (voxelCenter s g) - component a i * s ∧
      affine a k0 (voxelCenter s (g + axisStep i)) = affine a k0 (voxelCenter s g) + component a i * s := by
  fin_cases i <;> simp [affine, voxelCenter, axisStep, component] <;> constructor <;> ring

/-- The voxels next to the one that contains a position. -/
theorem around_steps {s T : ℚ} (hT : 0 < T) {g : Idx} {p : Pt} (h : NearVoxel s (-T) g p) :
    Around s (1 / 2) p g ∧ ∀ i, Around s (9 / 4) p (g - axisStep i) ∧ Around s (9 / 4) p (g + axisStep i) := by
  have one : ∀ (c : ℤ) (q : ℚ), ((c : ℚ) - -T ≤ q ∧ q ≤ c + 1 + -T) → ∀ n : ℤ, |(n : ℚ)| ≤ 1 →
      |q - (((c + n : ℤ) : ℚ) + 1 / 2)| ≤ 9 / 4 := by
    rintro c q ⟨h1, h2⟩ n hn
    rw [abs_le] at *
    push_cast
    constructor <;> linarith [hn.1, hn.2]
  have mid : ∀ (c : ℤ) (q : ℚ), ((c : ℚ) - -T ≤ q ∧ q ≤ c + 1 + -T) → |q - ((c : ℚ) + 1 / 2)| ≤ 1 / 2 := by
    rintro c q ⟨h1, h2⟩
    rw [abs_le]
    constructor <;> linarith
  have st : ∀ i, |((axisStep i).x : ℚ)| ≤ 1 ∧ |((axisStep i).y : ℚ)| ≤ 1 ∧ |((axisStep i).z : ℚ)| ≤ 1 := by decide +kernel
  have neg : ∀ (c : ℤ) (q : ℚ), ((c : ℚ) - -T ≤ q ∧ q ≤ c + 1 + -T) → ∀ n : ℤ, |(n : ℚ)| ≤ 1 →
      |q - (((c - n : ℤ) : ℚ) + 1 / 2)| ≤ 9 / 4 := fun c q h n hn => one c q h (-n) (by push_cast; rw [abs_neg]; exact hn)
  refine ⟨⟨mid _ _ h.1, mid _ _ h.2.1, mid _ _ h.2.2⟩, fun i => ⟨⟨?_, ?_, ?_⟩, ?_, ?_, ?_⟩⟩
  · exact neg _ _ h.1 _ (st i).1
  · exact neg _ _ h.2.1 _ (st i).2.1
  · exact neg _ _ h.2.2 _ (st i).2.2
  · exact one _ _ h.1 _ (st i).1
  · exact one _ _ h.2.1 _ (st i).2.1
  · exact one _ _ h.2.2 _ (st i).2.2

/-! ## C119 -/

/-- **C119 (absence).** At a position inside voxel `g` and not too near its borders, the adaptive query returns false and changes neither output
argument if `g` is not observed, or if along some axis both neighbours of `g` are not. Missing for the full claim: positions near the borders. -/
theorem C119_absent_partial {l : VLayer V} (sh : Shaped l) (hs : Size l.cfg.voxelSize) (hS : l.cfg.voxelSize ≤ 2 ^ 80) {k : ℕ} (hk : k ≤ 10)
    (hn : l.cfg.vps = 2 ^ k) (A : Access V) {pos : Pt} {X T : ℚ} (hX : WithinVoxels l.cfg.voxelSize X pos) (hX2 : X ≤ 2 ^ 17) {g : Idx}
    (hT : (5 * X + 6 * 2 ^ k + 26) / 2 ^ 24 + 2 / 1000000 * 2 ^ k < T) (hg : NearVoxel l.cfg.voxelSize (-T) g pos) (rows : ℕ → Order) (last : Order)
    (dist : Fl) (grad : Vec3 Fl)
    (h : reading l A.obs A.sdf g = none ∨
      ∃ i, reading l A.obs A.sdf (g - axisStep i) = none ∧ reading l A.obs A.sdf (g + axisStep i) = none) :
    getAdaptive rows last A l pos dist grad = .ok (false, dist, grad) := by
  obtain ⟨-, hN1, hN2⟩ := size_block hs hS hk
  have hX0 : 0 ≤ X := le_trans (abs_nonneg _) hX.1
  rw [← tol_eq] at hT
  obtain ⟨tl, tp⟩ := tol_pos hX0 hN1
  obtain ⟨b, v, hin, hbi, htr, hgi, here⟩ := inside_full sh hs hS hk hn hX (hX2.trans (by norm_num)) (lt_of_le_of_lt tl hT) hg
  unfold getAdaptive
  have hnear : getDistance rows last A l false pos (.fin 0) = getNearestDistance A l pos (.fin 0) := rfl
  rw [hnear]
  unfold getNearestDistance
  rw [here]
  cases hc : content l g with
  | none => rfl
  | some x =>
    cases ho : A.obs x with
    | false =>
      simp only [Outcome.bind_ok, ho, Outcome.pure_eq]
    | true =>
      have hr := reading_some (sdf := A.sdf) hc ho
      obtain ⟨i, hi1, hi2⟩ := h.resolve_left (by rw [hr]; simp)
      rcases interp_neighbours sh hs hS hk hn A hX hX2 (by linarith) hg rows last dist with hI | ⟨-, hI⟩
      · have hI' : getDistance rows last A l true pos dist = .ok (false, dist) := hI
        have hf : fallbackGradient A l pos (A.sdf x) = .ok none := by
          refine fallback_none (fallback_axis sh hs hS hk hn A hX (hX2.trans (by norm_num)) hT hg (A.sdf x)) ⟨i, ?_⟩
          rw [hi1, hi2]
          rfl
        simp only [Outcome.bind_ok, ho, Outcome.pure_eq]
        rw [hI', Outcome.bind_ok, hbi, Outcome.bind_ok]
        cases hb : block? l b with
        | none => rfl
        | some blk =>
          show (fallbackGradient A l pos (A.sdf x) >>= _) = _
          rw [hf]
          rfl
      · rcases hI i with h' | h'
        · exact absurd hi1 h'
        · exact absurd hi2 h'

example : NearVoxel tenth (-(1 / 10)) ⟨66, 3, 8⟩ ⟨53 / 8, 3 / 8, 7 / 8⟩ ∧
    (5 * 70 + 6 * 2 ^ 3 + 26) / 2 ^ 24 + 2 / 1000000 * 2 ^ 3 < (1 / 10 : ℚ) ∧ WithinVoxels tenth 70 ⟨53 / 8, 3 / 8, 7 / 8⟩ ∧
    reading (ramp tenth 1 8) tsdfAccess.obs tsdfAccess.sdf ⟨66, 3, 8⟩ = none := by
  unfold NearVoxel WithinVoxels Vec3.All₂ Vec3.All
  decide +kernel

/-- **C119 (plane).** At a position inside voxel `g` and not too near its borders, where `g` and along each axis one of its neighbours are observed
and the observed voxels around sample a plane up to `e`, the adaptive query returns true with the distance and the gradient of the plane, up to
`5 e`, `2 e` per voxel and the rounding of the arithmetic, whichever of its methods it uses. `X` is the distance from the origin in voxels, `D` the
largest value. Missing for the full claim: positions near the borders, where it fails, see `C119_border_violated`. -/
theorem C119_plane_partial {l : VLayer V} (sh : Shaped l) (hs : Size l.cfg.voxelSize) (hS : l.cfg.voxelSize ≤ 2 ^ 80) {k : ℕ} (hk : k ≤ 10)
    (hn : l.cfg.vps = 2 ^ k) (A : Access V) {pos : Pt} {X T : ℚ} (hX : WithinVoxels l.cfg.voxelSize X pos) (hX2 : X ≤ 2 ^ 17) {g : Idx}
    (hT : (5 * X + 6 * 2 ^ k + 26) / 2 ^ 24 + 2 / 1000000 * 2 ^ k < T) (hg : NearVoxel l.cfg.voxelSize (-T) g pos)
    {rows : ℕ → Order} {last : Order} (hrows : ∀ i < 8, Complete (rows i)) (hlast : Complete last) {a : Pt} {k0 e D : ℚ} (hD : D ≤ 2 ^ 27)
    (hp : PlaneData l A.obs A.sdf a k0 e D (9 / 4) pos) (dist : Fl) (grad : Vec3 Fl) (hu : reading l A.obs A.sdf g ≠ none)
    (hside : ∀ i, reading l A.obs A.sdf (g - axisStep i) ≠ none ∨ reading l A.obs A.sdf (g + axisStep i) ≠ none) :
    ∃ (d : ℚ) (w : Pt), getAdaptive rows last A l pos dist grad = .ok (true, .fin d, w.map .fin) ∧
      |d - affine a k0 pos| ≤ D / 2 ^ 14 + 4 * (sumAbs a * l.cfg.voxelSize + 2 * e) * ((2 * X + 2 * 2 ^ k + 13) / 2 ^ 24) + 5 * e +
        (1 + l.cfg.voxelSize) / 2 ^ 130 ∧
      ∀ i, |component w i - component a i| ≤ (D / 2 ^ 13 + (sumAbs a * l.cfg.voxelSize + 2 * e) * ((9 * X + 8 * 2 ^ k + 70) / 2 ^ 24) + 2 * e +
        1 / 2 ^ 130) / l.cfg.voxelSize + 1 / 2 ^ 140 := by
  obtain ⟨-, hN1, hN2⟩ := size_block hs hS hk
  have h0 := hs.pos
  have hX0 : 0 ≤ X := le_trans (abs_nonneg _) hX.1
  rw [← tol_eq] at hT
  obtain ⟨tl, tp⟩ := tol_pos hX0 hN1
  obtain ⟨b, v, hin, hbi, htr, hgi, here⟩ := inside_full sh hs hS hk hn hX (hX2.trans (by norm_num)) (lt_of_le_of_lt tl hT) hg
  obtain ⟨ag, as⟩ := around_steps (by linarith) hg
  have ag' : Around l.cfg.voxelSize (9 / 4) pos g := ⟨ag.1.trans (by norm_num), ag.2.1.trans (by norm_num), ag.2.2.trans (by norm_num)⟩
  have ag8 : ∀ g, Around l.cfg.voxelSize (9 / 8) pos g → Around l.cfg.voxelSize (9 / 4) pos g :=
    fun g h => ⟨h.1.trans (by norm_num), h.2.1.trans (by norm_num), h.2.2.trans (by norm_num)⟩
  -- the voxel
  cases hc : content l g with
  | none => exact absurd (by unfold reading; rw [hc]) hu
  | some x =>
  cases ho : A.obs x with
  | false => exact absurd (by unfold reading; rw [hc]; simp [ho]) hu
  | true =>
  obtain ⟨y, y1, y2, y3⟩ := reading_plane hp ag' _ (reading_some hc ho)
  have he : 0 ≤ e := le_trans (abs_nonneg _) y3
  have hD0 : 0 ≤ D := le_trans (abs_nonneg _) y2
  have hA : 0 ≤ sumAbs a * l.cfg.voxelSize := mul_nonneg (by unfold sumAbs; positivity) h0.le
  obtain ⟨bi, blk, hbi', hb⟩ := block_of_content (here.trans (by rw [hc]))
  obtain rfl : b = bi := Outcome.ok.inj (hbi.symm.trans hbi')
  obtain ⟨hvps, -⟩ := sh.block _ _ hb
  -- the fall-back gradient
  have hfall : ∃ w : Pt, fallbackGradient A l pos (.fin y) = .ok (some (w.map .fin)) ∧
      (∀ i, |component w i| ≤ (3 * D + D / 2 ^ 20 + 1 / 2 ^ 140) / l.cfg.voxelSize + 1 / 2 ^ 150) ∧
      ∀ i, |component w i - component a i| ≤ (D / 2 ^ 20 + 2 * e + 1 / 2 ^ 140) / l.cfg.voxelSize + 1 / 2 ^ 150 := by
    have ax : ∀ i, ∃ q, fallbackAxis A l pos (.fin y) i = .ok (some (.fin q)) ∧
        |q| ≤ (3 * D + D / 2 ^ 20 + 1 / 2 ^ 140) / l.cfg.voxelSize + 1 / 2 ^ 150 ∧
        |q - component a i| ≤ (D / 2 ^ 20 + 2 * e + 1 / 2 ^ 140) / l.cfg.voxelSize + 1 / 2 ^ 150 := by
      intro i
      rw [fallback_axis sh hs hS hk hn A hX (hX2.trans (by norm_num)) hT hg]
      have hl := reading_plane hp (as i).1
      have hr := reading_plane hp (as i).2
      rw [(affine_step a k0 l.cfg.voxelSize g i).1] at hl
      rw [(affine_step a k0 l.cfg.voxelSize g i).2] at hr
      rcases side_quotient hs hD he y2 y3 hl hr with ⟨n1, n2, -⟩ | ⟨q, q1, q2, q3⟩
      · rcases hside i with h | h
        · exact absurd n1 h
        · exact absurd n2 h
      · rw [mul_div_assoc, div_self h0.ne', mul_one] at q3
        exact ⟨q, by rw [q1], q2, q3⟩
    choose q q1 q2 q3 using ax
    refine ⟨⟨q 0, q 1, q 2⟩, by rw [fallback_some (q := fun i => .fin (q i)) q1]; rfl, ?_, ?_⟩
    · intro i
      have := q2 i
      fin_cases i <;> exact this
    · intro i
      have := q3 i
      fin_cases i <;> exact this
  obtain ⟨w, w1, w2, w3⟩ := hfall
  have w3' : ∀ i, |component w i - component a i| ≤ (D / 2 ^ 13 + (sumAbs a * l.cfg.voxelSize + 2 * e) * ((9 * X + 8 * 2 ^ k + 70) / 2 ^ 24) + 2 * e +
        1 / 2 ^ 130) / l.cfg.voxelSize + 1 / 2 ^ 140 := by
    intro i
    refine (w3 i).trans (add_le_add (div_le_div_of_nonneg_right ?_ h0.le) (by norm_num))
    have : 0 ≤ (sumAbs a * l.cfg.voxelSize + 2 * e) * ((9 * X + 8 * 2 ^ k + 70) / 2 ^ 24) := by positivity
    generalize (sumAbs a * l.cfg.voxelSize + 2 * e) * ((9 * X + 8 * 2 ^ k + 70) / 2 ^ 24) = z at *
    clear w2 w3 w1 hT tl tp hg
    norm_num at *
    linarith
  have start : getAdaptive rows last A l pos dist grad = (getInterpDistance rows last A l pos dist >>= fun d =>
      adaptiveGradient rows last A l pos (.fin y) d.1 >>= fun o => match o with
        | none => pure (false, d.2, grad)
        | some g => if d.1 then pure (true, d.2, g) else extrapolated l b l.cfg.vps pos (.fin y) g >>= fun r => pure (true, r, g)) := by
    unfold getAdaptive
    have hnear : getDistance rows last A l false pos (.fin 0) = getNearestDistance A l pos (.fin 0) := rfl
    rw [hnear]
    unfold getNearestDistance
    rw [here, hc]
    simp only [Outcome.bind_ok, ho, Outcome.pure_eq]
    rw [y1, hbi]
    simp only [Outcome.bind_ok, hb, hvps]
    rfl
  rw [start]
  rcases data_value sh hs hS hk hn A hX (hX2.trans (by norm_num)) hrows hlast (hD.trans (by norm_num)) (fun g h => hp g (ag8 g h)) dist with hI | ⟨d, d1, -, -, d3⟩
  · -- extrapolation
    rw [hI, Outcome.bind_ok]
    show ∃ d w, (fallbackGradient A l pos (.fin y) >>= _) = _ ∧ _
    rw [w1, Outcome.bind_ok]
    have hsG : l.cfg.voxelSize * ((3 * D + D / 2 ^ 20 + 1 / 2 ^ 140) / l.cfg.voxelSize + 1 / 2 ^ 150) =
        3 * D + D / 2 ^ 20 + 1 / 2 ^ 140 + l.cfg.voxelSize / 2 ^ 150 := by
      field_simp
    have hsF : l.cfg.voxelSize * ((D / 2 ^ 20 + 2 * e + 1 / 2 ^ 140) / l.cfg.voxelSize + 1 / 2 ^ 150) =
        D / 2 ^ 20 + 2 * e + 1 / 2 ^ 140 + l.cfg.voxelSize / 2 ^ 150 := by
      field_simp
    obtain ⟨q, q1, q2⟩ := extrapolated_err (e := e) (a := a) (k0 := k0) (M := 2 * D + (1 + l.cfg.voxelSize) / 2 ^ 140) hs hS hk hn hX hX2 hin htr (by rw [hgi]; exact ag)
      (y2.trans (by
        have : 0 ≤ (1 + l.cfg.voxelSize) / 2 ^ 140 := by positivity
        linarith)) (by rw [hgi]; exact y3) w2 w3
      (by
        rw [hsG]
        clear w2 w3 w3' hsF hsG start hA hT tl tp hg y2 y3
        norm_num at *
        linarith)
      (by
        clear w2 w3 w3' hsF hsG start hA hT tl tp hg y2 y3
        norm_num at *
        linarith)
    refine ⟨q, w, ?_, ?_, w3'⟩
    · show (extrapolated l b l.cfg.vps pos (.fin y) (w.map .fin) >>= _) = _
      rw [q1]
      rfl
    · rw [hsF] at q2
      refine q2.trans ?_
      have m1 : sumAbs a * l.cfg.voxelSize * ((2 * X + 2 * 2 ^ k + 8) / 2 ^ 24) ≤
          4 * (sumAbs a * l.cfg.voxelSize + 2 * e) * ((2 * X + 2 * 2 ^ k + 13) / 2 ^ 24) := by
        refine mul_le_mul (by linarith) (div_le_div_of_nonneg_right (by linarith) (by positivity)) (by positivity) (by positivity)
      generalize sumAbs a * l.cfg.voxelSize * ((2 * X + 2 * 2 ^ k + 8) / 2 ^ 24) = z1 at *
      generalize 4 * (sumAbs a * l.cfg.voxelSize + 2 * e) * ((2 * X + 2 * 2 ^ k + 13) / 2 ^ 24) = z2 at *
      clear w2 w3 w3' hsF hsG start hA hT tl tp hg y2 y3 q2
      norm_num at *
      linarith
  · -- interpolated distance
    rw [d1, Outcome.bind_ok]
    have hd : |d - affine a k0 pos| ≤ D / 2 ^ 14 + 4 * (sumAbs a * l.cfg.voxelSize + 2 * e) * ((2 * X + 2 * 2 ^ k + 13) / 2 ^ 24) + 5 * e +
        (1 + l.cfg.voxelSize) / 2 ^ 130 := by
      refine d3.trans ?_
      generalize 4 * (sumAbs a * l.cfg.voxelSize + 2 * e) * ((2 * X + 2 * 2 ^ k + 13) / 2 ^ 24) = z2 at *
      clear w2 w3 w3' start hA hT tl tp hg y2 y3 d3
      norm_num at *
      linarith
    have ag : adaptiveGradient rows last A l pos (.fin y) true = (getGradient rows last A l true pos ⟨.fin 0, .fin 0, .fin 0⟩ >>= fun r =>
        if r.1 then pure (some r.2) else fallbackGradient A l pos (.fin y)) := rfl
    rcases data_gradient sh hs hS hk hn A hX hX2 hrows hlast hD hp ⟨.fin 0, .fin 0, .fin 0⟩ hbi hb with ⟨t, ht⟩ | ⟨t, ht, ht2⟩
    · refine ⟨d, w, ?_, hd, w3'⟩
      show (adaptiveGradient rows last A l pos (.fin y) true >>= _) = _
      rw [ag, ht]
      show (fallbackGradient A l pos (.fin y) >>= _) = _
      rw [w1]
      rfl
    · refine ⟨d, t, ?_, hd, fun i => (ht2 i).trans (add_le_add (div_le_div_of_nonneg_right (by linarith) h0.le) le_rfl)⟩
      show (adaptiveGradient rows last A l pos (.fin y) true >>= _) = _
      rw [ag, ht]
      rfl

/-- The ramp samples its plane where it is observed, also at the border of its block. -/
theorem ramp_data : PlaneData (ramp (1 / 8) (1 / 2) 0) tsdfAccess.obs tsdfAccess.sdf ⟨4, 0, 0⟩ (-1 / 4) 0 4 (9 / 4) ⟨17 / 32, 1 / 32, 17 / 32⟩ := by
  rintro ⟨x, y, z⟩ ⟨hx, -, -⟩ v hv -
  rw [ramp_content hv]
  have mx : x ∈ ([2, 3, 4, 5, 6] : List ℤ) := by
    rw [abs_le] at hx
    simp only [ramp] at hx
    norm_num at hx
    have a1 : (1 : ℚ) < x := by linarith [hx.1, hx.2]
    have a2 : (x : ℚ) < 7 := by linarith [hx.1, hx.2]
    have b1 : (1 : ℤ) < x := by exact_mod_cast a1
    have b2 : x < (7 : ℤ) := by exact_mod_cast a2
    have : x = 2 ∨ x = 3 ∨ x = 4 ∨ x = 5 ∨ x = 6 := by omega
    simpa using this
  have vals : ∀ x ∈ ([2, 3, 4, 5, 6] : List ℤ), rnd32 (1 / 2 * ((x : ℚ) - 8 * (0 : ℤ))) = 1 / 2 * ((x : ℚ) - 8 * (0 : ℤ)) ∧
    |1 / 2 * ((x : ℚ) - 8 * (0 : ℤ))| ≤ 4 := by decide +kernel
  refine ⟨_, rfl, (vals x mx).1, (vals x mx).2, ?_⟩
  simp only [affine, voxelCenter, ramp]
  refine le_of_eq (abs_eq_zero.2 ?_)
  push_cast
  ring

example : Shaped (ramp (1 / 8) (1 / 2) 0) ∧ Size (1 / 8) ∧ WithinVoxels (1 / 8) 5 ⟨17 / 32, 1 / 32, 17 / 32⟩ ∧
    (5 * 5 + 6 * 2 ^ 3 + 26) / 2 ^ 24 + 2 / 1000000 * 2 ^ 3 < (1 / 8 : ℚ) ∧ NearVoxel (1 / 8) (-(1 / 8)) ⟨4, 0, 4⟩ ⟨17 / 32, 1 / 32, 17 / 32⟩ ∧
    PlaneData (ramp (1 / 8) (1 / 2) 0) tsdfAccess.obs tsdfAccess.sdf ⟨4, 0, 0⟩ (-1 / 4) 0 4 (9 / 4) ⟨17 / 32, 1 / 32, 17 / 32⟩ ∧
    reading (ramp (1 / 8) (1 / 2) 0) tsdfAccess.obs tsdfAccess.sdf ⟨4, 0, 4⟩ ≠ none ∧
    (∀ i, reading (ramp (1 / 8) (1 / 2) 0) tsdfAccess.obs tsdfAccess.sdf (⟨4, 0, 4⟩ - axisStep i) ≠ none ∨
      reading (ramp (1 / 8) (1 / 2) 0) tsdfAccess.obs tsdfAccess.sdf (⟨4, 0, 4⟩ + axisStep i) ≠ none) ∧
    reading (ramp (1 / 8) (1 / 2) 0) tsdfAccess.obs tsdfAccess.sdf (⟨4, 0, 4⟩ - axisStep 1) = none ∧
    getAdaptive (fun _ => byHalves) byHalves tsdfAccess (ramp (1 / 8) (1 / 2) 0) ⟨17 / 32, 1 / 32, 17 / 32⟩ .nan ⟨.nan, .nan, .nan⟩ =
      .ok (true, .fin (15 / 8), ⟨.fin 4, .fin 0, .fin 0⟩) := by
  refine ⟨ramp_shaped _ _ _, eighth_size, ?_, by norm_num, ?_, ramp_data, ?_⟩
  · unfold WithinVoxels Vec3.All
    decide +kernel
  · unfold NearVoxel Vec3.All₂
    decide +kernel
  · decide +kernel

/-- The claim of C119 at any position fails near the borders of the voxels: at x = 7.2 m in a map with voxels of 0.1 m the position and the position
plus one voxel are looked up in the same voxel. Where the voxel on the left does not exist, the query succeeds and reports no slope at all, for a
ramp of ten per metre. -/
theorem C119_border_violated : ∃ (l : VLayer (TsdfVoxel Fl)) (pos : Pt) (d : Fl), Shaped l ∧ Size l.cfg.voxelSize ∧
    (∀ g x, content l g = some x → tsdfAccess.obs x = true ∧ x.distance = .fin ((g.x : ℚ) - 72)) ∧ l.cfg.voxelSize ≤ 101 / 1000 ∧
    (∀ rows last dist grad, getAdaptive rows last tsdfAccess l pos dist grad = .ok (true, d, ⟨.fin 0, .fin 0, .fin 0⟩)) := by
  refine ⟨ramp tenth 1 9, ⟨rnd32 (72 / 10), 1 / 16, 3 / 8⟩, .fin 0, ramp_shaped _ _ _, tenth_size, ?_, by decide +kernel, ?_⟩
  · intro g x h
    rw [ramp_content h]
    refine ⟨show (Fl.fin Eval.kObserved).lt (Fl.fin 1) = true by decide +kernel, ?_⟩
    show Fl.fin (1 * ((g.x : ℚ) - 8 * (9 : ℤ))) = _
    norm_num
  · intro rows last dist grad
    have h1 : getDistance rows last tsdfAccess (ramp tenth 1 9) false ⟨rnd32 (72 / 10), 1 / 16, 3 / 8⟩ (.fin 0) = .ok (true, .fin 0) := by
      show getNearestDistance tsdfAccess (ramp tenth 1 9) ⟨rnd32 (72 / 10), 1 / 16, 3 / 8⟩ (.fin 0) = _
      decide +kernel
    have h2 : getDistance rows last tsdfAccess (ramp tenth 1 9) true ⟨rnd32 (72 / 10), 1 / 16, 3 / 8⟩ dist = .ok (false, dist) := by
      show getInterpDistance rows last tsdfAccess (ramp tenth 1 9) ⟨rnd32 (72 / 10), 1 / 16, 3 / 8⟩ dist = _
      unfold getInterpDistance
      have : voxelsAndQ (ramp tenth 1 9) tsdfAccess.obs ⟨rnd32 (72 / 10), 1 / 16, 3 / 8⟩ = .ok none := by decide +kernel
      rw [this]
      rfl
    have h3 : IndexF.blockIndex (ramp tenth 1 9).cfg.voxelSize (ramp tenth 1 9).cfg.vps ⟨rnd32 (72 / 10), 1 / 16, 3 / 8⟩ = .ok ⟨9, 0, 0⟩ := by
      decide +kernel
    have h4 : fallbackGradient tsdfAccess (ramp tenth 1 9) ⟨rnd32 (72 / 10), 1 / 16, 3 / 8⟩ (.fin 0) = .ok (some ⟨.fin 0, .fin 0, .fin 0⟩) := by
      decide +kernel
    have h5 : extrapolated (ramp tenth 1 9) ⟨9, 0, 0⟩ 8 ⟨rnd32 (72 / 10), 1 / 16, 3 / 8⟩ (.fin 0) ⟨.fin 0, .fin 0, .fin 0⟩ = .ok (.fin 0) := by
      decide +kernel
    unfold getAdaptive
    rw [h1, Outcome.bind_ok]
    simp only
    rw [h2, Outcome.bind_ok, h3, Outcome.bind_ok]
    show (fallbackGradient tsdfAccess (ramp tenth 1 9) ⟨rnd32 (72 / 10), 1 / 16, 3 / 8⟩ (.fin 0) >>= _) = _
    rw [h4, Outcome.bind_ok]
    show (extrapolated (ramp tenth 1 9) ⟨9, 0, 0⟩ 8 ⟨rnd32 (72 / 10), 1 / 16, 3 / 8⟩ (.fin 0) ⟨.fin 0, .fin 0, .fin 0⟩ >>= _) = _
    rw [h5]
    rfl

end Vox.InterpF
