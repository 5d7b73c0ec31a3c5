/-
Property C112: interpolation in `float` arithmetic, for every order in which the terms of Eigen's products may be added.
-/
import Verif.Lemmas.InterpQuery
import Verif.Props.IndexFloat
import Verif.Lemmas.Layer

namespace Vox.InterpF

open Layer Grid Ieee Spec IndexF

open RoundErr (u_eq eta_eq rnd_fin)

open Props.IndexFloat (tenth tenth_size)

variable {V : Type}

/-! ### Example data: two blocks of side 2, 12 m from the origin, voxel size `float` 0.1 -/

/-- A block whose voxels have the value `a` in the lower and `b` in the upper x layer. -/
def exBlock (a b : ℚ) (i : Idx) : Block ℚ ℚ where
  vps := 2
  voxelSize := tenth
  origin := IndexF.originPoint i (blockSize tenth 2)
  voxels := [a, b, a, b, a, b, a, b]
  hasData := true
  updated := ⟨false, false, false⟩

/-- Values 0 below and 1 above x = 12.4. -/
def exLayer : VLayer ℚ :=
  ⟨⟨tenth, 2⟩, [(⟨61, 0, 0⟩, exBlock 0 0 ⟨61, 0, 0⟩), (⟨62, 0, 0⟩, exBlock 1 1 ⟨62, 0, 0⟩)]⟩

theorem exLayer_shaped : Shaped exLayer := by
  refine ⟨by decide, by decide, ?_⟩
  intro i b h
  by_cases h1 : i = ⟨61, 0, 0⟩
  · subst h1
    have : exBlock 0 0 ⟨61, 0, 0⟩ = b := Option.some.inj h
    subst this
    exact ⟨rfl, rfl⟩
  · by_cases h2 : i = ⟨62, 0, 0⟩
    · subst h2
      have : exBlock 1 1 ⟨62, 0, 0⟩ = b := Option.some.inj h
      subst this
      exact ⟨rfl, rfl⟩
    · exfalso
      unfold exLayer at h
      have e1 : (i == (⟨61, 0, 0⟩ : Idx)) = false := by simpa using h1
      have e2 : (i == (⟨62, 0, 0⟩ : Idx)) = false := by simpa using h2
      simp only [List.lookup_cons, e1, e2, List.lookup_nil] at h
      exact absurd h (by simp)

theorem exLayer_corners : ∀ c : Idx, IsCorner c →
    content exLayer (⟨123, 0, 0⟩ + c) = some (c.x : ℚ) ∧ rnd32 (c.x : ℚ) = (c.x : ℚ) ∧ |(c.x : ℚ)| ≤ 1 := by
  have h : ∀ c ∈ Interp.corners, content exLayer (⟨123, 0, 0⟩ + c) = some (c.x : ℚ) ∧ rnd32 (c.x : ℚ) = (c.x : ℚ) ∧ |(c.x : ℚ)| ≤ 1 := by
    decide +kernel
  exact fun c hc => h c (Interp.corner_mem hc)

/-! ## C112 the value found -/

/-- **C112.** Interpolation within 2¹⁸ voxels of the origin, in `float`: there is a cell of voxel centres that contains the position up to a
few units in the last place of the coordinates, such that
* if its eight voxels exist and are observed, the result is the trilinear interpolation of their values at the position, up to an error
  proportional to the values (rounding of the products) and one proportional to their spread (rounding of the coordinates);
* if one of them is missing or unobserved, interpolation fails.
Hence the `CHECK` on the offset holds and no index overflows. The order in which the products are summed does not matter. -/
theorem C112_value {l : VLayer V} (sh : Shaped l) (hs : Size l.cfg.voxelSize) (hS : l.cfg.voxelSize ≤ 2 ^ 80) {k : ℕ} (hk : k ≤ 10)
    (hn : l.cfg.vps = 2 ^ k) (obs : V → Bool) (sdf : V → ℚ) {pos : Pt} {X : ℚ} (hX : WithinVoxels l.cfg.voxelSize X pos) (hX2 : X ≤ 2 ^ 18)
    {rows : ℕ → Order} {last : Order} (hrows : ∀ i < 8, Complete (rows i)) (hlast : Complete last) :
    ∃ g : Idx, NearDualCell l.cfg.voxelSize ((2 * X + 2 * 2 ^ k + 8) / 2 ^ 24) g pos ∧
      (∀ (f : Idx → V) (D R : ℚ), D ≤ 2 ^ 100 →
        (∀ c, IsCorner c → content l (g + c) = some (f c) ∧ obs (f c) = true ∧ rnd32 (sdf (f c)) = sdf (f c) ∧ |sdf (f c)| ≤ D) →
        (∀ c c', IsCorner c → IsCorner c' → |sdf (f c) - sdf (f c')| ≤ R) →
        ∃ r, interpDistance rows last l obs (fun v => .fin (sdf v)) pos = .ok (some (.fin r)) ∧
          |r - trilinear (fun c => sdf (f c)) (relativeTo l.cfg.voxelSize g pos)| ≤
            D / 2 ^ 14 + 4 * R * ((2 * X + 2 * 2 ^ k + 13) / 2 ^ 24) + 1 / 2 ^ 140) ∧
      (∀ c, IsCorner c → (content l (g + c)).filter obs = none →
        interpDistance rows last l obs (fun v => .fin (sdf v)) pos = .ok none) := by
  obtain ⟨g, o, h1, h2, h3, h4⟩ := query sh hs hS hk hn obs hX hX2
  obtain ⟨-, hN1, hN2⟩ := size_block hs hS hk
  have hX0 : 0 ≤ X := le_trans (abs_nonneg _) hX.1
  have eu : ∀ a : ℚ, u * a = a / 2 ^ 24 := fun a => by rw [u_eq]; ring
  rw [eu] at h1
  refine ⟨g, h1, ?_, ?_⟩
  · intro f D R hD hf hR
    have hD0 : 0 ≤ D := le_trans (abs_nonneg _) (hf ⟨0, 0, 0⟩ (by decide)).2.2.2
    have hg := Interp.gather_some (g := g) (obs := obs) (l := l) (f := f) Interp.corners fun c hc =>
      ⟨(hf c (Interp.mem_corner hc)).1, (hf c (Interp.mem_corner hc)).2.1⟩
    have hd : ∀ c, IsCorner c → rnd32 (sdf (f c)) = sdf (f c) ∧ |sdf (f c)| ≤ D := fun c hc => (hf c hc).2.2
    obtain ⟨r, hr1, hr2⟩ := member_err (rows := rows) (last := last) (fun i hi => hrows i hi) hlast h2.1 h2.2.1 h2.2.2
      (hd ⟨0, 0, 0⟩ (by decide)) (hd ⟨0, 0, 1⟩ (by decide)) (hd ⟨0, 1, 0⟩ (by decide)) (hd ⟨0, 1, 1⟩ (by decide))
      (hd ⟨1, 0, 0⟩ (by decide)) (hd ⟨1, 0, 1⟩ (by decide)) (hd ⟨1, 1, 0⟩ (by decide)) (hd ⟨1, 1, 1⟩ (by decide)) hD0 hD
    refine ⟨r, ?_, ?_⟩
    · unfold interpDistance
      rw [h4, hg]
      show Outcome.ok (some (interpMember rows last (qF o) _)) = _
      rw [← hr1]
      rfl
    · have et := Interp.interpMember_trilinear (fun c => sdf (f c)) o
      have hr2' : |r - trilinear (fun c => sdf (f c)) o| ≤ D / 2 ^ 14 + 1 / 2 ^ 140 := by
        rw [← et]
        exact hr2
      have small : (2 * X + 2 * 2 ^ k + 8) / 2 ^ 24 ≤ (1 / 15 : ℚ) := by
        generalize (2 : ℚ) ^ k = N at *
        norm_num at *
        linarith
      have rel : (relativeTo l.cfg.voxelSize g pos).All fun t => -(1 / 15) ≤ t ∧ t ≤ 16 / 15 :=
        ⟨⟨by have := h1.1.1; simp only [relativeTo]; linarith, by have := h1.1.2; simp only [relativeTo]; linarith⟩,
          ⟨by have := h1.2.1.1; simp only [relativeTo]; linarith, by have := h1.2.1.2; simp only [relativeTo]; linarith⟩,
          ⟨by have := h1.2.2.1; simp only [relativeTo]; linarith, by have := h1.2.2.2; simp only [relativeTo]; linarith⟩⟩
      have ho : o.All fun t => -(1 / 15) ≤ t ∧ t ≤ 16 / 15 :=
        ⟨⟨by linarith [h2.1.1], h2.1.2⟩, ⟨by linarith [h2.2.1.1], h2.2.1.2⟩, ⟨by linarith [h2.2.2.1], h2.2.2.2⟩⟩
      have hsh := trilinear_shift (f := fun c => sdf (f c)) (R := R) hR rel ho h3.1 h3.2.1 h3.2.2
      rw [eu] at hsh
      have := abs_sub_le r (trilinear (fun c => sdf (f c)) o) (trilinear (fun c => sdf (f c)) (relativeTo l.cfg.voxelSize g pos))
      linarith
  · intro c hc hcn
    unfold interpDistance
    rw [h4, Interp.gather_none hcn _ (Interp.corner_mem hc)]
    rfl

example : Shaped exLayer ∧ Size exLayer.cfg.voxelSize ∧ exLayer.cfg.voxelSize ≤ 2 ^ 80 ∧ exLayer.cfg.vps = 2 ^ 1 ∧
    WithinVoxels exLayer.cfg.voxelSize 125 ⟨12.375, 0.125, 0.125⟩ ∧ (∀ i < 8, Complete ((fun _ => inTurn) i)) ∧ Complete byHalves ∧
    (∀ c, IsCorner c → content exLayer (⟨123, 0, 0⟩ + c) = some (c.x : ℚ) ∧ rnd32 (c.x : ℚ) = (c.x : ℚ) ∧ |(c.x : ℚ)| ≤ 1) ∧
    NearDualCell exLayer.cfg.voxelSize ((2 * 125 + 2 * 2 ^ 1 + 8) / 2 ^ 24) ⟨123, 0, 0⟩ ⟨12.375, 0.125, 0.125⟩ :=
  ⟨exLayer_shaped, tenth_size, by decide +kernel, rfl, ⟨by decide +kernel, by decide +kernel, by decide +kernel⟩,
    fun _ _ => show Complete inTurn by unfold Complete; decide, by unfold Complete; decide, exLayer_corners,
    ⟨⟨by decide +kernel, by decide +kernel⟩, ⟨by decide +kernel, by decide +kernel⟩, ⟨by decide +kernel, by decide +kernel⟩⟩⟩

/-- **C112, partial.** (In full: the query never aborts, at any position; `C112_check_violated` shows that it does.) Within 2¹⁸ voxels of the
origin the query never aborts and never overflows an index, whatever the values are. -/
theorem C112_defined_partial {l : VLayer V} (sh : Shaped l) (hs : Size l.cfg.voxelSize) (hS : l.cfg.voxelSize ≤ 2 ^ 80) {k : ℕ} (hk : k ≤ 10)
    (hn : l.cfg.vps = 2 ^ k) (obs : V → Bool) (sdf : V → Fl) {pos : Pt} (hX : WithinVoxels l.cfg.voxelSize (2 ^ 18) pos)
    (rows : ℕ → Order) (last : Order) :
    ∃ r, interpDistance rows last l obs sdf pos = .ok r := by
  obtain ⟨g, o, -, -, -, h4⟩ := query sh hs hS hk hn obs hX le_rfl
  unfold interpDistance
  rw [h4]
  exact ⟨_, rfl⟩

example : WithinVoxels tenth (2 ^ 18) ⟨-26000, 26000, 0.05⟩ := ⟨by decide +kernel, by decide +kernel, by decide +kernel⟩

/-- **C112, partial.** (In full: the result lies between the values of the cell; `C112_between_violated` shows that it does not.) The result exceeds the bounds of the values in the cell at most by the error of `C112_value` and the tolerance of the cell. -/
theorem C112_bounded_partial {l : VLayer V} (sh : Shaped l) (hs : Size l.cfg.voxelSize) (hS : l.cfg.voxelSize ≤ 2 ^ 80) {k : ℕ} (hk : k ≤ 10)
    (hn : l.cfg.vps = 2 ^ k) (obs : V → Bool) (sdf : V → ℚ) {pos : Pt} {X : ℚ} (hX : WithinVoxels l.cfg.voxelSize X pos) (hX2 : X ≤ 2 ^ 18)
    {rows : ℕ → Order} {last : Order} (hrows : ∀ i < 8, Complete (rows i)) (hlast : Complete last) {lo hi D : ℚ} (hlo : -D ≤ lo) (hhi : hi ≤ D)
    (hD : D ≤ 2 ^ 100) (hb : ∀ g x, content l g = some x → obs x = true → lo ≤ sdf x ∧ sdf x ≤ hi ∧ rnd32 (sdf x) = sdf x) {r : Fl}
    (h : interpDistance rows last l obs (fun v => .fin (sdf v)) pos = .ok (some r)) :
    ∃ q, r = .fin q ∧ lo - (D / 2 ^ 14 + (hi - lo) * (2 * X + 2 * 2 ^ k + 13) / 2 ^ 21 + 1 / 2 ^ 140) ≤ q ∧
      q ≤ hi + (D / 2 ^ 14 + (hi - lo) * (2 * X + 2 * 2 ^ k + 13) / 2 ^ 21 + 1 / 2 ^ 140) := by
  obtain ⟨g, h1, h2, h3⟩ := C112_value sh hs hS hk hn obs sdf hX hX2 hrows hlast
  have hX0 : 0 ≤ X := le_trans (abs_nonneg _) hX.1
  obtain ⟨-, hN1, hN2⟩ := size_block hs hS hk
  have hall : ∀ c, IsCorner c → ∃ x, content l (g + c) = some x ∧ obs x = true := by
    intro c hc
    cases hf : (content l (g + c)).filter obs with
    | none =>
      rw [h3 c hc hf] at h
      exact absurd (Outcome.ok.inj h) (by simp)
    | some x =>
      obtain ⟨e1, e2⟩ := Option.filter_eq_some_iff.1 hf
      exact ⟨x, e1, e2⟩
  classical
  have : Nonempty V := ⟨(hall ⟨0, 0, 0⟩ (by decide)).choose⟩
  choose! f hf1 hf2 using hall
  have hv : ∀ c, IsCorner c → lo ≤ sdf (f c) ∧ sdf (f c) ≤ hi := fun c hc =>
    ⟨(hb _ _ (hf1 c hc) (hf2 c hc)).1, (hb _ _ (hf1 c hc) (hf2 c hc)).2.1⟩
  have hR : ∀ c c', IsCorner c → IsCorner c' → |sdf (f c) - sdf (f c')| ≤ hi - lo := by
    intro c c' hc hc'
    rw [abs_le]
    constructor <;> linarith [(hv c hc).1, (hv c hc).2, (hv c' hc').1, (hv c' hc').2]
  obtain ⟨q, hq1, hq2⟩ := h2 f D (hi - lo) hD (fun c hc => ⟨hf1 c hc, hf2 c hc, (hb _ _ (hf1 c hc) (hf2 c hc)).2.2,
    abs_le.2 ⟨by linarith [(hv c hc).1], by linarith [(hv c hc).2]⟩⟩) hR
  have hrq : r = .fin q := by
    rw [h] at hq1
    exact Option.some.inj (Outcome.ok.inj hq1)
  refine ⟨q, hrq, ?_⟩
  have hspread : 0 ≤ hi - lo := le_trans (abs_nonneg _) (hR ⟨0, 0, 0⟩ ⟨0, 0, 0⟩ (by decide) (by decide))
  -- clamp the position to the cell
  generalize ht : (2 * X + 2 * 2 ^ k + 8) / 2 ^ 24 = tol at *
  have tol0 : 0 ≤ tol := by
    rw [← ht]
    positivity
  have tol1 : tol ≤ 1 / 15 := by
    rw [← ht]
    generalize (2 : ℚ) ^ k = N at *
    norm_num at *
    linarith
  have htol : tol ≤ (2 * X + 2 * 2 ^ k + 13) / 2 ^ 24 := by
    rw [← ht]
    exact div_le_div_of_nonneg_right (by linarith) (by positivity)
  have cl : ∀ t : ℚ, -tol ≤ t → t ≤ 1 + tol → 0 ≤ max 0 (min 1 t) ∧ max 0 (min 1 t) ≤ 1 ∧ |t - max 0 (min 1 t)| ≤ tol := by
    intro t a b
    refine ⟨le_max_left _ _, max_le (by norm_num) (min_le_left _ _), ?_⟩
    rw [abs_le]
    rcases le_total 1 t with c | c
    · rw [min_eq_left c, max_eq_right (by norm_num)]
      constructor <;> linarith
    · rw [min_eq_right c]
      rcases le_total 0 t with e | e
      · rw [max_eq_right e]
        constructor <;> linarith
      · rw [max_eq_left e]
        constructor <;> linarith
  obtain ⟨cx0, cx1, cx2⟩ := cl _ h1.1.1 h1.1.2
  obtain ⟨cy0, cy1, cy2⟩ := cl _ h1.2.1.1 h1.2.1.2
  obtain ⟨cz0, cz1, cz2⟩ := cl _ h1.2.2.1 h1.2.2.2
  have rel : (relativeTo l.cfg.voxelSize g pos).All fun t => -(1 / 15) ≤ t ∧ t ≤ 16 / 15 :=
    ⟨⟨by have := h1.1.1; simp only [relativeTo]; linarith, by have := h1.1.2; simp only [relativeTo]; linarith⟩,
      ⟨by have := h1.2.1.1; simp only [relativeTo]; linarith, by have := h1.2.1.2; simp only [relativeTo]; linarith⟩,
      ⟨by have := h1.2.2.1; simp only [relativeTo]; linarith, by have := h1.2.2.2; simp only [relativeTo]; linarith⟩⟩
  have unit : (⟨max 0 (min 1 (pos.x / l.cfg.voxelSize - (g.x + 1 / 2))), max 0 (min 1 (pos.y / l.cfg.voxelSize - (g.y + 1 / 2))),
      max 0 (min 1 (pos.z / l.cfg.voxelSize - (g.z + 1 / 2)))⟩ : Pt).All fun t => 0 ≤ t ∧ t ≤ 1 := ⟨⟨cx0, cx1⟩, ⟨cy0, cy1⟩, ⟨cz0, cz1⟩⟩
  have unit' : (⟨max 0 (min 1 (pos.x / l.cfg.voxelSize - (g.x + 1 / 2))), max 0 (min 1 (pos.y / l.cfg.voxelSize - (g.y + 1 / 2))),
      max 0 (min 1 (pos.z / l.cfg.voxelSize - (g.z + 1 / 2)))⟩ : Pt).All fun t => -(1 / 15) ≤ t ∧ t ≤ 16 / 15 :=
    ⟨⟨by linarith, by linarith⟩, ⟨by linarith, by linarith⟩, ⟨by linarith, by linarith⟩⟩
  have hsh := trilinear_shift (f := fun c => sdf (f c)) (R := hi - lo) hR unit' rel cx2 cy2 cz2
  have b1 := Interp.trilinear_mono (f := fun _ => lo) (h := fun c => sdf (f c)) unit fun c hc => (hv c hc).1
  have b2 := Interp.trilinear_mono (f := fun c => sdf (f c)) (h := fun _ => hi) unit fun c hc => (hv c hc).2
  rw [Interp.trilinear_const] at b1 b2
  have m1 := mul_le_mul_of_nonneg_left htol (show (0 : ℚ) ≤ 4 * (hi - lo) by linarith)
  have e : (hi - lo) * (2 * X + 2 * 2 ^ k + 13) / 2 ^ 21 = 2 * (4 * (hi - lo) * ((2 * X + 2 * 2 ^ k + 13) / 2 ^ 24)) := by ring
  rw [e]
  obtain ⟨p1, p2⟩ := abs_le.1 hsh
  obtain ⟨p3, p4⟩ := abs_le.1 hq2
  constructor <;> linarith

example : (-1 : ℚ) ≤ 0 ∧ (1 : ℚ) ≤ 1 ∧ interpDistance (fun _ => inTurn) byHalves exLayer (fun _ => true) .fin ⟨12.375, 0.125, 0.125⟩ =
    .ok (some (.fin (131075 / 524288))) := by
  decide +kernel

/-- **C112.** A constant field is reproduced exactly: if the eight values are the same number, the result is that number, for the usual two
orders of addition. -/
theorem C112_constant {l : VLayer V} (sh : Shaped l) (hs : Size l.cfg.voxelSize) (hS : l.cfg.voxelSize ≤ 2 ^ 80) {k : ℕ} (hk : k ≤ 10)
    (hn : l.cfg.vps = 2 ^ k) (obs : V → Bool) (sdf : V → ℚ) {pos : Pt} (hX : WithinVoxels l.cfg.voxelSize (2 ^ 18) pos)
    {rows : ℕ → Order} {last : Order} (hrows : ∀ i < 8, rows i = inTurn ∨ rows i = byHalves) (hlast : last = inTurn ∨ last = byHalves)
    {d : ℚ} (hd : rnd32 d = d) (hd2 : |d| ≤ 2 ^ 100) (hc : ∀ g x, content l g = some x → obs x = true → sdf x = d) {r : Fl}
    (h : interpDistance rows last l obs (fun v => .fin (sdf v)) pos = .ok (some r)) : r = .fin d := by
  obtain ⟨g, o, -, -, -, h4⟩ := query sh hs hS hk hn obs hX le_rfl
  unfold interpDistance at h
  rw [h4] at h
  cases hg : Interp.gather l obs g Interp.corners with
  | none =>
    rw [hg] at h
    exact absurd (Outcome.ok.inj h) (by simp)
  | some xs =>
    rw [hg] at h
    have hr : interpMember rows last (qF o) (xs.map fun v => .fin (sdf v)) = r := Option.some.inj (Outcome.ok.inj h)
    have hall := Interp.gather_inv Interp.corners xs hg
    have : Nonempty V := ⟨(hall ⟨0, 0, 0⟩ (by decide)).choose⟩
    choose! f hf1 hf2 using hall
    have hxs : xs = Interp.corners.map f := by
      have := Interp.gather_some (g := g) (obs := obs) (l := l) (f := f) Interp.corners fun c hc => ⟨hf1 c hc, hf2 c hc⟩
      rw [hg] at this
      exact Option.some.inj this
    have hv : xs.map (fun v => Fl.fin (sdf v)) = (List.replicate 8 d).map .fin := by
      have hf : ∀ c ∈ Interp.corners, sdf (f c) = d := fun c hcm => hc _ _ (hf1 c hcm) (hf2 c hcm)
      rw [hxs, List.map_map]
      have : Interp.corners.map ((fun v => Fl.fin (sdf v)) ∘ f) = Interp.corners.map fun _ => Fl.fin d :=
        List.map_congr_left fun c hcm => by simp only [Function.comp, hf c hcm]
      rw [this]
      rfl
    rw [hv] at hr
    rw [← hr]
    exact constant_member hrows hlast hd hd2

example : content exLayer ⟨124, 0, 0⟩ = some 1 ∧ rnd32 1 = 1 ∧ interpDistance (fun _ => inTurn) byHalves exLayer (fun v => decide (v = 1))
    .fin ⟨12.5, 0.125, 0.125⟩ = .ok (some (.fin 1)) := by
  decide +kernel

/-! ## C112 what fails -/

/-- **C112, violated.** The result can lie outside the values it interpolates: at x ≈ 12.45 with voxels of 0.1 m the computed offset is
1.0000038, and from the values 0 and 1 the result is greater than 1. -/
theorem C112_between_violated : ∃ (pos : Pt) (r : ℚ), (∀ g x, content exLayer g = some x → 0 ≤ x ∧ x ≤ 1) ∧
    WithinVoxels exLayer.cfg.voxelSize 125 pos ∧
    interpDistance (fun _ => inTurn) byHalves exLayer (fun _ => true) .fin pos = .ok (some (.fin r)) ∧ 1 < r := by
  refine ⟨⟨13054771 / 1048576, 1 / 8, 1 / 8⟩, 262145 / 262144, ?_, ⟨by decide +kernel, by decide +kernel, by decide +kernel⟩, by decide +kernel,
    by norm_num⟩
  intro g x hx
  unfold content at hx
  obtain ⟨b, hb, hbx⟩ := Option.bind_eq_some_iff.1 hx
  have hm := List.mem_of_getElem? hbx
  have hb' : b = exBlock 0 0 ⟨61, 0, 0⟩ ∨ b = exBlock 1 1 ⟨62, 0, 0⟩ := by
    have := Layer.lookup_some_mem hb
    simp only [exLayer, List.mem_cons, Prod.mk.injEq, List.not_mem_nil, or_false] at this
    rcases this with h | h
    · exact Or.inl h.2
    · exact Or.inr h.2
  rcases hb' with rfl | rfl <;> simp only [exBlock, List.mem_cons, List.not_mem_nil, or_false, or_self] at hm <;> subst hm <;> norm_num

/-- Two blocks, 2 097 km away. -/
def farLayer : VLayer ℚ := ⟨⟨tenth, 2⟩, [(⟨10486277, 0, 0⟩, exBlock 0 1 ⟨10486277, 0, 0⟩), (⟨10486278, 0, 0⟩, exBlock 1 1 ⟨10486278, 0, 0⟩)]⟩

theorem farLayer_shaped : Shaped farLayer := by
  refine ⟨by decide, by decide, ?_⟩
  intro i b h
  have := Layer.lookup_some_mem h
  simp only [farLayer, List.mem_cons, Prod.mk.injEq, List.not_mem_nil, or_false] at this
  rcases this with h | h <;> rw [h.2] <;> exact ⟨rfl, rfl⟩

/-- **C112, violated.** Far from the origin the process aborts: with voxels of 0.1 m, at x = 2 097 255.5 the computed offset is −2.5 and the
`CHECK` of `getQVector` fails. -/
theorem C112_check_violated : ∃ (l : VLayer ℚ) (pos : Pt), Shaped l ∧ Size l.cfg.voxelSize ∧ pos.All (fun c => |c| ≤ 2 ^ 21 + 2 ^ 10) ∧
    ∀ rows last obs sdf, interpDistance rows last l obs sdf pos = .fatal := by
  refine ⟨farLayer, ⟨4194511 / 2, 1 / 8, 1 / 8⟩, farLayer_shaped, tenth_size, ⟨by norm_num [abs_le], by norm_num [abs_le], by norm_num [abs_le]⟩, ?_⟩
  intro rows last obs sdf
  have h1 : setIndexes farLayer ⟨4194511 / 2, 1 / 8, 1 / 8⟩ = .ok (some (⟨10486277, 0, 0⟩, ⟨1, 0, 0⟩)) := by decide +kernel
  have h2 : cornerQ farLayer ⟨10486277, 0, 0⟩ ⟨1, 0, 0⟩ ⟨4194511 / 2, 1 / 8, 1 / 8⟩ = .fatal := by decide +kernel
  unfold interpDistance voxelsAndQ
  rw [h1]
  simp only [Outcome.bind_ok, h2]
  rfl

end Vox.InterpF
