/-
Facts behind C118: the interpolated value of a plane, and the rounded central difference.
-/
import Verif.Model.InterpGrad
import Verif.Spec.InterpGrad
import Verif.Lemmas.InterpVoxel
import Mathlib.Tactic.FinCases

namespace Vox.InterpF

open Layer Grid Ieee Spec IndexF

open RoundErr (u_eq eta_eq rnd_fin rnd32_le)

variable {V : Type}

theorem trilinear_abs {f : Idx → ℚ} {R : ℚ} (hf : ∀ c, IsCorner c → |f c| ≤ R) {o : Pt} (ho : o.All fun t => -(1 / 15) ≤ t ∧ t ≤ 16 / 15) :
    |trilinear f o| ≤ 3 / 2 * R := by
  have hR : 0 ≤ R := le_trans (abs_nonneg _) (hf ⟨0, 0, 0⟩ (by decide))
  have g0 := bilinear_le ho.2.1 ho.2.2 (hf ⟨0, 0, 0⟩ (by decide)) (hf ⟨0, 0, 1⟩ (by decide)) (hf ⟨0, 1, 0⟩ (by decide)) (hf ⟨0, 1, 1⟩ (by decide))
  have g1 := bilinear_le ho.2.1 ho.2.2 (hf ⟨1, 0, 0⟩ (by decide)) (hf ⟨1, 0, 1⟩ (by decide)) (hf ⟨1, 1, 0⟩ (by decide)) (hf ⟨1, 1, 1⟩ (by decide))
  have e : trilinear f o = (1 - o.x) * ((1 - o.y) * (1 - o.z) * f ⟨0, 0, 0⟩ + (1 - o.y) * o.z * f ⟨0, 0, 1⟩ + o.y * (1 - o.z) * f ⟨0, 1, 0⟩ +
      o.y * o.z * f ⟨0, 1, 1⟩) + o.x * ((1 - o.y) * (1 - o.z) * f ⟨1, 0, 0⟩ + (1 - o.y) * o.z * f ⟨1, 0, 1⟩ + o.y * (1 - o.z) * f ⟨1, 1, 0⟩ +
      o.y * o.z * f ⟨1, 1, 1⟩) := by
    simp only [trilinear, triWeight, linWeight, if_true, one_ne_zero, if_false]
    ring
  rw [e]
  generalize (1 - o.y) * (1 - o.z) * f ⟨0, 0, 0⟩ + (1 - o.y) * o.z * f ⟨0, 0, 1⟩ + o.y * (1 - o.z) * f ⟨0, 1, 0⟩ + o.y * o.z * f ⟨0, 1, 1⟩ = p at *
  generalize (1 - o.y) * (1 - o.z) * f ⟨1, 0, 0⟩ + (1 - o.y) * o.z * f ⟨1, 0, 1⟩ + o.y * (1 - o.z) * f ⟨1, 1, 0⟩ + o.y * o.z * f ⟨1, 1, 1⟩ = q at *
  refine (abs_add_le _ _).trans ?_
  rw [abs_mul, abs_mul]
  have s : |1 - o.x| + |o.x| ≤ 17 / 15 := by
    obtain ⟨x0, x1⟩ := ho.1
    rcases abs_cases (1 - o.x) with h | h <;> rcases abs_cases o.x with h' | h' <;> linarith
  have m1 := mul_le_mul_of_nonneg_left g0 (abs_nonneg (1 - o.x))
  have m2 := mul_le_mul_of_nonneg_left g1 (abs_nonneg o.x)
  have m3 := mul_le_mul_of_nonneg_right s (show 0 ≤ 13 / 10 * R by linarith)
  linarith

theorem relativeTo_eq (s : ℚ) (hs : 0 < s) (g : Idx) (p : Pt) : relativeTo s g p = Interp.relPos s g p := by
  unfold relativeTo Interp.relPos voxelCenter
  ext <;> simp only [Vec3.map_x, Vec3.map_y, Vec3.map_z, Vec3.sub_x, Vec3.sub_y, Vec3.sub_z] <;> field_simp

theorem trilinear_sub (f h : Idx → ℚ) (o : Pt) : trilinear f o - trilinear h o = trilinear (fun c => f c - h c) o := by
  unfold trilinear
  ring

/-- Neighbouring samples of a plane. -/
theorem affine_spread (a : Pt) (k : ℚ) {s : ℚ} (hs : 0 < s) (g : Idx) {c c' : Idx} (hc : IsCorner c) (hc' : IsCorner c') :
    |affine a k (voxelCenter s (g + c)) - affine a k (voxelCenter s (g + c'))| ≤ sumAbs a * s := by
  have e : affine a k (voxelCenter s (g + c)) - affine a k (voxelCenter s (g + c')) =
      (a.x * ((c.x : ℚ) - c'.x) + a.y * ((c.y : ℚ) - c'.y) + a.z * ((c.z : ℚ) - c'.z)) * s := by
    simp only [affine, voxelCenter, Vec3.add_x, Vec3.add_y, Vec3.add_z]
    push_cast
    ring
  have one : ∀ m n : ℤ, (m = 0 ∨ m = 1) → (n = 0 ∨ n = 1) → |(m : ℚ) - n| ≤ 1 := by
    rintro m n (rfl | rfl) (rfl | rfl) <;> norm_num
  have t : ∀ (b : ℚ) (m n : ℤ), (m = 0 ∨ m = 1) → (n = 0 ∨ n = 1) → |b * ((m : ℚ) - n)| ≤ |b| := by
    intro b m n hm hn
    rw [abs_mul]
    have := mul_le_mul_of_nonneg_left (one m n hm hn) (abs_nonneg b)
    linarith
  rw [e, abs_mul, abs_of_pos hs]
  refine mul_le_mul_of_nonneg_right ?_ hs.le
  refine (abs_add_le _ _).trans (add_le_add ((abs_add_le _ _).trans (add_le_add ?_ ?_)) ?_)
  · exact t _ _ _ hc.1 hc'.1
  · exact t _ _ _ hc.2.1 hc'.2.1
  · exact t _ _ _ hc.2.2 hc'.2.2

/-- The interpolated value of a plane, where there is one. -/
theorem data_value {l : VLayer V} (sh : Shaped l) (hs : Size l.cfg.voxelSize) (hS : l.cfg.voxelSize ≤ 2 ^ 80) {k : ℕ} (hk : k ≤ 10)
    (hn : l.cfg.vps = 2 ^ k) (A : Access V) {pos : Pt} {X : ℚ} (hX : WithinVoxels l.cfg.voxelSize X pos) (hX2 : X ≤ 2 ^ 18)
    {rows : ℕ → Order} {last : Order} (hrows : ∀ i < 8, Complete (rows i)) (hlast : Complete last) {a : Pt} {k0 e D : ℚ} (hD : D ≤ 2 ^ 100)
    (hp : PlaneData l A.obs A.sdf a k0 e D (9 / 8) pos) (out : Fl) :
    getInterpDistance rows last A l pos out = .ok (false, out) ∨ ∃ q, getInterpDistance rows last A l pos out = .ok (true, .fin q) ∧ 0 ≤ e ∧ |q| ≤ 2 * D + 1 / 2 ^ 140 ∧
      |q - affine a k0 pos| ≤ D / 2 ^ 14 + 4 * (sumAbs a * l.cfg.voxelSize + 2 * e) * ((2 * X + 2 * 2 ^ k + 13) / 2 ^ 24) + 1 / 2 ^ 140 + 3 / 2 * e := by
  obtain ⟨-, hN1, hN2⟩ := size_block hs hS hk
  have hX0 : 0 ≤ X := le_trans (abs_nonneg _) hX.1
  obtain ⟨g, o, h1, h2, h3, h4⟩ := query sh hs hS hk hn A.obs hX hX2
  have eu : ∀ a : ℚ, u * a = a / 2 ^ 24 := fun a => by rw [u_eq]; ring
  rw [eu] at h1
  rw [eu] at h3
  have small : (2 * X + 2 * 2 ^ k + 13) / 2 ^ 24 ≤ (1 / 31 : ℚ) := by
    generalize (2 : ℚ) ^ k = N at *
    norm_num at *
    linarith
  have le8 : (2 * X + 2 * 2 ^ k + 8) / 2 ^ 24 ≤ (2 * X + 2 * 2 ^ k + 13 : ℚ) / 2 ^ 24 :=
    div_le_div_of_nonneg_right (by linarith) (by positivity)
  have e0 : 0 ≤ (2 * X + 2 * 2 ^ k + 13 : ℚ) / 2 ^ 24 := by positivity
  generalize hE : (2 * X + 2 * 2 ^ k + 13 : ℚ) / 2 ^ 24 = E at *
  generalize hT : (2 * X + 2 * 2 ^ k + 8 : ℚ) / 2 ^ 24 = T at *
  have rel : (relativeTo l.cfg.voxelSize g pos).All fun t => -(1 / 15) ≤ t ∧ t ≤ 16 / 15 :=
    ⟨⟨by have := h1.1.1; simp only [relativeTo]; linarith, by have := h1.1.2; simp only [relativeTo]; linarith⟩,
      ⟨by have := h1.2.1.1; simp only [relativeTo]; linarith, by have := h1.2.1.2; simp only [relativeTo]; linarith⟩,
      ⟨by have := h1.2.2.1; simp only [relativeTo]; linarith, by have := h1.2.2.2; simp only [relativeTo]; linarith⟩⟩
  have top : o.x ≤ 1 + 2 * E ∧ o.y ≤ 1 + 2 * E ∧ o.z ≤ 1 + 2 * E := by
    obtain ⟨a1, a2, a3⟩ := h3
    simp only [relativeTo] at a1 a2 a3
    exact ⟨by linarith [(abs_le.1 a1).2, h1.1.2], by linarith [(abs_le.1 a2).2, h1.2.1.2], by linarith [(abs_le.1 a3).2, h1.2.2.2]⟩
  have near : ∀ c, IsCorner c → Around l.cfg.voxelSize (9 / 8) pos (g + c) := by
    intro c hc
    have one : ∀ (m b : ℤ) (q : ℚ), (m = 0 ∨ m = 1) → (-T ≤ q - ((b : ℚ) + 1 / 2) ∧ q - ((b : ℚ) + 1 / 2) ≤ 1 + T) →
        |q - (((b + m : ℤ) : ℚ) + 1 / 2)| ≤ 9 / 8 := by
      rintro m b q hm ⟨q1, q2⟩
      rw [abs_le]
      push_cast
      rcases hm with rfl | rfl <;> push_cast <;> constructor <;> linarith
    exact ⟨one _ _ _ hc.1 h1.1, one _ _ _ hc.2.1 h1.2.1, one _ _ _ hc.2.2 h1.2.2⟩
  rcases hgath : Interp.gather l A.obs g Interp.corners with _ | xs
  · left
    unfold getInterpDistance
    rw [h4, hgath]
    rfl
  have hall : ∀ c, IsCorner c → ∃ x d, content l (g + c) = some x ∧ A.obs x = true ∧ A.sdf x = .fin d ∧ rnd32 d = d ∧ |d| ≤ D ∧
      |d - affine a k0 (voxelCenter l.cfg.voxelSize (g + c))| ≤ e := by
    intro c hc
    obtain ⟨x, x1, x2⟩ := Interp.gather_inv _ _ hgath c (Interp.corner_mem hc)
    obtain ⟨d, d1, d2, d3, d4⟩ := hp _ (near c hc) x x1 x2
    exact ⟨x, d, x1, x2, d1, d2, d3, d4⟩
  right
  have : Nonempty V := ⟨(hall ⟨0, 0, 0⟩ (by decide)).choose⟩
  choose! f d hf1 hf2 hf3 hf4 hf5 hf6 using hall
  have hg := Interp.gather_some (g := g) (obs := A.obs) (l := l) (f := f) Interp.corners fun c hc =>
    ⟨hf1 c (Interp.mem_corner hc), hf2 c (Interp.mem_corner hc)⟩
  have md : Interp.corners.map (fun c => A.sdf (f c)) = Interp.corners.map fun c => .fin (d c) :=
    List.map_congr_left fun c hc => hf3 c (Interp.mem_corner hc)
  have hD0 : 0 ≤ D := le_trans (abs_nonneg _) (hf5 ⟨0, 0, 0⟩ (by decide))
  -- range of the values
  obtain ⟨q, hq1, -, hq3, hq4⟩ := member_between hrows hlast h2 rel top (by linarith) h3 hD (f := d) (lo := -D) (hi := D)
    fun c hc => ⟨hf4 c hc, hf5 c hc, (abs_le.1 (hf5 c hc)).1, (abs_le.1 (hf5 c hc)).2⟩
  have run : getInterpDistance rows last A l pos out = .ok (true, .fin q) := by
    unfold getInterpDistance
    rw [h4, hg]
    show Outcome.ok (true, interpMember rows last (qF o) ((Interp.corners.map f).map A.sdf)) = _
    rw [List.map_map]
    have : Interp.corners.map (A.sdf ∘ f) = Interp.corners.map fun c => .fin (d c) := md
    rw [this, hq1]
  refine ⟨q, run, le_trans (abs_nonneg _) (hf6 ⟨0, 0, 0⟩ (by decide)), ?_, ?_⟩
  · have m := mul_le_mul_of_nonneg_left small hD0
    rw [abs_le]
    generalize (1 : ℚ) / 2 ^ 140 = t at *
    norm_num at *
    constructor <;> linarith
  · -- against the plane, with the smaller spread
    have hspread : ∀ c c', IsCorner c → IsCorner c' → |d c - d c'| ≤ sumAbs a * l.cfg.voxelSize + 2 * e := by
      intro c c' hc hc'
      have s1 := affine_spread a k0 hs.pos g hc hc'
      have s2 := hf6 c hc
      have s3 := hf6 c' hc'
      rw [abs_le] at *
      constructor <;> linarith [s1.1, s1.2, s2.1, s2.2, s3.1, s3.2]
    have hd : ∀ c, IsCorner c → rnd32 (d c) = d c ∧ |d c| ≤ D := fun c hc => ⟨hf4 c hc, hf5 c hc⟩
    obtain ⟨r, hr1, hr2⟩ := member_err (rows := rows) (last := last) (fun i hi => hrows i hi) hlast h2.1 h2.2.1 h2.2.2
      (hd ⟨0, 0, 0⟩ (by decide)) (hd ⟨0, 0, 1⟩ (by decide)) (hd ⟨0, 1, 0⟩ (by decide)) (hd ⟨0, 1, 1⟩ (by decide))
      (hd ⟨1, 0, 0⟩ (by decide)) (hd ⟨1, 0, 1⟩ (by decide)) (hd ⟨1, 1, 0⟩ (by decide)) (hd ⟨1, 1, 1⟩ (by decide)) hD0 hD
    have hrq : r = q := by
      have : Fl.fin r = Fl.fin q := hr1.symm.trans hq1
      injection this
    subst hrq
    have et := Interp.interpMember_trilinear d o
    have hr2' : |r - trilinear d o| ≤ D / 2 ^ 14 + 1 / 2 ^ 140 := by
      rw [← et]
      exact hr2
    have ho' : o.All fun t => -(1 / 15) ≤ t ∧ t ≤ 16 / 15 :=
      ⟨⟨by linarith [h2.1.1], h2.1.2⟩, ⟨by linarith [h2.2.1.1], h2.2.1.2⟩, ⟨by linarith [h2.2.2.1], h2.2.2.2⟩⟩
    have hsh := trilinear_shift (f := d) hspread rel ho' h3.1 h3.2.1 h3.2.2
    have ta := Interp.trilinear_affine a k0 hs.pos g pos
    rw [← relativeTo_eq _ hs.pos] at ta
    have hpert : |trilinear d (relativeTo l.cfg.voxelSize g pos) - affine a k0 pos| ≤ 3 / 2 * e := by
      rw [← ta, trilinear_sub]
      exact trilinear_abs hf6 rel
    have t1 := abs_sub_le r (trilinear d o) (trilinear d (relativeTo l.cfg.voxelSize g pos))
    have t2 := abs_sub_le r (trilinear d (relativeTo l.cfg.voxelSize g pos)) (affine a k0 pos)
    linarith

/-- A surrounded position can be interpolated. -/
theorem plane_success {l : VLayer V} (sh : Shaped l) (hs : Size l.cfg.voxelSize) (hS : l.cfg.voxelSize ≤ 2 ^ 80) {k : ℕ} (hk : k ≤ 10)
    (hn : l.cfg.vps = 2 ^ k) (A : Access V) {pos : Pt} {X : ℚ} (hX : WithinVoxels l.cfg.voxelSize X pos) (hX2 : X ≤ 2 ^ 18)
    (rows : ℕ → Order) (last : Order) {a : Pt} {k0 e D : ℚ} (hp : PlaneAround l A.obs A.sdf a k0 e D (9 / 8) pos) (out : Fl) :
    ∃ v, getInterpDistance rows last A l pos out = .ok (true, v) := by
  obtain ⟨-, hN1, hN2⟩ := size_block hs hS hk
  have hX0 : 0 ≤ X := le_trans (abs_nonneg _) hX.1
  obtain ⟨g, o, h1, h2, h3, h4⟩ := query sh hs hS hk hn A.obs hX hX2
  have eu : ∀ a : ℚ, u * a = a / 2 ^ 24 := fun a => by rw [u_eq]; ring
  rw [eu] at h1
  have small : (2 * X + 2 * 2 ^ k + 8) / 2 ^ 24 ≤ (1 / 31 : ℚ) := by
    clear h1 h3
    generalize (2 : ℚ) ^ k = N at *
    norm_num at *
    linarith
  generalize hT : (2 * X + 2 * 2 ^ k + 8 : ℚ) / 2 ^ 24 = T at *
  have near : ∀ c, IsCorner c → Around l.cfg.voxelSize (9 / 8) pos (g + c) := by
    intro c hc
    have one : ∀ (m b : ℤ) (q : ℚ), (m = 0 ∨ m = 1) → (-T ≤ q - ((b : ℚ) + 1 / 2) ∧ q - ((b : ℚ) + 1 / 2) ≤ 1 + T) →
        |q - (((b + m : ℤ) : ℚ) + 1 / 2)| ≤ 9 / 8 := by
      rintro m b q hm ⟨q1, q2⟩
      rw [abs_le]
      push_cast
      rcases hm with rfl | rfl <;> push_cast <;> constructor <;> linarith
    exact ⟨one _ _ _ hc.1 h1.1, one _ _ _ hc.2.1 h1.2.1, one _ _ _ hc.2.2 h1.2.2⟩
  have hall := fun c hc => hp _ (near c hc)
  have : Nonempty V := ⟨(hall ⟨0, 0, 0⟩ (by decide)).choose⟩
  choose! f d hf1 hf2 hf3 hf4 hf5 hf6 using hall
  have hg := Interp.gather_some (g := g) (obs := A.obs) (l := l) (f := f) Interp.corners fun c hc =>
    ⟨hf1 c (Interp.mem_corner hc), hf2 c (Interp.mem_corner hc)⟩
  unfold getInterpDistance
  rw [h4, hg]
  exact ⟨_, rfl⟩

theorem around_data {l : VLayer V} {obs : V → Bool} {sdf : V → Fl} {a : Pt} {k0 e D r : ℚ} {p : Pt} (h : PlaneAround l obs sdf a k0 e D r p) :
    PlaneData l obs sdf a k0 e D r p := by
  intro g hg x hx ho
  obtain ⟨y, d, h1, -, h3⟩ := h g hg
  rw [hx] at h1
  obtain rfl := Option.some.inj h1
  exact ⟨d, h3⟩

/-- The rounded central difference. -/
theorem difference {dn dp D : ℚ} (hn : |dn| ≤ D) (hp : |dp| ≤ D) (hD : D ≤ 2 ^ 100) :
    ∃ t, float32.add (float32.add (.fin 0) (float32.mul (.fin dn) (.fin (-1)))) (float32.mul (.fin dp) (.fin 1)) = .fin t ∧
      |t - (dp - dn)| ≤ D / 2 ^ 21 + 1 / 2 ^ 140 := by
  have hD0 : 0 ≤ D := le_trans (abs_nonneg _) hn
  have big : ∀ x : ℚ, |x| ≤ 8 * D + 1 → float32.rnd x = .fin (rnd32 x) := fun x hx => rnd_fin (by
    refine hx.trans ?_
    norm_num at *
    linarith)
  have s1 := rnd32_err (dn * -1)
  have n1 : |dn * -1| ≤ D := by rw [mul_neg_one, abs_neg]; exact hn
  have s2 := rnd32_err (0 + rnd32 (dn * -1))
  have s3 := rnd32_err (dp * 1)
  have n3 : |dp * 1| ≤ D := by rw [mul_one]; exact hp
  have s4 := rnd32_err (rnd32 (0 + rnd32 (dn * -1)) + rnd32 (dp * 1))
  rw [u_eq, eta_eq] at s1 s2 s3 s4
  have b1 : |rnd32 (dn * -1)| ≤ (1 + 1 / 2 ^ 24) * D + 1 / 2 ^ 150 := by
    have := abs_add_le (rnd32 (dn * -1) - dn * -1) (dn * -1)
    rw [sub_add_cancel] at this
    generalize |rnd32 (dn * -1) - dn * -1| = w at *
    generalize |rnd32 (dn * -1)| = w2 at *
    generalize |dn * -1| = w3 at *
    linarith
  have b2 : |rnd32 (0 + rnd32 (dn * -1))| ≤ (1 + 3 / 2 ^ 24) * D + 3 / 2 ^ 150 := by
    have := abs_add_le (rnd32 (0 + rnd32 (dn * -1)) - (0 + rnd32 (dn * -1))) (0 + rnd32 (dn * -1))
    rw [sub_add_cancel] at this
    rw [zero_add] at *
    generalize |rnd32 (rnd32 (dn * -1)) - rnd32 (dn * -1)| = w at *
    generalize |rnd32 (dn * -1)| = w2 at *
    generalize |rnd32 (rnd32 (dn * -1))| = w3 at *
    norm_num at *
    linarith
  have b3 : |rnd32 (dp * 1)| ≤ (1 + 1 / 2 ^ 24) * D + 1 / 2 ^ 150 := by
    have := abs_add_le (rnd32 (dp * 1) - dp * 1) (dp * 1)
    rw [sub_add_cancel] at this
    generalize |rnd32 (dp * 1) - dp * 1| = w at *
    generalize |rnd32 (dp * 1)| = w2 at *
    generalize |dp * 1| = w3 at *
    linarith
  have b4 : |rnd32 (0 + rnd32 (dn * -1)) + rnd32 (dp * 1)| ≤ (2 + 4 / 2 ^ 24) * D + 4 / 2 ^ 150 := by
    have := abs_add_le (rnd32 (0 + rnd32 (dn * -1))) (rnd32 (dp * 1))
    linarith
  refine ⟨rnd32 (rnd32 (0 + rnd32 (dn * -1)) + rnd32 (dp * 1)), ?_, ?_⟩
  · have e1 : float32.mul (.fin dn) (.fin (-1)) = .fin (rnd32 (dn * -1)) := big _ (by linarith)
    have e2 : float32.add (.fin 0) (.fin (rnd32 (dn * -1))) = .fin (rnd32 (0 + rnd32 (dn * -1))) := big _ (by
      rw [zero_add]
      refine b1.trans ?_
      norm_num at *
      linarith)
    have e3 : float32.mul (.fin dp) (.fin 1) = .fin (rnd32 (dp * 1)) := big _ (by linarith)
    rw [e1, e2, e3]
    exact big _ (b4.trans (by norm_num at *; linarith))
  · rw [zero_add] at *
    have c1 := abs_sub_le (rnd32 (rnd32 (rnd32 (dn * -1)) + rnd32 (dp * 1))) (rnd32 (rnd32 (dn * -1)) + rnd32 (dp * 1)) (dp - dn)
    have c2 : rnd32 (rnd32 (dn * -1)) + rnd32 (dp * 1) - (dp - dn) =
        (rnd32 (rnd32 (dn * -1)) - rnd32 (dn * -1)) + (rnd32 (dn * -1) - dn * -1) + (rnd32 (dp * 1) - dp * 1) := by ring
    have c3 := abs_add_le ((rnd32 (rnd32 (dn * -1)) - rnd32 (dn * -1)) + (rnd32 (dn * -1) - dn * -1)) (rnd32 (dp * 1) - dp * 1)
    have c4 := abs_add_le (rnd32 (rnd32 (dn * -1)) - rnd32 (dn * -1)) (rnd32 (dn * -1) - dn * -1)
    rw [← c2] at c3
    generalize |rnd32 (rnd32 (dn * -1)) - rnd32 (dn * -1) + (rnd32 (dn * -1) - dn * -1)| = w0 at *
    generalize |rnd32 (rnd32 (dn * -1)) + rnd32 (dp * 1) - (dp - dn)| = w1 at *
    generalize |rnd32 (rnd32 (rnd32 (dn * -1)) + rnd32 (dp * 1)) - (dp - dn)| = w2 at *
    generalize |rnd32 (rnd32 (rnd32 (dn * -1)) + rnd32 (dp * 1)) - (rnd32 (rnd32 (dn * -1)) + rnd32 (dp * 1))| = w3 at *
    generalize |rnd32 (rnd32 (dn * -1)) + rnd32 (dp * 1)| = w4 at *
    generalize |rnd32 (dp * 1) - dp * 1| = w5 at *
    generalize |rnd32 (rnd32 (dn * -1)) - rnd32 (dn * -1)| = w6 at *
    generalize |rnd32 (dn * -1) - dn * -1| = w7 at *
    generalize |rnd32 (dn * -1)| = w8 at *
    generalize |dn * -1| = w9 at *
    generalize |dp * 1| = w10 at *
    norm_num at *
    linarith

/-- Division of the difference by twice the voxel size. -/
theorem scaled {s t D T : ℚ} (hs : Size s) (ht : |t| ≤ D) (hD : D ≤ 2 ^ 30) :
    ∃ g, float32.div (.fin t) (.fin (rnd32 (2 * s))) = .fin g ∧ |g - T / (2 * s)| ≤ (|t - T| + D / 2 ^ 24) / (2 * s) + 1 / 2 ^ 150 := by
  have h0 := hs.pos
  have e2 : rnd32 (2 * s) = 2 * s := by
    have := blockSize_eq hs (k := 1) (by norm_num)
    unfold blockSize at this
    have r2 : rnd32 (((2 ^ 1 : ℕ) : ℚ)) = 2 := by decide +kernel
    rw [r2] at this
    rw [mul_comm 2 s, this]
    ring
  have hne : (2 * s) ≠ 0 := by positivity
  have hq : |t / (2 * s)| ≤ D / (2 * s) := by
    rw [abs_div, abs_of_pos (show 0 < 2 * s by linarith)]
    exact div_le_div_of_nonneg_right ht (by linarith)
  have hD0 : 0 ≤ D := le_trans (abs_nonneg _) ht
  have hbig : |t / (2 * s)| ≤ 2 ^ 127 := by
    refine hq.trans ?_
    rw [div_le_iff₀ (by linarith)]
    have := hs.low
    refine hD.trans ?_
    have m := mul_le_mul_of_nonneg_left this (show (0 : ℚ) ≤ 2 ^ 127 * 2 by positivity)
    refine le_trans ?_ (le_trans m (le_of_eq (by ring)))
    norm_num
  refine ⟨rnd32 (t / (2 * s)), ?_, ?_⟩
  · rw [e2]
    show (if 2 * s = 0 then _ else float32.rnd (t / (2 * s))) = _
    rw [if_neg hne]
    exact rnd_fin hbig
  · have h1 := rnd32_err (t / (2 * s))
    rw [u_eq, eta_eq] at h1
    have h2 := abs_sub_le (rnd32 (t / (2 * s))) (t / (2 * s)) (T / (2 * s))
    have h3 : |t / (2 * s) - T / (2 * s)| = |t - T| / (2 * s) := by
      rw [← sub_div, abs_div, abs_of_pos (show 0 < 2 * s by linarith)]
    have h4 : (|t - T| + D / 2 ^ 24) / (2 * s) = |t - T| / (2 * s) + 1 / 2 ^ 24 * (D / (2 * s)) := by ring
    rw [h4]
    have h5 := mul_le_mul_of_nonneg_left hq (show (0 : ℚ) ≤ 1 / 2 ^ 24 by positivity)
    linarith

theorem rnd_sign {s : ℚ} (hs : Size s) {sign : ℚ} (h : sign = 1 ∨ sign = -1) : rnd32 (sign * s) = sign * s := by
  rcases h with rfl | rfl
  · rw [one_mul, hs.float]
  · have := rne_neg (p := 24) (qmin := -149) s
    have h2 : rne 24 (-149) s = s := hs.float
    rw [h2] at this
    rw [neg_one_mul]
    exact this

/-- The coordinates of a shifted position, in voxels. -/
theorem shifted_near {s : ℚ} (hs : Size s) {pos : Pt} {X : ℚ} (hX : WithinVoxels s X pos) (i : Fin 3) {sign : ℚ} (h : sign = 1 ∨ sign = -1) :
    Vec3.All₂ (fun q p => |q / s - p / s| ≤ (X + 2) / 2 ^ 24) (shifted pos i (rnd32 (sign * s))) (pos + Interp.axisOffset i (sign * s)) ∧
      Vec3.All₂ (fun q p => |q / s - p / s| ≤ 1) (pos + Interp.axisOffset i (sign * s)) pos := by
  have h0 := hs.pos
  have hX0 : 0 ≤ X := le_trans (abs_nonneg _) hX.1
  rw [rnd_sign hs h]
  have hsg : |sign| = 1 := by rcases h with rfl | rfl <;> norm_num
  have one : ∀ p o : ℚ, |p / s| ≤ X → |o / s| ≤ 1 → |rnd32 (p + o) / s - (p + o) / s| ≤ (X + 2) / 2 ^ 24 := by
    intro p o hp ho
    have e := rnd32_err (p + o)
    rw [u_eq, eta_eq] at e
    rw [← sub_div, abs_div, abs_of_pos h0, div_le_iff₀ h0]
    rw [abs_div, abs_of_pos h0, div_le_iff₀ h0] at hp ho
    have t := abs_add_le p o
    have l := hs.low
    generalize |rnd32 (p + o) - (p + o)| = w at *
    generalize |p + o| = w2 at *
    have : w2 ≤ (X + 1) * s := by linarith
    have e2 : (X + 2) / 2 ^ 24 * s = 1 / 2 ^ 24 * ((X + 1) * s) + 1 / 2 ^ 24 * s := by ring
    rw [e2]
    generalize (X + 1) * s = w3 at *
    norm_num at *
    linarith
  have z : |(0 : ℚ) / s| ≤ 1 := by norm_num
  have y : |sign * s / s| ≤ 1 := by rw [mul_div_assoc, div_self h0.ne', mul_one, hsg]
  have dz : ∀ p : ℚ, |(p + 0) / s - p / s| ≤ 1 := fun p => by norm_num
  have dy : ∀ p : ℚ, |(p + sign * s) / s - p / s| ≤ 1 := fun p => by
    have : (p + sign * s) / s - p / s = sign * s / s := by ring
    rw [this]
    exact y
  fin_cases i
  · exact ⟨⟨one _ _ hX.1 y, one _ _ hX.2.1 z, one _ _ hX.2.2 z⟩, dy _, dz _, dz _⟩
  · exact ⟨⟨one _ _ hX.1 z, one _ _ hX.2.1 y, one _ _ hX.2.2 z⟩, dz _, dy _, dz _⟩
  · exact ⟨⟨one _ _ hX.1 z, one _ _ hX.2.1 z, one _ _ hX.2.2 y⟩, dz _, dz _, dy _⟩

theorem affine_move (a : Pt) (k : ℚ) {s w : ℚ} (h0 : 0 < s) {p q : Pt} (h : Vec3.All₂ (fun q p => |q / s - p / s| ≤ w) q p) :
    |affine a k q - affine a k p| ≤ sumAbs a * s * w := by
  have one : ∀ b x y : ℚ, |x / s - y / s| ≤ w → |b * (x - y)| ≤ |b| * (s * w) := by
    intro b x y hxy
    rw [← sub_div, abs_div, abs_of_pos h0, div_le_iff₀ h0] at hxy
    rw [abs_mul, mul_comm s w]
    exact mul_le_mul_of_nonneg_left hxy (abs_nonneg b)
  have e : affine a k q - affine a k p = a.x * (q.x - p.x) + a.y * (q.y - p.y) + a.z * (q.z - p.z) := by
    simp only [affine]
    ring
  rw [e]
  have e2 : sumAbs a * s * w = |a.x| * (s * w) + |a.y| * (s * w) + |a.z| * (s * w) := by
    simp only [sumAbs]
    ring
  rw [e2]
  refine (abs_add_le _ _).trans (add_le_add ((abs_add_le _ _).trans (add_le_add ?_ ?_)) ?_)
  · exact one _ _ _ h.1
  · exact one _ _ _ h.2.1
  · exact one _ _ _ h.2.2

theorem within_shift {s : ℚ} (hs : Size s) {pos : Pt} {X : ℚ} (hX : WithinVoxels s X pos) (hX2 : X ≤ 2 ^ 18) (i : Fin 3) {sign : ℚ}
    (hsg : sign = 1 ∨ sign = -1) : WithinVoxels s (X + 2) (shifted pos i (rnd32 (sign * s))) := by
  obtain ⟨n1, n2⟩ := shifted_near hs hX i hsg
  have hX0 : 0 ≤ X := le_trans (abs_nonneg _) hX.1
  have wsmall : (X + 2) / 2 ^ 24 ≤ (1 / 16 : ℚ) := by
    clear n1 n2
    norm_num at *
    linarith
  have one : ∀ x y z : ℚ, |z| ≤ X → |x - y| ≤ (X + 2) / 2 ^ 24 → |y - z| ≤ 1 → |x| ≤ X + 2 := by
    intro x y z h1 h2 h3
    rw [abs_le] at *
    constructor <;> linarith [h1.1, h1.2, h2.1, h2.2, h3.1, h3.2]
  exact ⟨one _ _ _ hX.1 n1.1 n2.1, one _ _ _ hX.2.1 n1.2.1 n2.2.1, one _ _ _ hX.2.2 n1.2.2 n2.2.2⟩

theorem around_shift {s : ℚ} (hs : Size s) {pos : Pt} {X : ℚ} (hX : WithinVoxels s X pos) (hX2 : X ≤ 2 ^ 17) (i : Fin 3) {sign : ℚ}
    (hsg : sign = 1 ∨ sign = -1) {g : Idx} (hg : Around s (9 / 8) (shifted pos i (rnd32 (sign * s))) g) : Around s (9 / 4) pos g := by
  obtain ⟨n1, n2⟩ := shifted_near hs hX i hsg
  have hX0 : 0 ≤ X := le_trans (abs_nonneg _) hX.1
  have wsmall : (X + 2) / 2 ^ 24 ≤ (1 / 16 : ℚ) := by
    clear n1 n2
    norm_num at *
    linarith
  have one : ∀ x y z c : ℚ, |x - c| ≤ 9 / 8 → |x - y| ≤ (X + 2) / 2 ^ 24 → |y - z| ≤ 1 → |z - c| ≤ 9 / 4 := by
    intro x y z c h1 h2 h3
    rw [abs_le] at *
    constructor <;> linarith [h1.1, h1.2, h2.1, h2.2, h3.1, h3.2]
  exact ⟨one _ _ _ _ hg.1 n1.1 n2.1, one _ _ _ _ hg.2.1 n1.2.1 n2.2.1, one _ _ _ _ hg.2.2 n1.2.2 n2.2.2⟩

/-- One sample of the gradient of a plane, where there is one. -/
theorem data_sample {l : VLayer V} (sh : Shaped l) (hs : Size l.cfg.voxelSize) (hS : l.cfg.voxelSize ≤ 2 ^ 80) {k : ℕ} (hk : k ≤ 10)
    (hn : l.cfg.vps = 2 ^ k) (A : Access V) {pos : Pt} {X : ℚ} (hX : WithinVoxels l.cfg.voxelSize X pos) (hX2 : X ≤ 2 ^ 17)
    {rows : ℕ → Order} {last : Order} (hrows : ∀ i < 8, Complete (rows i)) (hlast : Complete last) {a : Pt} {k0 e D : ℚ} (hD : D ≤ 2 ^ 100)
    (hp : PlaneData l A.obs A.sdf a k0 e D (9 / 4) pos) (i : Fin 3) {sign : ℚ} (hsg : sign = 1 ∨ sign = -1) (out : Fl) :
    getDistance rows last A l true (shifted pos i (rnd32 (sign * l.cfg.voxelSize))) out = .ok (false, out) ∨
    ∃ q, getDistance rows last A l true (shifted pos i (rnd32 (sign * l.cfg.voxelSize))) out = .ok (true, .fin q) ∧ |q| ≤ 2 * D + 1 / 2 ^ 140 ∧
      |q - (affine a k0 pos + sign * affine a 0 (Interp.axisOffset i l.cfg.voxelSize))| ≤
        D / 2 ^ 14 + (sumAbs a * l.cfg.voxelSize + 2 * e) * ((9 * X + 8 * 2 ^ k + 70) / 2 ^ 24) + 1 / 2 ^ 140 + 3 / 2 * e := by
  have h0 := hs.pos
  have hX0 : 0 ≤ X := le_trans (abs_nonneg _) hX.1
  obtain ⟨n1, n2⟩ := shifted_near hs hX i hsg
  have hX' := within_shift hs hX (hX2.trans (by norm_num)) i hsg
  have hp' : PlaneData l A.obs A.sdf a k0 e D (9 / 8) (shifted pos i (rnd32 (sign * l.cfg.voxelSize))) := fun g hg =>
    hp g (around_shift hs hX hX2 i hsg hg)
  rcases data_value sh hs hS hk hn A hX' (hX2 := by norm_num at *; linarith) hrows hlast hD hp' out with h | ⟨q, q1, he, q2, q3⟩
  · left
    exact h
  right
  refine ⟨q, q1, q2, ?_⟩
  have m := affine_move a k0 h0 n1
  have ex : affine a k0 (pos + Interp.axisOffset i (sign * l.cfg.voxelSize)) = affine a k0 pos + sign * affine a 0 (Interp.axisOffset i l.cfg.voxelSize) := by
    fin_cases i <;> simp only [affine, Interp.axisOffset, Vec3.add_x, Vec3.add_y, Vec3.add_z] <;> ring
  rw [ex] at m
  have t := abs_sub_le q (affine a k0 (shifted pos i (rnd32 (sign * l.cfg.voxelSize)))) (affine a k0 pos + sign * affine a 0 (Interp.axisOffset i l.cfg.voxelSize))
  have sp : 0 ≤ sumAbs a * l.cfg.voxelSize := by
    unfold sumAbs
    positivity
  have b1 : sumAbs a * l.cfg.voxelSize * ((X + 2) / 2 ^ 24) ≤ (sumAbs a * l.cfg.voxelSize + 2 * e) * ((X + 2) / 2 ^ 24) :=
    mul_le_mul_of_nonneg_right (by linarith) (by positivity)
  have b2 : (sumAbs a * l.cfg.voxelSize + 2 * e) * ((9 * X + 8 * 2 ^ k + 70) / 2 ^ 24) =
      4 * (sumAbs a * l.cfg.voxelSize + 2 * e) * ((2 * (X + 2) + 2 * 2 ^ k + 13) / 2 ^ 24) + (sumAbs a * l.cfg.voxelSize + 2 * e) * ((X + 2) / 2 ^ 24) := by
    ring
  rw [b2]
  linarith

/-- One sample of the gradient of a plane. -/
theorem plane_sample {l : VLayer V} (sh : Shaped l) (hs : Size l.cfg.voxelSize) (hS : l.cfg.voxelSize ≤ 2 ^ 80) {k : ℕ} (hk : k ≤ 10)
    (hn : l.cfg.vps = 2 ^ k) (A : Access V) {pos : Pt} {X : ℚ} (hX : WithinVoxels l.cfg.voxelSize X pos) (hX2 : X ≤ 2 ^ 17)
    {rows : ℕ → Order} {last : Order} (hrows : ∀ i < 8, Complete (rows i)) (hlast : Complete last) {a : Pt} {k0 e D : ℚ} (hD : D ≤ 2 ^ 100)
    (hp : PlaneAround l A.obs A.sdf a k0 e D (9 / 4) pos) (i : Fin 3) {sign : ℚ} (hsg : sign = 1 ∨ sign = -1) (out : Fl) :
    ∃ q, getDistance rows last A l true (shifted pos i (rnd32 (sign * l.cfg.voxelSize))) out = .ok (true, .fin q) ∧ |q| ≤ 2 * D + 1 / 2 ^ 140 ∧
      |q - (affine a k0 pos + sign * affine a 0 (Interp.axisOffset i l.cfg.voxelSize))| ≤
        D / 2 ^ 14 + (sumAbs a * l.cfg.voxelSize + 2 * e) * ((9 * X + 8 * 2 ^ k + 70) / 2 ^ 24) + 1 / 2 ^ 140 + 3 / 2 * e := by
  rcases data_sample sh hs hS hk hn A hX hX2 hrows hlast hD (around_data hp) i hsg out with h | h
  · obtain ⟨v, hv⟩ := plane_success sh hs hS hk hn A (within_shift hs hX (hX2.trans (by norm_num)) i hsg) (by norm_num at *; linarith) rows last
      (fun g hg => hp g (around_shift hs hX hX2 i hsg hg)) out
    have h' : getInterpDistance rows last A l (shifted pos i (rnd32 (sign * l.cfg.voxelSize))) out = .ok (false, out) := h
    rw [hv] at h'
    cases h'
  · exact h

/-- One axis of the gradient of a plane, from its samples. -/
theorem axis_of_samples {l : VLayer V} (hs : Size l.cfg.voxelSize) {A : Access V} {pos : Pt} {rows : ℕ → Order} {last : Order} {a : Pt} {k0 e D B : ℚ}
    (hD : D ≤ 2 ^ 27) {i : Fin 3} {dn dp : ℚ}
    (n1 : getDistance rows last A l true (shifted pos i (rnd32 (-1 * l.cfg.voxelSize))) (.fin 0) = .ok (true, .fin dn))
    (n2 : |dn| ≤ 2 * D + 1 / 2 ^ 140)
    (n3 : |dn - (affine a k0 pos + -1 * affine a 0 (Interp.axisOffset i l.cfg.voxelSize))| ≤ D / 2 ^ 14 + B + 1 / 2 ^ 140 + 3 / 2 * e)
    (p1 : getDistance rows last A l true (shifted pos i (rnd32 (1 * l.cfg.voxelSize))) (.fin 0) = .ok (true, .fin dp))
    (p2 : |dp| ≤ 2 * D + 1 / 2 ^ 140)
    (p3 : |dp - (affine a k0 pos + 1 * affine a 0 (Interp.axisOffset i l.cfg.voxelSize))| ≤ D / 2 ^ 14 + B + 1 / 2 ^ 140 + 3 / 2 * e) :
    ∃ t g, gradAxis rows last A l true pos i = .ok (true, .fin t) ∧ float32.div (.fin t) (.fin (rnd32 (2 * l.cfg.voxelSize))) = .fin g ∧
      |g - affine a 0 (Interp.axisOffset i 1)| ≤ (D / 2 ^ 13 + B + 3 / 2 * e + 1 / 2 ^ 130) / l.cfg.voxelSize + 1 / 2 ^ 140 := by
  have h0 := hs.pos
  have hD0 : 0 ≤ 2 * D + 1 / 2 ^ 140 := le_trans (abs_nonneg _) n2
  obtain ⟨t, t1, t2⟩ := difference n2 p2 (by clear n3 p3; norm_num at *; linarith)
  have ht : |t| ≤ 5 * D + 1 / 2 ^ 130 := by
    rw [abs_le] at n2 p2 t2
    rw [abs_le]
    clear n3 p3
    norm_num at *
    constructor <;> linarith [n2.1, n2.2, p2.1, p2.2, t2.1, t2.2]
  obtain ⟨g, g1, g2⟩ := scaled (T := 2 * affine a 0 (Interp.axisOffset i l.cfg.voxelSize)) hs ht (by norm_num at *; linarith)
  have ex : 2 * affine a 0 (Interp.axisOffset i l.cfg.voxelSize) / (2 * l.cfg.voxelSize) = affine a 0 (Interp.axisOffset i 1) := by
    fin_cases i <;> simp only [affine, Interp.axisOffset] <;> field_simp <;> ring
  rw [ex] at g2
  refine ⟨t, g, ?_, g1, g2.trans ?_⟩
  · have s1 : gradSample rows last A l true pos i (-1) (.fin 0) = .ok (some (float32.add (.fin 0) (float32.mul (.fin dn) (.fin (-1))))) := by
      unfold gradSample
      rw [n1]
      rfl
    have s2 : ∀ acc, gradSample rows last A l true pos i 1 acc = .ok (some (float32.add acc (float32.mul (.fin dp) (.fin 1)))) := by
      intro acc
      unfold gradSample
      rw [p1]
      rfl
    unfold gradAxis
    rw [s1, Outcome.bind_ok]
    simp only [s2, Outcome.bind_ok]
    rw [t1]
    rfl
  · generalize affine a 0 (Interp.axisOffset i l.cfg.voxelSize) = T at *
    generalize affine a k0 pos = P at *
    have h3 : |t - 2 * T| ≤ (2 * D + 1 / 2 ^ 140) / 2 ^ 21 + 1 / 2 ^ 140 + 2 * (D / 2 ^ 14 + B + 1 / 2 ^ 140 + 3 / 2 * e) := by
      rw [abs_le] at t2 n3 p3
      rw [abs_le]
      constructor <;> linarith [t2.1, t2.2, n3.1, n3.2, p3.1, p3.2]
    have h4 : (|t - 2 * T| + (5 * D + 1 / 2 ^ 130) / 2 ^ 24) / (2 * l.cfg.voxelSize) =
        ((|t - 2 * T| + (5 * D + 1 / 2 ^ 130) / 2 ^ 24) / 2) / l.cfg.voxelSize := by
      rw [div_div]
    rw [h4]
    refine add_le_add (div_le_div_of_nonneg_right ?_ h0.le) (by norm_num)
    generalize |t - 2 * T| = w at *
    clear n3 p3 g2 t2 ht n2 p2
    have hD1 : -(1 / 2 ^ 141) ≤ D := by
      norm_num at *
      linarith
    norm_num at *
    linarith

/-- One axis of the gradient of a plane. -/
theorem plane_axis {l : VLayer V} (sh : Shaped l) (hs : Size l.cfg.voxelSize) (hS : l.cfg.voxelSize ≤ 2 ^ 80) {k : ℕ} (hk : k ≤ 10)
    (hn : l.cfg.vps = 2 ^ k) (A : Access V) {pos : Pt} {X : ℚ} (hX : WithinVoxels l.cfg.voxelSize X pos) (hX2 : X ≤ 2 ^ 17)
    {rows : ℕ → Order} {last : Order} (hrows : ∀ i < 8, Complete (rows i)) (hlast : Complete last) {a : Pt} {k0 e D : ℚ} (hD : D ≤ 2 ^ 27)
    (hp : PlaneAround l A.obs A.sdf a k0 e D (9 / 4) pos) (i : Fin 3) :
    ∃ t g, gradAxis rows last A l true pos i = .ok (true, .fin t) ∧ float32.div (.fin t) (.fin (rnd32 (2 * l.cfg.voxelSize))) = .fin g ∧
      |g - affine a 0 (Interp.axisOffset i 1)| ≤
        (D / 2 ^ 13 + (sumAbs a * l.cfg.voxelSize + 2 * e) * ((9 * X + 8 * 2 ^ k + 70) / 2 ^ 24) + 3 / 2 * e + 1 / 2 ^ 130) / l.cfg.voxelSize +
          1 / 2 ^ 140 := by
  obtain ⟨dn, n1, n2, n3⟩ := plane_sample sh hs hS hk hn A hX hX2 hrows hlast (hD.trans (by norm_num)) hp i (Or.inr rfl) (.fin 0)
  obtain ⟨dp, p1, p2, p3⟩ := plane_sample sh hs hS hk hn A hX hX2 hrows hlast (hD.trans (by norm_num)) hp i (Or.inl rfl) (.fin 0)
  exact axis_of_samples hs hD n1 n2 n3 p1 p2 p3

/-- One axis of the gradient of a plane, where there is one. -/
theorem data_axis {l : VLayer V} (sh : Shaped l) (hs : Size l.cfg.voxelSize) (hS : l.cfg.voxelSize ≤ 2 ^ 80) {k : ℕ} (hk : k ≤ 10)
    (hn : l.cfg.vps = 2 ^ k) (A : Access V) {pos : Pt} {X : ℚ} (hX : WithinVoxels l.cfg.voxelSize X pos) (hX2 : X ≤ 2 ^ 17)
    {rows : ℕ → Order} {last : Order} (hrows : ∀ i < 8, Complete (rows i)) (hlast : Complete last) {a : Pt} {k0 e D : ℚ} (hD : D ≤ 2 ^ 27)
    (hp : PlaneData l A.obs A.sdf a k0 e D (9 / 4) pos) (i : Fin 3) :
    (∃ t, gradAxis rows last A l true pos i = .ok (false, t)) ∨
    ∃ t g, gradAxis rows last A l true pos i = .ok (true, .fin t) ∧ float32.div (.fin t) (.fin (rnd32 (2 * l.cfg.voxelSize))) = .fin g ∧
      |g - affine a 0 (Interp.axisOffset i 1)| ≤
        (D / 2 ^ 13 + (sumAbs a * l.cfg.voxelSize + 2 * e) * ((9 * X + 8 * 2 ^ k + 70) / 2 ^ 24) + 3 / 2 * e + 1 / 2 ^ 130) / l.cfg.voxelSize +
          1 / 2 ^ 140 := by
  rcases data_sample sh hs hS hk hn A hX hX2 hrows hlast (hD.trans (by norm_num)) hp i (Or.inr rfl) (.fin 0) with h | ⟨dn, n1, n2, n3⟩
  · left
    refine ⟨.fin 0, ?_⟩
    unfold gradAxis gradSample
    rw [h]
    rfl
  · rcases data_sample sh hs hS hk hn A hX hX2 hrows hlast (hD.trans (by norm_num)) hp i (Or.inl rfl) (.fin 0) with h | ⟨dp, p1, p2, p3⟩
    · left
      refine ⟨float32.add (.fin 0) (float32.mul (.fin dn) (.fin (-1))), ?_⟩
      unfold gradAxis gradSample
      rw [n1]
      show (getDistance rows last A l true _ (.fin 0) >>= _) >>= _ = _
      rw [h]
      rfl
    · right
      exact axis_of_samples hs hD n1 n2 n3 p1 p2 p3

/-- A whole gradient from its axes. -/
theorem gradient_ok {rows : ℕ → Order} {last : Order} {A : Access V} {l : VLayer V} {interp : Bool} {pos : Pt} {out : Vec3 Fl} {bi : Idx}
    {b : Block ℚ V} (hbi : IndexF.blockIndex l.cfg.voxelSize l.cfg.vps pos = .ok bi) (hb : block? l bi = some b) {t : Fin 3 → Fl}
    (h : ∀ i, gradAxis rows last A l interp pos i = .ok (true, t i)) :
    getGradient rows last A l interp pos out = .ok (true, ⟨float32.div (t 0) (.fin (rnd32 (2 * l.cfg.voxelSize))),
      float32.div (t 1) (.fin (rnd32 (2 * l.cfg.voxelSize))), float32.div (t 2) (.fin (rnd32 (2 * l.cfg.voxelSize)))⟩) := by
  have ha : gradAxes rows last A l interp pos = .ok (true, ⟨t 0, t 1, t 2⟩) := by
    unfold gradAxes
    rw [h 0, Outcome.bind_ok]
    show (gradAxis rows last A l interp pos 1 >>= _) = _
    rw [h 1, Outcome.bind_ok]
    show (gradAxis rows last A l interp pos 2 >>= _) = _
    rw [h 2, Outcome.bind_ok]
    rfl
  unfold getGradient
  rw [hbi, Outcome.bind_ok]
  simp only [hb]
  rw [ha, Outcome.bind_ok]
  rfl

/-- A gradient with a failing axis. -/
theorem gradient_false {rows : ℕ → Order} {last : Order} {A : Access V} {l : VLayer V} {interp : Bool} {pos : Pt} (out : Vec3 Fl) {bi : Idx}
    (hbi : IndexF.blockIndex l.cfg.voxelSize l.cfg.vps pos = .ok bi) {t : Fin 3 → Bool × Fl}
    (h : ∀ i, gradAxis rows last A l interp pos i = .ok (t i)) (hf : ∃ i, (t i).1 = false) :
    ∃ v, getGradient rows last A l interp pos out = .ok (false, v) := by
  have ha : ∃ v, gradAxes rows last A l interp pos = .ok (false, v) := by
    unfold gradAxes
    rw [h 0, Outcome.bind_ok]
    cases h0 : t 0 with
    | mk b0 x0 =>
      cases b0 with
      | false => exact ⟨_, rfl⟩
      | true =>
        show ∃ v, (gradAxis rows last A l interp pos 1 >>= _) = .ok (false, v)
        rw [h 1, Outcome.bind_ok]
        cases h1 : t 1 with
        | mk b1 x1 =>
          cases b1 with
          | false => exact ⟨_, rfl⟩
          | true =>
            show ∃ v, (gradAxis rows last A l interp pos 2 >>= _) = .ok (false, v)
            rw [h 2, Outcome.bind_ok]
            have : (t 2).1 = false := by
              obtain ⟨i, hi⟩ := hf
              fin_cases i
              · have := hi; simp [h0] at this
              · have := hi; simp [h1] at this
              · exact hi
            exact ⟨_, by rw [this]; rfl⟩
  unfold getGradient
  rw [hbi, Outcome.bind_ok]
  cases hb : block? l bi with
  | none => exact ⟨out, rfl⟩
  | some b =>
    obtain ⟨v, hv⟩ := ha
    refine ⟨v, ?_⟩
    show (gradAxes rows last A l interp pos >>= _) = _
    rw [hv, Outcome.bind_ok]
    rfl

/-- The block of a position, from the voxel found there. -/
theorem block_of_content {l : VLayer V} {pos : Pt} {x : V} (h : voxelAtCoords l pos = .ok (some x)) :
    ∃ bi b, IndexF.blockIndex l.cfg.voxelSize l.cfg.vps pos = .ok bi ∧ block? l bi = some b := by
  unfold voxelAtCoords at h
  obtain ⟨bi, h1, h2⟩ := Outcome.bind_eq_ok.1 h
  refine ⟨bi, ?_⟩
  cases hb : block? l bi with
  | none => rw [hb] at h2; cases h2
  | some b => exact ⟨b, h1, rfl⟩

theorem no_block_of_content {l : VLayer V} {pos : Pt} (h : voxelAtCoords l pos = .ok none) :
    ∃ bi, IndexF.blockIndex l.cfg.voxelSize l.cfg.vps pos = .ok bi ∧ block? l bi = none := by
  unfold voxelAtCoords at h
  obtain ⟨bi, h1, h2⟩ := Outcome.bind_eq_ok.1 h
  refine ⟨bi, h1, ?_⟩
  cases hb : block? l bi with
  | none => rfl
  | some b =>
    rw [hb] at h2
    obtain ⟨v, -, h3⟩ := Outcome.bind_eq_ok.1 h2
    obtain ⟨x, -, h4⟩ := Outcome.bind_eq_ok.1 h3
    cases h4

/-- A position well inside a voxel is looked up there. -/
theorem inside_lookup {l : VLayer V} (sh : Shaped l) (hs : Size l.cfg.voxelSize) (hS : l.cfg.voxelSize ≤ 2 ^ 80) {k : ℕ} (hk : k ≤ 10)
    (hn : l.cfg.vps = 2 ^ k) {pos : Pt} {X T : ℚ} (hX : WithinVoxels l.cfg.voxelSize X pos) (hX2 : X ≤ 2 ^ 19) {g : Idx}
    (hT : lookupTol X (2 ^ k) < T) (hg : NearVoxel l.cfg.voxelSize (-T) g pos) : voxelAtCoords l pos = .ok (content l g) := by
  obtain ⟨g', h1, h2⟩ := nearest sh hs hS hk hn hX hX2
  have one : ∀ (c c' : ℤ) (q : ℚ), ((c : ℚ) - -T ≤ q ∧ q ≤ c + 1 + -T) → ((c' : ℚ) - lookupTol X (2 ^ k) ≤ q ∧ q ≤ c' + 1 + lookupTol X (2 ^ k)) → c' = c := by
    rintro c c' q ⟨a1, a2⟩ ⟨b1, b2⟩
    have e1 : (c' : ℚ) < c + 1 := by linarith
    have e2 : (c : ℚ) < c' + 1 := by linarith
    have f1 : c' < c + 1 := by exact_mod_cast e1
    have f2 : c < c' + 1 := by exact_mod_cast e2
    omega
  have : g' = g := Vec3.ext (one _ _ _ hg.1 h1.1) (one _ _ _ hg.2.1 h1.2.1) (one _ _ _ hg.2.2 h1.2.2)
  rw [h2, this]

/-- The nearest-neighbour samples of the gradient, well inside a voxel. -/
theorem inside_sample {l : VLayer V} (sh : Shaped l) (hs : Size l.cfg.voxelSize) (hS : l.cfg.voxelSize ≤ 2 ^ 80) {k : ℕ} (hk : k ≤ 10)
    (hn : l.cfg.vps = 2 ^ k) {pos : Pt} {X T : ℚ} (hX : WithinVoxels l.cfg.voxelSize X pos) (hX2 : X ≤ 2 ^ 18) {g : Idx}
    (hT : lookupTol (X + 2) (2 ^ k) + (X + 2) / 2 ^ 24 < T) (hg : NearVoxel l.cfg.voxelSize (-T) g pos) (i : Fin 3) {n : ℤ} (h : n = 1 ∨ n = -1) :
    voxelAtCoords l (shifted pos i (rnd32 (n * l.cfg.voxelSize))) = .ok (content l (g + ⟨n * (axisStep i).x, n * (axisStep i).y, n * (axisStep i).z⟩)) := by
  have h0 := hs.pos
  have hsg : (n : ℚ) = 1 ∨ (n : ℚ) = -1 := by rcases h with rfl | rfl <;> norm_num
  obtain ⟨n1, n2⟩ := shifted_near hs hX i hsg
  have hX0 : 0 ≤ X := le_trans (abs_nonneg _) hX.1
  have wsmall : (X + 2) / 2 ^ 24 ≤ (1 / 16 : ℚ) := by
    clear hT
    norm_num at *
    linarith
  have hX' : WithinVoxels l.cfg.voxelSize (X + 2) (shifted pos i (rnd32 (n * l.cfg.voxelSize))) := by
    have one : ∀ x y z : ℚ, |z| ≤ X → |x - y| ≤ (X + 2) / 2 ^ 24 → |y - z| ≤ 1 → |x| ≤ X + 2 := by
      intro x y z h1 h2 h3
      rw [abs_le] at *
      constructor <;> linarith [h1.1, h1.2, h2.1, h2.2, h3.1, h3.2]
    exact ⟨one _ _ _ hX.1 n1.1 n2.1, one _ _ _ hX.2.1 n1.2.1 n2.2.1, one _ _ _ hX.2.2 n1.2.2 n2.2.2⟩
  refine inside_lookup sh hs hS hk hn hX' (by clear hT; norm_num at *; linarith) (T := T - (X + 2) / 2 ^ 24) (by linarith) ?_
  generalize shifted pos i (rnd32 (n * l.cfg.voxelSize)) = p' at *
  have base : NearVoxel l.cfg.voxelSize (-T) (g + ⟨n * (axisStep i).x, n * (axisStep i).y, n * (axisStep i).z⟩) (pos + Interp.axisOffset i (n * l.cfg.voxelSize)) := by
    have z : ∀ (c : ℤ) (q : ℚ), ((c : ℚ) - -T ≤ q / l.cfg.voxelSize ∧ q / l.cfg.voxelSize ≤ c + 1 + -T) →
        (((c + n * 0 : ℤ) : ℚ) - -T ≤ (q + 0) / l.cfg.voxelSize ∧ (q + 0) / l.cfg.voxelSize ≤ ((c + n * 0 : ℤ) : ℚ) + 1 + -T) := by
      intro c q hq
      rw [mul_zero, add_zero, add_zero]
      exact hq
    have y : ∀ (c : ℤ) (q : ℚ), ((c : ℚ) - -T ≤ q / l.cfg.voxelSize ∧ q / l.cfg.voxelSize ≤ c + 1 + -T) →
        (((c + n * 1 : ℤ) : ℚ) - -T ≤ (q + n * l.cfg.voxelSize) / l.cfg.voxelSize ∧ (q + n * l.cfg.voxelSize) / l.cfg.voxelSize ≤ ((c + n * 1 : ℤ) : ℚ) + 1 + -T) := by
      intro c q hq
      rw [add_div, mul_div_assoc, div_self h0.ne', mul_one, mul_one]
      push_cast
      constructor <;> linarith [hq.1, hq.2]
    fin_cases i
    · exact ⟨y _ _ hg.1, z _ _ hg.2.1, z _ _ hg.2.2⟩
    · exact ⟨z _ _ hg.1, y _ _ hg.2.1, z _ _ hg.2.2⟩
    · exact ⟨z _ _ hg.1, z _ _ hg.2.1, y _ _ hg.2.2⟩
  have fin : ∀ (c x y : ℚ), (c - -T ≤ y ∧ y ≤ c + 1 + -T) → |x - y| ≤ (X + 2) / 2 ^ 24 →
      (c - -(T - (X + 2) / 2 ^ 24) ≤ x ∧ x ≤ c + 1 + -(T - (X + 2) / 2 ^ 24)) := by
    rintro c x y ⟨a1, a2⟩ hxy
    rw [abs_le] at hxy
    constructor <;> linarith [hxy.1, hxy.2]
  exact ⟨fin _ _ _ base.1 n1.1, fin _ _ _ base.2.1 n1.2.1, fin _ _ _ base.2.2 n1.2.2⟩

/-- A sample in terms of the reading. -/
theorem sample_reading {rows : ℕ → Order} {last : Order} {A : Access V} {l : VLayer V} {pos : Pt} {i : Fin 3} {n : ℚ} {g : Idx}
    (h : voxelAtCoords l (shifted pos i (rnd32 (n * l.cfg.voxelSize))) = .ok (content l g)) (acc : Fl) :
    gradSample rows last A l false pos i n acc = .ok ((reading l A.obs A.sdf g).map fun d => float32.add acc (float32.mul d (.fin n))) := by
  unfold gradSample getDistance getNearestDistance reading
  simp only [Bool.false_eq_true, if_false]
  rw [h]
  cases content l g with
  | none => rfl
  | some x => cases ho : A.obs x <;> simp [Outcome.bind_ok, ho, Outcome.pure_eq]

end Vox.InterpF
