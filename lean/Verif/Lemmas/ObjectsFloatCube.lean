/-
Error bounds for distances to simulated boxes.
-/
import Verif.Lemmas.ObjectsFloat
import Verif.Lemmas.Cube

namespace Vox.SimF

open Ieee Spec ObjSpec
open IndexF (u eta rnd32_err)
open RoundErr (u_eq eta_eq dot_err cast_err rnd_fin rnd32_le rnd32_nonneg)

theorem stdMax_fin (a b : ℚ) : Fl.stdMax (.fin a) (.fin b) = .fin (max a b) := by
  simp only [Fl.stdMax, Fl.lt, decide_eq_true_eq]
  split_ifs with h
  · rw [max_eq_right h.le]
  · rw [max_eq_left (not_lt.mp h)]

/-- The two sides of an axis. -/
theorem sides_near {c s p M : ℚ} (hM : 1 ≤ M) (hM' : M ≤ 2 ^ 30) (hc : |c| ≤ M) (hs : |s| ≤ M) (hp : |p| ≤ M) :
    ∃ l h : ℚ, below (.fin c) (.fin s) (.fin p) = .fin l ∧ above (.fin c) (.fin s) (.fin p) = .fin h ∧
      |l - (c - s / 2 - p)| ≤ 21 / 10 * u * M ∧ |h - (p - c - s / 2)| ≤ 21 / 10 * u * M := by
  have k : ∀ j : ℚ, 1 ≤ j → j ≤ 4 → 1 / 2 ^ 200 ≤ j * M ∧ j * M ≤ 2 ^ 250 := by
    intro j h1 h4
    constructor
    · have : 1 * 1 ≤ j * M := mul_le_mul h1 hM (by norm_num) (by linarith)
      refine le_trans ?_ this
      norm_num
    · refine le_trans (mul_le_mul h4 hM' (by linarith) (by norm_num)) (by norm_num)
  have he : Timing.eps = 1 / 2 ^ 53 := rfl
  obtain ⟨c1, c2⟩ := abs_le.1 hc
  obtain ⟨s1, s2⟩ := abs_le.1 hs
  obtain ⟨p1, p2⟩ := abs_le.1 hp
  obtain ⟨t, ht, et⟩ := Timing.div64 (a := s) (b := 2) (B := 1 * M) (by norm_num) (k 1 le_rfl (by norm_num)).1 (k 1 le_rfl (by norm_num)).2
    (by rw [abs_le]; constructor <;> linarith)
  rw [he] at et
  obtain ⟨t1, t2⟩ := abs_le.1 et
  obtain ⟨a, ha, ea⟩ := Timing.sub64 (a := c) (b := t) (B := 2 * M) (k 2 (by norm_num) (by norm_num)).1 (k 2 (by norm_num) (by norm_num)).2
    (by rw [abs_le]; constructor <;> linarith)
  rw [he] at ea
  obtain ⟨a1, a2⟩ := abs_le.1 ea
  obtain ⟨l, hl, el⟩ := Timing.sub64 (a := a) (b := p) (B := 3 * M) (k 3 (by norm_num) (by norm_num)).1 (k 3 (by norm_num) (by norm_num)).2
    (by rw [abs_le]; constructor <;> linarith)
  rw [he] at el
  obtain ⟨l1, l2⟩ := abs_le.1 el
  have hpc : |p - c| ≤ 2 * M := by rw [abs_le]; constructor <;> linarith
  have ef := rnd32_err (p - c)
  have hf : float32.sub (.fin p) (.fin c) = .fin (rnd32 (p - c)) := by
    simp only [Arith.sub, Fl.neg, Arith.add, ← sub_eq_add_neg]
    refine rnd_fin (hpc.trans ?_)
    linarith
  rw [u_eq, eta_eq] at ef
  generalize rnd32 (p - c) = f at *
  have ef' : |f - (p - c)| ≤ 1 / 2 ^ 24 * (2 * M) + 1 / 2 ^ 150 := by linarith
  obtain ⟨f1, f2⟩ := abs_le.1 ef'
  obtain ⟨h, hh, eh⟩ := Timing.sub64 (a := f) (b := t) (B := 3 * M) (k 3 (by norm_num) (by norm_num)).1 (k 3 (by norm_num) (by norm_num)).2
    (by rw [abs_le]; constructor <;> linarith)
  rw [he] at eh
  obtain ⟨h1, h2⟩ := abs_le.1 eh
  refine ⟨l, h, ?_, ?_, ?_, ?_⟩
  · simp only [below, half, ht, ha, hl]
  · simp only [above, half, hf, ht, hh]
  · rw [u_eq, abs_le]; constructor <;> linarith
  · rw [u_eq, abs_le]; constructor <;> linarith

/-- The stored components of an axis: the distance to the nearer face, and the same cut off at zero. -/
theorem axis_near {c s p M : ℚ} (hM : 1 ≤ M) (hM' : M ≤ 2 ^ 30) (hc : |c| ≤ M) (hs : |s| ≤ M) (hs0 : 0 < s) (hp : |p| ≤ M) :
    ∃ F O : ℚ, faceDistance (.fin c) (.fin s) (.fin p) = .fin F ∧ outsideBy (.fin c) (.fin s) (.fin p) = .fin O ∧
      |F - (|p - c| - s / 2)| ≤ 6 * u * M ∧ |O - max (|p - c| - s / 2) 0| ≤ 6 * u * M ∧ (O = 0 ∨ O = F) ∧ 0 ≤ O ∧ O ≤ 4 * M := by
  obtain ⟨l, h, hl, hh, el, eh⟩ := sides_near hM hM' hc hs hp
  have e1 : max (c - s / 2 - p) (p - c - s / 2) = |p - c| - s / 2 := Sim.face_eq c s p
  have em : |max l h - (|p - c| - s / 2)| ≤ 21 / 10 * u * M := by
    rw [← e1]
    exact (abs_max_sub_max_le_max _ _ _ _).trans (max_le el eh)
  have eo : |max (max l h) 0 - max (|p - c| - s / 2) 0| ≤ 21 / 10 * u * M := by
    refine (abs_max_sub_max_le_max _ _ _ _).trans (max_le em ?_)
    rw [sub_self, abs_zero]
    rw [u_eq]
    positivity
  have hpc : |p - c| ≤ 2 * M := by have := RoundErr.abs_sub_le_of hp hc; linarith
  have hpc0 := abs_nonneg (p - c)
  have hb : |(|p - c| - s / 2)| ≤ 2 * M := by
    have := (abs_le.1 hs).2
    rw [abs_le]; constructor <;> linarith
  have hm : |max l h| ≤ 3 * M := by
    obtain ⟨b1, b2⟩ := abs_le.1 hb
    obtain ⟨m1, m2⟩ := abs_le.1 em
    rw [u_eq] at m1 m2
    rw [abs_le]; constructor <;> linarith
  have ho0 : 0 ≤ max (max l h) 0 := le_max_right _ _
  have ho : |max (max l h) 0| ≤ 3 * M := by
    rw [abs_of_nonneg ho0]
    exact max_le ((le_abs_self _).trans hm) (by linarith)
  have w : (3 : ℚ) * M ≤ 2 ^ 127 := by linarith
  have emax : max (max l 0) h = max (max l h) 0 := max_right_comm l 0 h
  refine ⟨rnd32 (max l h), rnd32 (max (max l h) 0), ?_, ?_, ?_, ?_, ?_, rnd32_nonneg ho0, ?_⟩
  · simp only [faceDistance, hl, hh, stdMax_fin, MeshMsg.toFloat, rnd_fin (hm.trans w)]
  · simp only [outsideBy, hl, hh, stdMax_fin, MeshMsg.toFloat, emax, rnd_fin (ho.trans w)]
  · have er := rnd32_err (max l h)
    rw [u_eq, eta_eq] at *
    have er' : |rnd32 (max l h) - max l h| ≤ 1 / 2 ^ 24 * (3 * M) + 1 / 2 ^ 150 := by linarith
    obtain ⟨a1, a2⟩ := abs_le.1 er'
    obtain ⟨m1, m2⟩ := abs_le.1 em
    rw [abs_le]; constructor <;> linarith
  · have er := rnd32_err (max (max l h) 0)
    rw [u_eq, eta_eq] at *
    have er' : |rnd32 (max (max l h) 0) - max (max l h) 0| ≤ 1 / 2 ^ 24 * (3 * M) + 1 / 2 ^ 150 := by linarith
    obtain ⟨a1, a2⟩ := abs_le.1 er'
    obtain ⟨m1, m2⟩ := abs_le.1 eo
    rw [abs_le]; constructor <;> linarith
  · rcases le_total (max l h) 0 with h0 | h0
    · left
      rw [max_eq_right h0]
      exact rne_zero
    · right
      rw [max_eq_left h0]
  · have er := (le_abs_self _).trans (rnd32_le (x := max (max l h) 0))
    rw [u_eq, eta_eq] at er
    linarith

/-- The exact signed distance of the box. -/
noncomputable def boxDistance (c s p : Vec3 ℝ) : ℝ :=
  if Sim.excess Real.sqrt c s p = 0 then
    max (max (Sim.faceDistance c.x s.x p.x) (Sim.faceDistance c.y s.y p.y)) (Sim.faceDistance c.z s.z p.z)
  else Sim.excess Real.sqrt c s p

theorem isSqrt_real : IsSqrt Real.sqrt := fun x hx => ⟨Real.sqrt_nonneg x, Real.mul_self_sqrt hx⟩

theorem solid_iff_excess (c s p : Vec3 ℝ) : Solid (.cube c s) p ↔ Sim.excess Real.sqrt c s p = 0 := by
  constructor
  · exact fun h => Sim.excess_zero isSqrt_real h
  · intro h
    rw [Sim.cube_solid_iff, ← h]
    exact Sim.face_le_excess isSqrt_real c s p

theorem box_signed {c s p : Vec3 ℝ} (hs : 0 < s.x ∧ 0 < s.y ∧ 0 < s.z) : SignedDistance (.cube c s) p (boxDistance c s p) := by
  have hx := Sim.excess_nonneg isSqrt_real c s p
  by_cases h : Solid (.cube c s) p
  · have e := (solid_iff_excess c s p).1 h
    have e2 : boxDistance c s p = Sim.cubeDistance Real.sqrt c s p := by
      rw [boxDistance, if_pos e, Sim.cube_eq, if_pos (by rw [e]; exact Sim.eps_pos)]
    rw [e2]
    exact ⟨Sim.cube_sign isSqrt_real c s p, Sim.cube_euclid_solid isSqrt_real hs h⟩
  · have e : Sim.excess Real.sqrt c s p ≠ 0 := fun e => h ((solid_iff_excess c s p).2 e)
    have hpos : 0 < Sim.excess Real.sqrt c s p := lt_of_le_of_ne hx (Ne.symm e)
    rw [boxDistance, if_neg e]
    refine ⟨⟨fun hi => ?_, fun hb => absurd hb.1 h, fun _ => hpos⟩, ?_⟩
    · exact absurd ⟨hi.1.le, hi.2.1.le, hi.2.2.le⟩ h
    · rw [abs_of_pos hpos]
      exact Sim.cube_euclid_outer isSqrt_real hs h

/-- The choice between the two branches, with all errors. -/
theorem branch_near {f1 f2 f3 F1 F2 F3 O1 O2 O3 d e M ε : ℝ} (hM : 1 ≤ M) (he : e = 6 * (1 / 2 ^ 24) * M)
    (hε : |ε - 1 / 1000000| ≤ 1 / 2 ^ 40)
    (a1 : |F1 - f1| ≤ e) (a2 : |F2 - f2| ≤ e) (a3 : |F3 - f3| ≤ e)
    (b1 : |O1 - max f1 0| ≤ e) (b2 : |O2 - max f2 0| ≤ e) (b3 : |O3 - max f3 0| ≤ e)
    (z1 : O1 = 0 ∨ O1 = F1) (z2 : O2 = 0 ∨ O2 = F2) (z3 : O3 = 0 ∨ O3 = F3)
    (n1 : 0 ≤ O1) (n2 : 0 ≤ O2) (n3 : 0 ≤ O3) (m1 : O1 ≤ 4 * M) (m2 : O2 ≤ 4 * M) (m3 : O3 ≤ 4 * M)
    (hd : |d - Real.sqrt (O1 ^ 2 + O2 ^ 2 + O3 ^ 2)| ≤ 4 * (1 / 2 ^ 24) * Real.sqrt (O1 ^ 2 + O2 ^ 2 + O3 ^ 2) + 1 / 2 ^ 52) :
    |(if d < ε then max (max F1 F2) F3 else d) -
      (if Real.sqrt (max f1 0 ^ 2 + max f2 0 ^ 2 + max f3 0 ^ 2) = 0 then max (max f1 f2) f3
        else Real.sqrt (max f1 0 ^ 2 + max f2 0 ^ 2 + max f3 0 ^ 2))| ≤ 1 / 1000000 + 1 / 2 ^ 18 * M := by
  have hF : |max (max F1 F2) F3 - max (max f1 f2) f3| ≤ e :=
    (abs_max_sub_max_le_max _ _ _ _).trans (max_le ((abs_max_sub_max_le_max _ _ _ _).trans (max_le a1 a2)) a3)
  have hL1 := norm_lipschitz (max f1 0) (max f2 0) (max f3 0) O1 O2 O3
  have hL2 := norm_lipschitz O1 O2 O3 (max f1 0) (max f2 0) (max f3 0)
  rw [abs_sub_comm _ O1, abs_sub_comm _ O2, abs_sub_comm _ O3] at hL2
  have hX'up : Real.sqrt (O1 ^ 2 + O2 ^ 2 + O3 ^ 2) ≤ 2 * (4 * M) :=
    norm_le_sum (by rwa [abs_of_nonneg n1]) (by rwa [abs_of_nonneg n2]) (by rwa [abs_of_nonneg n3])
  obtain ⟨k1, k2, k3⟩ := comp_le (max f1 0) (max f2 0) (max f3 0)
  have hX0 := Real.sqrt_nonneg (max f1 0 ^ 2 + max f2 0 ^ 2 + max f3 0 ^ 2)
  have hX'0 := Real.sqrt_nonneg (O1 ^ 2 + O2 ^ 2 + O3 ^ 2)
  have hzero : O1 = 0 → O2 = 0 → O3 = 0 → Real.sqrt (O1 ^ 2 + O2 ^ 2 + O3 ^ 2) = 0 := by
    rintro rfl rfl rfl
    norm_num
  have hfX : max (max f1 f2) f3 ≤ Real.sqrt (max f1 0 ^ 2 + max f2 0 ^ 2 + max f3 0 ^ 2) :=
    max_le (max_le ((le_max_left _ _).trans ((le_abs_self _).trans k1)) ((le_max_left _ _).trans ((le_abs_self _).trans k2)))
      ((le_max_left _ _).trans ((le_abs_self _).trans k3))
  have hpos : Real.sqrt (max f1 0 ^ 2 + max f2 0 ^ 2 + max f3 0 ^ 2) ≠ 0 → 0 < max (max f1 f2) f3 := by
    intro h
    by_contra hcon
    push Not at hcon
    have g1 : f1 ≤ 0 := ((le_max_left _ _).trans (le_max_left _ _)).trans hcon
    have g2 : f2 ≤ 0 := ((le_max_right _ _).trans (le_max_left _ _)).trans hcon
    have g3 : f3 ≤ 0 := (le_max_right _ _).trans hcon
    rw [max_eq_right g1, max_eq_right g2, max_eq_right g3] at h
    exact h (by norm_num)
  obtain ⟨F1', F2'⟩ := abs_le.1 hF
  obtain ⟨d1, d2⟩ := abs_le.1 hd
  obtain ⟨ε1, ε2⟩ := abs_le.1 hε
  have f1le : f1 ≤ max (max f1 f2) f3 := (le_max_left _ _).trans (le_max_left _ _)
  have f2le : f2 ≤ max (max f1 f2) f3 := (le_max_right _ _).trans (le_max_left _ _)
  have f3le : f3 ≤ max (max f1 f2) f3 := le_max_right _ _
  generalize Real.sqrt (O1 ^ 2 + O2 ^ 2 + O3 ^ 2) = X' at *
  generalize Real.sqrt (max f1 0 ^ 2 + max f2 0 ^ 2 + max f3 0 ^ 2) = X at *
  generalize max (max F1 F2) F3 = FM at *
  generalize max (max f1 f2) f3 = fm at *
  subst he
  split_ifs with hlt hz hz
  · rw [abs_le]; constructor <;> linarith
  · have := hpos hz
    rw [abs_le]; constructor <;> linarith
  · subst hz
    have hO : ∃ O F f, O = F ∧ 0 ≤ O ∧ |F - f| ≤ 6 * (1 / 2 ^ 24) * M ∧ f ≤ fm := by
      by_cases q1 : O1 = 0
      · by_cases q2 : O2 = 0
        · by_cases q3 : O3 = 0
          · have := hzero q1 q2 q3
            rw [this] at d2
            exact absurd (show d < ε by linarith) hlt
          · exact ⟨O3, F3, f3, z3.resolve_left q3, n3, a3, f3le⟩
        · exact ⟨O2, F2, f2, z2.resolve_left q2, n2, a2, f2le⟩
      · exact ⟨O1, F1, f1, z1.resolve_left q1, n1, a1, f1le⟩
    obtain ⟨O, F, f, rfl, hO0, hOf, hfm⟩ := hO
    have := (abs_le.1 hOf).2
    rw [abs_le]; constructor <;> linarith
  · rw [abs_le]; constructor <;> linarith

theorem eps_near : ∃ ε : ℚ, eps = .fin ε ∧ |(ε : ℝ) - 1 / 1000000| ≤ 1 / 2 ^ 40 := by
  refine ⟨_, rnd_fin (by rw [abs_of_pos (by norm_num)]; norm_num), ?_⟩
  have h := cast_err (rnd32_err (1 / 1000000))
  push_cast at h
  refine h.trans ?_
  rw [abs_of_pos (by norm_num)]
  norm_num

theorem cube_near (c s p : Vec3 ℚ) {M : ℚ} (hM : 1 ≤ M) (hM' : M ≤ 2 ^ 30) (hc : CoordsWithin M c) (hs : CoordsWithin M s)
    (hp : CoordsWithin M p) (hs0 : 0 < s.x ∧ 0 < s.y ∧ 0 < s.z) :
    ∃ q : ℚ, cube (c.map .fin) (s.map .fin) (p.map .fin) = .fin q ∧
      |(q : ℝ) - boxDistance (realPoint c) (realPoint s) (realPoint p)| ≤ 1 / 1000000 + 1 / 2 ^ 18 * M := by
  obtain ⟨F1, O1, hF1, hO1, a1, b1, z1, n1, m1⟩ := axis_near hM hM' hc.1 hs.1 hs0.1 hp.1
  obtain ⟨F2, O2, hF2, hO2, a2, b2, z2, n2, m2⟩ := axis_near hM hM' hc.2.1 hs.2.1 hs0.2.1 hp.2.1
  obtain ⟨F3, O3, hF3, hO3, a3, b3, z3, n3, m3⟩ := axis_near hM hM' hc.2.2 hs.2.2 hs0.2.2 hp.2.2
  have w : 4 * M ≤ 2 ^ 32 := by linarith
  obtain ⟨d, hd, hd0, ed⟩ := norm_near (x1 := O1) (x2 := O2) (x3 := O3) (by rw [abs_of_nonneg n1]; exact m1.trans w)
    (by rw [abs_of_nonneg n2]; exact m2.trans w) (by rw [abs_of_nonneg n3]; exact m3.trans w) (exact_le _) (exact_le _) (exact_le _)
  obtain ⟨ε, hε, eε⟩ := eps_near
  have hMR : (1 : ℝ) ≤ M := by exact_mod_cast hM
  have castF : ∀ {F f : ℚ}, |F - f| ≤ 6 * u * M → |(F : ℝ) - ((f : ℚ) : ℝ)| ≤ 6 * (1 / 2 ^ 24) * M := by
    intro F f h
    rw [u_eq] at h
    have h2 : ((|F - f| : ℚ) : ℝ) ≤ ((6 * (1 / 2 ^ 24) * M : ℚ) : ℝ) := Rat.cast_le.2 h
    push_cast at h2
    exact h2
  have key := branch_near (f1 := ((|p.x - c.x| - s.x / 2 : ℚ) : ℝ)) (f2 := ((|p.y - c.y| - s.y / 2 : ℚ) : ℝ)) (f3 := ((|p.z - c.z| - s.z / 2 : ℚ) : ℝ))
    (F1 := F1) (F2 := F2) (F3 := F3) (O1 := O1) (O2 := O2) (O3 := O3) (d := d) hMR rfl eε (castF a1) (castF a2) (castF a3)
    (by have := castF b1; push_cast at this ⊢; exact this) (by have := castF b2; push_cast at this ⊢; exact this)
    (by have := castF b3; push_cast at this ⊢; exact this) (by exact_mod_cast z1) (by exact_mod_cast z2) (by exact_mod_cast z3)
    (by exact_mod_cast n1) (by exact_mod_cast n2) (by exact_mod_cast n3) (by exact_mod_cast m1) (by exact_mod_cast m2)
    (by exact_mod_cast m3) ed
  have hbox : boxDistance (realPoint c) (realPoint s) (realPoint p) =
      (if Real.sqrt (max ((|p.x - c.x| - s.x / 2 : ℚ) : ℝ) 0 ^ 2 + max ((|p.y - c.y| - s.y / 2 : ℚ) : ℝ) 0 ^ 2 +
          max ((|p.z - c.z| - s.z / 2 : ℚ) : ℝ) 0 ^ 2) = 0
        then max (max ((|p.x - c.x| - s.x / 2 : ℚ) : ℝ) ((|p.y - c.y| - s.y / 2 : ℚ) : ℝ)) ((|p.z - c.z| - s.z / 2 : ℚ) : ℝ)
        else Real.sqrt (max ((|p.x - c.x| - s.x / 2 : ℚ) : ℝ) 0 ^ 2 + max ((|p.y - c.y| - s.y / 2 : ℚ) : ℝ) 0 ^ 2 +
          max ((|p.z - c.z| - s.z / 2 : ℚ) : ℝ) 0 ^ 2)) := by
    unfold boxDistance Sim.excess
    simp only [Sim.norm, Geo.sqNorm, Geo.dot, Sim.face_eq, Sim.outside_eq, realPoint]
    push_cast
    simp only [pow_two]
  refine ⟨if d < ε then max (max F1 F2) F3 else d, ?_, ?_⟩
  · simp only [cube, Vec3.map, hO1, hO2, hO3, hd, hF1, hF2, hF3, stdMax_fin, hε, Fl.lt, decide_eq_true_eq]
    split_ifs <;> rfl
  · rw [hbox]
    refine le_trans (le_of_eq ?_) key
    congr 2
    by_cases h : d < ε
    · have h' : (d : ℝ) < ε := by exact_mod_cast h
      rw [if_pos h, if_pos h']
      push_cast
      rfl
    · have h' : ¬ (d : ℝ) < ε := by exact_mod_cast h
      rw [if_neg h, if_neg h']

/-! ### The cylinder -/

/-- The limits of a cylinder as stored. -/
theorem limits_near {c h M : ℚ} (hM : 1 ≤ M) (hM' : M ≤ 2 ^ 30) (hc : |c| ≤ M) (hh : |h| ≤ M) :
    ∃ a b : ℚ, MeshMsg.toFloat (float64.sub (.fin c) (half (.fin h))) = .fin a ∧ MeshMsg.toFloat (float64.add (.fin c) (half (.fin h))) = .fin b ∧
      |a - (c - h / 2)| ≤ 4 * u * M ∧ |b - (c + h / 2)| ≤ 4 * u * M := by
  have k : ∀ j : ℚ, 1 ≤ j → j ≤ 4 → 1 / 2 ^ 200 ≤ j * M ∧ j * M ≤ 2 ^ 250 := by
    intro j h1 h4
    constructor
    · have : 1 * 1 ≤ j * M := mul_le_mul h1 hM (by norm_num) (by linarith)
      refine le_trans ?_ this
      norm_num
    · refine le_trans (mul_le_mul h4 hM' (by linarith) (by norm_num)) (by norm_num)
  have he : Timing.eps = 1 / 2 ^ 53 := rfl
  obtain ⟨c1, c2⟩ := abs_le.1 hc
  obtain ⟨s1, s2⟩ := abs_le.1 hh
  obtain ⟨t, ht, et⟩ := Timing.div64 (a := h) (b := 2) (B := 1 * M) (by norm_num) (k 1 le_rfl (by norm_num)).1 (k 1 le_rfl (by norm_num)).2
    (by rw [abs_le]; constructor <;> linarith)
  rw [he] at et
  obtain ⟨t1, t2⟩ := abs_le.1 et
  obtain ⟨a, ha, ea⟩ := Timing.sub64 (a := c) (b := t) (B := 2 * M) (k 2 (by norm_num) (by norm_num)).1 (k 2 (by norm_num) (by norm_num)).2
    (by rw [abs_le]; constructor <;> linarith)
  obtain ⟨b, hb, eb⟩ := Timing.add64 (a := c) (b := t) (B := 2 * M) (k 2 (by norm_num) (by norm_num)).1 (k 2 (by norm_num) (by norm_num)).2
    (by rw [abs_le]; constructor <;> linarith)
  rw [he] at ea eb
  obtain ⟨a1, a2⟩ := abs_le.1 ea
  obtain ⟨b1, b2⟩ := abs_le.1 eb
  have la : |a| ≤ 2 * M := by rw [abs_le]; constructor <;> linarith
  have lb : |b| ≤ 2 * M := by rw [abs_le]; constructor <;> linarith
  have w : (2 : ℚ) * M ≤ 2 ^ 127 := by linarith
  refine ⟨rnd32 a, rnd32 b, ?_, ?_, ?_, ?_⟩
  · simp only [half, ht, ha, MeshMsg.toFloat, rnd_fin (la.trans w)]
  · simp only [half, ht, hb, MeshMsg.toFloat, rnd_fin (lb.trans w)]
  · have er := rnd32_err a
    rw [u_eq, eta_eq] at *
    have er' : |rnd32 a - a| ≤ 1 / 2 ^ 24 * (2 * M) + 1 / 2 ^ 150 := by linarith
    obtain ⟨r1, r2⟩ := abs_le.1 er'
    rw [abs_le]; constructor <;> linarith
  · have er := rnd32_err b
    rw [u_eq, eta_eq] at *
    have er' : |rnd32 b - b| ≤ 1 / 2 ^ 24 * (2 * M) + 1 / 2 ^ 150 := by linarith
    obtain ⟨r1, r2⟩ := abs_le.1 er'
    rw [abs_le]; constructor <;> linarith

/-- The computed distance from the axis, less the radius. -/
theorem radial_near (c p : Vec3 ℚ) (r : ℚ) (hc : CoordsWithin (2 ^ 30) c) (hp : CoordsWithin (2 ^ 30) p) (hr0 : 0 ≤ r) (hr : r ≤ 2 ^ 30) :
    ∃ q : ℚ, float32.sub (float32.sqrtFl (sqRadial (c.map .fin) (p.map .fin))) (.fin r) = .fin q ∧
      |(q : ℝ) - (Real.sqrt (sqAxial (realPoint c) (realPoint p)) - r)| ≤
        6 * (1 / 2 ^ 24) * (Real.sqrt (sqAxial (realPoint c) (realPoint p)) + r) + 1 / 2 ^ 51 := by
  obtain ⟨c1, c2, -⟩ := hc
  obtain ⟨p1, p2, -⟩ := hp
  have b1 := le_trans (RoundErr.abs_sub_le_of p1 c1) (by norm_num : (2 : ℚ) * 2 ^ 30 ≤ 2 ^ 32)
  have b2 := le_trans (RoundErr.abs_sub_le_of p2 c2) (by norm_num : (2 : ℚ) * 2 ^ 30 ≤ 2 ^ 32)
  obtain ⟨d, hd, hd0, ed⟩ := norm_near (x3 := 0) (X3 := 0) b1 b2 (by norm_num) (rnd32_err _) (rnd32_err _) (exact_le _)
  have w : (2 : ℚ) ^ 32 ≤ 2 ^ 127 := by norm_num
  have hdx : float32.sub (.fin p.x) (.fin c.x) = .fin (rnd32 (p.x - c.x)) := by
    simp only [Arith.sub, Fl.neg, Arith.add, ← sub_eq_add_neg, rnd_fin (le_trans b1 w)]
  have hdy : float32.sub (.fin p.y) (.fin c.y) = .fin (rnd32 (p.y - c.y)) := by
    simp only [Arith.sub, Fl.neg, Arith.add, ← sub_eq_add_neg, rnd_fin (le_trans b2 w)]
  have sq66 : ∀ {x : ℚ}, |x| ≤ 2 ^ 32 → |rnd32 x * rnd32 x| ≤ 2 ^ 66 := by
    intro x hx
    have h := rnd32_le (x := x)
    rw [u_eq, eta_eq] at h
    have h' : |rnd32 x| ≤ 2 ^ 33 := by linarith
    rw [abs_mul]
    exact (mul_le_mul h' h' (abs_nonneg _) (by positivity)).trans (by norm_num)
  have w66 : (2 : ℚ) ^ 66 ≤ 2 ^ 127 := by norm_num
  have sum68 : |rnd32 (rnd32 (p.x - c.x) * rnd32 (p.x - c.x)) + rnd32 (rnd32 (p.y - c.y) * rnd32 (p.y - c.y))| ≤ 2 ^ 68 := by
    have h1 := rnd32_le (x := rnd32 (p.x - c.x) * rnd32 (p.x - c.x))
    have h2 := rnd32_le (x := rnd32 (p.y - c.y) * rnd32 (p.y - c.y))
    have h3 := sq66 b1
    have h4 := sq66 b2
    rw [u_eq, eta_eq] at h1 h2
    refine (abs_add_le _ _).trans ?_
    linarith
  have hsq : float32.sqrtFl (sqRadial (c.map .fin) (p.map .fin)) = .fin d := by
    rw [← hd]
    unfold Arith.norm Arith.dot
    simp only [sqRadial, Vec3.map, hdx, hdy, Arith.mul, Arith.add, rnd_fin ((sq66 b1).trans w66), rnd_fin ((sq66 b2).trans w66),
      rnd_fin (sum68.trans (by norm_num)), mul_zero]
    have z : float32.rnd 0 = .fin 0 := by
      rw [rnd_fin (by norm_num)]
      exact congrArg _ rne_zero
    rw [z]
    simp only [add_zero]
    have hs : |rnd32 (rnd32 (rnd32 (p.x - c.x) * rnd32 (p.x - c.x)) + rnd32 (rnd32 (p.y - c.y) * rnd32 (p.y - c.y)))| ≤ 2 ^ 127 := by
      have h := rnd32_le (x := rnd32 (rnd32 (p.x - c.x) * rnd32 (p.x - c.x)) + rnd32 (rnd32 (p.y - c.y) * rnd32 (p.y - c.y)))
      rw [u_eq, eta_eq] at h
      linarith
    rw [rnd_fin hs]
    congr 2
    exact (rne_idem (by norm_num) _).symm
  have hL : Real.sqrt (((p.x - c.x : ℚ) : ℝ) ^ 2 + ((p.y - c.y : ℚ) : ℝ) ^ 2 + ((0 : ℚ) : ℝ) ^ 2) = Real.sqrt (sqAxial (realPoint c) (realPoint p)) := by
    unfold sqAxial realPoint
    congr 1
    push_cast
    ring
  have hup : Real.sqrt (sqAxial (realPoint c) (realPoint p)) ≤ 2 * 2 ^ 32 := by
    rw [← hL]
    exact norm_le_sum (by exact_mod_cast b1) (by exact_mod_cast b2) (by simp)
  rw [hL] at ed
  have hL0 := Real.sqrt_nonneg (sqAxial (realPoint c) (realPoint p))
  generalize Real.sqrt (sqAxial (realPoint c) (realPoint p)) = B at *
  simp only [hsq, Arith.sub, Fl.neg, Arith.add, ← sub_eq_add_neg]
  obtain ⟨d1, d2⟩ := abs_le.1 ed
  have hr0R : (0 : ℝ) ≤ r := by exact_mod_cast hr0
  have hrR : (r : ℝ) ≤ 2 ^ 30 := by exact_mod_cast hr
  have hdr : |(d : ℝ) - r| ≤ B + r + 4 * (1 / 2 ^ 24) * B + 1 / 2 ^ 52 := by
    rw [abs_le]; constructor <;> linarith
  have hb : |d - r| ≤ 2 ^ 127 := by
    have : |(d : ℝ) - r| ≤ 2 ^ 127 := hdr.trans (by linarith)
    exact_mod_cast this
  refine ⟨_, rnd_fin hb, ?_⟩
  have er := cast_err (rnd32_err (d - r))
  push_cast at er
  obtain ⟨r1, r2⟩ := abs_le.1 er
  rw [abs_le]
  constructor <;> linarith

/-- Above and below a cap nothing but the height counts. -/
theorem beyond_near (c p : Vec3 ℚ) (r L : ℚ) (hc : CoordsWithin (2 ^ 30) c) (hp : CoordsWithin (2 ^ 30) p) (hr0 : 1 / 2 ^ 40 ≤ r)
    (hr : r ≤ 2 ^ 30) (hL : |p.z - L| ≤ 2 ^ 32) (hin : sqAxial c p ≤ (1 - 1 / 2 ^ 20) * r ^ 2) :
    ∃ q : ℚ, beyond (c.map .fin) (.fin r) (.fin L) (p.map .fin) = .fin q ∧
      |(q : ℝ) - (|(p.z : ℝ) - L|)| ≤ 4 * (1 / 2 ^ 24) * |(p.z : ℝ) - L| + 1 / 2 ^ 52 := by
  obtain ⟨c1, c2, -⟩ := hc
  obtain ⟨p1, p2, -⟩ := hp
  have b1 := le_trans (RoundErr.abs_sub_le_of p1 c1) (by norm_num : (2 : ℚ) * 2 ^ 30 ≤ 2 ^ 32)
  have b2 := le_trans (RoundErr.abs_sub_le_of p2 c2) (by norm_num : (2 : ℚ) * 2 ^ 30 ≤ 2 ^ 32)
  have w : (2 : ℚ) ^ 32 ≤ 2 ^ 127 := by norm_num
  have hdx : float32.sub (.fin p.x) (.fin c.x) = .fin (rnd32 (p.x - c.x)) := by
    simp only [Arith.sub, Fl.neg, Arith.add, ← sub_eq_add_neg, rnd_fin (le_trans b1 w)]
  have hdy : float32.sub (.fin p.y) (.fin c.y) = .fin (rnd32 (p.y - c.y)) := by
    simp only [Arith.sub, Fl.neg, Arith.add, ← sub_eq_add_neg, rnd_fin (le_trans b2 w)]
  have hdz : float32.sub (.fin p.z) (.fin L) = .fin (rnd32 (p.z - L)) := by
    simp only [Arith.sub, Fl.neg, Arith.add, ← sub_eq_add_neg, rnd_fin (le_trans hL w)]
  obtain ⟨en, n1, n2, -, n4, n5⟩ := dot_err (x3 := 0) (X3 := 0) (y3 := 0) (Y3 := 0) (p3 := 0)
    (t := rnd32 (rnd32 (rnd32 (p.x - c.x) * rnd32 (p.x - c.x)) + rnd32 (rnd32 (p.y - c.y) * rnd32 (p.y - c.y)))) b1 b2 (by norm_num) b1 b2 (by norm_num)
    (rnd32_err _) (rnd32_err _) (exact_le _) (rnd32_err _) (rnd32_err _) (exact_le _)
    (rnd32_err _) (rnd32_err _) (by rw [zero_mul]; exact exact_le _) (rnd32_err _) (by rw [add_zero]; exact exact_le _)
  have w66 : (2 : ℚ) ^ 66 ≤ 2 ^ 127 := by norm_num
  have hs : sqRadial (c.map .fin) (p.map .fin) =
      .fin (rnd32 (rnd32 (rnd32 (p.x - c.x) * rnd32 (p.x - c.x)) + rnd32 (rnd32 (p.y - c.y) * rnd32 (p.y - c.y)))) := by
    simp only [sqRadial, Vec3.map, hdx, hdy, Arith.mul, Arith.add, rnd_fin (n1.trans w66), rnd_fin (n2.trans w66),
      rnd_fin (n4.trans (by norm_num : (2 : ℚ) ^ 68 ≤ 2 ^ 127))]
  have e0 : (p.x - c.x) * (p.x - c.x) + (p.y - c.y) * (p.y - c.y) + 0 * 0 = sqAxial c p := by unfold sqAxial; ring
  have e1 : |(p.x - c.x) * (p.x - c.x)| + |(p.y - c.y) * (p.y - c.y)| + |(0 : ℚ) * 0| = sqAxial c p := by
    rw [abs_mul_self, abs_mul_self, abs_mul_self, e0]
  rw [e0, e1] at en
  have s0 : 0 ≤ rnd32 (rnd32 (rnd32 (p.x - c.x) * rnd32 (p.x - c.x)) + rnd32 (rnd32 (p.y - c.y) * rnd32 (p.y - c.y))) :=
    rnd32_nonneg (add_nonneg (rnd32_nonneg (mul_self_nonneg _)) (rnd32_nonneg (mul_self_nonneg _)))
  rw [add_zero] at n5
  generalize rnd32 (rnd32 (rnd32 (p.x - c.x) * rnd32 (p.x - c.x)) + rnd32 (rnd32 (p.y - c.y) * rnd32 (p.y - c.y))) = s at *
  have hr00 : 0 ≤ r := le_trans (by norm_num) hr0
  have hrr : r * r ≤ 2 ^ 60 := (mul_le_mul hr hr hr00 (by norm_num)).trans (by norm_num)
  have hrl : (1 / 2 ^ 80 : ℚ) ≤ r * r := le_trans (by norm_num) (mul_le_mul hr0 hr0 (by norm_num) hr00)
  have hrr0 := mul_nonneg hr00 hr00
  have hmr : float32.mul (.fin r) (.fin r) = .fin (rnd32 (r * r)) := by
    simp only [Arith.mul]
    rw [rnd_fin]
    rw [abs_of_nonneg hrr0]
    exact hrr.trans (by norm_num)
  have er := rnd32_err (r * r)
  rw [abs_of_nonneg hrr0] at er
  rw [u_eq] at en er
  rw [eta_eq] at er
  obtain ⟨er1, er2⟩ := abs_le.1 er
  obtain ⟨en1, en2⟩ := abs_le.1 en
  rw [pow_two] at hin
  have hle : s - rnd32 (r * r) ≤ 0 := by
    generalize sqAxial c p = A at *
    generalize rnd32 (r * r) = R at *
    generalize r * r = t at *
    linarith
  have hsub : float32.sub (.fin s) (.fin (rnd32 (r * r))) = .fin (rnd32 (s - rnd32 (r * r))) := by
    simp only [Arith.sub, Fl.neg, Arith.add, ← sub_eq_add_neg]
    rw [rnd_fin]
    rw [abs_of_nonneg s0] at n5
    rw [abs_le]
    constructor <;> linarith
  have hneg : rnd32 (s - rnd32 (r * r)) ≤ 0 := by
    have := rnd32_nonneg (x := -(s - rnd32 (r * r))) (by linarith)
    rw [show rnd32 (-(s - rnd32 (r * r))) = -rnd32 (s - rnd32 (r * r)) from rne_neg _] at this
    linarith
  have hmax : Fl.stdMax (.fin (rnd32 (s - rnd32 (r * r)))) (.fin 0) = .fin 0 := by
    unfold Fl.stdMax
    rcases hneg.lt_or_eq with h | h
    · simp only [Fl.lt, h, decide_true, if_true]
    · rw [h]
      simp
  obtain ⟨d, hd, hd0, ed⟩ := norm_near (x2 := 0) (X2 := 0) (x3 := 0) (X3 := 0) hL (by norm_num) (by norm_num) (rnd32_err _) (exact_le _) (exact_le _)
  have z0 : float32.rnd 0 = .fin 0 := by
    rw [rnd_fin (by norm_num)]
    exact congrArg _ rne_zero
  have hz66 : |rnd32 (p.z - L) * rnd32 (p.z - L)| ≤ 2 ^ 66 := by
    have h := rnd32_le (x := p.z - L)
    rw [u_eq, eta_eq] at h
    have h' : |rnd32 (p.z - L)| ≤ 2 ^ 33 := by linarith
    rw [abs_mul]
    exact (mul_le_mul h' h' (abs_nonneg _) (by positivity)).trans (by norm_num)
  have hz67 : |rnd32 (rnd32 (p.z - L) * rnd32 (p.z - L))| ≤ 2 ^ 127 := by
    have h := rnd32_le (x := rnd32 (p.z - L) * rnd32 (p.z - L))
    rw [u_eq, eta_eq] at h
    linarith
  have idem : rnd32 (rnd32 (rnd32 (p.z - L) * rnd32 (p.z - L))) = rnd32 (rnd32 (p.z - L) * rnd32 (p.z - L)) := rne_idem (by norm_num) _
  refine ⟨d, ?_, ?_⟩
  · rw [← hd]
    unfold Arith.norm Arith.dot beyond
    rw [hs, hmr, hsub, hmax]
    have hpz : (p.map Fl.fin).z = .fin p.z := rfl
    simp only [hpz, hdz, Arith.mul, Arith.add, rnd_fin (hz66.trans w66), mul_zero, z0, zero_add, add_zero, rnd_fin hz67, idem]
  · have hB : Real.sqrt (((p.z - L : ℚ) : ℝ) ^ 2 + ((0 : ℚ) : ℝ) ^ 2 + ((0 : ℚ) : ℝ) ^ 2) = |(p.z : ℝ) - L| := by
      push_cast
      rw [zero_pow two_ne_zero, add_zero, add_zero, Real.sqrt_sq_eq_abs]
    rw [hB] at ed
    exact ed

end Vox.SimF
