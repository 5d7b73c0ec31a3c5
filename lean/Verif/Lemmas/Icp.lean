/-
Helper lemmas for the alignment: least squares.
-/
import Verif.Model.Icp
import Verif.Spec.Icp
import Verif.Lemmas.Camera
import Mathlib.LinearAlgebra.Matrix.Determinant.Basic
import Mathlib.LinearAlgebra.Matrix.NonsingularInverse
import Mathlib.Tactic.LinearCombination
import Mathlib.Tactic.FieldSimp
import Mathlib.Tactic.FinCases

namespace Vox.Icp

open Geo Spec

variable {F : Type} [Field F] [LinearOrder F] [IsStrictOrderedRing F]

/-! ### Orthogonal matrices -/

omit [LinearOrder F] [IsStrictOrderedRing F] in
theorem det3_eq (m : Mat 3 F) : det3 m = m.det := by
  rw [Matrix.det_fin_three]; unfold det3; ring

omit [LinearOrder F] [IsStrictOrderedRing F] in
theorem det2_eq (m : Mat 2 F) : det2 m = m.det := by
  rw [Matrix.det_fin_two]; rfl

theorem orth_det {d : ℕ} {m : Mat d F} (h : m * m.transpose = 1) : m.det = 1 ∨ m.det = -1 := by
  have := congrArg Matrix.det h
  rw [Matrix.det_mul, Matrix.det_transpose, Matrix.det_one] at this
  exact mul_self_eq_one_iff.1 this

omit [LinearOrder F] [IsStrictOrderedRing F] in
theorem orth_left {d : ℕ} {m : Mat d F} (h : m * m.transpose = 1) : m.transpose * m = 1 := mul_eq_one_comm.1 h

theorem orth_diag_le {d : ℕ} {m : Mat d F} (h : m * m.transpose = 1) (i : Fin d) : m i i ≤ 1 := by
  have e := congrFun (congrFun h i) i
  rw [Matrix.mul_apply, Matrix.one_apply_eq] at e
  have : m i i * m.transpose i i ≤ ∑ j, m i j * m.transpose j i :=
    Finset.single_le_sum (f := fun j => m i j * m.transpose j i) (fun j _ => mul_self_nonneg (m i j)) (Finset.mem_univ i)
  rw [e, Matrix.transpose_apply] at this
  nlinarith

/-- A reflection of space has trace at most one. -/
theorem trace_le_of_reflection {m : Mat 3 F} (h : m * m.transpose = 1) (hd : m.det = -1) : m 0 0 + m 1 1 + m 2 2 ≤ 1 := by
  have h' := orth_left h
  have e : ∀ i j, m i 0 * m j 0 + m i 1 * m j 1 + m i 2 * m j 2 = (1 : Mat 3 F) i j := by
    intro i j
    rw [← h, Matrix.mul_apply, Fin.sum_univ_three]; rfl
  have f : ∀ i j, m 0 i * m 0 j + m 1 i * m 1 j + m 2 i * m 2 j = (1 : Mat 3 F) i j := by
    intro i j
    rw [← h', Matrix.mul_apply, Fin.sum_univ_three]; rfl
  have e00 := e 0 0; have e11 := e 1 1; have e22 := e 2 2
  have f00 := f 0 0; have f11 := f 1 1; have f22 := f 2 2
  rw [Matrix.one_apply_eq] at e00 e11 e22 f00 f11 f22
  have adj : m.adjugate = -m.transpose := by
    have k : m.transpose * (m * m.adjugate) = m.adjugate := by rw [← Matrix.mul_assoc, h', Matrix.one_mul]
    rw [Matrix.mul_adjugate, hd] at k
    rw [← k]
    simp
  have c0 := congrFun (congrFun adj 0) 0
  have c1 := congrFun (congrFun adj 1) 1
  have c2 := congrFun (congrFun adj 2) 2
  rw [Matrix.adjugate_fin_three] at c0 c1 c2
  simp at c0 c1 c2
  by_contra hc
  push Not at hc
  have k0 : (1 - (m 0 0 + m 1 1 + m 2 2)) * (1 - m 0 0 + m 1 1 + m 2 2) = (m 2 1 - m 1 2) ^ 2 := by
    linear_combination -2 * c0 - e11 - e22 + f00
  have k1 : (1 - (m 0 0 + m 1 1 + m 2 2)) * (1 + m 0 0 - m 1 1 + m 2 2) = (m 2 0 - m 0 2) ^ 2 := by
    linear_combination -2 * c1 - e00 - e22 + f11
  have k2 : (1 - (m 0 0 + m 1 1 + m 2 2)) * (1 + m 0 0 + m 1 1 - m 2 2) = (m 1 0 - m 0 1) ^ 2 := by
    linear_combination -2 * c2 - e00 - e11 + f22
  have hn : 1 - (m 0 0 + m 1 1 + m 2 2) < 0 := by linarith
  have np : ∀ {t s : F}, (1 - (m 0 0 + m 1 1 + m 2 2)) * t = s ^ 2 → t ≤ 0 := by
    intro t s ht
    by_contra hp
    push Not at hp
    have := mul_neg_of_neg_of_pos hn hp
    have := sq_nonneg s
    linarith
  have := np k0
  have := np k1
  have := np k2
  linarith

/-- The weighted trace of an orthogonal matrix of space. -/
theorem weighted3 {m : Mat 3 F} (h : m * m.transpose = 1) {σ : Fin 3 → F} (h0 : ∀ i, 0 ≤ σ i) (hs : ∀ i j, i ≤ j → σ j ≤ σ i) :
    (m.det = 1 → ∑ i, m i i * σ i ≤ σ 0 + σ 1 + σ 2) ∧ (m.det = -1 → ∑ i, m i i * σ i ≤ σ 0 + σ 1 - σ 2) := by
  have d0 := orth_diag_le h 0
  have d1 := orth_diag_le h 1
  have d2 := orth_diag_le h 2
  have s0 := h0 0; have s1 := h0 1; have s2 := h0 2
  have s01 := hs 0 1 (by decide)
  have s12 := hs 1 2 (by decide)
  rw [Fin.sum_univ_three]
  constructor
  · intro _
    nlinarith
  · intro hd
    have ht := trace_le_of_reflection h hd
    nlinarith [mul_nonneg (sub_nonneg.2 s01) (sub_nonneg.2 d0), mul_nonneg (sub_nonneg.2 s12) (sub_nonneg.2 d0),
      mul_nonneg (sub_nonneg.2 s12) (sub_nonneg.2 d1), mul_nonneg s2 (sub_nonneg.2 ht)]

/-- The weighted trace of an orthogonal matrix of the plane. -/
theorem weighted2 {m : Mat 2 F} (h : m * m.transpose = 1) {σ : Fin 2 → F} (h0 : ∀ i, 0 ≤ σ i) (hs : ∀ i j, i ≤ j → σ j ≤ σ i) :
    (m.det = 1 → ∑ i, m i i * σ i ≤ σ 0 + σ 1) ∧ (m.det = -1 → ∑ i, m i i * σ i ≤ σ 0 - σ 1) := by
  have d0 := orth_diag_le h 0
  have d1 := orth_diag_le h 1
  have s0 := h0 0; have s1 := h0 1
  have s01 := hs 0 1 (by decide)
  rw [Fin.sum_univ_two]
  constructor
  · intro _
    nlinarith
  · intro hd
    have adj : m.adjugate = -m.transpose := by
      have k : m.transpose * (m * m.adjugate) = m.adjugate := by rw [← Matrix.mul_assoc, orth_left h, Matrix.one_mul]
      rw [Matrix.mul_adjugate, hd] at k
      rw [← k]
      simp
    have c0 := congrFun (congrFun adj 0) 0
    rw [Matrix.adjugate_fin_two] at c0
    simp at c0
    rw [c0]
    nlinarith [mul_nonneg (sub_nonneg.2 s01) (sub_nonneg.2 d0)]

omit [LinearOrder F] [IsStrictOrderedRing F] in
theorem flipLast_eq {d : ℕ} (v : Mat (d + 1) F) :
    flipLast v = v * Matrix.diagonal fun j => if j = Fin.last d then -1 else 1 := by
  ext i j
  rw [Matrix.mul_diagonal]
  unfold flipLast
  split <;> simp

omit [LinearOrder F] [IsStrictOrderedRing F] in
/-- The matrix found, its orthogonality and the correlation it reaches; all dimensions at once. -/
theorem kabsch {d : ℕ} {H u v s : Mat d F} (hu : u * u.transpose = 1) {σ τ : Fin d → F}
    (hv : v * v.transpose = 1) (hs : s = Matrix.diagonal τ) (hH : H = u * Matrix.diagonal σ * v.transpose) :
    (∀ r : Mat d F, (r * H).trace = ∑ i, (v.transpose * r * u) i i * σ i) ∧
      ((v * s * u.transpose) * H).trace = ∑ i, τ i * σ i := by
  have tr : ∀ r : Mat d F, (r * H).trace = ∑ i, (v.transpose * r * u) i i * σ i := by
    intro r
    rw [hH, ← Matrix.mul_assoc, ← Matrix.mul_assoc, Matrix.trace_mul_comm, ← Matrix.mul_assoc, ← Matrix.mul_assoc]
    unfold Matrix.trace
    apply Finset.sum_congr rfl
    intro i _
    rw [Matrix.diag_apply, Matrix.mul_diagonal]
  refine ⟨tr, ?_⟩
  rw [tr]
  apply Finset.sum_congr rfl
  intro i _
  have : v.transpose * (v * s * u.transpose) * u = s := by
    have a : v.transpose * v = 1 := orth_left hv
    have b : u.transpose * u = 1 := orth_left hu
    calc v.transpose * (v * s * u.transpose) * u = (v.transpose * v) * s * (u.transpose * u) := by
          simp only [Matrix.mul_assoc]
      _ = s := by rw [a, b, Matrix.one_mul, Matrix.mul_one]
  rw [this, hs, Matrix.diagonal_apply_eq]

omit [LinearOrder F] [IsStrictOrderedRing F] in
theorem orth_conj {d : ℕ} {u v r : Mat d F} (hu : u * u.transpose = 1) (hv : v * v.transpose = 1) (hr : r * r.transpose = 1) :
    (v.transpose * r * u) * (v.transpose * r * u).transpose = 1 ∧ (v.transpose * r * u).det = u.det * v.det * r.det := by
  constructor
  · rw [Matrix.transpose_mul, Matrix.transpose_mul, Matrix.transpose_transpose]
    calc v.transpose * r * u * (u.transpose * (r.transpose * v)) = v.transpose * (r * (u * u.transpose) * r.transpose) * v := by
          simp only [Matrix.mul_assoc]
      _ = 1 := by rw [hu, Matrix.mul_one, hr, Matrix.mul_one, orth_left hv]
  · rw [Matrix.det_mul, Matrix.det_mul, Matrix.det_transpose]; ring

omit [LinearOrder F] [IsStrictOrderedRing F] in
theorem orth_result {d : ℕ} {u v s : Mat d F} (hu : u * u.transpose = 1) (hv : v * v.transpose = 1) (hs : s * s.transpose = 1) :
    (v * s * u.transpose) * (v * s * u.transpose).transpose = 1 ∧ (v * s * u.transpose).det = u.det * v.det * s.det := by
  constructor
  · rw [Matrix.transpose_mul, Matrix.transpose_mul, Matrix.transpose_transpose]
    calc v * s * u.transpose * (u * (s.transpose * v.transpose)) = v * (s * (u.transpose * u) * s.transpose) * v.transpose := by
          simp only [Matrix.mul_assoc]
      _ = 1 := by rw [orth_left hu, Matrix.mul_one, hs, Matrix.mul_one, hv]
  · rw [Matrix.det_mul, Matrix.det_mul, Matrix.det_transpose]; ring

theorem best_of {d : ℕ} {H u v R : Mat d F} {σ τ : Fin d → F} (hu : u * u.transpose = 1) (hv : v * v.transpose = 1)
    (hH : H = u * Matrix.diagonal σ * v.transpose) (e : R = v * Matrix.diagonal τ * u.transpose) (t1 : ∀ i, τ i * τ i = 1)
    (td : (Matrix.diagonal τ).det = u.det * v.det)
    (le : ∀ r : Mat d F, r * r.transpose = 1 → r.det = 1 → ∑ i, (v.transpose * r * u) i i * σ i ≤ ∑ i, τ i * σ i) :
    R * R.transpose = 1 ∧ R.det = 1 ∧ ∀ r : Mat d F, r * r.transpose = 1 → r.det = 1 → (r * H).trace ≤ (R * H).trace := by
  have hs1 : Matrix.diagonal τ * (Matrix.diagonal τ).transpose = 1 := by
    rw [Matrix.diagonal_transpose, Matrix.diagonal_mul_diagonal]
    simp only [t1]
    exact Matrix.diagonal_one
  have o := orth_result hu hv hs1
  have k := kabsch hu (σ := σ) (τ := τ) hv rfl hH
  refine ⟨by rw [e]; exact o.1, ?_, ?_⟩
  · rw [e, o.2, td]
    rcases orth_det hu with a | a <;> rcases orth_det hv with b | b <;> rw [a, b] <;> ring
  · intro r hr hd
    rw [e, k.2, k.1]
    exact le r hr hd

/-- The rotation found in space is a rotation, and no rotation has a higher correlation. -/
theorem rotation3_spec {svd : Mat 3 F → Mat 3 F × Mat 3 F} {H : Mat 3 F} (h : IsSvd H (svd H).1 (svd H).2) :
    rotation3 svd H * (rotation3 svd H).transpose = 1 ∧ (rotation3 svd H).det = 1 ∧
      ∀ r : Mat 3 F, r * r.transpose = 1 → r.det = 1 → (r * H).trace ≤ (rotation3 svd H * H).trace := by
  obtain ⟨hu, hv, σ, h0, hs, hH⟩ := h
  set u := (svd H).1 with eu
  set v := (svd H).2 with ev
  by_cases hc : det3 u * det3 v < 0
  · have hp : u.det * v.det = -1 := by
      rw [det3_eq, det3_eq] at hc
      rcases orth_det hu with a | a <;> rcases orth_det hv with b | b <;> rw [a, b] at hc ⊢ <;> linarith
    apply best_of hu hv hH (τ := fun j => if j = Fin.last 2 then -1 else 1)
    · show (if det3 u * det3 v < 0 then flipLast v else v) * u.transpose = _
      rw [if_pos hc, flipLast_eq]
    · intro i; split <;> norm_num
    · rw [hp, Matrix.det_diagonal, Fin.prod_univ_three]
      simp [Fin.last]
    · intro r hr hd
      have o := orth_conj hu hv hr
      have := (weighted3 o.1 h0 hs).2 (by rw [o.2, hd, hp]; ring)
      refine this.trans (le_of_eq ?_)
      rw [Fin.sum_univ_three]
      simp [Fin.last]
      ring
  · have hp : u.det * v.det = 1 := by
      rw [det3_eq, det3_eq] at hc
      rw [not_lt] at hc
      rcases orth_det hu with a | a <;> rcases orth_det hv with b | b <;> rw [a, b] at hc ⊢ <;> linarith
    apply best_of hu hv hH (τ := fun _ => 1)
    · show (if det3 u * det3 v < 0 then flipLast v else v) * u.transpose = _
      rw [if_neg hc, Matrix.diagonal_one, Matrix.mul_one]
    · intro i; norm_num
    · rw [hp, Matrix.diagonal_one, Matrix.det_one]
    · intro r hr hd
      have o := orth_conj hu hv hr
      have := (weighted3 o.1 h0 hs).1 (by rw [o.2, hd, hp]; ring)
      refine this.trans (le_of_eq ?_)
      rw [Fin.sum_univ_three]
      ring

/-- The same in the plane. -/
theorem rotation2_spec {svd : Mat 2 F → Mat 2 F × Mat 2 F} {H : Mat 2 F} (h : IsSvd H (svd H).1 (svd H).2) :
    rotation2 svd H * (rotation2 svd H).transpose = 1 ∧ (rotation2 svd H).det = 1 ∧
      ∀ r : Mat 2 F, r * r.transpose = 1 → r.det = 1 → (r * H).trace ≤ (rotation2 svd H * H).trace := by
  obtain ⟨hu, hv, σ, h0, hs, hH⟩ := h
  set u := (svd H).1 with eu
  set v := (svd H).2 with ev
  by_cases hc : det2 u * det2 v < 0
  · have hp : u.det * v.det = -1 := by
      rw [det2_eq, det2_eq] at hc
      rcases orth_det hu with a | a <;> rcases orth_det hv with b | b <;> rw [a, b] at hc ⊢ <;> linarith
    apply best_of hu hv hH (τ := fun j => if j = Fin.last 1 then -1 else 1)
    · show (if det2 u * det2 v < 0 then flipLast v else v) * u.transpose = _
      rw [if_pos hc, flipLast_eq]
    · intro i; split <;> norm_num
    · rw [hp, Matrix.det_diagonal, Fin.prod_univ_two]
      simp [Fin.last]
    · intro r hr hd
      have o := orth_conj hu hv hr
      have := (weighted2 o.1 h0 hs).2 (by rw [o.2, hd, hp]; ring)
      refine this.trans (le_of_eq ?_)
      rw [Fin.sum_univ_two]
      simp [Fin.last]
      ring
  · have hp : u.det * v.det = 1 := by
      rw [det2_eq, det2_eq] at hc
      rw [not_lt] at hc
      rcases orth_det hu with a | a <;> rcases orth_det hv with b | b <;> rw [a, b] at hc ⊢ <;> linarith
    apply best_of hu hv hH (τ := fun _ => 1)
    · show (if det2 u * det2 v < 0 then flipLast v else v) * u.transpose = _
      rw [if_neg hc, Matrix.diagonal_one, Matrix.mul_one]
    · intro i; norm_num
    · rw [hp, Matrix.diagonal_one, Matrix.det_one]
    · intro r hr hd
      have o := orth_conj hu hv hr
      have := (weighted2 o.1 h0 hs).1 (by rw [o.2, hd, hp]; ring)
      refine this.trans (le_of_eq ?_)
      rw [Fin.sum_univ_two]
      ring

/-! ### Least squares -/

/-- A sum over pairs. -/
def psum (f : Vec3 F × Vec3 F → F) (ps : List (Vec3 F × Vec3 F)) : F := (ps.map f).sum

omit [LinearOrder F] [IsStrictOrderedRing F] in
theorem psum_cons (f : Vec3 F × Vec3 F → F) (p : Vec3 F × Vec3 F) (ps) : psum f (p :: ps) = f p + psum f ps := by
  simp [psum]

omit [LinearOrder F] [IsStrictOrderedRing F] in
theorem psum_entry_src (ps : List (Vec3 F × Vec3 F)) (i : Fin 3) : psum (fun p => entry p.1 i) ps = entry (vsum (ps.map (·.1))) i := by
  fin_cases i <;> simp [psum, vsum, entry, List.map_map] <;> rfl

omit [LinearOrder F] [IsStrictOrderedRing F] in
theorem psum_entry_tgt (ps : List (Vec3 F × Vec3 F)) (i : Fin 3) : psum (fun p => entry p.2 i) ps = entry (vsum (ps.map (·.2))) i := by
  fin_cases i <;> simp [psum, vsum, entry, List.map_map] <;> rfl

omit [LinearOrder F] [IsStrictOrderedRing F] in
theorem psum_shift (ps : List (Vec3 F × Vec3 F)) (i j : Fin 3) (a b : F) :
    psum (fun p => (entry p.1 i - a) * (entry p.2 j - b)) ps = psum (fun p => entry p.1 i * entry p.2 j) ps -
      a * psum (fun p => entry p.2 j) ps - b * psum (fun p => entry p.1 i) ps + ps.length * (a * b) := by
  induction ps with
  | nil => simp [psum]
  | cons p ps ih =>
    simp only [psum_cons, ih, List.length_cons]
    push_cast
    ring

omit [LinearOrder F] [IsStrictOrderedRing F] in
theorem entry_sub (a b : Vec3 F) (i : Fin 3) : entry (a - b) i = entry a i - entry b i := by
  fin_cases i <;> rfl

omit [LinearOrder F] [IsStrictOrderedRing F] in
theorem entry_mean (ps : List (Vec3 F)) (i : Fin 3) : entry (mean ps) i = entry (vsum ps) i / ps.length := by
  fin_cases i <;> simp [mean, smul, entry] <;> ring

omit [Field F] [LinearOrder F] [IsStrictOrderedRing F] in
theorem zip_maps (f : Vec3 F → Vec3 F → F) (g h : Vec3 F → Vec3 F) : ∀ ps : List (Vec3 F × Vec3 F),
    List.zipWith f ((ps.map (·.1)).map g) ((ps.map (·.2)).map h) = ps.map fun p => f (g p.1) (h p.2)
  | [] => rfl
  | p :: ps => by
    simp only [List.map_cons, List.zipWith_cons_cons]
    rw [zip_maps f g h ps]

theorem correlation_eq {ps : List (Vec3 F × Vec3 F)} (hn : ps ≠ []) (i j : Fin 3) :
    correlation3 (demean (ps.map (·.1))) (demean (ps.map (·.2))) i j = psum (fun p => entry p.1 i * entry p.2 j) ps -
      psum (fun p => entry p.1 i) ps * psum (fun p => entry p.2 j) ps / ps.length := by
  have n0 : (ps.length : F) ≠ 0 := by
    have := List.length_pos_iff.2 hn
    positivity
  have e : correlation3 (demean (ps.map (·.1))) (demean (ps.map (·.2))) i j =
      psum (fun p => (entry p.1 i - entry (mean (ps.map (·.1))) i) * (entry p.2 j - entry (mean (ps.map (·.2))) j)) ps := by
    unfold correlation3 demean psum
    rw [zip_maps]
    simp only [entry_sub]
  rw [e, psum_shift, entry_mean, entry_mean, ← psum_entry_src, ← psum_entry_tgt, List.length_map, List.length_map]
  field_simp
  ring

/-- The misfit of a rotation, expressed by the moments of the points. -/
theorem misfit_moments {T : Pose F} (hT : IsRotation T) (ps : List (Vec3 F × Vec3 F)) :
    misfit T ps = psum (fun p => dot p.1 p.1 + dot p.2 p.2) ps + ps.length * dot T.t T.t +
      2 * dot T.t (T.rotate (vsum (ps.map (·.1)))) - 2 * dot T.t (vsum (ps.map (·.2))) -
      2 * psum (fun p => dot p.2 (T.rotate p.1)) ps := by
  have hI := Camera.rotation_inverse hT
  have c0 := hI.n0; have c1 := hI.n1; have c2 := hI.n2; have c01 := hI.o01; have c02 := hI.o02; have c12 := hI.o12
  simp only [Pose.inverse, Pose.cols] at c0 c1 c2 c01 c02 c12
  induction ps with
  | nil => simp [misfit, psum, vsum, dot, Pose.rotate]
  | cons p ps ih =>
    have em : misfit T (p :: ps) = distSq (moved T p.1) p.2 + misfit T ps := by simp [misfit]
    have ev : ∀ (q : Vec3 F) qs, vsum (q :: qs) = q + vsum qs := by
      intro q qs; ext <;> simp [vsum]
    rw [em, ih]
    simp only [psum_cons, List.map_cons, ev, List.length_cons]
    push_cast
    simp only [distSq, moved, dot, Pose.rotate, Vec3.add_x, Vec3.add_y, Vec3.add_z]
    linear_combination p.1.x * p.1.x * c0 + p.1.y * p.1.y * c1 + p.1.z * p.1.z * c2 + 2 * p.1.x * p.1.y * c01 +
      2 * p.1.x * p.1.z * c02 + 2 * p.1.y * p.1.z * c12

/-- The part of the misfit that no rigid motion changes. -/
def residual (ps : List (Vec3 F × Vec3 F)) : F :=
  psum (fun p => dot p.1 p.1 + dot p.2 p.2) ps -
    (dot (vsum (ps.map (·.1))) (vsum (ps.map (·.1))) + dot (vsum (ps.map (·.2))) (vsum (ps.map (·.2)))) / ps.length

omit [LinearOrder F] [IsStrictOrderedRing F] in
theorem psum_rotate (T : Pose F) (ps : List (Vec3 F × Vec3 F)) :
    psum (fun p => dot p.2 (T.rotate p.1)) ps = ∑ i, ∑ j, rotOf T i j * psum (fun p => entry p.1 j * entry p.2 i) ps := by
  induction ps with
  | nil => simp [psum]
  | cons p ps ih =>
    simp only [psum_cons, ih, Fin.sum_univ_three]
    simp [rotOf, entry, dot, Pose.rotate]
    ring

/-- The misfit of a rotation: the residual, the correlation and the offset of the centres. -/
theorem misfit_eq {T : Pose F} (hT : IsRotation T) {ps : List (Vec3 F × Vec3 F)} (hn : ps ≠ []) :
    misfit T ps = residual ps - 2 * (rotOf T * correlation3 (demean (ps.map (·.1))) (demean (ps.map (·.2)))).trace +
      ps.length * distSq T.t (mean (ps.map (·.2)) - T.rotate (mean (ps.map (·.1)))) := by
  have n0 : (ps.length : F) ≠ 0 := by
    have := List.length_pos_iff.2 hn
    positivity
  have hI := Camera.rotation_inverse hT
  have c0 := hI.n0; have c1 := hI.n1; have c2 := hI.n2; have c01 := hI.o01; have c02 := hI.o02; have c12 := hI.o12
  simp only [Pose.inverse, Pose.cols] at c0 c1 c2 c01 c02 c12
  rw [misfit_moments hT, psum_rotate]
  have tr : (rotOf T * correlation3 (demean (ps.map (·.1))) (demean (ps.map (·.2)))).trace =
      ∑ i, ∑ j, rotOf T i j * (psum (fun p => entry p.1 j * entry p.2 i) ps -
        psum (fun p => entry p.1 j) ps * psum (fun p => entry p.2 i) ps / ps.length) := by
    unfold Matrix.trace
    apply Finset.sum_congr rfl
    intro i _
    rw [Matrix.diag_apply, Matrix.mul_apply]
    apply Finset.sum_congr rfl
    intro j _
    rw [correlation_eq hn]
  rw [tr]
  unfold residual
  simp only [psum_entry_src, psum_entry_tgt]
  set S := vsum (ps.map (·.1))
  set G := vsum (ps.map (·.2))
  have m1 : mean (ps.map (·.1)) = ⟨S.x / ps.length, S.y / ps.length, S.z / ps.length⟩ := by
    ext <;> simp [mean, smul, S] <;> ring
  have m2 : mean (ps.map (·.2)) = ⟨G.x / ps.length, G.y / ps.length, G.z / ps.length⟩ := by
    ext <;> simp [mean, smul, G] <;> ring
  rw [m1, m2]
  generalize psum (fun p => dot p.1 p.1 + dot p.2 p.2) ps = A
  simp only [Fin.sum_univ_three]
  generalize psum (fun p => entry p.1 0 * entry p.2 0) ps = x00
  generalize psum (fun p => entry p.1 0 * entry p.2 1) ps = x01
  generalize psum (fun p => entry p.1 0 * entry p.2 2) ps = x02
  generalize psum (fun p => entry p.1 1 * entry p.2 0) ps = x10
  generalize psum (fun p => entry p.1 1 * entry p.2 1) ps = x11
  generalize psum (fun p => entry p.1 1 * entry p.2 2) ps = x12
  generalize psum (fun p => entry p.1 2 * entry p.2 0) ps = x20
  generalize psum (fun p => entry p.1 2 * entry p.2 1) ps = x21
  generalize psum (fun p => entry p.1 2 * entry p.2 2) ps = x22
  generalize (ps.length : F) = n at n0
  simp only [rotOf, entry, dot, distSq, Pose.rotate, Vec3.sub_x, Vec3.sub_y, Vec3.sub_z, Matrix.cons_val', Matrix.cons_val_zero,
    Matrix.cons_val_one, Matrix.of_apply, Matrix.cons_val]
  field_simp
  linear_combination (-1) * (S.x * S.x * c0 + S.y * S.y * c1 + S.z * S.z * c2 + 2 * S.x * S.y * c01 + 2 * S.x * S.z * c02 +
    2 * S.y * S.z * c12)

/-! ### Poses and matrices -/

omit [Field F] [LinearOrder F] [IsStrictOrderedRing F] in
theorem rotOf_poseOf (r : Mat 3 F) (t : Vec3 F) : rotOf (poseOf r t) = r := by
  ext i j
  fin_cases i <;> fin_cases j <;> rfl

omit [LinearOrder F] [IsStrictOrderedRing F] in
theorem isRotation_iff (T : Pose F) : IsRotation T ↔ rotOf T * (rotOf T).transpose = 1 ∧ (rotOf T).det = 1 := by
  have e : ∀ i j, (rotOf T * (rotOf T).transpose) i j = rotOf T i 0 * rotOf T j 0 + rotOf T i 1 * rotOf T j 1 + rotOf T i 2 * rotOf T j 2 := by
    intro i j
    rw [Matrix.mul_apply, Fin.sum_univ_three]; rfl
  have d : (rotOf T).det = T.r0.x * (T.r1.y * T.r2.z - T.r1.z * T.r2.y) - T.r0.y * (T.r1.x * T.r2.z - T.r1.z * T.r2.x) +
      T.r0.z * (T.r1.x * T.r2.y - T.r1.y * T.r2.x) := by
    rw [← det3_eq]; rfl
  constructor
  · intro h
    refine ⟨?_, d.trans h.det⟩
    ext i j
    rw [e]
    fin_cases i <;> fin_cases j
    · exact h.n0
    · exact h.o01
    · exact h.o02
    · refine Eq.trans ?_ h.o01
      simp [rotOf]; ring
    · exact h.n1
    · exact h.o12
    · refine Eq.trans ?_ h.o02
      simp [rotOf]; ring
    · refine Eq.trans ?_ h.o12
      simp [rotOf]; ring
    · exact h.n2
  · rintro ⟨h, hd⟩
    have k : ∀ i j, rotOf T i 0 * rotOf T j 0 + rotOf T i 1 * rotOf T j 1 + rotOf T i 2 * rotOf T j 2 = (1 : Mat 3 F) i j := by
      intro i j
      rw [← e, h]
    exact ⟨k 0 0, k 1 1, k 2 2, k 0 1, k 0 2, k 1 2, d.symm.trans hd⟩

omit [LinearOrder F] [IsStrictOrderedRing F] in
theorem rotate_poseOf (T : Pose F) (r : Mat 3 F) (h : rotOf T = r) (p : Vec3 F) : (poseOf r 0).rotate p = T.rotate p := by
  subst h
  rfl

omit [LinearOrder F] [IsStrictOrderedRing F] in
theorem yaw_shape {T : Pose F} (h : IsYaw T) : T.r0.z = 0 ∧ T.r1.z = 0 := by
  have a := h.rotation.o02
  have b := h.rotation.o12
  rw [h.up] at a b
  simp at a b
  exact ⟨a, b⟩

/-- The planar part of a matrix. -/
def corner2 (m : Mat 3 F) : Mat 2 F := fun i j => m i.castSucc j.castSucc

omit [LinearOrder F] [IsStrictOrderedRing F] in
theorem trace_embed (r : Mat 2 F) (H : Mat 3 F) : (embed2 r * H).trace = (r * corner2 H).trace + H 2 2 := by
  simp only [Matrix.trace, Matrix.diag_apply, Matrix.mul_apply, Fin.sum_univ_three, Fin.sum_univ_two]
  simp [embed2, corner2]

omit [LinearOrder F] [IsStrictOrderedRing F] in
theorem embed_rotation {r : Mat 2 F} (h : r * r.transpose = 1) (hd : r.det = 1) (t : Vec3 F) : IsYaw (poseOf (embed2 r) t) := by
  have e : ∀ i j, r i 0 * r j 0 + r i 1 * r j 1 = (1 : Mat 2 F) i j := by
    intro i j
    rw [← h, Matrix.mul_apply, Fin.sum_univ_two]; rfl
  have e00 := e 0 0
  have e11 := e 1 1
  have e01 := e 0 1
  rw [Matrix.one_apply_eq] at e00 e11
  rw [Matrix.one_apply_ne (by decide)] at e01
  rw [Matrix.det_fin_two] at hd
  refine ⟨?_, rfl⟩
  constructor <;> simp [poseOf, embed2] <;> assumption

omit [LinearOrder F] [IsStrictOrderedRing F] in
theorem yaw_corner {T : Pose F} (h : IsYaw T) :
    embed2 (corner2 (rotOf T)) = rotOf T ∧ corner2 (rotOf T) * (corner2 (rotOf T)).transpose = 1 ∧ (corner2 (rotOf T)).det = 1 := by
  obtain ⟨a, b⟩ := yaw_shape h
  have n0 := h.rotation.n0; have n1 := h.rotation.n1; have o := h.rotation.o01; have d := h.rotation.det
  rw [h.up] at d
  rw [a, b] at o d
  rw [a] at n0
  rw [b] at n1
  refine ⟨?_, ?_, ?_⟩
  · ext i j
    fin_cases i <;> fin_cases j <;> simp [embed2, corner2, rotOf, a, b, h.up]
  · ext i j
    rw [Matrix.mul_apply, Fin.sum_univ_two]
    fin_cases i <;> fin_cases j <;> simp [corner2, rotOf] <;> simp at n0 n1 o <;>
      first | linear_combination n0 | linear_combination n1 | linear_combination o
  · rw [Matrix.det_fin_two]
    simp [corner2, rotOf]
    simp at d
    exact d

omit [Field F] [LinearOrder F] [IsStrictOrderedRing F] in
theorem coord_eq (i : Fin 3) (p : Vec3 F) : coord i p = entry p i := by
  fin_cases i <;> rfl

omit [LinearOrder F] [IsStrictOrderedRing F] in
theorem crossCovariance_eq (ps : List (Vec3 F × Vec3 F)) :
    crossCovariance ps = correlation3 (demean (ps.map (·.1))) (demean (ps.map (·.2))) := by
  ext i j
  unfold crossCovariance correlation3 demean average
  rw [zip_maps]
  simp only [entry_sub, entry_mean, coord_eq, ← psum_entry_src, ← psum_entry_tgt, List.length_map]
  rfl

omit [IsStrictOrderedRing F] in
theorem matched_length (ps : List (Vec3 F × Vec3 F)) (L : Lib F) (b : Bool) :
    transformFromMatched L b (ps.map (·.1)) (ps.map (·.2)) =
      .ok (poseOf (rotationFromMatched L b (demean (ps.map (·.1))) (demean (ps.map (·.2)))).1
        (mean (ps.map (·.2)) - (poseOf (rotationFromMatched L b (demean (ps.map (·.1))) (demean (ps.map (·.2)))).1 0).rotate
          (mean (ps.map (·.1)))),
        (rotationFromMatched L b (demean (ps.map (·.1))) (demean (ps.map (·.2)))).2) := by
  unfold transformFromMatched
  simp [Outcome.check]

/-- The pose made of a rotation and the matching translation. -/
def centred (R : Mat 3 F) (ps : List (Vec3 F × Vec3 F)) : Pose F :=
  poseOf R (mean (ps.map (·.2)) - (poseOf R 0).rotate (mean (ps.map (·.1))))

/-- Its misfit. -/
theorem misfit_centred {R : Mat 3 F} {ps : List (Vec3 F × Vec3 F)} (hT : IsRotation (centred R ps)) (hn : ps ≠ []) :
    misfit (centred R ps) ps = residual ps - 2 * (R * correlation3 (demean (ps.map (·.1))) (demean (ps.map (·.2)))).trace := by
  rw [misfit_eq hT hn]
  have z : distSq (centred R ps).t (mean (ps.map (·.2)) - (centred R ps).rotate (mean (ps.map (·.1)))) = 0 := by
    have : (centred R ps).rotate (mean (ps.map (·.1))) = (poseOf R 0).rotate (mean (ps.map (·.1))) := rfl
    rw [this]
    show distSq (mean (ps.map (·.2)) - (poseOf R 0).rotate (mean (ps.map (·.1)))) _ = 0
    simp [distSq]
  rw [z]
  unfold centred
  rw [rotOf_poseOf]
  ring

/-- No other rotation and translation does better than its correlation says. -/
theorem misfit_ge {T : Pose F} (hT : IsRotation T) {ps : List (Vec3 F × Vec3 F)} (hn : ps ≠ []) :
    residual ps - 2 * (rotOf T * correlation3 (demean (ps.map (·.1))) (demean (ps.map (·.2)))).trace ≤ misfit T ps := by
  rw [misfit_eq hT hn]
  have nn : (0 : F) ≤ ps.length * distSq T.t (mean (ps.map (·.2)) - T.rotate (mean (ps.map (·.1)))) := by
    unfold distSq; positivity
  linarith

theorem misfit_nonneg (T : Pose F) (ps : List (Vec3 F × Vec3 F)) : 0 ≤ misfit T ps := by
  unfold misfit
  apply List.sum_nonneg
  intro x hx
  obtain ⟨p, -, rfl⟩ := List.mem_map.1 hx
  unfold distSq; positivity

theorem misfit_zero {T : Pose F} {ps : List (Vec3 F × Vec3 F)} (h : misfit T ps ≤ 0) : ∀ p ∈ ps, moved T p.1 = p.2 := by
  induction ps with
  | nil => simp
  | cons p ps ih =>
    have e : misfit T (p :: ps) = distSq (moved T p.1) p.2 + misfit T ps := by simp [misfit]
    have n1 : 0 ≤ distSq (moved T p.1) p.2 := by unfold distSq; positivity
    have n2 := misfit_nonneg T ps
    rw [e] at h
    intro q hq
    rcases List.mem_cons.1 hq with rfl | hq
    · have z : distSq (moved T q.1) q.2 = 0 := by linarith
      unfold distSq at z
      have a := sq_nonneg ((moved T q.1).x - q.2.x)
      have b := sq_nonneg ((moved T q.1).y - q.2.y)
      have c := sq_nonneg ((moved T q.1).z - q.2.z)
      ext
      · exact sub_eq_zero.1 (pow_eq_zero_iff (two_ne_zero)|>.1 (by linarith))
      · exact sub_eq_zero.1 (pow_eq_zero_iff (two_ne_zero)|>.1 (by linarith))
      · exact sub_eq_zero.1 (pow_eq_zero_iff (two_ne_zero)|>.1 (by linarith))
    · exact ih (by linarith) q hq

omit [LinearOrder F] [IsStrictOrderedRing F] in
theorem misfit_of_exact [LinearOrder F] {T : Pose F} {ps : List (Vec3 F × Vec3 F)} (h : ∀ p ∈ ps, moved T p.1 = p.2) :
    misfit T ps = 0 := by
  unfold misfit
  apply List.sum_eq_zero
  intro x hx
  obtain ⟨p, hp, rfl⟩ := List.mem_map.1 hx
  rw [h p hp]
  simp [distSq]

/-! ### Rotation vectors -/

omit [LinearOrder F] [IsStrictOrderedRing F] in
theorem isRotMat_iff (m : Mat 3 F) : IsRotMat m ↔ m * m.transpose = 1 ∧ m.det = 1 := by
  unfold IsRotMat
  rw [← det3_eq]
  rfl

omit [LinearOrder F] [IsStrictOrderedRing F] in
theorem isRotation_rotMat (T : Pose F) : IsRotation T ↔ IsRotMat (rotOf T) := by
  rw [isRotation_iff, isRotMat_iff]

omit [LinearOrder F] [IsStrictOrderedRing F] in
theorem turn_rotOf (T : Pose F) (v : Vec3 F) : turn (rotOf T) v = T.rotate v := rfl

omit [LinearOrder F] [IsStrictOrderedRing F] in
theorem turn_mul (m n : Mat 3 F) (v : Vec3 F) : turn (m * n) v = turn m (turn n v) := by
  ext <;> simp [turn, Matrix.mul_apply, Fin.sum_univ_three] <;> ring

omit [LinearOrder F] [IsStrictOrderedRing F] in
theorem turn_one (v : Vec3 F) : turn (1 : Mat 3 F) v = v := by
  ext <;> simp [turn]

omit [LinearOrder F] [IsStrictOrderedRing F] in
theorem rotOf_mul (S T : Pose F) : rotOf (S.mul T) = rotOf S * rotOf T := by
  ext i j
  rw [Matrix.mul_apply, Fin.sum_univ_three]
  fin_cases i <;> fin_cases j <;> rfl

omit [LinearOrder F] [IsStrictOrderedRing F] in
theorem rotOf_inverse (T : Pose F) : rotOf T.inverse = (rotOf T).transpose := by
  ext i j
  fin_cases i <;> fin_cases j <;> rfl

omit [LinearOrder F] [IsStrictOrderedRing F] in
/-- A rotation is determined by what it does to the unit vectors y and z. -/
theorem rotMat_eq_one {m : Mat 3 F} (h : IsRotMat m) (hy : turn m ⟨0, 1, 0⟩ = ⟨0, 1, 0⟩) (hz : turn m ⟨0, 0, 1⟩ = ⟨0, 0, 1⟩) : m = 1 := by
  have y0 := congrArg Vec3.x hy; have y1 := congrArg Vec3.y hy; have y2 := congrArg Vec3.z hy
  have z0 := congrArg Vec3.x hz; have z1 := congrArg Vec3.y hz; have z2 := congrArg Vec3.z hz
  simp [turn] at y0 y1 y2 z0 z1 z2
  obtain ⟨o, d⟩ := h
  rw [y0, y1, y2, z0, z1, z2] at d
  simp at d
  have e := orth_left o
  have f01 := congrFun (congrFun e 0) 1
  have f02 := congrFun (congrFun e 0) 2
  rw [Matrix.mul_apply, Fin.sum_univ_three, Matrix.one_apply_ne (by decide)] at f01 f02
  simp only [Matrix.transpose_apply, y0, y1, y2, z0, z1, z2] at f01 f02
  simp at f01 f02
  ext i j
  fin_cases i <;> fin_cases j <;> simp_all

/-- A rotation fixing the vertical axis is a yaw, and conversely. -/
theorem yaw_iff (T : Pose F) : IsYaw T ↔ IsRotation T ∧ turn (rotOf T) ⟨0, 0, 1⟩ = ⟨0, 0, 1⟩ := by
  constructor
  · intro h
    obtain ⟨a, b⟩ := yaw_shape h
    refine ⟨h.rotation, ?_⟩
    ext <;> simp [turn, rotOf, a, b, h.up]
  · rintro ⟨h, e⟩
    have z0 := congrArg Vec3.x e; have z1 := congrArg Vec3.y e; have z2 := congrArg Vec3.z e
    simp [turn, rotOf] at z0 z1 z2
    refine ⟨h, ?_⟩
    have n := h.n2
    rw [z2] at n
    have x := mul_self_nonneg T.r2.x
    have y := mul_self_nonneg T.r2.y
    ext
    · exact mul_self_eq_zero.1 (by linarith)
    · exact mul_self_eq_zero.1 (by linarith)
    · exact z2

omit [LinearOrder F] [IsStrictOrderedRing F] in
theorem turn_smul (m : Mat 3 F) (k : F) (v : Vec3 F) : turn m (smul k v) = smul k (turn m v) := by
  ext <;> simp [turn, smul] <;> ring

omit [IsStrictOrderedRing F] in
/-- A turn about a vertical vector keeps the vertical direction. -/
theorem exp_up {log : Mat 3 F → Vec3 F} {exp : Vec3 F → Mat 3 F} (h : IsRotationLog log exp) {v u : Vec3 F} {k : F} (hk : v = smul k u) :
    turn (exp v) u = u := by
  by_cases h0 : k = 0
  · subst h0
    have : v = 0 := by rw [hk]; ext <;> simp [smul]
    rw [this, h.exp_zero, turn_one]
  · have e : smul k (turn (exp v) u) = smul k u := by
      rw [← turn_smul, ← hk]; exact h.exp_axis v
    have x := congrArg Vec3.x e; have y := congrArg Vec3.y e; have z := congrArg Vec3.z e
    simp only [smul] at x y z
    ext
    · exact mul_left_cancel₀ h0 x
    · exact mul_left_cancel₀ h0 y
    · exact mul_left_cancel₀ h0 z

/-- Turning about a vertical vector is a yaw. -/
theorem exp_vertical {log : Mat 3 F → Vec3 F} {exp : Vec3 F → Mat 3 F} (h : IsRotationLog log exp) (k : F) (t : Vec3 F) :
    IsYaw (poseOf (exp ⟨0, 0, k⟩) t) := by
  rw [yaw_iff, isRotation_rotMat, rotOf_poseOf]
  exact ⟨h.exp_rotation _, exp_up h (k := k) (by ext <;> simp [smul])⟩

/-- A yaw (other than none) moves all vectors but the vertical ones. -/
theorem yaw_fixed {T : Pose F} (hT : IsYaw T) (h1 : rotOf T ≠ 1) {v : Vec3 F} (e : turn (rotOf T) v = v) : v.x = 0 ∧ v.y = 0 := by
  obtain ⟨a, b⟩ := yaw_shape hT
  have x := congrArg Vec3.x e; have y := congrArg Vec3.y e
  simp [turn, rotOf] at x y
  rw [a] at x
  rw [b] at y
  obtain ⟨-, k2, k3⟩ := yaw_corner hT
  have n0 := hT.rotation.n0; have n1 := hT.rotation.n1; have o := hT.rotation.o01; have d := hT.rotation.det
  rw [hT.up] at d
  rw [a, b] at o d
  rw [a] at n0
  rw [b] at n1
  simp at n0 n1 o d
  -- cos and sin
  have q : T.r1.y = T.r0.x := by linear_combination (-T.r1.y) * n0 + T.r0.y * o + T.r0.x * d
  have s : T.r1.x = -T.r0.y := by linear_combination (-T.r1.x) * n0 + T.r0.x * o - T.r0.y * d
  rw [q, s] at y
  have hc : T.r0.x ≠ 1 := by
    intro hc
    apply h1
    rw [hc] at n0 q
    have y0 : T.r0.y = 0 := mul_self_eq_zero.1 (by linear_combination n0)
    rw [y0, neg_zero] at s
    ext i j
    fin_cases i <;> fin_cases j <;> simp [rotOf, hc, y0, a, b, q, s, hT.up]
  have c2 : (2 - 2 * T.r0.x) ≠ 0 := by
    intro h0
    apply hc
    linear_combination (-1 / 2) * h0
  have ex : (2 - 2 * T.r0.x) * v.x = 0 := by
    linear_combination (T.r0.x - 1) * x - T.r0.y * y - v.x * n0
  have ey : (2 - 2 * T.r0.x) * v.y = 0 := by
    linear_combination T.r0.y * x + (T.r0.x - 1) * y - v.y * n0
  exact ⟨(mul_eq_zero.1 ex).resolve_left c2, (mul_eq_zero.1 ey).resolve_left c2⟩

/-- The logarithm of a yaw is vertical. -/
theorem log_yaw {log : Mat 3 F → Vec3 F} {exp : Vec3 F → Mat 3 F} (h : IsRotationLog log exp) {T : Pose F} (hT : IsYaw T) :
    (log (rotOf T)).x = 0 ∧ (log (rotOf T)).y = 0 := by
  by_cases h1 : rotOf T = 1
  · rw [h1, h.log_one]; exact ⟨rfl, rfl⟩
  exact yaw_fixed hT h1 (h.log_axis _ ((isRotation_rotMat T).1 hT.rotation))

/-! ### Fusing -/

omit [Field F] [LinearOrder F] [IsStrictOrderedRing F] in
theorem pose_ext {S T : Pose F} (hr : rotOf S = rotOf T) (ht : S.t = T.t) : S = T := by
  have e := fun i j => congrFun (congrFun hr i) j
  obtain ⟨⟨a, b, c⟩, ⟨d, e', f⟩, ⟨g, h, i⟩, t⟩ := S
  obtain ⟨⟨a', b', c'⟩, ⟨d', e'', f'⟩, ⟨g', h', i'⟩, t'⟩ := T
  have h00 : a = a' := e 0 0
  have h01 : b = b' := e 0 1
  have h02 : c = c' := e 0 2
  have h10 : d = d' := e 1 0
  have h11 : e' = e'' := e 1 1
  have h12 : f = f' := e 1 2
  have h20 : g = g' := e 2 0
  have h21 : h = h' := e 2 1
  have h22 : i = i' := e 2 2
  have ht' : t = t' := ht
  subst h00 h01 h02 h10 h11 h12 h20 h21 h22 ht'
  rfl

/-- The correction of a batch as the sensor sees it. -/
def seen (current delta : Pose F) : Pose F := current.inverse.mul (delta.mul current)

omit [LinearOrder F] [IsStrictOrderedRing F] in
theorem rotOf_seen (current delta : Pose F) : rotOf (seen current delta) = (rotOf current).transpose * (rotOf delta * rotOf current) := by
  unfold seen
  rw [rotOf_mul, rotOf_inverse, rotOf_mul]

omit [LinearOrder F] [IsStrictOrderedRing F] in
theorem rotOf_fuse [LinearOrder F] (L : Lib F) (base est : Vec6 F) (current delta : Pose F) :
    rotOf (fuse L base est current delta) = rotOf current * L.exp ((weights base est).cwise (logPose L (seen current delta))).r := by
  unfold fuse
  rw [rotOf_mul]
  unfold expPose
  rw [rotOf_poseOf]
  rfl

omit [LinearOrder F] [IsStrictOrderedRing F] in
theorem fuse_t [LinearOrder F] (L : Lib F) (base est : Vec6 F) (current delta : Pose F) :
    (fuse L base est current delta).t =
      current.apply ((weights base est).cwise (logPose L (seen current delta))).t := rfl

omit [LinearOrder F] [IsStrictOrderedRing F] in
theorem seen_rotation {current delta : Pose F} (hc : IsRotation current) (hd : IsRotation delta) : IsRotation (seen current delta) :=
  Camera.rotation_mul (Camera.rotation_inverse hc) (Camera.rotation_mul hd hc)

omit [LinearOrder F] [IsStrictOrderedRing F] in
/-- Undoing a rotation. -/
theorem turn_back {m : Mat 3 F} (h : m * m.transpose = 1) (v : Vec3 F) : turn m (turn m.transpose v) = v ∧ turn m.transpose (turn m v) = v := by
  rw [← turn_mul, ← turn_mul, h, orth_left h]
  exact ⟨turn_one v, turn_one v⟩

omit [LinearOrder F] [IsStrictOrderedRing F] in
theorem seen_t (current delta : Pose F) :
    (seen current delta).t = turn (rotOf current).transpose ((delta.mul current).t - current.t) := by
  ext <;>
    simp [seen, Pose.mul, Pose.inverse, Pose.apply, Pose.rotate, Pose.cols, turn, rotOf, dot, Matrix.transpose_apply] <;> ring

omit [LinearOrder F] [IsStrictOrderedRing F] in
/-- Rotations keep lengths. -/
theorem turn_sqNorm {m : Mat 3 F} (h : m * m.transpose = 1) (v : Vec3 F) : Geo.sqNorm (turn m v) = Geo.sqNorm v := by
  have e := orth_left h
  have f : ∀ i j, m 0 i * m 0 j + m 1 i * m 1 j + m 2 i * m 2 j = (1 : Mat 3 F) i j := by
    intro i j
    rw [← e, Matrix.mul_apply, Fin.sum_univ_three]; rfl
  have f00 := f 0 0; have f11 := f 1 1; have f22 := f 2 2
  have f01 := f 0 1; have f02 := f 0 2; have f12 := f 1 2
  rw [Matrix.one_apply_eq] at f00 f11 f22
  rw [Matrix.one_apply_ne (by decide)] at f01 f02 f12
  simp only [Geo.sqNorm, dot, turn]
  linear_combination v.x * v.x * f00 + v.y * v.y * f11 + v.z * v.z * f22 + 2 * v.x * v.y * f01 + 2 * v.x * v.z * f02 +
    2 * v.y * v.z * f12

/-- Weights lie between zero and one. -/
theorem weight_range {b e : F} (hb : 0 ≤ b) (he : 0 < e) : 0 < b + e ∧ 0 < weight b e ∧ weight b e ≤ 1 ∧ (0 < b → weight b e < 1) := by
  have p : 0 < b + e := by linarith
  refine ⟨p, div_pos he p, (div_le_one p).2 (by linarith), fun h => (div_lt_one p).2 (by linarith)⟩

theorem weight_sq {b e x : F} (hb : 0 ≤ b) (he : 0 < e) : weight b e * x * (weight b e * x) ≤ x * x := by
  obtain ⟨-, h0, h1, -⟩ := weight_range hb he
  have : weight b e * weight b e ≤ 1 := by nlinarith
  nlinarith [mul_self_nonneg x]

/-! ### A rational example of rotation vectors: Rodrigues' parameters -/

/-- The rotation about `v` by twice the arc tangent of its length. -/
def cayleyExp (v : Vec3 F) : Mat 3 F :=
  let n := Geo.sqNorm v
  !![(1 - n + 2 * v.x * v.x) / (1 + n), (2 * v.x * v.y - 2 * v.z) / (1 + n), (2 * v.x * v.z + 2 * v.y) / (1 + n);
     (2 * v.y * v.x + 2 * v.z) / (1 + n), (1 - n + 2 * v.y * v.y) / (1 + n), (2 * v.y * v.z - 2 * v.x) / (1 + n);
     (2 * v.z * v.x - 2 * v.y) / (1 + n), (2 * v.z * v.y + 2 * v.x) / (1 + n), (1 - n + 2 * v.z * v.z) / (1 + n)]

/-- Its inverse (and 0 for half turns). -/
def cayleyLog (m : Mat 3 F) : Vec3 F :=
  let k := 1 + (m 0 0 + m 1 1 + m 2 2)
  if k = 0 then 0 else ⟨(m 2 1 - m 1 2) / k, (m 0 2 - m 2 0) / k, (m 1 0 - m 0 1) / k⟩

omit [LinearOrder F] [IsStrictOrderedRing F] in
/-- What is known of the entries of a rotation matrix. -/
theorem rotMat_entries {m : Mat 3 F} (h : IsRotMat m) :
    (∀ i j, m i 0 * m j 0 + m i 1 * m j 1 + m i 2 * m j 2 = (1 : Mat 3 F) i j) ∧
    (∀ i j, m 0 i * m 0 j + m 1 i * m 1 j + m 2 i * m 2 j = (1 : Mat 3 F) i j) ∧ m.adjugate = m.transpose := by
  obtain ⟨o, d⟩ := (isRotMat_iff m).1 h
  have o' := orth_left o
  refine ⟨fun i j => ?_, fun i j => ?_, ?_⟩
  · rw [← o, Matrix.mul_apply, Fin.sum_univ_three]; rfl
  · rw [← o', Matrix.mul_apply, Fin.sum_univ_three]; rfl
  · have k : m.transpose * (m * m.adjugate) = m.adjugate := by rw [← Matrix.mul_assoc, o', Matrix.one_mul]
    rw [Matrix.mul_adjugate, d] at k
    rw [← k]
    simp

theorem cayley_rotationLog : IsRotationLog (cayleyLog (F := F)) cayleyExp := by
  have np : ∀ v : Vec3 F, 1 + Geo.sqNorm v ≠ 0 := by
    intro v
    have : 0 ≤ Geo.sqNorm v := by
      unfold Geo.sqNorm dot
      nlinarith [mul_self_nonneg v.x, mul_self_nonneg v.y, mul_self_nonneg v.z]
    linarith
  have ent : ∀ m : Mat 3 F, IsRotMat m →
      (m 2 1 - m 1 2) * (m 2 1 - m 1 2) = (1 + (m 0 0 + m 1 1 + m 2 2)) * (1 + m 0 0 - m 1 1 - m 2 2) ∧
      (m 0 2 - m 2 0) * (m 0 2 - m 2 0) = (1 + (m 0 0 + m 1 1 + m 2 2)) * (1 - m 0 0 + m 1 1 - m 2 2) ∧
      (m 1 0 - m 0 1) * (m 1 0 - m 0 1) = (1 + (m 0 0 + m 1 1 + m 2 2)) * (1 - m 0 0 - m 1 1 + m 2 2) ∧
      (m 2 1 - m 1 2) * (m 0 2 - m 2 0) = (1 + (m 0 0 + m 1 1 + m 2 2)) * (m 0 1 + m 1 0) ∧
      (m 2 1 - m 1 2) * (m 1 0 - m 0 1) = (1 + (m 0 0 + m 1 1 + m 2 2)) * (m 0 2 + m 2 0) ∧
      (m 0 2 - m 2 0) * (m 1 0 - m 0 1) = (1 + (m 0 0 + m 1 1 + m 2 2)) * (m 1 2 + m 2 1) := by
    intro m h
    obtain ⟨e, f, adj⟩ := rotMat_entries h
    have e00 := e 0 0; have e11 := e 1 1; have e22 := e 2 2; have e01 := e 0 1; have e02 := e 0 2; have e12 := e 1 2
    have f00 := f 0 0; have f11 := f 1 1; have f22 := f 2 2; have f01 := f 0 1; have f02 := f 0 2; have f12 := f 1 2
    rw [Matrix.one_apply_eq] at e00 e11 e22 f00 f11 f22
    rw [Matrix.one_apply_ne (by decide)] at e01 e02 e12 f01 f02 f12
    have c : ∀ i j, m.adjugate i j = m j i := fun i j => by rw [adj]; rfl
    have c00 := c 0 0; have c01 := c 0 1; have c02 := c 0 2
    have c10 := c 1 0; have c11 := c 1 1; have c12 := c 1 2
    have c20 := c 2 0; have c21 := c 2 1; have c22 := c 2 2
    rw [Matrix.adjugate_fin_three] at c00 c01 c02 c10 c11 c12 c20 c21 c22
    simp at c00 c01 c02 c10 c11 c12 c20 c21 c22
    refine ⟨?_, ?_, ?_, ?_, ?_, ?_⟩
    · linear_combination 2 * c00 + e11 + e22 - f00
    · linear_combination 2 * c11 + e00 + e22 - f11
    · linear_combination 2 * c22 + e00 + e11 - f22
    · linear_combination c01 + c10 - e01 - f01
    · linear_combination c02 + c20 - e02 - f02
    · linear_combination c12 + c21 - e12 - f12
  refine ⟨?_, ?_, ?_, ?_, ?_, ?_, ?_⟩
  · unfold cayleyLog
    dsimp only
    split_ifs
    · rfl
    · ext <;> simp
  · unfold cayleyExp
    ext i j
    fin_cases i <;> fin_cases j <;> simp [Geo.sqNorm, dot]
  · intro v
    have h := np v
    constructor
    · ext i j
      rw [Matrix.mul_apply, Fin.sum_univ_three]
      fin_cases i <;> fin_cases j <;> simp [cayleyExp] <;> field_simp <;> simp only [Geo.sqNorm, dot] <;> ring
    · simp [cayleyExp]
      field_simp
      simp only [Geo.sqNorm, dot]
      ring
  · intro v
    have h := np v
    ext <;> simp [turn, cayleyExp] <;> field_simp <;> simp only [Geo.sqNorm, dot] <;> ring
  · intro m h
    obtain ⟨e, f, adj⟩ := rotMat_entries h
    unfold cayleyLog
    dsimp only
    split_ifs with hk
    · ext <;> simp [turn]
    · have c : ∀ i j, m.adjugate i j = m j i := fun i j => by rw [adj]; rfl
      have c01 := c 0 1; have c02 := c 0 2; have c10 := c 1 0; have c12 := c 1 2; have c20 := c 2 0; have c21 := c 2 1
      rw [Matrix.adjugate_fin_three] at c01 c02 c10 c12 c20 c21
      simp at c01 c02 c10 c12 c20 c21
      ext <;> simp [turn] <;> field_simp
      · linear_combination c12 - c21
      · linear_combination c20 - c02
      · linear_combination c01 - c10
  · intro m h ht
    obtain ⟨a, b, c, d, e, f⟩ := ent m h
    have hk : 1 + (m 0 0 + m 1 1 + m 2 2) ≠ 0 := by
      intro h0
      apply ht
      rw [Matrix.trace, Fin.sum_univ_three]
      show m 0 0 + m 1 1 + m 2 2 = -1
      linear_combination h0
    have el : cayleyLog m = ⟨(m 2 1 - m 1 2) / (1 + (m 0 0 + m 1 1 + m 2 2)), (m 0 2 - m 2 0) / (1 + (m 0 0 + m 1 1 + m 2 2)),
        (m 1 0 - m 0 1) / (1 + (m 0 0 + m 1 1 + m 2 2))⟩ := if_neg hk
    rw [el]
    have hn : Geo.sqNorm (⟨(m 2 1 - m 1 2) / (1 + (m 0 0 + m 1 1 + m 2 2)), (m 0 2 - m 2 0) / (1 + (m 0 0 + m 1 1 + m 2 2)),
        (m 1 0 - m 0 1) / (1 + (m 0 0 + m 1 1 + m 2 2))⟩ : Vec3 F) = (3 - (m 0 0 + m 1 1 + m 2 2)) / (1 + (m 0 0 + m 1 1 + m 2 2)) := by
      simp only [Geo.sqNorm, dot]
      field_simp
      linear_combination a + b + c
    have h1 : 1 + (3 - (m 0 0 + m 1 1 + m 2 2)) / (1 + (m 0 0 + m 1 1 + m 2 2)) = 4 / (1 + (m 0 0 + m 1 1 + m 2 2)) := by
      field_simp
      ring
    unfold cayleyExp
    dsimp only
    rw [hn, h1]
    set k := 1 + (m 0 0 + m 1 1 + m 2 2) with ek
    ext i j
    fin_cases i <;> fin_cases j <;> simp <;> field_simp
    · linear_combination 2 * a + k * ek
    · linear_combination 2 * d
    · linear_combination 2 * e
    · linear_combination 2 * d
    · linear_combination 2 * b + k * ek
    · linear_combination 2 * f
    · linear_combination 2 * e
    · linear_combination 2 * f
    · linear_combination 2 * c + k * ek
  · intro m v _ _ h1
    have h := np v
    have e : ∀ i j, cayleyExp v i j = (1 : Mat 3 F) i j := fun i j => by rw [h1]
    have e21 := e 2 1; have e12 := e 1 2; have e02 := e 0 2; have e20 := e 2 0; have e10 := e 1 0; have e01 := e 0 1
    rw [Matrix.one_apply_ne (by decide)] at e21 e12 e02 e20 e10 e01
    simp [cayleyExp, h] at e21 e12 e02 e20 e10 e01
    ext
    · show v.x = 0
      linear_combination (e21 - e12) / 4
    · show v.y = 0
      linear_combination (e02 - e20) / 4
    · show v.z = 0
      linear_combination (e10 - e01) / 4

/-! ### The fused pose -/

omit [LinearOrder F] [IsStrictOrderedRing F] in
theorem rotMat_mul {m n : Mat 3 F} (hm : IsRotMat m) (hn : IsRotMat n) : IsRotMat (m * n) := by
  rw [isRotMat_iff] at *
  refine ⟨?_, by rw [Matrix.det_mul, hm.2, hn.2, one_mul]⟩
  rw [Matrix.transpose_mul, Matrix.mul_assoc, ← Matrix.mul_assoc n, hn.1, Matrix.one_mul, hm.1]

omit [IsStrictOrderedRing F] in
theorem fuse_rotation {L : Lib F} (hl : IsRotationLog L.log L.exp) (base est : Vec6 F) {current : Pose F} (hc : IsRotation current)
    (delta : Pose F) : IsRotation (fuse L base est current delta) := by
  rw [isRotation_rotMat, rotOf_fuse]
  exact rotMat_mul ((isRotation_rotMat _).1 hc) (hl.exp_rotation _)

omit [LinearOrder F] [IsStrictOrderedRing F] in
/-- Going there and back. -/
theorem mul_inverse_mul {S T : Pose F} (hT : IsRotation T) : (S.mul T.inverse).mul T = S := by
  have h := ((isRotation_iff T).1 hT).1
  apply pose_ext
  · rw [rotOf_mul, rotOf_mul, rotOf_inverse, Matrix.mul_assoc, orth_left h, Matrix.mul_one]
  · have e : Spec.moved ((S.mul T.inverse).mul T) 0 = Spec.moved S (Spec.moved T.inverse (Spec.moved T 0)) := by
      rw [Camera.moved_mul, Camera.moved_mul]
    have k : Spec.moved T.inverse (Spec.moved T 0) = 0 := by
      apply Camera.moved_inj hT
      rw [Camera.moved_inverse hT]
    rw [k] at e
    have z : ∀ U : Pose F, Spec.moved U 0 = U.t := by
      intro U; ext <;> simp [Spec.moved]
    rw [z, z] at e
    exact e

omit [LinearOrder F] [IsStrictOrderedRing F] in
theorem mul_seen {current delta : Pose F} (hc : IsRotation current) : current.mul (seen current delta) = delta.mul current := by
  have h := ((isRotation_iff current).1 hc).1
  apply pose_ext
  · rw [rotOf_mul, rotOf_seen, ← Matrix.mul_assoc, h, Matrix.one_mul, rotOf_mul]
  · have e : (current.mul (seen current delta)).t = turn (rotOf current) (seen current delta).t + current.t := rfl
    rw [e, seen_t, (turn_back h _).1]
    ext <;> simp

omit [LinearOrder F] [IsStrictOrderedRing F] in
theorem trace_seen {current : Pose F} (hc : IsRotation current) (delta : Pose F) :
    (rotOf (seen current delta)).trace = (rotOf delta).trace := by
  have h := ((isRotation_iff current).1 hc).1
  rw [rotOf_seen, Matrix.trace_mul_comm, Matrix.mul_assoc, h, Matrix.mul_one]

end Vox.Icp
