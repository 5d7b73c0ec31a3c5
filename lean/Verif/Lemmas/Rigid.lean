/-
Lemmas about rigid transformations.
-/
import Verif.Spec.Rigid
import Mathlib.LinearAlgebra.Matrix.NonsingularInverse
import Mathlib.Tactic.LinearCombination

namespace Vox.RigidT

open Layer Spec Interp Merge

theorem apply_unapply {T : Merge.Rigid} (h : Orthonormal T) (x : Pt) : T.apply (T.unapply x) = x := by
  obtain ⟨⟨a, b, c⟩, ⟨d, e, f⟩, ⟨g, i, j⟩, ⟨r, s, t⟩⟩ := T
  obtain ⟨h1, h2, h3, h4, h5, h6⟩ := h
  obtain ⟨x, y, z⟩ := x
  simp only [dot] at h1 h2 h3 h4 h5 h6
  simp only [Merge.Rigid.apply, Merge.Rigid.unapply, dot, Vec3.ext_iff]
  simp only [show ((⟨x, y, z⟩ : Pt) - ⟨r, s, t⟩) = ⟨x - r, y - s, z - t⟩ from rfl]
  refine ⟨?_, ?_, ?_⟩
  · linear_combination (x - r) * h1 + (y - s) * h4 + (z - t) * h5
  · linear_combination (x - r) * h4 + (y - s) * h2 + (z - t) * h6
  · linear_combination (x - r) * h5 + (y - s) * h6 + (z - t) * h3

/-- Orthonormal rows make orthonormal columns. -/
theorem columns {a b c d e f g i j : ℚ} (h1 : a * a + b * b + c * c = 1) (h2 : d * d + e * e + f * f = 1) (h3 : g * g + i * i + j * j = 1)
    (h4 : a * d + b * e + c * f = 0) (h5 : a * g + b * i + c * j = 0) (h6 : d * g + e * i + f * j = 0) :
    a * a + d * d + g * g = 1 ∧ b * b + e * e + i * i = 1 ∧ c * c + f * f + j * j = 1 ∧ a * b + d * e + g * i = 0 ∧ a * c + d * f + g * j = 0 ∧
      b * c + e * f + i * j = 0 := by
  have h : !![a, b, c; d, e, f; g, i, j] * !![a, d, g; b, e, i; c, f, j] = (1 : Matrix (Fin 3) (Fin 3) ℚ) := by
    ext m n
    fin_cases m <;> fin_cases n <;> simp [Matrix.mul_apply, Fin.sum_univ_three] <;> linarith
  have h := mul_eq_one_comm.1 h
  have e (m n : Fin 3) := congrFun (congrFun h m) n
  have e1 := e 0 0
  have e2 := e 1 1
  have e3 := e 2 2
  have e4 := e 0 1
  have e5 := e 0 2
  have e6 := e 1 2
  simp [Matrix.mul_apply, Fin.sum_univ_three] at e1 e2 e3 e4 e5 e6
  exact ⟨e1, e2, e3, e4, e5, e6⟩

theorem apply_squareDist {T : Rigid} (h : Orthonormal T) (x y : Pt) : squareDist (T.apply x) (T.apply y) = squareDist x y := by
  obtain ⟨⟨a, b, c⟩, ⟨d, e, f⟩, ⟨g, i, j⟩, ⟨r, s, t⟩⟩ := T
  obtain ⟨h1, h2, h3, h4, h5, h6⟩ := h
  obtain ⟨x, y, z⟩ := x
  rename_i y'
  obtain ⟨u, v, w⟩ := y'
  simp only [dot] at h1 h2 h3 h4 h5 h6
  obtain ⟨k1, k2, k3, k4, k5, k6⟩ := columns h1 h2 h3 h4 h5 h6
  simp only [Rigid.apply, dot, squareDist]
  linear_combination (x - u) ^ 2 * k1 + (y - v) ^ 2 * k2 + (z - w) ^ 2 * k3 + 2 * (x - u) * (y - v) * k4 + 2 * (x - u) * (z - w) * k5 +
    2 * (y - v) * (z - w) * k6

end Vox.RigidT
