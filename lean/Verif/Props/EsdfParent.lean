/-
C92: the neighbour that a parent points to.
-/
import Verif.Lemmas.EsdfRaise
import Mathlib.Analysis.Real.Sqrt

namespace Vox.Esdf

open Layer Grid Spec

/-- The nearest whole number to a component of a unit vector. -/
private theorem near_of {c n : ℤ} {s : ℝ} (hs : 0 < s) (hss : s * s = n) (hn : c * c ≤ n) :
    |(c : ℝ) / s - ((if n ≤ 4 * (c * c) then Int.sign c else 0 : ℤ) : ℝ)| ≤ 1 / 2 := by
  have hc : |(c : ℝ)| ≤ s := by
    rw [← sq_le_sq₀ (abs_nonneg _) hs.le, sq_abs, sq, sq, hss]
    exact_mod_cast hn
  have hc' := abs_le.1 hc
  split_ifs with h
  · have h2 : s ≤ 2 * |(c : ℝ)| := by
      rw [← sq_le_sq₀ hs.le (by positivity), mul_pow, sq_abs, sq, sq, sq, hss]
      have : (n : ℝ) ≤ 4 * (c * c) := by exact_mod_cast h
      linarith
    rcases lt_trichotomy c 0 with k | k | k
    · rw [Int.sign_eq_neg_one_of_neg k]
      have k' : (c : ℝ) < 0 := by exact_mod_cast k
      rw [abs_of_neg k'] at h2
      have e1 : (c : ℝ) / s ≤ -(1 / 2) := by rw [div_le_iff₀ hs]; linarith
      have e2 : -1 ≤ (c : ℝ) / s := by rw [le_div_iff₀ hs]; linarith
      push_cast
      exact abs_le.2 ⟨by linarith, by linarith⟩
    · subst k
      simp only [Int.cast_zero, abs_zero, mul_zero] at h2
      linarith
    · rw [Int.sign_eq_one_of_pos k]
      have k' : (0 : ℝ) < c := by exact_mod_cast k
      rw [abs_of_pos k'] at h2
      have e1 : (1 / 2 : ℝ) ≤ c / s := by rw [le_div_iff₀ hs]; linarith
      have e2 : (c : ℝ) / s ≤ 1 := by rw [div_le_iff₀ hs]; linarith
      push_cast
      exact abs_le.2 ⟨by linarith, by linarith⟩
  · have h2 : 2 * |(c : ℝ)| ≤ s := by
      rw [← sq_le_sq₀ (by positivity) hs.le, mul_pow, sq_abs, sq, sq, sq, hss]
      have : (4 * (c * c) : ℝ) < n := by exact_mod_cast lt_of_not_ge h
      linarith
    have h3 := abs_le.1 (show |(c : ℝ)| ≤ s / 2 by linarith)
    have e1 : (c : ℝ) / s ≤ 1 / 2 := by rw [div_le_iff₀ hs]; linarith
    have e2 : -(1 / 2) ≤ (c : ℝ) / s := by rw [le_div_iff₀ hs]; linarith
    push_cast
    rw [sub_zero]
    exact abs_le.2 ⟨e2, e1⟩

/-- The Euclidean length of an index. -/
noncomputable def _root_.Vox.Spec.idxLength (p : Idx) : ℝ := Real.sqrt ((p.x * p.x + p.y * p.y + p.z * p.z : ℤ) : ℝ)

/-- **C92**, parents in full Euclidean mode: the direction that is compared with the neighbours is the unit vector towards the parent,
rounded to whole numbers, with components -1, 0 and 1. -/
theorem C92_parent_direction {p : Idx} (hp : p ≠ 0) :
    (|(p.x : ℝ) / idxLength p - (roundedDirection p).x| ≤ 1 / 2 ∧ |(p.y : ℝ) / idxLength p - (roundedDirection p).y| ≤ 1 / 2 ∧
      |(p.z : ℝ) / idxLength p - (roundedDirection p).z| ≤ 1 / 2) ∧ roundedDirection p ≠ 0 := by
  have hn : 0 < p.x * p.x + p.y * p.y + p.z * p.z := by
    rcases lt_or_eq_of_le (show 0 ≤ p.x * p.x + p.y * p.y + p.z * p.z from add_nonneg (add_nonneg (mul_self_nonneg _) (mul_self_nonneg _)) (mul_self_nonneg _)) with h | h
    · exact h
    · exfalso
      apply hp
      have a := mul_self_nonneg p.x
      have b := mul_self_nonneg p.y
      have c := mul_self_nonneg p.z
      ext
      · exact mul_self_eq_zero.1 (by linarith)
      · exact mul_self_eq_zero.1 (by linarith)
      · exact mul_self_eq_zero.1 (by linarith)
  have hs : 0 < idxLength p := Real.sqrt_pos.2 (by exact_mod_cast hn)
  have hss : idxLength p * idxLength p = ((p.x * p.x + p.y * p.y + p.z * p.z : ℤ) : ℝ) := Real.mul_self_sqrt (by exact_mod_cast hn.le)
  have a := mul_self_nonneg p.x
  have b := mul_self_nonneg p.y
  have c := mul_self_nonneg p.z
  refine ⟨⟨near_of hs hss (by linarith), near_of hs hss (by linarith), near_of hs hss (by linarith)⟩, fun h => ?_⟩
  have zero : ∀ {c : ℤ}, (if p.x * p.x + p.y * p.y + p.z * p.z ≤ 4 * (c * c) then Int.sign c else 0) = 0 → 4 * (c * c) < p.x * p.x + p.y * p.y + p.z * p.z := by
    intro c h
    by_contra k
    rw [if_pos (not_lt.1 k)] at h
    rw [Int.sign_eq_zero_iff_zero.1 h] at k
    exact k (by simpa using hn)
  have hx := zero (congrArg Vec3.x h)
  have hy := zero (congrArg Vec3.y h)
  have hz := zero (congrArg Vec3.z h)
  linarith

example : (⟨5, -2, 3⟩ : Idx) ≠ 0 ∧ roundedDirection ⟨5, -2, 3⟩ = ⟨1, 0, 0⟩ ∧ roundedDirection ⟨5, -4, 3⟩ = ⟨1, -1, 0⟩ := by decide

/-- **C92**, parents: on the neighbours themselves both modes agree, and a parent further along the same line points to the same neighbour. -/
theorem C92_parent_modes (cfg : Config) {dir off : Idx} (hd : dir ∈ kOffsets) (k : ℕ) (hk : 0 < k) :
    isParent { cfg with fullEuclidean := true } (dir.map (k * ·)) off = isParent { cfg with fullEuclidean := false } dir off := by
  have unit : ∀ d ∈ kOffsets, roundedDirection d = d := by decide +kernel
  have scale : roundedDirection (dir.map ((k : ℤ) * ·)) = roundedDirection dir := by
    have k0 : (0 : ℤ) < k := by exact_mod_cast hk
    have comp : ∀ c n : ℤ, (if k * k * n ≤ 4 * ((k * c) * (k * c)) then Int.sign (k * c) else 0) = (if n ≤ 4 * (c * c) then Int.sign c else 0) := by
      intro c n
      have e : (k * k * n ≤ 4 * ((k * c) * (k * c)) : Prop) ↔ n ≤ 4 * (c * c) := by
        rw [show (4 * ((k * c) * (k * c)) : ℤ) = (k * k) * (4 * (c * c)) by ring]
        exact mul_le_mul_iff_right₀ (by positivity)
      rw [Int.sign_mul, Int.sign_eq_one_of_pos k0, one_mul]
      exact if_congr e rfl rfl
    unfold roundedDirection
    have s : (dir.map ((k : ℤ) * ·)).x * (dir.map ((k : ℤ) * ·)).x + (dir.map ((k : ℤ) * ·)).y * (dir.map ((k : ℤ) * ·)).y +
        (dir.map ((k : ℤ) * ·)).z * (dir.map ((k : ℤ) * ·)).z = k * k * (dir.x * dir.x + dir.y * dir.y + dir.z * dir.z) := by
      show k * dir.x * (k * dir.x) + k * dir.y * (k * dir.y) + k * dir.z * (k * dir.z) = _
      ring
    rw [s]
    ext
    · exact comp dir.x _
    · exact comp dir.y _
    · exact comp dir.z _
  unfold isParent
  simp only [if_true, Bool.false_eq_true, if_false]
  rw [scale, unit dir hd]

example : (⟨1, -1, 0⟩ : Idx) ∈ kOffsets ∧ roundedDirection ⟨7, -7, 0⟩ = -⟨-1, 1, 0⟩ := by decide

end Vox.Esdf
