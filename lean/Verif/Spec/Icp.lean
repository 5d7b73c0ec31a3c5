/-
What it means to align two sets of matched points, and which batches of a point cloud are used.
-/
import Verif.Spec.Camera
import Mathlib.Data.Matrix.Mul
import Mathlib.LinearAlgebra.Matrix.Trace

namespace Vox.Spec

open Geo

variable {F : Type} [Field F] [LinearOrder F]

/-- The squared distance of two points. -/
def distSq (a b : Vec3 F) : F := (a.x - b.x) ^ 2 + (a.y - b.y) ^ 2 + (a.z - b.z) ^ 2

/-- The sum of the squared distances between the moved source points and their targets. -/
def misfit (T : Pose F) (ps : List (Vec3 F × Vec3 F)) : F := (ps.map fun p => distSq (moved T p.1) p.2).sum

/-- A rotation about the vertical axis (and any translation). -/
structure IsYaw (T : Pose F) : Prop where
  rotation : IsRotation T
  up : T.r2 = ⟨0, 0, 1⟩

/-- `u` and `v` are the orthogonal factors of a singular value decomposition of `H`, the singular values in decreasing order. -/
def IsSvd {d : ℕ} (H u v : Matrix (Fin d) (Fin d) F) : Prop :=
  u * u.transpose = 1 ∧ v * v.transpose = 1 ∧
    ∃ σ : Fin d → F, (∀ i, 0 ≤ σ i) ∧ (∀ i j, i ≤ j → σ j ≤ σ i) ∧ H = u * Matrix.diagonal σ * v.transpose

/-- The centroid of the values of a coordinate. -/
def average (f : Vec3 F × Vec3 F → F) (ps : List (Vec3 F × Vec3 F)) : F := (ps.map f).sum / ps.length

/-- The coordinates of a point. -/
def coord (i : Fin 3) (p : Vec3 F) : F := ![p.x, p.y, p.z] i

/-- How the coordinates of the source points and of the targets vary together. -/
def crossCovariance (ps : List (Vec3 F × Vec3 F)) : Matrix (Fin 3) (Fin 3) F := fun i j =>
  (ps.map fun p => (coord i p.1 - average (fun q => coord i q.1) ps) * (coord j p.2 - average (fun q => coord j q.2) ps)).sum

/-- The horizontal part of it. -/
def planarCovariance (ps : List (Vec3 F × Vec3 F)) : Matrix (Fin 2) (Fin 2) F :=
  fun i j => crossCovariance ps i.castSucc j.castSucc

/-- The image of a vector under a matrix. -/
def turn (m : Matrix (Fin 3) (Fin 3) F) (v : Vec3 F) : Vec3 F :=
  ⟨m 0 0 * v.x + m 0 1 * v.y + m 0 2 * v.z, m 1 0 * v.x + m 1 1 * v.y + m 1 2 * v.z, m 2 0 * v.x + m 2 1 * v.y + m 2 2 * v.z⟩

/-- A matrix of a rotation. -/
def IsRotMat (m : Matrix (Fin 3) (Fin 3) F) : Prop := m * m.transpose = 1 ∧
  m 0 0 * (m 1 1 * m 2 2 - m 1 2 * m 2 1) - m 0 1 * (m 1 0 * m 2 2 - m 1 2 * m 2 0) + m 0 2 * (m 1 0 * m 2 1 - m 1 1 * m 2 0) = 1

/-- What is asked of rotation vectors: the exponential turns about its argument, and the logarithm inverts it (half turns, whose trace is
-1, aside). The last condition says that logarithms are shorter than a full turn. -/
structure IsRotationLog (log : Matrix (Fin 3) (Fin 3) F → Vec3 F) (exp : Vec3 F → Matrix (Fin 3) (Fin 3) F) : Prop where
  log_one : log 1 = 0
  exp_zero : exp 0 = 1
  exp_rotation : ∀ v, IsRotMat (exp v)
  exp_axis : ∀ v, turn (exp v) v = v
  log_axis : ∀ m, IsRotMat m → turn m (log m) = log m
  exp_log : ∀ m, IsRotMat m → m.trace ≠ -1 → exp (log m) = m
  log_short : ∀ m v, IsRotMat m → sqNorm v ≤ sqNorm (log m) → exp v = 1 → v = 0

/-- All three components satisfy a condition. -/
def Every (P : F → Prop) (v : Vec3 F) : Prop := P v.x ∧ P v.y ∧ P v.z

end Vox.Spec
