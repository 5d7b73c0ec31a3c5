/-
The marching cubes tables: finite checks over all 256 configurations, evaluated by the kernel, and their
lifting to sign fields on the whole grid.
-/
import Verif.Model.MarchingCubes
import Verif.Spec.Surface
import Mathlib.Tactic.IntervalCases
import Mathlib.Tactic.Linarith

namespace Vox.MC

open Spec

/-- The triples of a table row up to the first -1. -/
def triplesOf : List ℤ → List (ℕ × ℕ × ℕ)
  | a :: b :: c :: r => if a < 0 then [] else (a.toNat, b.toNat, c.toNat) :: triplesOf r
  | _ => []

/-- The triangles of configuration `i` in the order in which the mesh version of `meshCube` emits the
vertices. -/
def emitted (i : ℕ) : List (ℕ × ℕ × ℕ) := (triplesOf (triangleTable[i]?.getD [])).map fun t => (t.2.2, t.2.1, t.1)

/-- Directed edges of the emitted triangles. -/
def dirEdges (i : ℕ) : List (ℕ × ℕ) := (emitted i).flatMap triSegments

/-- Corner offsets and edge ends as functions. -/
def off (k : ℕ) : Idx := cubeOffsets[k]?.getD ⟨0, 0, 0⟩
def ends (e : ℕ) : ℕ × ℕ := edgePairs[e]?.getD (0, 0)

/-- The local edge as a grid edge of the cube at the origin. -/
def loc (e : ℕ) : GridEdge := edgeBetween (off (ends e).1) (off (ends e).2)

/-- The configuration number of a sign assignment. -/
def cfgIndex (s : ℕ → Bool) : ℕ :=
  (if s 0 then 1 else 0) + (if s 1 then 2 else 0) + (if s 2 then 4 else 0) + (if s 3 then 8 else 0) +
    (if s 4 then 16 else 0) + (if s 5 then 32 else 0) + (if s 6 then 64 else 0) + (if s 7 then 128 else 0)

/-- Component `ax` of an index. -/
def comp (v : Idx) (ax : ℕ) : ℤ := if ax = 0 then v.x else if ax = 1 then v.y else v.z

/-- The local edge lies in the lower (`h = 0`) or upper (`h = 1`) face orthogonal to `ax`. -/
def onFace (ax : ℕ) (h : ℤ) (e : ℕ) : Bool := (loc e).axis ≠ ax && comp (loc e).base ax = h

def sameFace (a b : ℕ) : Bool :=
  (onFace 0 0 a && onFace 0 0 b) || (onFace 0 1 a && onFace 0 1 b) || (onFace 1 0 a && onFace 1 0 b) ||
    (onFace 1 1 a && onFace 1 1 b) || (onFace 2 0 a && onFace 2 0 b) || (onFace 2 1 a && onFace 2 1 b)

/-- The corner across axis `ax`. -/
def flip (ax k : ℕ) : ℕ :=
  if ax = 0 then [1, 0, 3, 2, 5, 4, 7, 6][k]?.getD 0
  else if ax = 1 then [3, 2, 1, 0, 7, 6, 5, 4][k]?.getD 0
  else [4, 5, 6, 7, 0, 1, 2, 3][k]?.getD 0

/-- The edge across axis `ax` (for edges orthogonal to `ax`). -/
def opp (ax e : ℕ) : ℕ :=
  if ax = 0 then [0, 3, 2, 1, 4, 7, 6, 5, 9, 8, 11, 10][e]?.getD 0
  else if ax = 1 then [2, 1, 0, 3, 6, 5, 4, 7, 11, 10, 9, 8][e]?.getD 0
  else [4, 5, 6, 7, 0, 1, 2, 3, 8, 9, 10, 11][e]?.getD 0

/-- Only the signs of the lower face orthogonal to `ax`. -/
def maskLo (ax : ℕ) (s : ℕ → Bool) (k : ℕ) : Bool := comp (off k) ax = 0 && s k

/-- The signs of the upper face, seen as the lower face of the next cube. -/
def shiftDown (ax : ℕ) (s : ℕ → Bool) (k : ℕ) : Bool := comp (off k) ax = 0 && s (flip ax k)

theorem chk_flip : ∀ ax < 3, ∀ k < 8, comp (off k) ax = 0 →
    flip ax k < 8 ∧ off (flip ax k) = off k + unitStep ax := by decide +kernel

theorem chk_rows : ∀ i < 256, ∃ row, triangleTable[i]? = some row ∧ row.length = 16 ∧
    (∀ n < 16, (n < 3 * (triplesOf row).length → 0 ≤ row.getD n 0 ∧ row.getD n 0 < 12) ∧
      (3 * (triplesOf row).length ≤ n → row.getD n 0 = -1)) ∧ (triplesOf row).length ≤ 5 := by
  have h : ∀ i < 256, (triangleTable[i]?.getD []).length = 16 ∧
      (∀ n < 16, (n < 3 * (triplesOf (triangleTable[i]?.getD [])).length → 0 ≤ (triangleTable[i]?.getD []).getD n 0 ∧
          (triangleTable[i]?.getD []).getD n 0 < 12) ∧
        (3 * (triplesOf (triangleTable[i]?.getD [])).length ≤ n → (triangleTable[i]?.getD []).getD n 0 = -1)) ∧
      (triplesOf (triangleTable[i]?.getD [])).length ≤ 5 := by decide +kernel
  intro i hi
  have := h i hi
  cases hr : triangleTable[i]? with
  | none => rw [hr] at this; simp at this
  | some row => rw [hr] at this; exact ⟨row, rfl, this⟩

theorem chk_used : ∀ i < 256, ∀ e < 12,
    (∃ t ∈ emitted i, e = t.1 ∨ e = t.2.1 ∨ e = t.2.2) ↔ i.testBit (ends e).1 ≠ i.testBit (ends e).2 := by
  decide +kernel

theorem chk_emitted : ∀ i < 256, ∀ t ∈ emitted i, t.1 < 12 ∧ t.2.1 < 12 ∧ t.2.2 < 12 ∧
    t.1 ≠ t.2.1 ∧ t.2.1 ≠ t.2.2 ∧ t.2.2 ≠ t.1 := by decide +kernel

theorem chk_nodup : ∀ i < 256, (dirEdges i).Nodup := by decide +kernel

theorem chk_inner : ∀ i < 256, ∀ p ∈ dirEdges i, ((p.2, p.1) ∈ dirEdges i ↔ sameFace p.1 p.2 = false) := by
  decide +kernel

set_option synthInstance.maxHeartbeats 400000 in
set_option synthInstance.maxSize 2000 in
theorem chk_lo : ∀ i < 256, ∀ ax < 3,
    (∀ p ∈ dirEdges i, onFace ax 0 p.1 = true → onFace ax 0 p.2 = true →
      p ∈ dirEdges (cfgIndex (maskLo ax i.testBit))) ∧
    (∀ p ∈ dirEdges (cfgIndex (maskLo ax i.testBit)), onFace ax 0 p.1 = true → onFace ax 0 p.2 = true →
      p ∈ dirEdges i) := by decide +kernel

set_option synthInstance.maxHeartbeats 400000 in
set_option synthInstance.maxSize 2000 in
theorem chk_hi : ∀ i < 256, ∀ ax < 3,
    (∀ p ∈ dirEdges i, onFace ax 1 p.1 = true → onFace ax 1 p.2 = true →
      (opp ax p.2, opp ax p.1) ∈ dirEdges (cfgIndex (shiftDown ax i.testBit))) ∧
    (∀ p ∈ dirEdges (cfgIndex (shiftDown ax i.testBit)), onFace ax 0 p.1 = true → onFace ax 0 p.2 = true →
      (opp ax p.2, opp ax p.1) ∈ dirEdges i) := by decide +kernel

set_option synthInstance.maxHeartbeats 400000 in
set_option synthInstance.maxSize 2000 in
theorem chk_opp : ∀ ax < 3, ∀ e < 12,
    (onFace ax 1 e = true → opp ax e < 12 ∧ onFace ax 0 (opp ax e) = true ∧ opp ax (opp ax e) = e ∧
      (loc e).axis = (loc (opp ax e)).axis ∧ (loc e).base = (loc (opp ax e)).base + unitStep ax) ∧
    (onFace ax 0 e = true → opp ax e < 12 ∧ onFace ax 1 (opp ax e) = true ∧ opp ax (opp ax e) = e ∧
      (loc e).axis = (loc (opp ax e)).axis ∧ (loc (opp ax e)).base = (loc e).base + unitStep ax) := by decide +kernel

theorem chk_loc_inj : ∀ a < 12, ∀ b < 12, loc a = loc b → a = b := by decide +kernel

/-- The two edges lie in the face orthogonal to `ax` that two cubes share. -/
def sharedFace (ax a a' b b' : ℕ) : Bool :=
  ((loc a).base - (loc a').base = unitStep ax && onFace ax 1 a && onFace ax 1 b && onFace ax 0 a' && onFace ax 0 b') ||
    ((loc a').base - (loc a).base = unitStep ax && onFace ax 0 a && onFace ax 0 b && onFace ax 1 a' && onFace ax 1 b')

/-- Two edges shared by two different cubes lie in a common face of the cubes (as a computation). -/
def sharedOk (a a' b b' : ℕ) : Bool :=
  (loc b).axis != (loc b').axis || a == b || (loc a).base - (loc a').base != (loc b).base - (loc b').base ||
    sharedFace 0 a a' b b' || sharedFace 1 a a' b b' || sharedFace 2 a a' b b'

/-- `sharedOk` for all second edges. -/
def sharedOks (a a' : ℕ) : Bool :=
  (loc a).axis != (loc a').axis || (loc a).base == (loc a').base ||
    (List.range 12).all fun b => (List.range 12).all fun b' => sharedOk a a' b b'

theorem chk_shared : ∀ a < 12, ∀ a' < 12, sharedOks a a' = true := by decide +kernel

end Vox.MC
