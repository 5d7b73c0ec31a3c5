/-
Combining meshes: effect of the copy loops.
-/
import Verif.Model.Mesh
import Verif.Spec.MeshOps
import Mathlib.Tactic.Linarith
import Mathlib.Data.List.TakeDrop
import Mathlib.Data.List.Nodup

namespace Vox.MeshOps

open MC Spec

theorem at_ok {α : Type} {l : List α} {i : ℕ} (h : i < l.length) : at_ l i = .ok l[i] := by
  unfold at_
  rw [List.getElem?_eq_getElem h]

theorem triplet_ok {α : Type} {l : List α} {k : ℕ} (h : 3 * k + 2 < l.length) :
    ∃ x, triplet true l (3 * k) = .ok x ∧ l.take (3 * k) ++ x = l.take (3 * (k + 1)) := by
  refine ⟨_, by simp only [triplet, if_true, at_ok (show 3 * k < l.length by omega),
    at_ok (show 3 * k + 1 < l.length by omega), at_ok h, Outcome.bind_ok, Outcome.pure_eq]; rfl, ?_⟩
  have e : 3 * (k + 1) = 3 * k + 1 + 1 + 1 := by ring
  rw [e, List.take_succ_eq_append_getElem h, List.take_succ_eq_append_getElem (show 3 * k + 1 < l.length by omega),
    List.take_succ_eq_append_getElem (show 3 * k < l.length by omega)]
  simp only [List.append_assoc, List.cons_append, List.nil_append]

theorem triplet_flag {α : Type} {f : Bool} {l : List α} {k n : ℕ} (hl : l.length = if f then n else 0) (h : 3 * k + 2 < n) :
    ∃ x, triplet f l (3 * k) = .ok x ∧ l.take (3 * k) ++ x = l.take (3 * (k + 1)) := by
  cases f with
  | true => exact triplet_ok (by rw [hl]; simpa using h)
  | false =>
    have : l = [] := by simpa using hl
    subst this
    exact ⟨[], rfl, by simp⟩

/-- The mesh with the given contents appended. -/
def extend (c : Mesh) (v n : List (Vec3 Fl)) (col : List Color) (idx : List ℕ) : Mesh :=
  ⟨c.vertices ++ v, c.indices ++ idx, c.normals ++ n, c.colors ++ col, c.updated⟩

theorem copyTriplets_ok {m : Mesh} {fc fn : Bool} (hc : m.colors.length = if fc then m.vertices.length else 0)
    (hn : m.normals.length = if fn then m.vertices.length else 0) {size i0 : ℕ} (hs : i0 + m.vertices.length ≤ size) (c : Mesh) :
    ∀ k, 3 * k ≤ m.vertices.length →
      (List.range k).foldlM (copyTriplet (fc, fn, true) size m) (i0, c) =
        .ok (i0 + 3 * k, extend c (m.vertices.take (3 * k)) (m.normals.take (3 * k)) (m.colors.take (3 * k))
          (List.range' i0 (3 * k))) := by
  intro k
  induction k with
  | zero => intro _; simp [extend]
  | succ k ih =>
    intro hk
    obtain ⟨v, ev, ev'⟩ := triplet_ok (l := m.vertices) (k := k) (by omega)
    obtain ⟨n, en, en'⟩ := triplet_flag hn (k := k) (by omega)
    obtain ⟨cl, ec, ec'⟩ := triplet_flag hc (k := k) (by omega)
    rw [List.range_succ, List.foldlM_append, ih (by omega), Outcome.bind_ok]
    simp only [List.foldlM_cons, List.foldlM_nil]
    unfold copyTriplet
    have : i0 + 3 * k + 2 < size := by omega
    simp only [Outcome.check, this, decide_true, if_true, Outcome.bind_ok, ev, en, ec, Outcome.pure_eq, extend,
      Outcome.ok.injEq, Prod.mk.injEq, Mesh.mk.injEq, List.append_assoc, ev', en', ec']
    refine ⟨by ring, trivial, ?_, trivial, trivial, trivial⟩
    congr 1
    have e : 3 * (k + 1) = 3 * k + 3 := by ring
    rw [e, ← List.range'_append_1]
    rfl

theorem copyMesh_ok {m : Mesh} {fc fn : Bool} (h3 : m.vertices.length % 3 = 0)
    (hc : m.colors.length = if fc then m.vertices.length else 0)
    (hn : m.normals.length = if fn then m.vertices.length else 0)
    (hi : m.vertices ≠ [] → m.indices ≠ []) {size i0 : ℕ} (hs : i0 + m.vertices.length ≤ size) (c : Mesh) :
    copyMesh (fc, fn, true) size (i0, c) m =
      .ok (i0 + m.vertices.length, extend c m.vertices m.normals m.colors (List.range' i0 m.vertices.length)) := by
  have hq : (m.vertices.length + 2) / 3 = m.vertices.length / 3 := by omega
  have h3' : 3 * (m.vertices.length / 3) = m.vertices.length := by omega
  unfold copyMesh
  have hchk : (m.vertices.isEmpty || decide ((fc, fn, true) = (!m.colors.isEmpty, !m.normals.isEmpty, !m.indices.isEmpty))) = true := by
    by_cases hv : m.vertices = []
    · simp [hv]
    · have hl : m.vertices.length ≠ 0 := by simpa using hv
      have h1 : m.colors.isEmpty = !fc := by
        cases fc
        · simp at hc; simp [hc]
        · simp only [if_true] at hc
          have : m.colors ≠ [] := by intro h; rw [h] at hc; simp at hc; omega
          simpa using this
      have h2 : m.normals.isEmpty = !fn := by
        cases fn
        · simp at hn; simp [hn]
        · simp only [if_true] at hn
          have : m.normals ≠ [] := by intro h; rw [h] at hn; simp at hn; omega
          simpa using this
      have h3 : m.indices.isEmpty = false := by simpa using hi hv
      simp [h1, h2, h3]
  simp only [hchk, Outcome.check, if_true, Outcome.bind_ok]
  rw [hq, copyTriplets_ok hc hn hs c _ (by omega), h3']
  have e1 : m.normals.take m.vertices.length = m.normals := List.take_of_length_le (by rw [hn]; split_ifs <;> omega)
  have e2 : m.colors.take m.vertices.length = m.colors := List.take_of_length_le (by rw [hc]; split_ifs <;> omega)
  rw [e1, e2, List.take_length]

theorem copyAll_ok {fc fn : Bool} {size : ℕ} (ms : List Mesh)
    (h : ∀ m ∈ ms, m.vertices.length % 3 = 0 ∧ (m.colors.length = if fc then m.vertices.length else 0) ∧
      (m.normals.length = if fn then m.vertices.length else 0) ∧ (m.vertices ≠ [] → m.indices ≠ [])) :
    ∀ (i0 : ℕ) (c : Mesh), i0 + (ms.map fun m => m.vertices.length).sum ≤ size →
      ms.foldlM (copyMesh (fc, fn, true) size) (i0, c) =
        .ok (i0 + (ms.map fun m => m.vertices.length).sum, extend c (ms.flatMap (·.vertices)) (ms.flatMap (·.normals))
          (ms.flatMap (·.colors)) (List.range' i0 (ms.map fun m => m.vertices.length).sum)) := by
  induction ms with
  | nil => intro i0 c _; simp [extend]
  | cons m ms ih =>
    intro i0 c hs
    obtain ⟨h3, hc, hn, hi⟩ := h m List.mem_cons_self
    simp only [List.map_cons, List.sum_cons] at hs
    rw [List.foldlM_cons, copyMesh_ok h3 hc hn hi (by omega), Outcome.bind_ok,
      ih (fun m' hm' => h m' (List.mem_cons_of_mem _ hm')) _ _ (by omega)]
    simp only [extend, List.map_cons, List.sum_cons, List.flatMap_cons, Outcome.ok.injEq, Prod.mk.injEq,
      List.append_assoc, ← List.range'_append_1]
    refine ⟨by ring, trivial⟩

end Vox.MeshOps
