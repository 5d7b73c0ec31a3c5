/-
C129: the slider for slices.
-/
import Verif.Spec.Slider
import Mathlib.Data.Fintype.Basic
import Mathlib.Tactic.NormNum
import Mathlib.Tactic.Ring
import Mathlib.Tactic.FieldSimp
import Mathlib.Tactic.Linarith
import Mathlib.Tactic.FinCases

namespace Vox.Slider

open SliderSpec

theorem create_eq (A : Arith) (tenth : Fl) {name : String} (hn : name ≠ "") (start : Pt) (k : Fin 3) (scale : Fl) :
    create A tenth name start k scale = .ok (⟨start, [⟨.moveAxis, orientation k, []⟩, ⟨.movePlane, orientation k, [cube A tenth scale k]⟩]⟩,
      some (coord k start)) := by
  unfold create
  rw [decide_eq_true hn, decide_eq_true k.isLt]
  show Outcome.ok _ = _
  fin_cases k <;> rfl

/-- By the handle the marker is dragged exactly along the free axis, to any point on it. -/
theorem C129_axis {A : Arith} {tenth : Fl} {name : String} {start : Pt} {k : Fin 3} {scale : Fl} {m : Marker} {l : Option ℚ}
    (h : create A tenth name start k scale = .ok (m, l)) :
    ∃ c ∈ m.controls, c.mode = .moveAxis ∧ ∀ p p', Drags c p p' ↔ ∀ j, j ≠ k → coord j p' = coord j p := by
  have hn : name ≠ "" := by
    rintro rfl
    cases h
  rw [create_eq A tenth hn] at h
  cases h
  refine ⟨_, List.mem_cons_self, rfl, fun p p' => ⟨?_, ?_⟩⟩
  · intro hd
    cases hd with
    | axis t _ =>
      intro j hj
      fin_cases k <;> fin_cases j <;> simp_all [coord, along, turned, orientation]
    | plane s t hm => cases hm
  · intro hc
    obtain ⟨x, y, z⟩ := p
    obtain ⟨x', y', z'⟩ := p'
    fin_cases k
    · have e : (⟨x', y', z'⟩ : Pt) = along ⟨x, y, z⟩ (x' - x) (turned (orientation 0) ⟨1, 0, 0⟩) := by
        have e1 : y' = y := hc 1 (by decide)
        have e2 : z' = z := hc 2 (by decide)
        subst e1 e2
        ext <;> simp [along, turned, orientation] <;> ring
      rw [e]
      exact .axis _ rfl
    · have e : (⟨x', y', z'⟩ : Pt) = along ⟨x, y, z⟩ (y' - y) (turned (orientation 1) ⟨1, 0, 0⟩) := by
        have e1 : x' = x := hc 0 (by decide)
        have e2 : z' = z := hc 2 (by decide)
        subst e1 e2
        ext <;> simp [along, turned, orientation] <;> ring
      rw [e]
      exact .axis _ rfl
    · have e : (⟨x', y', z'⟩ : Pt) = along ⟨x, y, z⟩ (z - z') (turned (orientation 2) ⟨1, 0, 0⟩) := by
        have e1 : x' = x := hc 0 (by decide)
        have e2 : y' = y := hc 1 (by decide)
        subst e1 e2
        ext <;> simp [along, turned, orientation] <;> ring
      rw [e]
      exact .axis _ rfl

example : ∃ m l, create Ieee.float64 (.fin (1 / 10)) "slice" ⟨1, 2, 3⟩ (1 : Fin 3) (.fin 5) = .ok (m, l) ∧ m.controls.length = 2 := by
  refine ⟨_, _, create_eq _ _ (by decide) _ _ _, rfl⟩

/-- By the cube the marker is dragged exactly in the plane across the free axis, to any point of it, which leaves the level as it is; the cube is a thin
plate in that plane. -/
theorem C129_plane {A : Arith} {tenth : Fl} {name : String} {start : Pt} {k : Fin 3} {scale : Fl} {m : Marker} {l : Option ℚ}
    (h : create A tenth name start k scale = .ok (m, l)) :
    ∃ c ∈ m.controls, c.mode = .movePlane ∧ (∀ p p', Drags c p p' ↔ coord k p' = coord k p) ∧
      ∃ v, c.markers = [v] ∧ ∀ j, ![v.x, v.y, v.z] j = if j = k then A.mul scale tenth else scale := by
  have hn : name ≠ "" := by
    rintro rfl
    cases h
  rw [create_eq A tenth hn] at h
  cases h
  refine ⟨_, List.mem_cons_of_mem _ List.mem_cons_self, rfl, fun p p' => ⟨?_, ?_⟩, _, rfl, ?_⟩
  · intro hd
    cases hd with
    | axis t hm => cases hm
    | plane s t _ => fin_cases k <;> simp [coord, along, turned, orientation]
  · intro hc
    obtain ⟨x, y, z⟩ := p
    obtain ⟨x', y', z'⟩ := p'
    fin_cases k
    · have e : (⟨x', y', z'⟩ : Pt) = along (along ⟨x, y, z⟩ (z' - z) (turned (orientation 0) ⟨0, 1, 0⟩)) (y - y') (turned (orientation 0) ⟨0, 0, 1⟩) := by
        simp_all [coord, along, turned, orientation]
        constructor <;> ring
      rw [e]
      exact .plane _ _ rfl
    · have e : (⟨x', y', z'⟩ : Pt) = along (along ⟨x, y, z⟩ (x - x') (turned (orientation 1) ⟨0, 1, 0⟩)) (z' - z) (turned (orientation 1) ⟨0, 0, 1⟩) := by
        simp_all [coord, along, turned, orientation]
        constructor <;> ring
      rw [e]
      exact .plane _ _ rfl
    · have e : (⟨x', y', z'⟩ : Pt) = along (along ⟨x, y, z⟩ (y' - y) (turned (orientation 2) ⟨0, 1, 0⟩)) (x' - x) (turned (orientation 2) ⟨0, 0, 1⟩) := by
        simp_all [coord, along, turned, orientation]
        constructor <;> ring
      rw [e]
      exact .plane _ _ rfl
  · intro j
    fin_cases k <;> fin_cases j <;> simp [cube]

example : ∃ m l, create Ieee.float64 (.fin (1 / 8)) "slice" ⟨1, 2, 3⟩ (0 : Fin 3) (.fin 4) = .ok (m, l) ∧
    m.controls.map (·.markers) = [[], [⟨.fin (1 / 2), .fin 4, .fin 4⟩]] := by
  refine ⟨_, _, create_eq _ _ (by decide) _ _ _, by decide +kernel⟩

/-- A session: the slider is created and feedback arrives; the level last reported. -/
def lastReport (free : ℕ) (first : Option ℚ) (fs : List (EventType × Pt)) : Option ℚ :=
  fs.foldl (fun l f => (feedback free f.1 f.2).orElse fun _ => l) first

/-- After any feedback the level last reported is the coordinate, along the free axis, of the last pose: of the one where the slider was created as long
as no new pose was told. -/
theorem C129_reported {A : Arith} {tenth : Fl} {name : String} {start : Pt} {k : Fin 3} {scale : Fl} {m : Marker} {l : Option ℚ}
    (h : create A tenth name start k scale = .ok (m, l)) (fs : List (EventType × Pt)) :
    m.position = start ∧ lastReport k l fs = some (coord k (((fs.filter fun f => f.1 = .poseUpdate).map (·.2)).getLast?.getD start)) := by
  have hn : name ≠ "" := by
    rintro rfl
    cases h
  rw [create_eq A tenth hn] at h
  cases h
  refine ⟨rfl, ?_⟩
  have hlev : ∀ p, level k p = some (coord k p) := by
    intro p
    fin_cases k <;> rfl
  induction fs using List.reverseRecOn with
  | nil => rfl
  | append_singleton fs f ih =>
    unfold lastReport at ih ⊢
    rw [List.foldl_append, ih, List.filter_append, List.map_append]
    obtain ⟨e, p⟩ := f
    cases e with
    | poseUpdate => simp [feedback, hlev]
    | other => simp [feedback]

example : ∃ m l, create Ieee.float64 (Ieee.float32.rnd (1 / 10)) "slice" ⟨1, 2, 3⟩ (2 : Fin 3) (.fin 5) = .ok (m, l) ∧ l = some 3 ∧
    lastReport 2 l [(.poseUpdate, ⟨1, 2, 4⟩), (.other, ⟨1, 2, 9⟩)] = some 4 := by
  refine ⟨_, _, create_eq _ _ (by decide) _ _ _, rfl, by decide +kernel⟩

/-- Without a name or with an axis that does not exist the program stops. -/
theorem C129_refused (A : Arith) (tenth : Fl) (name : String) (start : Pt) (free : ℕ) (scale : Fl) :
    create A tenth name start free scale = .fatal ↔ name = "" ∨ 3 ≤ free := by
  by_cases hn : name = ""
  · subst hn
    simp [create, Outcome.check]
  · by_cases hf : free < 3
    · have := create_eq A tenth hn start ⟨free, hf⟩ scale
      dsimp only at this
      rw [this]
      simp [hn]
      omega
    · simp [create, Outcome.check, hn, hf]
      omega

example : create Ieee.float64 (.fin (1 / 10)) "slice" ⟨1, 2, 3⟩ 3 (.fin 5) = .fatal := by decide +kernel

end Vox.Slider
