/-
What the conversion of point clouds should do.
-/
import Verif.Model.CloudMsg

namespace Vox.CloudMsg

/-- The coordinates of a point are numbers. -/
def Usable (p : PclPoint) : Prop := ∃ x y z : ℚ, p.pos = ⟨.fin x, .fin y, .fin z⟩

instance (p : PclPoint) : Decidable (Usable p) :=
  match h : p.pos with
  | ⟨.fin x, .fin y, .fin z⟩ => .isTrue ⟨x, y, z, h⟩
  | ⟨.nan, _, _⟩ => .isFalse (by rintro ⟨_, _, _, e⟩; rw [h] at e; simp at e)
  | ⟨.ninf, _, _⟩ => .isFalse (by rintro ⟨_, _, _, e⟩; rw [h] at e; simp at e)
  | ⟨.pinf, _, _⟩ => .isFalse (by rintro ⟨_, _, _, e⟩; rw [h] at e; simp at e)
  | ⟨.fin _, .nan, _⟩ => .isFalse (by rintro ⟨_, _, _, e⟩; rw [h] at e; simp at e)
  | ⟨.fin _, .ninf, _⟩ => .isFalse (by rintro ⟨_, _, _, e⟩; rw [h] at e; simp at e)
  | ⟨.fin _, .pinf, _⟩ => .isFalse (by rintro ⟨_, _, _, e⟩; rw [h] at e; simp at e)
  | ⟨.fin _, .fin _, .nan⟩ => .isFalse (by rintro ⟨_, _, _, e⟩; rw [h] at e; simp at e)
  | ⟨.fin _, .fin _, .ninf⟩ => .isFalse (by rintro ⟨_, _, _, e⟩; rw [h] at e; simp at e)
  | ⟨.fin _, .fin _, .pinf⟩ => .isFalse (by rintro ⟨_, _, _, e⟩; rw [h] at e; simp at e)

/-- The usable points of a cloud, in order. -/
def usable (ps : List PclPoint) : List PclPoint := ps.filter fun p => decide (Usable p)

/-- The colour a point of a cloud with these fields should get: its own if the cloud has colours, else that of its intensity if the cloud has intensities, else
that of intensity zero. -/
def ColorFor (look : Fl → Outcome Color) (fields : List String) (p : PclPoint) (c : Color) : Prop :=
  ("rgb" ∈ fields → c = p.rgba) ∧ ("rgb" ∉ fields → "intensity" ∈ fields → look p.intensity = .ok c) ∧
    ("rgb" ∉ fields → "intensity" ∉ fields → look (.fin 0) = .ok c)

end Vox.CloudMsg
