/-
The slider that chooses the level of a slice: voxblox_ros/src/interactive_slider.cc.
-/
import Verif.Model.Ieee

namespace Vox.Slider

/-- `InteractiveMarkerControl::interaction_mode`, voxblox_ros/src/interactive_slider.cc:44-45, :65-66. -/
inductive Mode where
  | moveAxis
  | movePlane
deriving DecidableEq

/-- An orientation as sent, voxblox_ros/src/interactive_slider.cc:46-49. -/
structure Quat where
  w : ℚ
  x : ℚ
  y : ℚ
  z : ℚ
deriving DecidableEq

/-- A control with the sizes of its markers, voxblox_ros/src/interactive_slider.cc:43-68. -/
structure Control where
  mode : Mode
  orientation : Quat
  markers : List (Vec3 Fl)
deriving DecidableEq

/-- The interactive marker, voxblox_ros/src/interactive_slider.cc:19-27. Frame, time and colours are left out. -/
structure Marker where
  position : Pt
  controls : List Control
deriving DecidableEq

/-- The orientation of the control, voxblox_ros/src/interactive_slider.cc:46-61. -/
def orientation (free : ℕ) : Quat :=
  match free with
  | 0 => ⟨1, 1, 0, 0⟩
  | 1 => ⟨1, 0, 0, 1⟩
  | 2 => ⟨1, 0, 1, 0⟩
  | _ => ⟨1, 0, 0, 0⟩

/-- The size of the cube, voxblox_ros/src/interactive_slider.cc:32-34, :50-61: `double` times the `float` 0.1. -/
def cube (A : Arith) (tenth scale : Fl) (free : ℕ) : Vec3 Fl :=
  match free with
  | 0 => ⟨A.mul scale tenth, scale, scale⟩
  | 1 => ⟨scale, A.mul scale tenth, scale⟩
  | 2 => ⟨scale, scale, A.mul scale tenth⟩
  | _ => ⟨scale, scale, scale⟩

/-- What is handed to the callback for a position, voxblox_ros/src/interactive_slider.cc:77-88, :96-105. Without a case nothing is called. -/
def level (free : ℕ) (p : Pt) : Option ℚ :=
  match free with
  | 0 => some p.x
  | 1 => some p.y
  | 2 => some p.z
  | _ => none

/-- voxblox_ros/src/interactive_slider.cc:8-89, the constructor: the marker and the levels that were reported. Positions are copied only (a `float`
becomes the same `double`). -/
def create (A : Arith) (tenth : Fl) (name : String) (start : Pt) (free : ℕ) (scale : Fl) : Outcome (Marker × Option ℚ) := do
  Outcome.check (decide (name ≠ ""))
  Outcome.check (decide (free < 3))
  pure (⟨start, [⟨.moveAxis, orientation free, []⟩, ⟨.movePlane, orientation free, [cube A tenth scale free]⟩]⟩, level free start)

/-- `InteractiveMarkerFeedback::event_type`, voxblox_ros/src/interactive_slider.cc:94-95: a new pose, or anything else. -/
inductive EventType where
  | poseUpdate
  | other
deriving DecidableEq

/-- voxblox_ros/src/interactive_slider.cc:91-107 `interactiveMarkerFeedback`: the level reported, if any. -/
def feedback (free : ℕ) (event : EventType) (p : Pt) : Option ℚ := if event = .poseUpdate then level free p else none

end Vox.Slider
