/-
What the clouds and markers of a server should show.
-/
import Verif.Spec.PtCloud
import Verif.Model.ServerClouds

namespace Vox.Spec

open Layer Grid ServerClouds

variable {V R : Type}

/-- The marker shows, once each, the voxels with `P` as opaque cubes of the size of a voxel in saturated colours, and replaces the marker shown before. -/
structure ShowsCubes (frame : String) (P : V → Prop) (l : VLayer V) (m : CubeMarker) : Prop where
  frame : m.frame = frame
  replaces : m.ns = "occupied_voxels" ∧ m.id = 0 ∧ m.action = .add
  cubes : m.shape = .cubeList ∧ m.scale = ⟨l.cfg.voxelSize, l.cfg.voxelSize, l.cfg.voxelSize⟩
  once : m.points.Nodup
  points : ∀ p, p ∈ m.points ↔ ∃ g v, content l g = some v ∧ P v ∧ p = voxelCenter l.cfg.voxelSize g
  colors : m.colors.length = m.points.length
  color : ∀ c ∈ m.colors, c.2 = .fin 1 ∧ (c.1.x = .fin 1 ∨ c.1.y = .fin 1 ∨ c.1.z = .fin 1) ∧ (c.1.x = .fin 0 ∨ c.1.y = .fin 0 ∨ c.1.z = .fin 0)

/-- Voxels no farther than one voxel from the plane at height `level`, once each, with what `f` reports. -/
def ShowsNear (level : ℚ) (f : V → Option R) (l : VLayer V) (E : List (Pt × R)) : Prop :=
  (E.map (·.1)).Nodup ∧ ∀ e ∈ E, ∃ g v r, content l g = some v ∧ f v = some r ∧ e = (voxelCenter l.cfg.voxelSize g, r) ∧
    |e.1.z - level| ≤ l.cfg.voxelSize + 2 / 1000000

/-- The distance of a voxel of weight above `w`. -/
def measured (w : ℚ) (v : TsdfVoxel Fl) : Option Fl := if Fl.lt (.fin w) v.weight then some v.distance else none

/-- The message shows what the map holds: `w` is the least weight, `θ` the distance that counts as near the surface. -/
def FaithfulAt (s : Server) (w θ : ℚ) : Msg → Prop
  | (.tsdfCloud, .points f E) => f = s.frame ∧ Shows (measured w) s.tsdf E
  | (.surface, .colored f E) =>
    f = s.frame ∧ Shows (fun v => if Fl.lt (.fin 0) v.weight = true ∧ Fl.lt (Fl.abs v.distance) (.fin θ) = true then some v.color else none) s.tsdf E
  | (.occupied, .markers ms) =>
    ∃ m, ms = [m] ∧ ShowsCubes s.frame (fun v => Fl.lt (.fin w) v.weight = true ∧ Fl.le v.distance (.fin s.tsdf.cfg.voxelSize) = true) s.tsdf m
  | (.tsdfSlice, .points f E) => f = s.frame ∧ ShowsNear (Ieee.rnd32 s.sliceLevel) (measured w) s.tsdf E
  | (.esdfCloud, .points f E) => f = s.frame ∧ Shows (fun v => if v.observed then some v.distance else none) s.esdf E
  | (.esdfSlice, .points f E) => f = s.frame ∧ ShowsNear (Ieee.rnd32 s.sliceLevel) (fun v => if v.observed then some v.distance else none) s.esdf E
  | (.traversable, .points f E) =>
    f = s.frame ∧ Shows (fun v => if v.observed = true ∧ Fl.le s.radius v.distance = true then some v.distance else none) s.esdf E
  | (.intensityCloud, .points f E) => f = s.frame ∧ Shows (fun v => if Fl.lt (.fin w) v.weight then some v.intensity else none) s.intensity E
  | _ => False

/-- The same for a least weight of 0.001 and a distance of three quarters of a voxel, up to rounding. -/
def Faithful (s : Server) (m : Msg) : Prop :=
  ∃ w θ : ℚ, |w - 1 / 1000| < 1 / 10 ^ 9 ∧ |θ - 3 / 4 * s.tsdf.cfg.voxelSize| ≤ s.tsdf.cfg.voxelSize / 2 ^ 22 ∧ FaithfulAt s w θ m

/-- The topics a server should publish on. -/
def Wanted (s : Server) : Topic → Prop
  | .tsdfCloud => True
  | .surface => True
  | .occupied => True
  | .tsdfSlice => s.slices = true
  | .esdfCloud => s.kind = .esdf
  | .esdfSlice => s.kind = .esdf ∧ s.slices = true
  | .traversable => s.kind = .esdf ∧ s.traversable = true
  | .intensityCloud => s.kind = .intensity

/-- What a subscriber of a topic has received last. -/
def latest (t : Topic) (ms : List Msg) : Option Content := ((ms.filter fun m => m.1 = t).getLast?).map (·.2)

/-- A map the publishing functions can handle. -/
def FitsLayer (l : VLayer V) : Prop := WellFormed l ∧ (l.blocks.map (·.1)).Nodup ∧ 1 / 2 ^ 20 ≤ l.cfg.voxelSize ∧ l.cfg.voxelSize ≤ 2 ^ 20

/-- The same for the maps of a server. -/
def Fits (s : Server) : Prop := FitsLayer s.tsdf ∧ FitsLayer s.esdf ∧ FitsLayer s.intensity

/-- The same for the maps an event leaves. -/
def FitsEvent : Event → Prop
  | .scan t e => FitsLayer t ∧ FitsLayer e
  | .tsdfMap _ t => FitsLayer t
  | .load t e => FitsLayer t ∧ FitsLayer e
  | .esdfMap _ e => FitsLayer e
  | .generateEsdf e => FitsLayer e
  | .esdfTimer e => FitsLayer e
  | .image i => FitsLayer i
  | _ => True

/-- The clouds of the TSDF received last show the map. -/
def Current (s : Server) (ms : List Msg) : Prop :=
  ∀ t, (t = .tsdfCloud ∨ t = .surface ∨ t = .occupied) → ∃ c, latest t ms = some c ∧ Faithful s (t, c)

/-- The cloud of the ESDF received last shows the map. -/
def CurrentEsdf (s : Server) (ms : List Msg) : Prop := ∃ c, latest .esdfCloud ms = some c ∧ Faithful s (.esdfCloud, c)

end Vox.Spec
