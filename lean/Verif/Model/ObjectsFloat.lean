/-
Distances to simulated objects (voxblox/include/voxblox/simulation/objects.h, voxblox/src/simulation/simulation_world.cc) in the
arithmetic of the code: `float`, and `double` where a literal such as `2.0` promotes the operands.
-/
import Verif.Model.Objects
import Verif.Model.MeshMsg

namespace Vox.SimF

open Ieee Sim MeshMsg

/-- `kEpsilon`, voxblox/include/voxblox/core/common.h:142: the `float` nearest to 1e-6. -/
def eps : Fl := float32.rnd (1 / 1000000)

/-- voxblox/include/voxblox/simulation/objects.h:60-63 `Sphere::getDistanceToPoint`. -/
def sphere (center : Vec3 Fl) (radius : Fl) (point : Vec3 Fl) : Fl := float32.sub (float32.norm (float32.vsub center point)) radius

/-- `size / 2.0`, a `double`; voxblox/include/voxblox/simulation/objects.h:119-126. -/
def half (size : Fl) : Fl := float64.div size (.fin 2)

/-- `center - size / 2.0 - point`, both differences in `double`; voxblox/include/voxblox/simulation/objects.h:119, :122, :125 and :132,
:134, :136. -/
def below (center size point : Fl) : Fl := float64.sub (float64.sub center (half size)) point

/-- `point - center - size / 2.0`, the first difference in `float`, the second in `double`;
voxblox/include/voxblox/simulation/objects.h:120, :123, :126 and :133, :135, :137. -/
def above (center size point : Fl) : Fl := float64.sub (float32.sub point center) (half size)

/-- One component of `distance_vector`, voxblox/include/voxblox/simulation/objects.h:118-126: stored in a `float`. -/
def outsideBy (center size point : Fl) : Fl :=
  toFloat (Fl.stdMax (Fl.stdMax (below center size point) (.fin 0)) (above center size point))

/-- One component of `distance_vector` of an inner point, voxblox/include/voxblox/simulation/objects.h:132-137. -/
def faceDistance (center size point : Fl) : Fl := toFloat (Fl.stdMax (below center size point) (above center size point))

/-- voxblox/include/voxblox/simulation/objects.h:113-142 `Cube::getDistanceToPoint`; `maxCoeff` from left to right. -/
def cube (center size point : Vec3 Fl) : Fl :=
  let distance := float32.norm ⟨outsideBy center.x size.x point.x, outsideBy center.y size.y point.y, outsideBy center.z size.z point.z⟩
  if Fl.lt distance eps then
    Fl.stdMax (Fl.stdMax (faceDistance center.x size.x point.x) (faceDistance center.y size.y point.y))
      (faceDistance center.z size.z point.z)
  else distance

/-- voxblox/include/voxblox/simulation/objects.h:219-227 `PlaneObject::getDistanceToPoint`. -/
def plane (center normal point : Vec3 Fl) : Fl :=
  let d := Fl.neg (float32.dot normal center)
  let p := float32.div d (float32.norm normal)
  float32.add (float32.dot normal point) p

/-- The check of the coloured constructor, voxblox/include/voxblox/simulation/objects.h:213-217: `CHECK_NEAR(normal.norm(), 1.0, 1e-3)`
compares in `long double`, here exactly. -/
def acceptsNormal (normal : Vec3 Fl) : Bool :=
  match float32.norm normal with
  | .fin q => decide (1 - 1 / 1000 ≤ q ∧ q ≤ 1 + 1 / 1000)
  | _ => false

/-- The squared distance from the axis, voxblox/include/voxblox/simulation/objects.h:281, :285, :292. -/
def sqRadial (center point : Vec3 Fl) : Fl :=
  let dx := float32.sub point.x center.x
  let dy := float32.sub point.y center.y
  float32.add (float32.mul dx dx) (float32.mul dy dy)

/-- The distance above or below the cylinder, voxblox/include/voxblox/simulation/objects.h:284-288, :291-295. -/
def beyond (center : Vec3 Fl) (radius limit : Fl) (point : Vec3 Fl) : Fl :=
  let dz := float32.sub point.z limit
  float32.sqrtFl (float32.add (Fl.stdMax (float32.sub (sqRadial center point) (float32.mul radius radius)) (.fin 0)) (float32.mul dz dz))

/-- voxblox/include/voxblox/simulation/objects.h:271-298 `Cylinder::getDistanceToPoint`; the limits are computed in `double` and stored
in `float`. -/
def cylinder (center : Vec3 Fl) (radius height : Fl) (point : Vec3 Fl) : Fl :=
  let minZ := toFloat (float64.sub center.z (half height))
  let maxZ := toFloat (float64.add center.z (half height))
  if Fl.le minZ point.z && Fl.le point.z maxZ then float32.sub (float32.sqrtFl (sqRadial center point)) radius
  else if Fl.lt maxZ point.z then beyond center radius maxZ point
  else beyond center radius minZ point

/-- The virtual `getDistanceToPoint`, voxblox/include/voxblox/simulation/objects.h:33. -/
def distance (o : Shape Fl) (point : Vec3 Fl) : Fl :=
  match o with
  | .sphere c r => sphere c r point
  | .cube c s => cube c s point
  | .plane c n => plane c n point
  | .cylinder c r h => cylinder c r h point

/-- voxblox/src/simulation/simulation_world.cc:36-47 `SimulationWorld::getDistanceToPoint`. -/
def worldDistance (w : List (Shape Fl)) (point : Vec3 Fl) (maxDist : Fl) : Fl :=
  w.foldl (fun m o => let d := distance o point; if Fl.lt d m then d else m) maxDist

end Vox.SimF
