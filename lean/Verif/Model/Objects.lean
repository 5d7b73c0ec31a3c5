/-
Simulated objects and their world (voxblox/include/voxblox/simulation/objects.h, voxblox/src/simulation/simulation_world.cc) in exact
arithmetic over an ordered field with a square root function `sqrt`.
-/
import Verif.Model.Geometry
import Verif.Model.Voxel
import Mathlib.Order.WithBot

namespace Vox.Sim

open Geo

variable {F : Type} [Field F] [LinearOrder F]

/-- `kEpsilon`, voxblox/include/voxblox/core/common.h:142. -/
def eps : F := 1 / 1000000

/-- The result of `getRayIntersection`, voxblox/include/voxblox/simulation/objects.h:39-43: `false`, `true` with the point and the
distance, or `true` with both not a number. -/
inductive Ray (F : Type) where
  | miss
  | hit (point : Vec3 F) (dist : F)
  | nan
deriving DecidableEq

/-- Eigen `norm`, voxblox/include/voxblox/simulation/objects.h:61. -/
def norm (sqrt : F → F) (a : Vec3 F) : F := sqrt (sqNorm a)

/-- voxblox/include/voxblox/simulation/objects.h:60-63 `Sphere::getDistanceToPoint`. -/
def sphereDistance (sqrt : F → F) (center : Vec3 F) (radius : F) (point : Vec3 F) : F := norm sqrt (center - point) - radius

/-- voxblox/include/voxblox/simulation/objects.h:65-98 `Sphere::getRayIntersection`. -/
def sphereRay (sqrt : F → F) (center : Vec3 F) (radius : F) (origin dir : Vec3 F) (maxDist : F) : Ray F :=
  let under := dot dir (origin - center) ^ 2 - sqNorm (origin - center) + radius ^ 2
  if under < 0 then .miss
  else
    let d := -(dot dir (origin - center)) - sqrt under
    if d < 0 then .miss
    else if d > maxDist then .miss
    else .hit (origin + smul d dir) d

/-- One component of `distance_vector`, voxblox/include/voxblox/simulation/objects.h:118-126. -/
def outsideBy (center size point : F) : F := max (max (center - size / 2 - point) 0) (point - center - size / 2)

/-- One component of `distance_vector` of an inner point, voxblox/include/voxblox/simulation/objects.h:132-137. -/
def faceDistance (center size point : F) : F := max (center - size / 2 - point) (point - center - size / 2)

/-- voxblox/include/voxblox/simulation/objects.h:113-142 `Cube::getDistanceToPoint`. -/
def cubeDistance (sqrt : F → F) (center size point : Vec3 F) : F :=
  let distance := norm sqrt ⟨outsideBy center.x size.x point.x, outsideBy center.y size.y point.y, outsideBy center.z size.z point.z⟩
  if distance < eps then
    max (max (faceDistance center.x size.x point.x) (faceDistance center.y size.y point.y)) (faceDistance center.z size.z point.z)
  else distance

/-- A `float` with its special values as met in voxblox/include/voxblox/simulation/objects.h:154-187: `none` is not-a-number, `⊥` and `⊤`
are the infinities. -/
abbrev Ext (F : Type) := Option (WithBot (WithTop F))

/-- A finite number, see `Ext`; voxblox/include/voxblox/simulation/objects.h:154-187. -/
def Ext.fin (x : F) : Ext F := some ((x : WithTop F) : WithBot (WithTop F))

/-- The comparison `a < b`, false if an operand is not a number; voxblox/include/voxblox/simulation/objects.h:172-174. -/
def Ext.lt (a b : Ext F) : Bool :=
  match a, b with
  | some a, some b => decide (a < b)
  | _, _ => false

/-- `1.0 / d`, voxblox/include/voxblox/simulation/objects.h:154-155; a zero component counts as positive zero. -/
def inverse (d : F) : Ext F := if d = 0 then some ⊤ else .fin (1 / d)

/-- `x * inv_dir`, voxblox/include/voxblox/simulation/objects.h:163-170, for `inv_dir = 1.0 / d`: zero times infinity is not a number. -/
def timesInverse (x d : F) : Ext F :=
  if d = 0 then (if 0 < x then some ⊤ else if x < 0 then some ⊥ else none) else .fin (x * (1 / d))

/-- The parameters of entry into and exit from the slab of an axis, voxblox/include/voxblox/simulation/objects.h:156-170, :176-179;
`d < 0` decides `ray_sign`. -/
def slab (center size origin d : F) : Ext F × Ext F :=
  let lo := center - size / 2
  let hi := center + size / 2
  let sign := Ext.lt (inverse d) (.fin 0)
  (timesInverse ((if sign then hi else lo) - origin) d, timesInverse ((if sign then lo else hi) - origin) d)

/-- One narrowing of the interval by a slab, voxblox/include/voxblox/simulation/objects.h:172-174 and :181-183; `none` is
`return false`. -/
def narrow (t s : Ext F × Ext F) : Option (Ext F × Ext F) :=
  if Ext.lt s.2 t.1 || Ext.lt t.2 s.1 then none
  else some (if Ext.lt t.1 s.1 then s.1 else t.1, if Ext.lt s.2 t.2 then s.2 else t.2)

/-- voxblox/include/voxblox/simulation/objects.h:185-200: choice of the parameter, range check and result. An infinite parameter passes
none of the checks for a finite `maxDist` (an infinite entry or exit is `⊤` or `⊥`). -/
def cubeResult (origin dir : Vec3 F) (maxDist : F) (t : Ext F × Ext F) : Ray F :=
  let res (u : Ext F) : Ray F :=
    if Ext.lt (.fin maxDist) u then .miss
    else match u with
      | none => .nan
      | some u => match u with
        | some (some u) => .hit (origin + smul u dir) u
        | _ => .miss
  if Ext.lt t.1 (.fin 0) then
    if Ext.lt t.2 (.fin 0) then .miss else res t.2
  else res t.1

/-- voxblox/include/voxblox/simulation/objects.h:144-201 `Cube::getRayIntersection`. -/
def cubeRay (center size origin dir : Vec3 F) (maxDist : F) : Ray F :=
  match narrow (slab center.x size.x origin.x dir.x) (slab center.y size.y origin.y dir.y) with
  | none => .miss
  | some t => match narrow t (slab center.z size.z origin.z dir.z) with
    | none => .miss
    | some t => cubeResult origin dir maxDist t

/-- voxblox/include/voxblox/simulation/objects.h:219-227 `PlaneObject::getDistanceToPoint`. -/
def planeDistance (sqrt : F → F) (center normal point : Vec3 F) : F :=
  let d := -(dot normal center)
  let p := d / norm sqrt normal
  dot normal point + p

/-- voxblox/include/voxblox/simulation/objects.h:229-253 `PlaneObject::getRayIntersection`. -/
def planeRay (center normal origin dir : Vec3 F) (maxDist : F) : Ray F :=
  let denominator := dot dir normal
  if |denominator| < eps then .miss
  else
    let d := dot (center - origin) normal / denominator
    if d < 0 then .miss
    else if d > maxDist then .miss
    else .hit (origin + smul d dir) d

/-- The squared distance from the axis, voxblox/include/voxblox/simulation/objects.h:285, :292. -/
def sqRadial (center point : Vec3 F) : F := (point.x - center.x) * (point.x - center.x) + (point.y - center.y) * (point.y - center.y)

/-- voxblox/include/voxblox/simulation/objects.h:271-298 `Cylinder::getDistanceToPoint`. -/
def cylinderDistance (sqrt : F → F) (center : Vec3 F) (radius height : F) (point : Vec3 F) : F :=
  let minZ := center.z - height / 2
  let maxZ := center.z + height / 2
  if minZ ≤ point.z ∧ point.z ≤ maxZ then sqrt (sqRadial center point) - radius
  else if maxZ < point.z then
    sqrt (max (sqRadial center point - radius * radius) 0 + (point.z - maxZ) * (point.z - maxZ))
  else sqrt (max (sqRadial center point - radius * radius) 0 + (point.z - minZ) * (point.z - minZ))

/-- voxblox/include/voxblox/simulation/objects.h:319-340: the parameters at which the line meets the infinite cylinder; `none` is
`return false`. -/
def cylinderRoots (sqrt : F → F) (a b c : F) : Option (F × F) :=
  if |a| < eps then none
  else
    let under := b * b - 4 * a * c
    if under < 0 then none
    else if under ≤ eps then some (-b / (2 * a), -1)
    else some ((-b + sqrt under) / (2 * a), (-b - sqrt under) / (2 * a))

/-- voxblox/include/voxblox/simulation/objects.h:372-383: a parameter if it is valid, otherwise the bound. -/
def lower (t : F) (valid : Bool) (s : F) : F := if valid then min t s else t

/-- voxblox/include/voxblox/simulation/objects.h:300-395 `Cylinder::getRayIntersection`. -/
def cylinderRay (sqrt : F → F) (center : Vec3 F) (radius height : F) (origin dir : Vec3 F) (maxDist : F) : Ray F :=
  let e := origin - center
  let a := dir.x * dir.x + dir.y * dir.y
  let b := 2 * e.x * dir.x + 2 * e.y * dir.y
  let c := e.x * e.x + e.y * e.y - radius * radius
  match cylinderRoots sqrt a b c with
  | none => .miss
  | some (t1, t2) =>
    let z1 := e.z + t1 * dir.z
    let z2 := e.z + t2 * dir.z
    let t1Valid := decide (0 ≤ t1 ∧ -height / 2 ≤ z1 ∧ z1 ≤ height / 2)
    let t2Valid := decide (0 ≤ t2 ∧ -height / 2 ≤ z2 ∧ z2 ≤ height / 2)
    let t3 := (-height / 2 - e.z) / dir.z
    let t4 := (height / 2 - e.z) / dir.z
    let q3 := e + smul t3 dir
    let q4 := e + smul t4 dir
    let caps := decide (eps < |dir.z|)
    let t3Valid := caps && decide (0 ≤ t3 ∧ sqrt (q3.x * q3.x + q3.y * q3.y) < radius)
    let t4Valid := caps && decide (0 ≤ t4 ∧ sqrt (q4.x * q4.x + q4.y * q4.y) < radius)
    if !(t1Valid || t2Valid || t3Valid || t4Valid) then .miss
    else
      let t := lower (lower (lower (lower maxDist t1Valid t1) t2Valid t2) t3Valid t3) t4Valid t4
      if maxDist ≤ t then .miss
      else .hit (origin + smul t dir) t

/-- The objects, voxblox/include/voxblox/simulation/objects.h:24, without their colour. -/
inductive Shape (F : Type) where
  | sphere (center : Vec3 F) (radius : F)
  | cube (center size : Vec3 F)
  | plane (center normal : Vec3 F)
  | cylinder (center : Vec3 F) (radius height : F)

/-- `Object`, voxblox/include/voxblox/simulation/objects.h:19-49. -/
structure Obj (F : Type) where
  shape : Shape F
  color : Color

/-- The virtual `getDistanceToPoint`, voxblox/include/voxblox/simulation/objects.h:33. -/
def distance (sqrt : F → F) (o : Shape F) (point : Vec3 F) : F :=
  match o with
  | .sphere c r => sphereDistance sqrt c r point
  | .cube c s => cubeDistance sqrt c s point
  | .plane c n => planeDistance sqrt c n point
  | .cylinder c r h => cylinderDistance sqrt c r h point

/-- The virtual `getRayIntersection`, voxblox/include/voxblox/simulation/objects.h:39-43. -/
def ray (sqrt : F → F) (o : Shape F) (origin dir : Vec3 F) (maxDist : F) : Ray F :=
  match o with
  | .sphere c r => sphereRay sqrt c r origin dir maxDist
  | .cube c s => cubeRay c s origin dir maxDist
  | .plane c n => planeRay c n origin dir maxDist
  | .cylinder c r h => cylinderRay sqrt c r h origin dir maxDist

/-- `Color::White()`, the default colour of objects, voxblox/include/voxblox/simulation/objects.h:27-28. -/
def white : Color := ⟨255, 255, 255, 255⟩

/-- voxblox/src/simulation/simulation_world.cc:12-15 `addGroundLevel`. -/
def addGroundLevel (height : F) (w : List (Obj F)) : List (Obj F) := w ++ [⟨.plane ⟨0, 0, height⟩ ⟨0, 0, 1⟩, white⟩]

/-- voxblox/src/simulation/simulation_world.cc:17-32 `addPlaneBoundaries`. -/
def addPlaneBoundaries (xMin xMax yMin yMax : F) (w : List (Obj F)) : List (Obj F) :=
  w ++ [⟨.plane ⟨xMin, 0, 0⟩ ⟨1, 0, 0⟩, white⟩, ⟨.plane ⟨xMax, 0, 0⟩ ⟨-1, 0, 0⟩, white⟩,
    ⟨.plane ⟨0, yMin, 0⟩ ⟨0, 1, 0⟩, white⟩, ⟨.plane ⟨0, yMax, 0⟩ ⟨0, -1, 0⟩, white⟩]

/-- voxblox/src/simulation/simulation_world.cc:36-47 `getDistanceToPoint`. -/
def worldDistance (sqrt : F → F) (w : List (Obj F)) (point : Vec3 F) (maxDist : F) : F :=
  w.foldl (fun m o => let d := distance sqrt o.shape point; if d < m then d else m) maxDist

end Vox.Sim
