/-
Where the points of a cloud are placed: static transforms and the two sources of poses, voxblox_ros/src/transformer.cc, with rigid transformations in exact
arithmetic.
-/
import Verif.Model.Transformer
import Verif.Model.Merge

namespace Vox.Placement

open Layer Interp Merge Tf

/-- The product of two transformations, as in voxblox_ros/src/transformer.cc:189. -/
def mul (a b : Rigid) : Rigid :=
  let row (r : Pt) : Pt :=
    ⟨r.x * b.r0.x + r.y * b.r1.x + r.z * b.r2.x, r.x * b.r0.y + r.y * b.r1.y + r.z * b.r2.y, r.x * b.r0.z + r.y * b.r1.z + r.z * b.r2.z⟩
  ⟨row a.r0, row a.r1, row a.r2, a.apply b.t⟩

/-- The inverse, as in voxblox_ros/src/transformer.cc:51, :63 and :189: the transposed rotation, and the translation turned back. -/
def inv (a : Rigid) : Rigid :=
  ⟨⟨a.r0.x, a.r1.x, a.r2.x⟩, ⟨a.r0.y, a.r1.y, a.r2.y⟩, ⟨a.r0.z, a.r1.z, a.r2.z⟩, a.unapply 0⟩

/-- The operations of voxblox_ros/src/transformer.cc:181-189; the interpolation is left open. -/
def ops (blend : Fl → Rigid → Rigid → Rigid) : PoseOps Rigid := ⟨mul, inv, blend⟩

/-- A static transform among the parameters: the transform, if there is one, and whether it is to be inverted. voxblox_ros/src/transformer.cc:41-53, :54-65. -/
structure Static where
  given : Option Rigid := none
  inverted : Bool := false

/-- The member it becomes, voxblox_ros/src/transformer.cc:41-53 and :54-65; the identity if there is none. -/
def Static.value (s : Static) : Rigid :=
  match s.given with
  | none => Rigid.id
  | some T => if s.inverted then inv T else T

/-- The parameters, voxblox_ros/src/transformer.cc:9-30 and :41-65. -/
structure Params where
  sensorFrame : String := ""
  useTf : Bool := true
  tolerance : ℤ := 1000000
  bd : Static := {}
  bc : Static := {}

/-- voxblox_ros/src/transformer.cc:9-67, the constructor: the static transforms are read only without TF. -/
def start (p : Params) : Transformer Rigid :=
  if p.useTf then ⟨p.tolerance, Rigid.id, Rigid.id, []⟩ else ⟨p.tolerance, p.bd.value, p.bc.value, []⟩

/-- What the TF listener has about two frames at a time: nothing, an exception, or the transform. voxblox_ros/src/transformer.cc:102-115. -/
inductive TfAnswer where
  | unavailable
  | throws
  | found (T : Rigid)
deriving DecidableEq

/-- voxblox_ros/src/transformer.cc:87-119 `lookupTransformTf`; `tree` takes the target frame, the source frame and the time. -/
def lookupTf (tree : String → String → ℤ → TfAnswer) (p : Params) (fromFrame toFrame : String) (time : ℤ) : Option Rigid :=
  let source := if p.sensorFrame = "" then fromFrame else p.sensorFrame
  match tree toFrame source time with
  | .unavailable => none
  | .throws => none
  | .found T => some T

/-- voxblox_ros/src/transformer.cc:74-84 `lookupTransform`. -/
def lookup (A : Arith) (blend : Fl → Rigid → Rigid → Rigid) (tree : String → String → ℤ → TfAnswer) (p : Params) (tr : Transformer Rigid)
    (fromFrame toFrame : String) (time : ℤ) : Option Rigid × Transformer Rigid :=
  if p.useTf then (lookupTf tree p fromFrame toFrame time, tr) else tr.lookup A (ops blend) time

end Vox.Placement
