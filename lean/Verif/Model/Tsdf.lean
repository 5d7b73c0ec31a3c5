/-
TSDF update of one voxel, point filtering, colour blending and voxel merging
(voxblox/src/integrator/tsdf_integrator.cc, voxblox/src/utils/voxel_utils.cc,
voxblox/include/voxblox/core/common.h).
-/
import Verif.Model.Arith
import Verif.Model.Voxel
import Verif.Model.Index

namespace Vox.Tsdf

open Fl

/-- `kFloatEpsilon`, voxblox/include/voxblox/core/common.h:143 (its exact decimal value). -/
def kFloatEpsilon : Fl := .fin (1 / 1000000)

/-- `static_cast<uint8_t>(round(x))`, undefined if the result does not fit (or is NaN or infinite).
Serves the model of voxblox/src/integrator/tsdf_integrator.cc:150-209. -/
def toByte : Fl → Outcome (BitVec 8)
  | .fin q => if 0 ≤ roundHalfAway q ∧ roundHalfAway q ≤ 255 then .ok (BitVec.ofInt 8 (roundHalfAway q)) else .ub
  | _ => .ub

/-- One channel of the blend, voxblox/include/voxblox/core/common.h:115-116. -/
def blendChannel (A : Arith) (c1 : BitVec 8) (w1 : Fl) (c2 : BitVec 8) (w2 : Fl) : Outcome (BitVec 8) :=
  toByte (A.add (A.mul (.fin c1.toNat) w1) (A.mul (.fin c2.toNat) w2))

/-- voxblox/include/voxblox/core/common.h:105-125 `Color::blendTwoColors`. -/
def blend (A : Arith) (c1 : Color) (w1 : Fl) (c2 : Color) (w2 : Fl) : Outcome Color := do
  let total := A.add w1 w2
  let w1 := A.div w1 total
  let w2 := A.div w2 total
  let r ← blendChannel A c1.r w1 c2.r w2
  let g ← blendChannel A c1.g w1 c2.g w2
  let b ← blendChannel A c1.b w1 c2.b w2
  let a ← blendChannel A c1.a w1 c2.a w2
  pure { r := r, g := g, b := b, a := a }

/-- The fields of `TsdfIntegratorBase::Config` used here,
voxblox/include/voxblox/integrator/tsdf_integrator.h:56-89. -/
structure Config where
  truncation : Fl
  maxWeight : Fl
  useConstWeight : Bool
  useWeightDropoff : Bool
  useSparsity : Bool
  sparsityFactor : Fl
  minRay : Fl
  maxRay : Fl
  allowClear : Bool

/-- voxblox/src/integrator/tsdf_integrator.cc:216-228 `computeDistance`. -/
def computeDistance (A : Arith) (origin pointG center : Vec3 Fl) : Fl :=
  let vVoxel := A.vsub center origin
  let vPoint := A.vsub pointG origin
  let distG := A.norm vPoint
  let distGV := A.div (A.dot vVoxel vPoint) distG
  A.sub distG distGV

/-- voxblox/src/integrator/tsdf_integrator.cc:231-240 `getVoxelWeight`, as a function of the z coordinate
in the camera frame (`kEpsilon`, common.h:142). -/
def voxelWeight (A : Arith) (cfg : Config) (z : Fl) : Fl :=
  if cfg.useConstWeight then .fin 1
  else
    let d := Fl.abs z
    if Fl.lt (.fin kEpsilon) d then A.div (.fin 1) (A.mul d d) else .fin 0

/-- The weight after drop-off and sparsity compensation,
voxblox/src/integrator/tsdf_integrator.cc:162-183. -/
def updatedWeight (A : Arith) (cfg : Config) (voxelSize sdf weight : Fl) : Fl :=
  let u := if cfg.useWeightDropoff && Fl.lt sdf (Fl.neg voxelSize) then
      Fl.stdMax (A.div (A.mul weight (A.add cfg.truncation sdf)) (A.sub cfg.truncation voxelSize)) (.fin 0)
    else weight
  if cfg.useSparsity && Fl.lt (Fl.abs sdf) cfg.truncation then A.mul u cfg.sparsityFactor else u

/-- The colour after an update: blended only within the truncation distance,
voxblox/src/integrator/tsdf_integrator.cc:201-204. -/
def updatedColor (A : Arith) (cfg : Config) (sdf u : Fl) (color : Color) (v : TsdfVoxel Fl) : Outcome Color :=
  if Fl.lt (Fl.abs sdf) cfg.truncation then blend A v.color v.weight color u else .ok v.color

/-- voxblox/src/integrator/tsdf_integrator.cc:186-209, the locked part of `updateTsdfVoxel`. -/
def applyUpdate (A : Arith) (cfg : Config) (sdf u : Fl) (color : Color) (v : TsdfVoxel Fl) :
    Outcome (TsdfVoxel Fl) :=
  let newWeight := A.add v.weight u
  if Fl.lt newWeight kFloatEpsilon then .ok v
  else do
    let newSdf := A.div (A.add (A.mul sdf u) (A.mul v.distance v.weight)) newWeight
    let c ← updatedColor A cfg sdf u color v
    pure { distance := if Fl.lt (.fin 0) newSdf then Fl.stdMin cfg.truncation newSdf
                       else Fl.stdMax (Fl.neg cfg.truncation) newSdf,
           weight := Fl.stdMin cfg.maxWeight newWeight, color := c }

/-- One observation of a voxel: the sensor origin, the measured point, the voxel centre, the colour and
the weight of the measurement. Serves the model of voxblox/src/integrator/tsdf_integrator.cc:150-209. -/
structure Obs where
  origin : Vec3 Fl
  pointG : Vec3 Fl
  center : Vec3 Fl
  color : Color
  weight : Fl

/-- voxblox/src/integrator/tsdf_integrator.cc:150-209 `updateTsdfVoxel`. The mutex makes the locked part
atomic; the part before it does not read the voxel. -/
def updateVoxel (A : Arith) (cfg : Config) (voxelSize : Fl) (o : Obs) (v : TsdfVoxel Fl) :
    Outcome (TsdfVoxel Fl) :=
  let sdf := computeDistance A o.origin o.pointG o.center
  applyUpdate A cfg sdf (updatedWeight A cfg voxelSize sdf o.weight) o.color v

/-- A freshly allocated voxel, voxblox/include/voxblox/core/voxel.h:12-16. -/
def freshVoxel : TsdfVoxel Fl := { distance := .fin 0, weight := .fin 0, color := Color.default }

/-- A sequence of observations of the same voxel (in the order in which the mutex was acquired).
Serves the model of voxblox/src/integrator/tsdf_integrator.cc:150-209. -/
def integrate (A : Arith) (cfg : Config) (voxelSize : Fl) :
    List Obs → TsdfVoxel Fl → Outcome (TsdfVoxel Fl)
  | [], v => .ok v
  | o :: os, v => do
    let v' ← updateVoxel A cfg voxelSize o v
    integrate A cfg voxelSize os v'

/-- voxblox/include/voxblox/integrator/tsdf_integrator.h:112-129 `isPointValid` as a function of the
point's norm: `none` = invalid, `some clearing`. -/
def isPointValid (cfg : Config) (norm : Fl) (freespace : Bool) : Option Bool :=
  if Fl.lt norm cfg.minRay then none
  else if Fl.lt cfg.maxRay norm then
    (if cfg.allowClear || freespace then some true else none)
  else some freespace

/-- State of the loop over a bundle's points in voxblox/src/integrator/tsdf_integrator.cc:383-405. -/
structure Bundle where
  color : Color
  pointC : Vec3 Fl
  weight : Fl
deriving DecidableEq

/-- voxblox/src/integrator/tsdf_integrator.cc:383-385. -/
def Bundle.init : Bundle := { color := Color.default, pointC := ⟨.fin 0, .fin 0, .fin 0⟩, weight := .fin 0 }

/-- voxblox/src/integrator/tsdf_integrator.cc:387-405, merging the points of a bundle. -/
def mergeBundle (A : Arith) (cfg : Config) (clearing : Bool) :
    List (Vec3 Fl × Color) → Bundle → Outcome Bundle
  | [], b => .ok b
  | (p, c) :: ps, b =>
    let w := voxelWeight A cfg p.z
    if Fl.lt w (.fin kEpsilon) then mergeBundle A cfg clearing ps b
    else do
      let pt := A.vdiv (A.vadd (A.vscale b.pointC b.weight) (A.vscale p w)) (A.add b.weight w)
      let col ← blend A b.color b.weight c w
      let b' : Bundle := { color := col, pointC := pt, weight := A.add b.weight w }
      if clearing then .ok b' else mergeBundle A cfg clearing ps b'

/-- voxblox/src/utils/voxel_utils.cc:9-22 `mergeVoxelAIntoVoxelB` for TSDF voxels. -/
def mergeTsdf (A : Arith) (a b : TsdfVoxel Fl) : Outcome (TsdfVoxel Fl) :=
  let w := A.add a.weight b.weight
  if Fl.lt (.fin 0) w then do
    let c ← blend A a.color a.weight b.color b.weight
    pure { distance := A.div (A.add (A.mul a.distance a.weight) (A.mul b.distance b.weight)) w,
           weight := w, color := c }
  else .ok b

/-- voxblox/src/utils/voxel_utils.cc:24-32 `mergeVoxelAIntoVoxelB` for ESDF voxels. -/
def mergeEsdf (A : Arith) (a b : EsdfVoxel Fl) : EsdfVoxel Fl :=
  { b with
    distance := if a.observed && b.observed then A.div (A.add a.distance b.distance) (.fin 2)
                else if a.observed && !b.observed then a.distance else b.distance
    observed := b.observed || a.observed }

/-- voxblox/src/utils/voxel_utils.cc:34-39 `mergeVoxelAIntoVoxelB` for occupancy voxels. -/
def mergeOcc (A : Arith) (a b : OccVoxel Fl) : OccVoxel Fl :=
  { probabilityLog := A.add b.probabilityLog a.probabilityLog, observed := b.observed || a.observed }

end Vox.Tsdf
