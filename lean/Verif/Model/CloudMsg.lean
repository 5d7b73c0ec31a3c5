/-
Incoming and outgoing point clouds: voxblox_ros/include/voxblox_ros/conversions.h and `processPointCloudMessageAndInsert` of
voxblox_ros/src/tsdf_server.cc. The decoding of the message into points (`pcl::fromROSMsg`) is external code: a message is taken as its field names and,
for every point, what the decoded point holds.
-/
import Verif.Model.ColorMap
import Verif.Model.Ieee

namespace Vox.CloudMsg

open Ieee

/-- A decoded point: coordinates, the four bytes of its `rgb` field and its intensity; `pcl::PointXYZRGB`, `pcl::PointXYZI` and `pcl::PointXYZ` hold the
coordinates and one or none of the others. voxblox_ros/include/voxblox_ros/conversions.h:108-124. -/
structure PclPoint where
  pos : Vec3 Fl
  rgba : Color
  intensity : Fl
deriving DecidableEq

/-- A `sensor_msgs::PointCloud2`, voxblox_ros/src/tsdf_server.cc:213-215. -/
structure Msg where
  fields : List String
  points : List PclPoint
deriving DecidableEq

/-- The three ways of conversion, voxblox_ros/src/tsdf_server.cc:235-250. -/
inductive Kind where
  | rgb
  | intensity
  | plain
deriving DecidableEq

/-- The two flags after one field, voxblox_ros/src/tsdf_server.cc:221-228. -/
def fieldStep (f : Bool × Bool) (name : String) : Bool × Bool :=
  if name = "rgb" then (true, f.2) else if name = "intensity" then (f.1, true) else f

/-- The way of conversion, voxblox_ros/src/tsdf_server.cc:219-250. -/
def kind (fields : List String) : Kind :=
  let f := fields.foldl fieldStep (false, false)
  if f.1 then .rgb else if f.2 then .intensity else .plain

/-- `std::isfinite`, voxblox_ros/include/voxblox_ros/conversions.h:100-101. -/
def isFinite : Fl → Bool
  | .fin _ => true
  | _ => false

/-- voxblox_ros/include/voxblox_ros/conversions.h:98-102 `isPointFinite`. -/
def isPointFinite (p : PclPoint) : Bool := isFinite p.pos.x && isFinite p.pos.y && isFinite p.pos.z

/-- voxblox_ros/include/voxblox_ros/conversions.h:104-124 `convertColor`. -/
def convertColor (lookup : Fl → Outcome Color) : Kind → PclPoint → Outcome Color
  | .rgb, p => .ok p.rgba
  | .intensity, p => lookup p.intensity
  | .plain, _ => lookup (.fin 0)

/-- One point, voxblox_ros/include/voxblox_ros/conversions.h:135-142. -/
def convertPoint (lookup : Fl → Outcome Color) (k : Kind) (acc : List (Vec3 Fl) × List Color) (p : PclPoint) :
    Outcome (List (Vec3 Fl) × List Color) :=
  if !isPointFinite p then .ok acc
  else do
    let c ← convertColor lookup k p
    pure (acc.1 ++ [p.pos], acc.2 ++ [c])

/-- voxblox_ros/include/voxblox_ros/conversions.h:127-144 `convertPointcloud`, appending to what the lists hold. -/
def convertPointcloud (lookup : Fl → Outcome Color) (k : Kind) (ps : List PclPoint) (acc : List (Vec3 Fl) × List Color) :
    Outcome (List (Vec3 Fl) × List Color) := ps.foldlM (convertPoint lookup k) acc

/-- The points and colours that are integrated, voxblox_ros/src/tsdf_server.cc:213-251. -/
def received (lookup : Fl → Outcome Color) (m : Msg) : Outcome (List (Vec3 Fl) × List Color) :=
  convertPointcloud lookup (kind m.fields) m.points ([], [])

/-! ### The colour map of the server -/

/-- The colour maps a server can be given, voxblox_ros/src/tsdf_server.cc:196-209. -/
inductive MapName where
  | rainbow
  | inverseRainbow
  | grayscale
  | inverseGrayscale
  | ironbow
deriving DecidableEq

/-- voxblox_ros/src/tsdf_server.cc:196-209 and the constructor (:31): an unknown name leaves the rainbow map. -/
def mapNamed (s : String) : MapName :=
  if s = "rainbow" then .rainbow else if s = "inverse_rainbow" then .inverseRainbow else if s = "grayscale" then .grayscale
  else if s = "inverse_grayscale" then .inverseGrayscale else if s = "ironbow" then .ironbow else .rainbow

/-- `colorLookup` on finite values, voxblox/include/voxblox/utils/color_maps.h:28-92, in `float` and `double` arithmetic; `A` is the arithmetic of
the blend of two colours in the ironbow map. -/
def mapOf (A : Arith) : MapName → ℚ → ℚ → ℚ → Outcome Color
  | .rainbow => ColorMap.rainbowMap rnd64 rnd32
  | .inverseRainbow => ColorMap.inverseRainbowMap rnd64 rnd32
  | .grayscale => ColorMap.grayscale rnd64 rnd32
  | .inverseGrayscale => ColorMap.inverseGrayscale rnd64 rnd32
  | .ironbow => ColorMap.ironbow A rnd32

/-- `colorLookup` on any `float`: the clamping of voxblox/include/voxblox/utils/color_maps.h:31 (:40, :49, :58, :79) comes first. Finite limits. -/
def lookup (A : Arith) (n : MapName) (lo hi : ℚ) (v : Fl) : Outcome Color :=
  match Fl.stdMin (.fin hi) (Fl.stdMax (.fin lo) v) with
  | .fin q => mapOf A n lo hi q
  | _ => .ub

/-- The lookup of a server with the parameters `intensity_colormap` and `intensity_max_value`; the minimum stays 0.
voxblox_ros/src/tsdf_server.cc:188-210, voxblox/include/voxblox/utils/color_maps.h:14. -/
def serverLookup (A : Arith) (name : String) (max : ℚ) : Fl → Outcome Color := lookup A (mapNamed name) 0 max

/-! ### Outgoing clouds -/

/-- One point of voxblox_ros/include/voxblox_ros/conversions.h:50-61: the colour is read without a check; the alpha of a new `pcl::PointXYZRGB` is
255. -/
def toPclPoint (colors : List Color) (p : Vec3 Fl) (i : ℕ) : Outcome PclPoint :=
  match colors[i]? with
  | some c => .ok ⟨p, ⟨c.r, c.g, c.b, 255⟩, .fin 0⟩
  | none => .ub

/-- voxblox_ros/include/voxblox_ros/conversions.h:44-62 `pointcloudToPclXYZRGB`. -/
def toPclXYZRGB (points : List (Vec3 Fl)) (colors : List Color) : Outcome (List PclPoint) :=
  points.zipIdx.mapM fun pi => toPclPoint colors pi.1 pi.2

/-- voxblox_ros/include/voxblox_ros/conversions.h:64-77 `pointcloudToPclXYZ`. -/
def toPclXYZ (points : List (Vec3 Fl)) : List PclPoint := points.map fun p => ⟨p, ⟨0, 0, 0, 255⟩, .fin 0⟩

/-- voxblox_ros/include/voxblox_ros/conversions.h:79-94 `pointcloudToPclXYZI` with its `CHECK_EQ`. -/
def toPclXYZI (points : List (Vec3 Fl)) (intensities : List Fl) : Outcome (List PclPoint) := do
  Outcome.check (decide (points.length = intensities.length))
  pure (List.zipWith (fun p i => ⟨p, ⟨0, 0, 0, 255⟩, i⟩) points intensities)

end Vox.CloudMsg
