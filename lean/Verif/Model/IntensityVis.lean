/-
The intensity server: recolouring of mesh messages (voxblox_ros/include/voxblox_ros/intensity_vis.h) and sampling of intensity images
(voxblox_ros/src/intensity_server.cc).
-/
import Verif.Model.MeshMsg
import Verif.Model.Grid

namespace Vox.IntensityVis

open Layer Grid Ieee MeshMsg

/-! ### Recolouring -/

/-- `getVoxelPtrByCoordinates`, voxblox/include/voxblox/core/layer.h:241-248: `none` is the null pointer. -/
def voxelPtrAt {V : Type} (l : VLayer V) (p : Pt) : Outcome (Option V) := do
  match ← blockAtCoords l p with
  | none => pure none
  | some b => do
    let v ← voxelByCoords b p
    pure (some v)

/-- `resize` of a colour channel: cut off, or filled up with zeros. voxblox_ros/include/voxblox_ros/intensity_vis.h:25-27. -/
def resized (n : ℕ) (c : List (BitVec 8)) : List (BitVec 8) := c.take n ++ List.replicate (n - c.length) 0

/-- voxblox_ros/include/voxblox_ros/intensity_vis.h:25-27: all three channels. -/
def resizeColors (b : MeshBlock) : MeshBlock := { b with r := resized b.x.length b.r, g := resized b.x.length b.g, b := resized b.x.length b.b }

/-- Writing the colour of a vertex, voxblox_ros/include/voxblox_ros/intensity_vis.h:35-37. -/
def setColor (b : MeshBlock) (k : ℕ) (c : Color) : MeshBlock := { b with r := b.r.set k c.r, g := b.g.set k c.g, b := b.b.set k c.b }

/-- The condition and the colour, voxblox_ros/include/voxblox_ros/intensity_vis.h:32-38. -/
def paint (look : Fl → Outcome Color) (b : MeshBlock) (k : ℕ) : Option (IntensityVoxel Fl) → Outcome MeshBlock
  | some v =>
    if Fl.lt (.fin 0) v.weight then do
      let c ← look v.intensity
      pure (setColor b k c)
    else .ok b
  | none => .ok b

/-- One vertex, voxblox_ros/include/voxblox_ros/intensity_vis.h:23-39: the `uint16` numbers of the message are taken as coordinates. -/
def recolorVertex (look : Fl → Outcome Color) (l : VLayer (IntensityVoxel Fl)) (b : MeshBlock) (k : ℕ) : Outcome MeshBlock := do
  let x ← MeshOps.at_ b.x k
  let y ← MeshOps.at_ b.y k
  let z ← MeshOps.at_ b.z k
  let v ← voxelPtrAt l ⟨x, y, z⟩
  paint look (resizeColors b) k v

/-- One block, voxblox_ros/include/voxblox_ros/intensity_vis.h:21-40. -/
def recolorBlock (look : Fl → Outcome Color) (l : VLayer (IntensityVoxel Fl)) (b : MeshBlock) : Outcome MeshBlock :=
  (List.range b.x.length).foldlM (recolorVertex look l) b

/-- voxblox_ros/include/voxblox_ros/intensity_vis.h:14-41 `recolorVoxbloxMeshMsgByIntensity`. -/
def recolor (look : Fl → Outcome Color) (l : VLayer (IntensityVoxel Fl)) (m : Msg) : Outcome Msg := do
  let bs ← m.blocks.mapM (recolorBlock look l)
  pure { m with blocks := bs }

/-! ### Images -/

/-- An image as `cv_bridge` gives it: the number of rows and columns, whether its elements are `float`s (its encoding is not asked for) and its
pixels, row by row. voxblox_ros/src/intensity_server.cc:88-107. -/
structure Image where
  rows : ℕ
  cols : ℕ
  isFloat : Bool
  pixel : ℕ → ℕ → Fl

/-- The size given to `reserve`, voxblox_ros/src/intensity_server.cc:92-102: `int` arithmetic converted to `size_t`. `rows * cols` has to fit into an `int`;
division by zero is undefined; a negative quotient becomes a size that cannot be reserved, unless adding one wraps to zero. -/
def reserveSize (rows cols : ℕ) (factor : ℤ) : Outcome Unit :=
  if factor = 0 ∨ 2 ^ 31 ≤ rows * cols then .ub
  else if ((rows * cols : ℕ) : ℤ).tdiv factor < -1 then .fatal
  else .ok ()

/-- `m % subsample_factor_ == 0`, voxblox_ros/src/intensity_server.cc:109: the factor is converted to `size_t`. -/
def sampled (factor : ℤ) (m : ℕ) : Bool := decide (m % (factor % 2 ^ 64).toNat = 0)

/-- The bearing vector of a pixel before the rotation, voxblox_ros/src/intensity_server.cc:95-96, :112-114. -/
def bearing (rows cols : ℕ) (focal : Fl) (i j : ℕ) : Vec3 Fl :=
  Occ.normalized float32 ⟨float32.sub (float32.rnd j) (toFloat (float64.div (float64.rnd cols) (.fin 2))),
    float32.sub (float32.rnd i) (toFloat (float64.div (float64.rnd rows) (.fin 2))), toFloat focal⟩

/-- One pixel, voxblox_ros/src/intensity_server.cc:108-119; `rot` is the rotation of the camera. -/
def samplePixel (rot : Vec3 Fl → Vec3 Fl) (focal : Fl) (factor : ℤ) (im : Image) (i : ℕ) (acc : List (Vec3 Fl × Fl) × ℕ) (j : ℕ) : List (Vec3 Fl × Fl) × ℕ :=
  (if sampled factor acc.2 then acc.1 ++ [(rot (bearing im.rows im.cols focal i j), im.pixel i j)] else acc.1, acc.2 + 1)

/-- One row, voxblox_ros/src/intensity_server.cc:106-120. -/
def sampleRow (rot : Vec3 Fl → Vec3 Fl) (focal : Fl) (factor : ℤ) (im : Image) (acc : List (Vec3 Fl × Fl) × ℕ) (i : ℕ) : List (Vec3 Fl × Fl) × ℕ :=
  (List.range im.cols).foldl (samplePixel rot focal factor im i) acc

/-- voxblox_ros/src/intensity_server.cc:88-125: the bearing vectors and intensities handed to the integrator. Reading pixels of another type as `float`s
leaves the rows. -/
def sampleImage (rot : Vec3 Fl → Vec3 Fl) (focal : Fl) (factor : ℤ) (im : Image) : Outcome (List (Vec3 Fl × Fl)) := do
  reserveSize im.rows im.cols factor
  Outcome.require (im.isFloat || im.rows * im.cols == 0)
  pure ((List.range im.rows).foldl (sampleRow rot focal factor im) ([], 0)).1

end Vox.IntensityVis
