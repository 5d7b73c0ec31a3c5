/-
Mesh messages: the sender voxblox_ros/include/voxblox_ros/mesh_vis.h and the display
voxblox_rviz_plugin/src/voxblox_mesh_visual.cc, in IEEE `float` / `double` arithmetic.
-/
import Verif.Model.Ieee
import Verif.Model.IndexFloat
import Verif.Model.ColorMap
import Verif.Model.Mesh
import Verif.Model.Occupancy
import Verif.Model.MeshIntegrator

namespace Vox.MeshMsg

open MC Ieee MeshInt

/-! ### Colours -/

/-- voxblox_ros/include/voxblox_ros/mesh_vis.h:44-51 `ColorMode`. -/
inductive ColorMode where
  | color
  | height
  | normals
  | gray
  | lambert
  | lambertColor
deriving DecidableEq, Repr

/-- `std_msgs::ColorRGBA` without the alpha channel, which is not sent (voxblox_msgs/msg/MeshBlock.msg:2): floats. Filled in
voxblox_ros/include/voxblox_ros/conversions.h:26-33. -/
abbrev ColorMsg := Vec3 Fl

/-- Storing a `double` in a `float`, as in voxblox_ros/include/voxblox_ros/conversions.h:29-31. -/
def toFloat : Fl → Fl
  | .fin q => float32.rnd q
  | x => x

/-- voxblox_ros/include/voxblox_ros/conversions.h:29-31: one channel, a `double` quotient stored in a `float`. -/
def channelToMsg (c : BitVec 8) : Fl := toFloat (float64.div (.fin c.toNat) (.fin 255))

/-- voxblox_ros/include/voxblox_ros/conversions.h:26-33 `colorVoxbloxToMsg`. -/
def colorToMsg (c : Color) : ColorMsg := ⟨channelToMsg c.r, channelToMsg c.g, channelToMsg c.b⟩

/-- Conversion of a float to `uint8_t`: undefined for NaN, infinities and values that do not fit. Used in
voxblox_ros/include/voxblox_ros/mesh_vis.h:212-217. -/
def toByte : Fl → Outcome (BitVec 8)
  | .fin q => ColorMap.toByte q
  | _ => .ub

/-- voxblox_ros/include/voxblox_ros/conversions.h:35-42 `colorMsgToVoxblox`, one channel: a `double` product. -/
def channelFromMsg (c : Fl) : Outcome (BitVec 8) := toByte (float64.mul c (.fin 255))

/-- voxblox_ros/include/voxblox_ros/mesh_vis.h:212-217, one channel: `std::numeric_limits<uint8_t>::max() * color_msg.r`, a `float`
product. -/
def channelBytes (c : Fl) : Outcome (BitVec 8) := toByte (float32.mul (.fin 255) c)

/-- voxblox_ros/include/voxblox_ros/mesh_vis.h:73-76 `lambertShading`: `std::max(a, b)` is `(a < b) ? b : a`. -/
def lambertShading (normal light color : Vec3 Fl) : Vec3 Fl :=
  let d := float32.dot normal light
  let f := if Fl.lt d (.fin 0) then .fin 0 else d
  color.map fun c => float32.mul f c

/-- voxblox_ros/include/voxblox_ros/mesh_vis.h:83: the first light direction. -/
def lightDir : Vec3 Fl := Occ.normalized float32 ⟨float32.rnd (8 / 10), float32.rnd (-2 / 10), float32.rnd (7 / 10)⟩

/-- voxblox_ros/include/voxblox_ros/mesh_vis.h:84: the second light direction. -/
def lightDir2 : Vec3 Fl := Occ.normalized float32 ⟨float32.rnd (-5 / 10), float32.rnd (2 / 10), float32.rnd (2 / 10)⟩

/-- voxblox_ros/include/voxblox_ros/mesh_vis.h:78-95 `lambertColorFromColorAndNormal`; `std::min(a, b)` is `(b < a) ? b : a`. -/
def lambertColor (c : Color) (normal : Vec3 Fl) : ColorMsg :=
  let pt := colorToMsg c
  let l := float32.vadd (float32.vadd (lambertShading normal lightDir pt) (lambertShading normal lightDir2 pt))
    ⟨float32.rnd (2 / 10), float32.rnd (2 / 10), float32.rnd (2 / 10)⟩
  l.map fun x => if Fl.lt (.fin 1) x then .fin 1 else x

/-- voxblox_ros/include/voxblox_ros/mesh_vis.h:97-100 `lambertColorFromNormal`. -/
def lambertGray (normal : Vec3 Fl) : ColorMsg := lambertColor ⟨127, 127, 127, 255⟩ normal

/-- voxblox_ros/include/voxblox_ros/mesh_vis.h:102-110 `normalColorFromNormal`: `double` arithmetic. -/
def normalColor (normal : Vec3 Fl) : ColorMsg :=
  normal.map fun x => toFloat (float64.add (float64.mul x (.fin (1 / 2))) (.fin (1 / 2)))

/-- voxblox_ros/include/voxblox_ros/mesh_vis.h:112-122 `heightColorFromVertex`; a height that is not finite is undefined in
`rainbowColorMap` (conversion of NaN to `int`) or saturates. -/
def heightColor (z : Fl) : Outcome ColorMsg := do
  let h := toFloat (float64.div (float64.sub z (.fin (-1))) (.fin 11))
  let h := if Fl.lt h (.fin 0) then .fin 0 else h
  let h := if Fl.lt (.fin 1) h then .fin 1 else h
  match h with
  | .fin q => do
    let c ← ColorMap.rainbow rnd64 q
    pure (colorToMsg c)
  | _ => .ub

/-- voxblox_ros/include/voxblox_ros/mesh_vis.h:124-151 `getVertexColor`: element access without check. -/
def vertexColor (m : Mesh) (mode : ColorMode) (k : ℕ) : Outcome ColorMsg :=
  match mode with
  | .color => do
    let c ← MeshOps.at_ m.colors k
    pure (colorToMsg c)
  | .height => do
    let v ← MeshOps.at_ m.vertices k
    heightColor v.z
  | .normals => do
    let n ← MeshOps.at_ m.normals k
    pure (normalColor n)
  | .lambert => do
    let n ← MeshOps.at_ m.normals k
    pure (lambertGray n)
  | .lambertColor => do
    let c ← MeshOps.at_ m.colors k
    let n ← MeshOps.at_ m.normals k
    pure (lambertColor c n)
  | .gray => .ok ⟨.fin (1 / 2), .fin (1 / 2), .fin (1 / 2)⟩

/-! ### The sender -/

/-- voxblox_msgs/msg/MeshBlock.msg:4-15: positions are `uint16`, colours `uint8`. -/
structure MeshBlock where
  index : Idx
  x : List ℕ
  y : List ℕ
  z : List ℕ
  r : List (BitVec 8)
  g : List (BitVec 8)
  b : List (BitVec 8)
deriving DecidableEq

/-- voxblox_msgs/msg/Mesh.msg:1-8 without the header. -/
structure Msg where
  edge : Fl
  blocks : List MeshBlock
deriving DecidableEq

/-- Conversion of a float to `uint16_t`, voxblox_ros/include/voxblox_ros/mesh_vis.h:202-207: undefined if it does not fit. -/
def toShort : Fl → Outcome ℕ
  | .fin q => if -1 < q ∧ q < 65536 then .ok ⌊q⌋.toNat else .ub
  | _ => .ub

/-- voxblox_ros/include/voxblox_ros/mesh_vis.h:193-195, one axis. -/
def normalized1 (inv x : Fl) (i : ℤ) : Fl :=
  float32.mul (.fin (1 / 2)) (float32.sub (float32.mul inv x) (float32.rnd i))

/-- voxblox_ros/include/voxblox_ros/mesh_vis.h:202-207, one axis: `std::numeric_limits<uint16_t>::max() * …`. -/
def encode1 (n : Fl) : Outcome ℕ := toShort (float32.mul (.fin 65535) n)

/-- One vertex, voxblox_ros/include/voxblox_ros/mesh_vis.h:193-207. -/
def encodeVertex (inv : Fl) (i : Idx) (v : Vec3 Fl) : Outcome (Vec3 ℕ) := do
  let n : Vec3 Fl := ⟨normalized1 inv v.x i.x, normalized1 inv v.y i.y, normalized1 inv v.z i.z⟩
  Outcome.check (Fl.le (float32.dot n n) (.fin 1))
  Outcome.check (Fl.le (.fin 0) n.x && Fl.le (.fin 0) n.y && Fl.le (.fin 0) n.z)
  let x ← encode1 n.x
  let y ← encode1 n.y
  let z ← encode1 n.z
  pure ⟨x, y, z⟩

/-- One vertex with its colour, voxblox_ros/include/voxblox_ros/mesh_vis.h:184-218. -/
def vertexBlock (inv : Fl) (mode : ColorMode) (i : Idx) (m : Mesh) (b : MeshBlock) (k : ℕ) : Outcome MeshBlock := do
  let v ← MeshOps.at_ m.vertices k
  let p ← encodeVertex inv i v
  let b := { b with x := b.x ++ [p.x], y := b.y ++ [p.y], z := b.z ++ [p.z] }
  if mode = .normals then pure b else do
    let c ← vertexColor m mode k
    let cr ← channelBytes c.x
    let cg ← channelBytes c.y
    let cb ← channelBytes c.z
    pure { b with r := b.r ++ [cr], g := b.g ++ [cg], b := b.b ++ [cb] }

/-- The message of one block, voxblox_ros/include/voxblox_ros/mesh_vis.h:169-219. -/
def encodeBlock (inv : Fl) (mode : ColorMode) (i : Idx) (m : Mesh) : Outcome MeshBlock :=
  (List.range m.vertices.length).foldlM (vertexBlock inv mode i m) ⟨i, [], [], [], [], [], []⟩

/-- One updated block, voxblox_ros/include/voxblox_ros/mesh_vis.h:166-229: empty meshes are removed once they are sent. -/
def sendBlock (inv : Fl) (mode : ColorMode) (st : List MeshBlock × MeshMap) (i : Idx) : Outcome (List MeshBlock × MeshMap) :=
  match st.2.lookup i with
  | none => .ub
  | some m => do
    let b ← encodeBlock inv mode i m
    pure (st.1 ++ [b], if m.vertices.isEmpty then st.2.filter fun e => e.1 ≠ i else setMesh st.2 i { m with updated := false })

/-- voxblox_ros/include/voxblox_ros/mesh_vis.h:153-230 `generateVoxbloxMeshMsg`: the message and the mesh layer afterwards. `edge` is
`block_size()`, `inv` `block_size_inv()` of the mesh layer. -/
def generateMsg (edge inv : Fl) (mode : ColorMode) (ml : MeshMap) : Outcome (Msg × MeshMap) := do
  let updated := (ml.filter fun e => e.2.updated).map (·.1)
  let st ← updated.foldlM (sendBlock inv mode) ([], ml)
  pure (⟨edge, st.1⟩, st.2)

/-! ### The display -/

/-- voxblox_rviz_plugin/src/voxblox_mesh_visual.cc:44-45 `point_conv_factor`. -/
def pointFactor : Fl := float32.div (.fin 2) (.fin 65535)

/-- voxblox_rviz_plugin/src/voxblox_mesh_visual.cc:46-57, one axis. -/
def decode1 (edge : Fl) (i : ℤ) (k : ℕ) : Fl :=
  float32.mul (float32.add (float32.mul (float32.rnd k) pointFactor) (float32.rnd i)) edge

/-- The vertices, voxblox_rviz_plugin/src/voxblox_mesh_visual.cc:40-61. -/
def decodeVertex (edge : Fl) (b : MeshBlock) (k : ℕ) : Outcome (Vec3 Fl) := do
  let x ← MeshOps.at_ b.x k
  let y ← MeshOps.at_ b.y k
  let z ← MeshOps.at_ b.z k
  pure ⟨decode1 edge b.index.x x, decode1 edge b.index.y y, decode1 edge b.index.z z⟩

/-- The normal of a triangle, three times, voxblox_rviz_plugin/src/voxblox_mesh_visual.cc:65-73. -/
def triangleNormals (vs : List (Vec3 Fl)) (t : ℕ) : Outcome (List (Vec3 Fl)) := do
  let p0 ← MeshOps.at_ vs (3 * t)
  let p1 ← MeshOps.at_ vs (3 * t + 1)
  let p2 ← MeshOps.at_ vs (3 * t + 2)
  let n := Occ.normalized float32 (cross float32 (float32.vsub p0 p1) (float32.vsub p0 p2))
  pure [n, n, n]

/-- The colour of a vertex, voxblox_rviz_plugin/src/voxblox_mesh_visual.cc:77-95; without colours it is that of the normal. -/
def displayColor (b : MeshBlock) (normals : List (Vec3 Fl)) (k : ℕ) : Outcome Color :=
  if b.x.length = b.r.length then do
    let r ← MeshOps.at_ b.r k
    let g ← MeshOps.at_ b.g k
    let bl ← MeshOps.at_ b.b k
    pure ⟨r, g, bl, 255⟩
  else do
    let n ← MeshOps.at_ normals k
    let f (x : Fl) : Fl := float32.mul (.fin 255) (float32.add (float32.mul x (.fin (1 / 2))) (.fin (1 / 2)))
    let r ← toByte (f n.x)
    let g ← toByte (f n.y)
    let bl ← toByte (f n.z)
    pure ⟨r, g, bl, 255⟩

/-- The mesh of a block before connecting, voxblox_rviz_plugin/src/voxblox_mesh_visual.cc:31-96. -/
def decodeBlock (edge : Fl) (b : MeshBlock) : Outcome Mesh := do
  let vs ← (List.range b.x.length).mapM (decodeVertex edge b)
  let ns ← (List.range ((vs.length + 2) / 3)).mapM (triangleNormals vs)
  let cs ← (List.range b.x.length).mapM (displayColor b ns.flatten)
  pure ⟨vs, List.range b.x.length, ns.flatten, cs, false⟩

/-- The threshold of `createConnectedMesh`, voxblox/include/voxblox/mesh/mesh_utils.h:21 (default argument, a `float`). -/
def proximity : Fl := float32.rnd (1 / 10 ^ 10)

/-- What is drawn for a block, voxblox_rviz_plugin/src/voxblox_mesh_visual.cc:31-100. -/
def drawn (edge : Fl) (b : MeshBlock) : Outcome Mesh := do
  let m ← decodeBlock edge b
  MeshOps.createConnectedMesh float64 float32 proximity [m] Mesh.empty

/-- The objects of the display by block index, voxblox_rviz_plugin/include/voxblox_rviz_plugin/voxblox_mesh_visual.h:31
`object_map_`; what an object draws is the connected mesh. -/
abbrev Display := List (Idx × Mesh)

/-- One block of a message, voxblox_rviz_plugin/src/voxblox_mesh_visual.cc:31-159: a known object is destroyed if the block is empty
and redrawn otherwise, an unknown one is created. -/
def receiveBlock (edge : Fl) (d : Display) (b : MeshBlock) : Outcome Display := do
  let m ← drawn edge b
  match d.lookup b.index with
  | some _ => if b.x.isEmpty then pure (d.filter fun e => e.1 ≠ b.index) else pure (setMesh d b.index m)
  | none => pure ((b.index, m) :: d)

/-- voxblox_rviz_plugin/src/voxblox_mesh_visual.cc:29-161 `setMessage`. -/
def receive (d : Display) (msg : Msg) : Outcome Display := msg.blocks.foldlM (receiveBlock msg.edge) d

end Vox.MeshMsg
