/-
The point clouds and markers a server publishes of its maps: voxblox_ros/src/tsdf_server.cc, esdf_server.cc, intensity_server.cc and the marker of
voxblox_ros/include/voxblox_ros/ptcloud_vis.h. Coordinates are exact, as in `PtCloud`; ROS and the publishers are left out: what is published is a list of
messages.
-/
import Verif.Model.PtCloud
import Verif.Model.MeshMsg
import Verif.Model.MapServer

namespace Vox.ServerClouds

open Layer Grid Ieee PtCloud MeshMsg

variable {V : Type}

/-! ### The marker -/

/-- The type and the action of a marker, voxblox_ros/include/voxblox_ros/ptcloud_vis.h:147, :150. -/
inductive Shape where
  | cubeList
  | other
deriving DecidableEq

/-- See `Shape`, voxblox_ros/include/voxblox_ros/ptcloud_vis.h:150. -/
inductive Action where
  | add
  | delete
deriving DecidableEq

/-- The fields of `visualization_msgs::Marker` set in voxblox_ros/include/voxblox_ros/ptcloud_vis.h:143-150, :161-169. -/
structure CubeMarker where
  frame : String
  ns : String
  id : ℤ
  shape : Shape
  scale : Vec3 ℚ
  action : Action
  points : List Pt
  colors : List (ColorMsg × Fl)
deriving DecidableEq

/-- `rainbowColorMap((coord.z() + 2.5) / 5.0)`, in `double`: voxblox_ros/include/voxblox_ros/ptcloud_vis.h:167. -/
def heightColor (z : ℚ) : Outcome Color := ColorMap.rainbow rnd64 (rnd64 (rnd64 (z + 5 / 2) / 5))

/-- What is added for a voxel, voxblox_ros/include/voxblox_ros/ptcloud_vis.h:161-169. -/
def cube (vis : Vis V Unit) : Vis V (ColorMsg × Fl) := fun v p => do
  match ← vis v p with
  | none => pure none
  | some _ =>
    let c ← heightColor p.z
    pure (some (colorToMsg c, channelToMsg c.a))

/-- voxblox_ros/include/voxblox_ros/ptcloud_vis.h:131-174 `createOccupancyBlocksFromLayer`: the markers of the array afterwards. -/
def occupancyBlocks (vis : Vis V Unit) (frame : String) (l : VLayer V) (markers : List CubeMarker) : Outcome (List CubeMarker) := do
  let E ← cloud (cube vis) l
  let s := l.cfg.voxelSize
  pure (markers ++ [⟨frame, "occupied_voxels", 0, .cubeList, ⟨s, s, s⟩, .add, E.map (·.1), E.map (·.2)⟩])

/-- voxblox_ros/include/voxblox_ros/ptcloud_vis.h:431-440 `createOccupancyBlocksFromTsdfLayer`. -/
def tsdfBlocks (frame : String) (l : VLayer (TsdfVoxel Fl)) (markers : List CubeMarker) : Outcome (List CubeMarker) :=
  occupancyBlocks (occupiedTsdf (.fin l.cfg.voxelSize)) frame l markers

/-- voxblox_ros/include/voxblox_ros/ptcloud_vis.h:442-448 `createOccupancyBlocksFromOccupancyLayer`; the log-odds of 0.7 are a parameter. -/
def occBlocks (threshold : Fl) (frame : String) (l : VLayer (OccVoxel Fl)) (markers : List CubeMarker) : Outcome (List CubeMarker) :=
  occupancyBlocks (occupiedOcc threshold) frame l markers

/-! ### The servers -/

/-- The topics of the clouds: voxblox_ros/include/voxblox_ros/tsdf_server.h:140-143, voxblox_ros/include/voxblox_ros/esdf_server.h:82-84,
voxblox_ros/include/voxblox_ros/intensity_server.h:35. -/
inductive Topic where
  | tsdfCloud
  | surface
  | occupied
  | tsdfSlice
  | esdfCloud
  | esdfSlice
  | traversable
  | intensityCloud
deriving DecidableEq

/-- What is published on them, with the frame of the header; voxblox_ros/src/tsdf_server.cc:416-454, voxblox_ros/src/esdf_server.cc:81-102, :137-143,
voxblox_ros/src/intensity_server.cc:63-70. -/
inductive Content where
  | points (frame : String) (E : List (Pt × Fl))
  | colored (frame : String) (E : List (Pt × Color))
  | markers (ms : List CubeMarker)
deriving DecidableEq

/-- A published message: voxblox_ros/src/tsdf_server.cc:423, :435, :443, :453, voxblox_ros/src/esdf_server.cc:88, :101, :142,
voxblox_ros/src/intensity_server.cc:70. -/
abbrev Msg := Topic × Content

/-- The class of the server, which decides what the virtual functions do: voxblox_ros/include/voxblox_ros/tsdf_server.h:70, :76,
voxblox_ros/include/voxblox_ros/esdf_server.h:32, :35, voxblox_ros/include/voxblox_ros/intensity_server.h:26. -/
inductive Kind where
  | tsdf
  | esdf
  | intensity
deriving DecidableEq

/-- The maps of a server and the parameters read here: voxblox_ros/include/voxblox_ros/tsdf_server.h:173, :186, :206-208, :232,
voxblox_ros/include/voxblox_ros/esdf_server.h:100-101, :106, voxblox_ros/include/voxblox_ros/intensity_server.h:48. Maps the class does not have are not read. -/
structure Server where
  kind : Kind
  frame : String
  tsdf : VLayer (TsdfVoxel Fl)
  esdf : VLayer (EsdfVoxel Fl)
  intensity : VLayer (IntensityVoxel Fl)
  sliceLevel : ℚ
  slices : Bool
  onUpdate : Bool
  clouds : Bool
  traversable : Bool
  radius : Fl

/-- voxblox_ros/src/tsdf_server.cc:416-424 `publishAllUpdatedTsdfVoxels` with voxblox_ros/include/voxblox_ros/ptcloud_vis.h:344-350. -/
def tsdfVoxelsMsg (s : Server) : Outcome Msg := do
  let E ← cloud tsdfDistance s.tsdf
  pure (.tsdfCloud, .points s.frame E)

/-- `surface_distance_thresh`, a `double` product stored in a `float`: voxblox_ros/src/tsdf_server.cc:429-430. -/
def surfaceThreshold (voxelSize : ℚ) : Fl := MeshMsg.toFloat (float64.mul (.fin voxelSize) (.fin (3 / 4)))

/-- voxblox_ros/src/tsdf_server.cc:426-436 `publishTsdfSurfacePoints` with voxblox_ros/include/voxblox_ros/ptcloud_vis.h:317-326. -/
def surfaceMsg (s : Server) : Outcome Msg := do
  let E ← cloud (nearSurface (surfaceThreshold s.tsdf.cfg.voxelSize)) s.tsdf
  pure (.surface, .colored s.frame E)

/-- voxblox_ros/src/tsdf_server.cc:438-444 `publishTsdfOccupiedNodes`. -/
def occupiedMsg (s : Server) : Outcome Msg := do
  let ms ← tsdfBlocks s.frame s.tsdf []
  pure (.occupied, .markers ms)

/-- voxblox_ros/src/tsdf_server.cc:446-454 `TsdfServer::publishSlices`: the level is converted to a `float`. -/
def tsdfSlices (s : Server) : Outcome (List Msg) := do
  let E ← tsdfLayerSlice 2 (rnd32 s.sliceLevel) s.tsdf
  pure [(.tsdfSlice, .points s.frame E)]

/-- voxblox_ros/src/esdf_server.cc:91-102 `EsdfServer::publishSlices`. -/
def esdfSlices (s : Server) : Outcome (List Msg) := do
  let ms ← tsdfSlices s
  let E ← esdfLayerSlice 2 (rnd32 s.sliceLevel) s.esdf
  pure (ms ++ [(.esdfSlice, .points s.frame E)])

/-- The virtual function `publishSlices`, voxblox_ros/include/voxblox_ros/tsdf_server.h:70, voxblox_ros/include/voxblox_ros/esdf_server.h:32. -/
def publishSlices (s : Server) : Outcome (List Msg) := if s.kind = .esdf then esdfSlices s else tsdfSlices s

/-- The slices if they are asked for, voxblox_ros/src/tsdf_server.cc:488-490, voxblox_ros/src/esdf_server.cc:125-127. -/
def slicesIf (s : Server) : Outcome (List Msg) := if s.slices then publishSlices s else pure []

/-- voxblox_ros/src/tsdf_server.cc:482-491 `TsdfServer::publishPointclouds`. -/
def tsdfPublish (s : Server) : Outcome (List Msg) := do
  let a ← tsdfVoxelsMsg s
  let b ← surfaceMsg s
  let c ← occupiedMsg s
  let d ← slicesIf s
  pure ([a, b, c] ++ d)

/-- voxblox_ros/src/esdf_server.cc:81-89 `publishAllUpdatedEsdfVoxels` with voxblox_ros/include/voxblox_ros/ptcloud_vis.h:367-373. -/
def esdfVoxelsMsg (s : Server) : Outcome Msg := do
  let E ← cloud esdfDistance s.esdf
  pure (.esdfCloud, .points s.frame E)

/-- voxblox_ros/src/esdf_server.cc:137-143 `publishTraversable`, where it is asked for (:129-131), with voxblox_ros/include/voxblox_ros/ptcloud_vis.h:375-383. -/
def traversableIf (s : Server) : Outcome (List Msg) :=
  if s.traversable then do
    let E ← cloud (freeEsdf s.radius) s.esdf
    pure [(.traversable, .points s.frame E)]
  else pure []

/-- voxblox_ros/src/esdf_server.cc:123-134 `EsdfServer::publishPointclouds`. -/
def esdfPublish (s : Server) : Outcome (List Msg) := do
  let a ← esdfVoxelsMsg s
  let b ← slicesIf s
  let c ← traversableIf s
  let d ← tsdfPublish s
  pure ([a] ++ b ++ c ++ d)

/-- voxblox_ros/src/intensity_server.cc:63-73 `IntensityServer::publishPointclouds` with voxblox_ros/include/voxblox_ros/ptcloud_vis.h:385-391. -/
def intensityPublish (s : Server) : Outcome (List Msg) := do
  let E ← cloud intensity s.intensity
  let d ← tsdfPublish s
  pure ((.intensityCloud, .points s.frame E) :: d)

/-- The virtual function `publishPointclouds`, voxblox_ros/include/voxblox_ros/tsdf_server.h:76, voxblox_ros/include/voxblox_ros/esdf_server.h:35,
voxblox_ros/include/voxblox_ros/intensity_server.h:26. -/
def publish (s : Server) : Outcome (List Msg) :=
  match s.kind with
  | .tsdf => tsdfPublish s
  | .esdf => esdfPublish s
  | .intensity => intensityPublish s

/-- `publishPointclouds` under a condition, voxblox_ros/src/tsdf_server.cc:377-379, :517-519, :649-651, voxblox_ros/src/esdf_server.cc:243-245. -/
def publishIf (c : Bool) (s : Server) : Outcome (List Msg) := if c then publish s else pure []

/-! ### Events -/

/-- What a server reacts to, with the maps afterwards: a message with a point cloud, of which a scan was processed (voxblox_ros/src/tsdf_server.cc:353-379) or
not; the timer of the mesh (:493-520, :620-622), the service for clouds (:606-611), a message with a TSDF map (:639-653) that is valid or not, the service for
clearing (:580-585), the service for loading (:599-604); for ESDF servers a message with an ESDF map (voxblox_ros/src/esdf_server.cc:233-247), the service
(:104-117) and the timer (:119-121) of the ESDF; for intensity servers an image (voxblox_ros/src/intensity_server.cc:75-126). -/
inductive Event where
  | scan (t : VLayer (TsdfVoxel Fl)) (e : VLayer (EsdfVoxel Fl))
  | noScan
  | meshTimer
  | service
  | tsdfMap (valid : Bool) (t : VLayer (TsdfVoxel Fl))
  | clear
  | load (t : VLayer (TsdfVoxel Fl)) (e : VLayer (EsdfVoxel Fl))
  | esdfMap (valid : Bool) (e : VLayer (EsdfVoxel Fl))
  | generateEsdf (e : VLayer (EsdfVoxel Fl))
  | esdfTimer (e : VLayer (EsdfVoxel Fl))
  | image (i : VLayer (IntensityVoxel Fl))

/-- The maps after an event: see `Event`; `clear` is voxblox_ros/src/tsdf_server.cc:628-637, voxblox_ros/src/esdf_server.cc:249-259. -/
def after (s : Server) : Event → Server
  | .scan t e => { s with tsdf := t, esdf := e }
  | .noScan => s
  | .meshTimer => s
  | .service => s
  | .tsdfMap _ t => { s with tsdf := t }
  | .clear => { s with tsdf := MapServer.removeAllBlocks s.tsdf, esdf := MapServer.removeAllBlocks s.esdf }
  | .load t e => { s with tsdf := t, esdf := e }
  | .esdfMap _ e => { s with esdf := e }
  | .generateEsdf e => { s with esdf := e }
  | .esdfTimer e => { s with esdf := e }
  | .image i => { s with intensity := i }

/-- The clouds published after the service for the ESDF, whether slices are asked for or not: voxblox_ros/src/esdf_server.cc:114-115. -/
def generatePublish (s : Server) : Outcome (List Msg) := do
  let a ← esdfVoxelsMsg s
  let b ← publishSlices s
  pure ([a] ++ b)

/-- What is published at an event, `s` being the server with the maps after it: voxblox_ros/src/tsdf_server.cc:373-379, :517-519, :606-611, :645-651,
voxblox_ros/src/esdf_server.cc:114-115, :239-246. -/
def published (s : Server) : Event → Outcome (List Msg)
  | .scan _ _ => publishIf s.onUpdate s
  | .noScan => pure []
  | .meshTimer => publishIf (s.clouds && !s.onUpdate) s
  | .service => publish s
  | .tsdfMap valid _ => publishIf (valid && s.onUpdate) s
  | .clear => pure []
  | .load _ _ => pure []
  | .esdfMap valid _ => publishIf (valid && s.clouds) s
  | .generateEsdf _ => generatePublish s
  | .esdfTimer _ => pure []
  | .image _ => pure []

/-- One event, voxblox_ros/src/tsdf_server.cc:353-653: the server and everything published so far. -/
def step (st : Server × List Msg) (e : Event) : Outcome (Server × List Msg) := do
  let ms ← published (after st.1 e) e
  pure (after st.1 e, st.2 ++ ms)

/-- Several events, voxblox_ros/src/tsdf_server.cc:353-653. -/
def run (st : Server × List Msg) (es : List Event) : Outcome (Server × List Msg) := es.foldlM step st

end Vox.ServerClouds
