/-
Saving and loading the maps of the servers (voxblox_ros/src/tsdf_server.cc, voxblox_ros/src/esdf_server.cc).
A disk is a finite map from paths to contents; which paths can be opened for writing is a parameter.
-/
import Verif.Model.LayerIO

namespace Vox.ServerIO

open FloatBits Proto Serial Layer Vox.IO

/-- The files as the servers see them; the environment of voxblox_ros/src/tsdf_server.cc:561-578.
`files p` is the content of the file at `p`, if there is one; `writable p` tells whether it can be opened
for writing. -/
structure Disk where
  files : String → Option (List Byte)
  writable : String → Bool

/-- The disk with the content of one file replaced.
Serves the model of voxblox/include/voxblox/core/layer_inl.h:89-162. -/
def Disk.put (d : Disk) (path : String) (content : List Byte) : Disk :=
  { d with files := fun p => if p = path then some content else d.files p }

/-- "tsdf", voxblox/include/voxblox/core/voxel.h:52. -/
def kTsdf : List Byte := [116, 115, 100, 102]

/-- "esdf", voxblox/include/voxblox/core/voxel.h:53. -/
def kEsdf : List Byte := [101, 115, 100, 102]

/-- The TSDF voxel type: codec of voxblox/src/core/block.cc:65-90, :159-183, name of
voxblox/include/voxblox/core/voxel.h:63-66; merging and the rounding of the block index stay parameters. -/
def tsdfType (merge : TsdfVoxel Word → TsdfVoxel Word → TsdfVoxel Word)
    (idx : Word → ℕ → Vec3 Word → Outcome Idx) : Env (TsdfVoxel Word) :=
  ⟨tsdfCodec, kTsdf, merge, idx⟩

/-- The ESDF voxel type: codec of voxblox/src/core/block.cc:111-137, :203-234, name of
voxblox/include/voxblox/core/voxel.h:68-71. -/
def esdfType (merge : EsdfVoxel Word → EsdfVoxel Word → EsdfVoxel Word)
    (idx : Word → ℕ → Vec3 Word → Outcome Idx) : Env (EsdfVoxel Word) :=
  ⟨esdfCodec, kEsdf, merge, idx⟩

variable {V : Type}

/-- `io::SaveLayer`, voxblox/include/voxblox/io/layer_io_inl.h:227-232, on top of
voxblox/include/voxblox/core/layer_inl.h:81-162: an empty path aborts, a path that cannot be opened is
reported; otherwise the bytes go into the truncated or kept file. -/
def saveLayerTo (env : Env V) (l : FLayer V) (path : String) (clearFile : Bool) (d : Disk) :
    Outcome (Bool × Disk) := do
  Outcome.check (path ≠ "")
  if d.writable path then do
    let written ← saveLayer env l
    pure (true, d.put path (fileAfterSave ((d.files path).getD []) clearFile written))
  else pure (false, d)

/-- `io::LoadBlocksFromFile`, voxblox/include/voxblox/io/layer_io_inl.h:14-91, from the disk: an empty path
aborts, a missing file is reported. -/
def loadBlocksAt (env : Env V) (s : Strategy) (multi : Bool) (l : FLayer V) (path : String) (d : Disk) :
    Outcome (Bool × FLayer V) := do
  Outcome.check (path ≠ "")
  match d.files path with
  | none => pure (false, l)
  | some file => do
    let (ok, l') ← loadBlocksFromFile env s multi l file
    pure (ok, l'.getD l)

/-- `TsdfServer::saveMap`, voxblox_ros/src/tsdf_server.cc:561-564; the file is truncated by default
(voxblox/include/voxblox/io/layer_io.h:63-65). -/
def tsdfSave (env : Env V) (l : FLayer V) (path : String) (d : Disk) : Outcome (Bool × Disk) :=
  saveLayerTo env l path true d

/-- `TsdfServer::loadMap`, voxblox_ros/src/tsdf_server.cc:566-578. -/
def tsdfLoad (env : Env V) (l : FLayer V) (path : String) (d : Disk) : Outcome (Bool × FLayer V) :=
  loadBlocksAt env .replace true l path d

/-- The two maps of an ESDF server, voxblox_ros/include/voxblox_ros/esdf_server.h:106 and
voxblox_ros/include/voxblox_ros/tsdf_server.h:232. -/
structure Maps where
  tsdf : FLayer (TsdfVoxel Word)
  esdf : FLayer (EsdfVoxel Word)

/-- `EsdfServer::saveMap`, voxblox_ros/src/esdf_server.cc:172-179. -/
def esdfSave (envT : Env (TsdfVoxel Word)) (envE : Env (EsdfVoxel Word)) (m : Maps) (path : String)
    (d : Disk) : Outcome (Bool × Disk) := do
  let (success, d1) ← tsdfSave envT m.tsdf path d
  if success then saveLayerTo envE m.esdf path false d1 else pure (false, d1)

/-- `EsdfServer::loadMap`, voxblox_ros/src/esdf_server.cc:181-190. -/
def esdfLoad (envT : Env (TsdfVoxel Word)) (envE : Env (EsdfVoxel Word)) (m : Maps) (path : String)
    (d : Disk) : Outcome (Bool × Maps) := do
  let (success, t) ← tsdfLoad envT m.tsdf path d
  if success then do
    let (ok, e) ← loadBlocksAt envE .replace true m.esdf path d
    pure (ok, ⟨t, e⟩)
  else pure (false, ⟨t, m.esdf⟩)

end Vox.ServerIO
