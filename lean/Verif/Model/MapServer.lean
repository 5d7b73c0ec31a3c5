/-
Publishing a map to subscribers: `publishMap` and `clear` of the servers (voxblox_ros/src/tsdf_server.cc, voxblox_ros/src/esdf_server.cc) and the callback
that receives a map.
-/
import Verif.Model.LayerMsg

namespace Vox.MapServer

open Layer Grid LayerMsg

/-- `publish_tsdf_map_` and `num_subscribers_tsdf_map_`, voxblox_ros/include/voxblox_ros/tsdf_server.h:209, :229 (and `publish_esdf_map_`,
`num_subscribers_esdf_map_`, voxblox_ros/include/voxblox_ros/esdf_server.h:99, :103). -/
structure Publisher where
  enabled : Bool
  known : ℕ
deriving DecidableEq

variable {V W : Type}

/-- `reset_remote_map` after the test for new subscribers, voxblox_ros/src/tsdf_server.cc:462-467. -/
def resets (p : Publisher) (subscribers : ℕ) (reset : Bool) : Bool := reset || decide (p.known < subscribers)

/-- The message, voxblox_ros/src/tsdf_server.cc:468-476; the action is `kUpdate` unless set (voxblox_ros/include/voxblox_ros/conversions.h:148-151). -/
def mapMsg (T : VoxelType V) (A : VLayer V) (reset : Bool) : Outcome Msg := serializeLayer T A (!reset) (if reset then 2 else 0)

/-- voxblox_ros/src/tsdf_server.cc:456-480 `TsdfServer::publishMap`; the number of subscribers is what the publisher reports. -/
def publishMap (T : VoxelType V) (p : Publisher) (A : VLayer V) (subscribers : ℕ) (reset : Bool) : Outcome (Option Msg × Publisher) :=
  if p.enabled = false then .ok (none, p)
  else if 0 < subscribers then do
    let m ← mapMsg T A (resets p subscribers reset)
    pure (some m, { p with known := subscribers })
  else .ok (none, { p with known := subscribers })

/-- voxblox_ros/src/esdf_server.cc:144-170 `EsdfServer::publishMap`: the ESDF message and the TSDF message. The TSDF map is published without the reset. -/
def publishMaps (T : VoxelType V) (E : VoxelType W) (pt pe : Publisher) (A : VLayer V) (B : VLayer W) (nt ne : ℕ) (reset : Bool) :
    Outcome ((Option Msg × Publisher) × (Option Msg × Publisher)) :=
  if pe.enabled = false then .ok ((none, pt), (none, pe))
  else do
    let e ← publishMap E pe B ne reset
    let t ← publishMap T pt A nt false
    pure (t, e)

/-- `removeAllBlocks`, voxblox/include/voxblox/core/layer.h:164. -/
def removeAllBlocks (A : VLayer V) : VLayer V := { A with blocks := [] }

/-- voxblox_ros/src/tsdf_server.cc:628-637 `TsdfServer::clear` (the map part). -/
def clear (T : VoxelType V) (p : Publisher) (A : VLayer V) (subscribers : ℕ) : Outcome (VLayer V × Option Msg × Publisher) :=
  if p.enabled then do
    let r ← publishMap T p (removeAllBlocks A) subscribers true
    pure (removeAllBlocks A, r)
  else .ok (removeAllBlocks A, none, p)

/-- Publishing on behalf of `TsdfServer::clear` in an `EsdfServer`, voxblox_ros/src/tsdf_server.cc:632-636 (a virtual call). -/
def clearPublish (T : VoxelType V) (E : VoxelType W) (pt pe : Publisher) (A : VLayer V) (B : VLayer W) (nt ne : ℕ) :
    Outcome ((Option Msg × Publisher) × (Option Msg × Publisher)) :=
  if pt.enabled then publishMaps T E pt pe A B nt ne true else .ok ((none, pt), (none, pe))

/-- voxblox_ros/src/esdf_server.cc:249-259 `EsdfServer::clear` (the map part): the messages published, TSDF and ESDF, and the publishers afterwards. Both
layers are empty then. -/
def clearBoth (T : VoxelType V) (E : VoxelType W) (pt pe : Publisher) (A : VLayer V) (B : VLayer W) (nt ne : ℕ) :
    Outcome (List (Option Msg) × List (Option Msg) × Publisher × Publisher) := do
  let r ← clearPublish T E pt pe (removeAllBlocks A) (removeAllBlocks B) nt ne
  let s ← publishMaps T E r.1.2 r.2.2 (removeAllBlocks A) (removeAllBlocks B) nt ne true
  pure ([r.1.1, s.1.1], [r.2.1, s.2.1], s.1.2, s.2.2)

/-- voxblox_ros/src/tsdf_server.cc:639-653 `tsdfMapCallback` (the map part): what a subscriber does with a message. -/
def mapCallback (T : VoxelType V) (ar : Arith) (m : Msg) (B : VLayer V) : Outcome (VLayer V) := do
  let r ← deserializeMsg T ar m B
  pure r.1

end Vox.MapServer
