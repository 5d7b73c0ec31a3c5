/-
What the TSDF visualizer has to show.
-/
import Verif.Model.Visualizer
import Verif.Spec.PtCloud
import Verif.Spec.MeshMsg
import Verif.Spec.ServerMesh

namespace Vox.Spec

open Layer Grid MC MeshInt Visualizer

/-- What the subscribers of a topic get. -/
def received (r : Products) (topic : String) : List Payload := (r.sent.filter fun x => x.topic = topic).map (·.payload)

/-- The distance of a voxel that is heavy enough, and close enough to the surface. -/
def distanceIf (minWeight : ℚ) (near : Fl → Bool) (v : TsdfVoxel Fl) : Option Fl :=
  if Fl.lt (.fin minWeight) v.weight = true ∧ near v.distance = true then some v.distance else none

/-- The distances in the surface of the mesh: finite ones of voxels that are heavy enough. -/
def meshDistance (minWeight : ℚ) (v : TsdfVoxel Fl) : Option ℚ :=
  match v.weight, v.distance with
  | .fin w, .fin d => if minWeight < w then some d else none
  | _, _ => none

/-- A display that was empty draws, after the message, the meshes of all blocks, each as it draws a message of that block alone. -/
def DisplayShows (env : Visualizer.Env) (mode : MeshMsg.ColorMode) (msg : MeshMsg.Msg) (M : Idx → Mesh) : Prop :=
  ∀ d, MeshMsg.receive [] msg = .ok d → ∀ i, (do
    let b ← MeshMsg.encodeBlock env.inv mode i (M i)
    MeshMsg.drawn env.edge b) = .ok (visible d i)

end Vox.Spec
