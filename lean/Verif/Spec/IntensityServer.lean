/-
What clients of the intensity server see, and its runs.
-/
import Verif.Model.IntensityServer
import Verif.Spec.ServerMesh
import Verif.Spec.Setup

namespace Vox.IntensitySpec

open Layer Grid IntensityServer MeshMsg Spec

variable {V : Type}

/-- The messages on the topic `mesh`. -/
def meshesOf (out : List Published) : List Msg := out.filterMap fun | .mesh m => some m | .intensityMesh _ => none

/-- The messages on the topic `intensity_mesh`. -/
def intensityMeshesOf (out : List Published) : List Msg := out.filterMap fun | .mesh _ => none | .intensityMesh m => some m

/-- What a client that has received all messages of a topic has for a block: the last one with its index. -/
def shownBlock (ms : List Msg) (i : Idx) : Option MeshBlock := (ms.flatMap fun m => m.blocks).reverse.find? fun b => decide (b.index = i)

/-- The blockPositions in a block. -/
def blockPositions (b : MeshBlock) : List ℕ × List ℕ × List ℕ := (b.x, b.y, b.z)

/-- What is asked of an event. -/
def Allowed (env : IntensityServer.Env V) (s : IntensityServer.State V) : IntensityServer.Event V → Prop
  | .base e => Admissible env.base s.base e
  | .image new => new.cfg = s.intensity.cfg

/-- Runs of the server, with all messages in their order. -/
inductive Run (env : IntensityServer.Env V) (s₀ : IntensityServer.State V) :
    List (IntensityServer.Event V) → List Published → IntensityServer.State V → Prop where
  | start : Run env s₀ [] [] s₀
  | step {es : List (IntensityServer.Event V)} {out new : List Published} {s s' : IntensityServer.State V} (e : IntensityServer.Event V) (h : Run env s₀ es out s)
      (ha : Allowed env s e) (hs : IntensityServer.step env s e = .ok (new, s')) : Run env s₀ (es ++ [e]) (out ++ new) s'

/-- The parameters of the intensity server, with the defaults of voxblox_ros/src/intensity_server.cc:8-9, :22-32 and
voxblox/src/integrator/intensity_integrator.cc:9. -/
def intensityParameters : List (String × Value) :=
  [ ("intensity_focal_length", .double (.fin 400)),
    ("subsample_factor", .int 12),
    ("intensity_min_value", decimal 10),
    ("intensity_max_value", decimal 40),
    ("intensity_max_distance", decimal 5) ]

/-- Where the server keeps a parameter. -/
def intensityValue (s : IntensitySetup) : String → Option Value
  | "intensity_focal_length" => some (.double s.focal)
  | "subsample_factor" => some (.int s.factor)
  | "intensity_min_value" => some (.single s.minValue)
  | "intensity_max_value" => some (.single s.maxValue)
  | "intensity_max_distance" => some (.single s.maxDistance)
  | _ => none

end Vox.IntensitySpec
