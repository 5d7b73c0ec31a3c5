/-
The program that makes an ESDF file from a TSDF file: voxblox/test/tsdf_to_esdf.cc.
-/
import Verif.Model.ServerIO

namespace Vox.TsdfToEsdf

open FloatBits Proto Serial Layer Vox.IO ServerIO

/-- How the program ends when it does not abort: `return 0` or an exception leaves `main`, voxblox/test/tsdf_to_esdf.cc:19-24, :60-64. -/
inductive Ended where
  | done
  | threw
deriving DecidableEq

/-- The settings of the integrator that come from the command line, voxblox/test/tsdf_to_esdf.cc:27-30, :46-50. -/
structure Settings where
  minWeight : Word
  minDistance : Word
  maxDistance : Word
  defaultDistance : Word
deriving DecidableEq

/-- `io::LoadLayer` from the disk, voxblox/include/voxblox/io/layer_io_inl.h:130-225: an empty path aborts, a missing file is reported and leaves the
pointer as it was, null. -/
def loadLayerAt {V : Type} (env : Env V) (multi : Bool) (path : String) (d : Disk) : Outcome (Bool × Option (FLayer V)) := do
  Outcome.check (path ≠ "")
  match d.files path with
  | none => pure (false, none)
  | some file => loadLayer env multi file

/-- The work, voxblox/test/tsdf_to_esdf.cc:32-64. The answer of `LoadLayer` is not looked at (:33) and the layer is used at once (:35). The ESDF map
has the voxel size and voxels per side of the loaded layer and no blocks (:40-52); `batch` is `updateFromTsdfLayerBatch` (:53-56). -/
def work (envT : Env (TsdfVoxel Word)) (envE : Env (EsdfVoxel Word))
    (batch : Settings → FLayer (TsdfVoxel Word) → FLayer (EsdfVoxel Word) → Outcome (FLayer (EsdfVoxel Word)))
    (s : Settings) (input output : String) (d : Disk) : Outcome (Ended × Disk) := do
  let loaded ← loadLayerAt envT false input d
  match loaded.2 with
  | none => .ub
  | some l => do
    let e ← batch s l { voxelSize := l.voxelSize, vps := l.vps, blocks := [] }
    let saved ← saveLayerTo envE e output true d
    pure (if saved.1 then .done else .threw, saved.2)

/-- The settings from four words, voxblox/test/tsdf_to_esdf.cc:27-30; `number` is `std::stof`, which may throw. -/
def settings (number : String → Option Word) (w lo hi dflt : String) : Option Settings := do
  let w ← number w
  let lo ← number lo
  let hi ← number hi
  let dflt ← number dflt
  pure ⟨w, lo, hi, dflt⟩

/-- voxblox/test/tsdf_to_esdf.cc:16-65 `main`; the first argument is the name of the program. -/
def main (envT : Env (TsdfVoxel Word)) (envE : Env (EsdfVoxel Word)) (number : String → Option Word)
    (batch : Settings → FLayer (TsdfVoxel Word) → FLayer (EsdfVoxel Word) → Outcome (FLayer (EsdfVoxel Word)))
    (args : List String) (d : Disk) : Outcome (Ended × Disk) :=
  match args with
  | [_, input, output, w, lo, hi, dflt] =>
    match settings number w lo hi dflt with
    | some s => work envT envE batch s input output d
    | none => .ok (.threw, d)
  | _ => .ok (.threw, d)

end Vox.TsdfToEsdf
