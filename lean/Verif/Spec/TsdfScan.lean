/-
What integrating a scan means for the map: every voxel receives the observations of the rays that visit it.
-/
import Verif.Model.TsdfScan
import Verif.Spec.Grid

namespace Vox.Spec

open Layer Grid Tsdf TsdfScan

/-- The observations of voxel `g` in a list of visits. -/
def obsOf (ws : List Visit) (g : Idx) : List Obs := (ws.filter fun w => w.g = g).map (·.obs)

/-- Some visited voxel lies in block `i`. -/
def Touched (n : ℕ) (ws : List Visit) (i : Idx) : Prop := ∃ w ∈ ws, blockOf n w.g = i

/-- `l'` is `l` with the visits `ws` added: every voxel of a touched block holds its former content (a fresh voxel if there
was none) updated with exactly the observations of the visits to it, in some order; touched blocks exist and are marked for
all consumers; everything else is as before. -/
structure Adds (A : Arith) (P : Params) (l : VLayer (TsdfVoxel Fl)) (ws : List Visit) (l' : VLayer (TsdfVoxel Fl)) : Prop where
  cfg : l'.cfg = l.cfg
  wellFormed : WellFormed l'
  touched : ∀ g, Touched l.cfg.vps ws (blockOf l.cfg.vps g) → ∃ os v, os.Perm (obsOf ws g) ∧
    integrate A P.tsdf (.fin l.cfg.voxelSize) os ((content l g).getD freshVoxel) = .ok v ∧ content l' g = some v
  untouched : ∀ g, ¬ Touched l.cfg.vps ws (blockOf l.cfg.vps g) → content l' g = content l g
  marked : ∀ i, Touched l.cfg.vps ws i → status l' i = some (((status l i).map (·.1)).getD false, Flags.setAll)
  unmarked : ∀ i, ¬ Touched l.cfg.vps ws i → status l' i = status l i

/-- The visits of those jobs that do not fail. -/
def visitsOf (jobs : List Job) : List Visit := jobs.flatMap fun j => match j with
  | .ok vs => vs
  | _ => []

/-- No visited voxel is so far away that its block index cannot be computed in single precision (C02). -/
def InReach (ws : List Visit) : Prop := ∀ w ∈ ws, w.g.All fun c => |c| ≤ 2 ^ 24

/-! ### Fast integrator -/

/-- What a scan did with one point: whether its ray was cast and the visits made. -/
structure Entry where
  job : FastJob
  made : List Visit
  cast : Bool

/-- The hash of `g` is found in the set. -/
def Present (h : ApproxHash.HSet) (g : ℕ) : Prop := ApproxHash.present maskedBits fullReset h g = .ok true

/-- A ray that is not cast makes no visits. A ray that is cast makes all of its visits, or it stops in front of a voxel which,
like the `max_consecutive_ray_collisions` voxels before it, has a hash that was `known`. -/
def Justified (P : Params) (known : ℕ → Prop) (e : Entry) : Prop :=
  (e.cast = false ∧ e.made = []) ∨
  (e.cast = true ∧ ∃ g ws, e.job = .ok (some (g, ws)) ∧
    (e.made = ws ∨ ∃ pre run w rest, ws = pre ++ run ++ w :: rest ∧ e.made = pre ++ run ∧ (run.length : ℤ) = P.maxCollisions ∧
      ∀ x ∈ run ++ [w], known (ApproxHash.longIndexHash x.g)))

end Vox.Spec
