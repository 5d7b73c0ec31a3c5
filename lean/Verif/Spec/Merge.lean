/-
What merging two layers means, voxel by voxel, and what a resampled voxel is.
-/
import Verif.Spec.Grid
import Verif.Spec.Interp
import Verif.Model.Voxel

namespace Vox.Spec

open Layer Grid

variable {V : Type}

/-- The block is marked as having data. -/
def Marked (l : VLayer V) (i : Idx) : Prop := ∃ u, status l i = some (true, u)

/-- What voxel `g` becomes when `src` is merged into `dst`: merged if its block in `src` is marked, otherwise as in `dst`
(default-constructed if `dst` has none). -/
structure MergedTo (dflt : V) (merge : V → V → Outcome V) (src dst : VLayer V) (g : Idx) (y : V) : Prop where
  absent : content src g = none → y = (content dst g).getD dflt
  unmarked : ∀ a, content src g = some a → ¬ Marked src (blockOf src.cfg.vps g) → y = (content dst g).getD dflt
  marked : ∀ a, content src g = some a → Marked src (blockOf src.cfg.vps g) → merge a ((content dst g).getD dflt) = .ok y

/-- What the status of block `i` becomes. -/
def MergedStatus (src dst : VLayer V) (i : Idx) (st : Bool × Flags) : Prop :=
  (Marked src i → st = (true, Flags.setAll)) ∧ (¬ Marked src i → st = (status dst i).getD (false, Flags.ofBool false))

/-- A layer that was filled by allocating blocks, assigning voxels and setting update flags: the operations of the TSDF, ESDF and
occupancy integrators (none of them marks a block as having data). -/
inductive Filled (dflt : V) (cfg : Cfg) : VLayer V → Prop
  | empty : Filled dflt cfg ⟨cfg, []⟩
  | allocate {l l'} (i : Idx) : Filled dflt cfg l → l'.cfg = l.cfg →
      (∀ g, content l' g = if blockOf cfg.vps g = i then some ((content l g).getD dflt) else content l g) →
      (∀ j, status l' j = if j = i then some ((status l j).getD (false, Flags.ofBool false)) else status l j) → Filled dflt cfg l'
  | assign {l l'} (g : Idx) (x : V) : Filled dflt cfg l → l'.cfg = l.cfg → (content l g).isSome = true →
      (∀ g', content l' g' = if g' = g then some x else content l g') → (∀ j, status l' j = status l j) → Filled dflt cfg l'
  | flags {l l'} (i : Idx) (u : Flags) : Filled dflt cfg l → l'.cfg = l.cfg → (∀ g, content l' g = content l g) →
      (∀ j, status l' j = if j = i then (status l j).map (fun s => (s.1, u)) else status l j) → Filled dflt cfg l'

/-- All eight voxels around `p` are present and observed. -/
def Surrounded (l : VLayer V) (obs : V → Bool) (g : Idx) (f : Idx → V) : Prop :=
  ∀ c, IsCorner c → content l (g + c) = some (f c) ∧ obs (f c) = true

/-- The position lies in voxel `g`, and not in the sliver of relative width `side * 1e-6` at the voxel's upper faces. -/
def ClearIn (l : VLayer V) (g : Idx) (p : Pt) : Prop :=
  Vec3.All₂ (fun (c : ℤ) (q : ℚ) => (c : ℚ) * l.cfg.voxelSize ≤ q ∧
    q < ((c : ℚ) + 1 - l.cfg.vps * (1 / 1000000)) * l.cfg.voxelSize) g p

/-- The sample `r = (voxel, is data)` taken from the TSDF layer `l` at `p`, replacing `x`: interpolated (colour channels rounded down) if the
point is surrounded by observed voxels, otherwise a copy of the voxel that contains the point, otherwise `x`. -/
structure SampledTsdf (l : VLayer (TsdfVoxel ℚ)) (obs : TsdfVoxel ℚ → Bool) (p : Pt) (x : TsdfVoxel ℚ) (r : TsdfVoxel ℚ × Bool) : Prop where
  inside : ∀ g f, InDualCell l.cfg.voxelSize g p → Surrounded l obs g f → r.2 = true ∧
    r.1.distance = trilinear (fun c => (f c).distance) ((p - voxelCenter l.cfg.voxelSize g).map (· * (1 / l.cfg.voxelSize))) ∧
    r.1.weight = trilinear (fun c => (f c).weight) ((p - voxelCenter l.cfg.voxelSize g).map (· * (1 / l.cfg.voxelSize))) ∧
    ∀ ch ∈ [Color.r, Color.g, Color.b, Color.a], ((ch r.1.color).toNat : ℤ) =
      ⌊trilinear (fun c => ((ch (f c).color).toNat : ℚ)) ((p - voxelCenter l.cfg.voxelSize g).map (· * (1 / l.cfg.voxelSize)))⌋
  nearest : ∀ g, InDualCell l.cfg.voxelSize g p → (¬ ∃ f, Surrounded l obs g f) → ∀ h, ClearIn l h p →
    r = match content l h with
      | none => (x, false)
      | some v => (v, obs v)

end Vox.Spec
