/-
Gradients in `float` arithmetic, voxblox/include/voxblox/interpolator/interpolator_inl.h:46-154, with their output arguments as in
InterpVoxel.lean.
-/
import Verif.Model.InterpVoxel

namespace Vox.InterpF

open Layer Grid Ieee

variable {V : Type}

/-- `pos + offset` with an offset along axis `i`, interpolator_inl.h:62-65, 118-125. -/
def shifted (pos : Pt) (i : Fin 3) (d : ℚ) : Pt := Vec3.map₂ (fun p o => rnd32 (p + o)) pos (Interp.axisOffset i d)

/-- The body of the inner loop of `getGradient`, interpolator_inl.h:62-68, for axis `i` and sign `sign`, which adds to `acc`; `none` when the
function returns false. `offset_distance` is not initialised; it is read only if the query succeeds. -/
def gradSample (rows : ℕ → Order) (last : Order) (A : Access V) (l : VLayer V) (interpolate : Bool) (pos : Pt) (i : Fin 3) (sign : ℚ) (acc : Fl) :
    Outcome (Option Fl) := do
  let r ← getDistance rows last A l interpolate (shifted pos i (rnd32 (sign * l.cfg.voxelSize))) (.fin 0)
  pure (if r.1 then some (float32.add acc (float32.mul r.2 (.fin sign))) else none)

/-- The inner loop of `getGradient`, interpolator_inl.h:61-69: whether it went through, and what it left in `(*grad)(i)`. -/
def gradAxis (rows : ℕ → Order) (last : Order) (A : Access V) (l : VLayer V) (interpolate : Bool) (pos : Pt) (i : Fin 3) : Outcome (Bool × Fl) := do
  match ← gradSample rows last A l interpolate pos i (-1) (.fin 0) with
  | none => pure (false, .fin 0)
  | some a => do
    match ← gradSample rows last A l interpolate pos i 1 a with
    | none => pure (false, a)
    | some b => pure (true, b)

/-- The loops over the axes, interpolator_inl.h:60-70: whether they went through, and what they left in `*grad`. -/
def gradAxes (rows : ℕ → Order) (last : Order) (A : Access V) (l : VLayer V) (interpolate : Bool) (pos : Pt) : Outcome (Bool × Vec3 Fl) := do
  match ← gradAxis rows last A l interpolate pos 0 with
  | (false, x) => pure (false, ⟨x, .fin 0, .fin 0⟩)
  | (true, x) => do
    match ← gradAxis rows last A l interpolate pos 1 with
    | (false, y) => pure (false, ⟨x, y, .fin 0⟩)
    | (true, y) => do
      let z ← gradAxis rows last A l interpolate pos 2
      pure (z.1, ⟨x, y, z.2⟩)

/-- interpolator_inl.h:46-75 `getGradient`. The voxel size of a block is that of its layer, voxblox/include/voxblox/core/layer.h:133-137. The
division of `*grad` is component by component, as in Eigen 3.3. -/
def getGradient (rows : ℕ → Order) (last : Order) (A : Access V) (l : VLayer V) (interpolate : Bool) (pos : Pt) (out : Vec3 Fl) :
    Outcome (Bool × Vec3 Fl) := do
  let bi ← IndexF.blockIndex l.cfg.voxelSize l.cfg.vps pos
  match block? l bi with
  | none => pure (false, out)
  | some _ => do
    let r ← gradAxes rows last A l interpolate pos
    pure (r.1, if r.1 then r.2.map fun c => float32.div c (.fin (rnd32 (2 * l.cfg.voxelSize))) else r.2)

end Vox.InterpF
