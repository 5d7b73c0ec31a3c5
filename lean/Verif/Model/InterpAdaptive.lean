/-
The adaptive query, voxblox/include/voxblox/interpolator/interpolator_inl.h:77-154, in `float` arithmetic and with its output arguments, as in
InterpGrad.lean.
-/
import Verif.Model.InterpGrad

namespace Vox.InterpF

open Layer Grid Ieee

variable {V : Type}

/-- `getDistance` at `pos - offset` and at `pos + offset`, nearest neighbour, interpolator_inl.h:117-123; `none` where it returns false. -/
def sideDistance (A : Access V) (l : VLayer V) (pos : Pt) : Outcome (Option Fl) := do
  let r ← getNearestDistance A l pos (.fin 0)
  pure (if r.1 then some r.2 else none)

/-- The difference quotient along one axis from what was found on the left and on the right, interpolator_inl.h:125-137. -/
def sideQuotient (s : ℚ) (nn : Fl) : Option Fl → Option Fl → Option Fl
  | some a, some b => some (float32.div (float32.sub b a) (.fin (rnd32 (2 * s))))
  | some a, none => some (float32.div (float32.sub nn a) (.fin s))
  | none, some b => some (float32.div (float32.sub b nn) (.fin s))
  | none, none => none

/-- One axis of the fall-back gradient, interpolator_inl.h:115-138. -/
def fallbackAxis (A : Access V) (l : VLayer V) (pos : Pt) (nn : Fl) (i : Fin 3) : Outcome (Option Fl) := do
  let left ← sideDistance A l (Vec3.map₂ (fun p o => rnd32 (p - o)) pos (Interp.axisOffset i l.cfg.voxelSize))
  let right ← sideDistance A l (shifted pos i l.cfg.voxelSize)
  pure (sideQuotient l.cfg.voxelSize nn left right)

/-- The fall-back gradient, interpolator_inl.h:112-139; `none` when the function returns false. -/
def fallbackGradient (A : Access V) (l : VLayer V) (pos : Pt) (nn : Fl) : Outcome (Option (Vec3 Fl)) := do
  match ← fallbackAxis A l pos nn 0 with
  | none => pure none
  | some x => do
    match ← fallbackAxis A l pos nn 1 with
    | none => pure none
    | some y => do
      match ← fallbackAxis A l pos nn 2 with
      | none => pure none
      | some z => pure (some ⟨x, y, z⟩)

/-- The gradient by one of the two methods, interpolator_inl.h:104-139. The fall-back assigns all components of `gradient`, so what a failing
`getGradient` left there is not used. -/
def adaptiveGradient (rows : ℕ → Order) (last : Order) (A : Access V) (l : VLayer V) (pos : Pt) (nn : Fl) (has : Bool) :
    Outcome (Option (Vec3 Fl)) := do
  let r ← if has then getGradient rows last A l true pos ⟨.fin 0, .fin 0, .fin 0⟩ else pure (false, ⟨.fin 0, .fin 0, .fin 0⟩)
  if r.1 then pure (some r.2) else fallbackGradient A l pos nn

/-- The distance extrapolated from the centre of the voxel, interpolator_inl.h:144-149, in block `bi`. The terms of `dot` are added in their
order. -/
def extrapolated (l : VLayer V) (bi : Idx) (vps : ℕ) (pos : Pt) (nn : Fl) (g : Vec3 Fl) : Outcome Fl := do
  let o := IndexF.originPoint bi (IndexF.blockSize l.cfg.voxelSize l.cfg.vps)
  let v ← IndexF.truncatedVoxelIndex o l.cfg.voxelSize vps pos
  let d := Vec3.map₂ (fun p c => Fl.fin (rnd32 (p - c))) pos (IndexF.voxelCoordinates o l.cfg.voxelSize v)
  pure (float32.add nn (float32.dot d g))

/-- interpolator_inl.h:77-154 `getAdaptiveDistanceAndGradient`: the result and what `*distance` and `*grad` contain after the call, given what
they contain before. -/
def getAdaptive (rows : ℕ → Order) (last : Order) (A : Access V) (l : VLayer V) (pos : Pt) (dist : Fl) (grad : Vec3 Fl) :
    Outcome (Bool × Fl × Vec3 Fl) := do
  match ← getDistance rows last A l false pos (.fin 0) with
  | (false, _) => pure (false, dist, grad)
  | (true, nn) => do
    let d ← getDistance rows last A l true pos dist
    let bi ← IndexF.blockIndex l.cfg.voxelSize l.cfg.vps pos
    match block? l bi with
    | none => pure (false, d.2, grad)
    | some b => do
      match ← adaptiveGradient rows last A l pos nn d.1 with
      | none => pure (false, d.2, grad)
      | some g => do
        let r ← if d.1 then pure d.2 else extrapolated l bi b.vps pos nn g
        pure (true, r, g)

end Vox.InterpF
