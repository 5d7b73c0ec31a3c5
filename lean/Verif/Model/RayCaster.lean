/-
Ray casting through the voxel grid (voxblox/src/integrator/integrator_utils.cc,
voxblox/include/voxblox/integrator/integrator_utils.h).
-/
import Verif.Model.Arith
import Verif.Model.Index

namespace Vox.Ray

open Fl

/-- voxblox/include/voxblox/core/common.h:258 `signum` on a float: `(x == 0) ? 0 : x < 0 ? -1 : 1`. -/
def signumFl : Fl → ℤ
  | .nan => 1
  | .ninf => -1
  | .fin q => signum q
  | .pinf => 1

/-- One coordinate of `getGridIndexFromPoint<GlobalIndex>(scaled_point)`,
voxblox/include/voxblox/core/common.h:166-171: the conversion to a 64-bit integer is undefined if the
value does not fit. `kEpsilon` (common.h:142) is a `float`. -/
def gridFl1 (A : Arith) (x : Fl) : Outcome ℤ :=
  match A.add x (A.rnd kEpsilon) with
  | .fin q => if -2 ^ 63 ≤ ⌊q⌋ ∧ ⌊q⌋ < 2 ^ 63 then .ok ⌊q⌋ else .ub
  | _ => .ub

/-- voxblox/include/voxblox/core/common.h:166-171. -/
def gridFl (A : Arith) (p : Vec3 Fl) : Outcome Idx := do
  let x ← gridFl1 A p.x
  let y ← gridFl1 A p.y
  let z ← gridFl1 A p.z
  pure ⟨x, y, z⟩

/-- Eigen's `minCoeff(&index)` on a 3-vector: the first entry is taken, a later one replaces it only if
it compares strictly less (so NaN entries never replace, and a NaN first entry is never replaced).
As used in voxblox/src/integrator/integrator_utils.cc:72-179. -/
def minCoeffIdx (t : Vec3 Fl) : Fin 3 :=
  if Fl.lt t.y t.x then (if Fl.lt t.z t.y then 2 else 1) else (if Fl.lt t.z t.x then 2 else 0)

/-- Component access `v[i]`. As used in voxblox/src/integrator/integrator_utils.cc:72-179. -/
def at3 {α : Type} (v : Vec3 α) : Fin 3 → α
  | 0 => v.x
  | 1 => v.y
  | 2 => v.z

/-- Component update `v[i] = f(v[i])`. As used in voxblox/src/integrator/integrator_utils.cc:72-179. -/
def modify3 {α : Type} (v : Vec3 α) (i : Fin 3) (f : α → α) : Vec3 α :=
  match i with
  | 0 => { v with x := f v.x }
  | 1 => { v with y := f v.y }
  | 2 => { v with z := f v.z }

/-- The members of `RayCaster` that the NaN branch of the setup leaves uninitialised,
voxblox/include/voxblox/integrator/integrator_utils.h:119-125. -/
structure Body where
  t : Vec3 Fl
  curr : Idx
  sign : Idx
  tstep : Vec3 Fl
  /-- `uint current_step_` -/
  step : ℕ
deriving DecidableEq

/-- `RayCaster`; `none` stands for uninitialised members.
As used in voxblox/src/integrator/integrator_utils.cc:72-179. -/
structure Caster where
  /-- `uint ray_length_in_steps_` -/
  len : ℕ
  body : Option Body
deriving DecidableEq

/-- `std::isnan`. As used in voxblox/src/integrator/integrator_utils.cc:72-179. -/
def isNan : Fl → Bool
  | .nan => true
  | _ => false

/-- As used in voxblox/src/integrator/integrator_utils.cc:72-179. -/
def anyNan (p : Vec3 Fl) : Bool := isNan p.x || isNan p.y || isNan p.z

/-- One coordinate of the boundary parameters, voxblox/src/integrator/integrator_utils.cc:150-168. -/
def tFirst (A : Arith) (s r : Fl) (cur : ℤ) : Fl :=
  let shifted := A.sub s (A.rnd cur)
  let dist := A.sub (.fin (max 0 (signumFl r) : ℤ)) shifted
  if Fl.lt (Fl.abs r) (.fin 0) then .fin 2 else A.div dist r

/-- One coordinate of the step parameters, voxblox/src/integrator/integrator_utils.cc:172-178. -/
def tStep (A : Arith) (r : Fl) : Fl :=
  if Fl.lt (Fl.abs r) (.fin 0) then .fin 2 else A.div (.fin (signumFl r : ℤ)) r

/-- L1 distance of two indices. As used in voxblox/src/integrator/integrator_utils.cc:72-179. -/
def l1 (a b : Idx) : ℕ := (b.x - a.x).natAbs + (b.y - a.y).natAbs + (b.z - a.z).natAbs

/-- voxblox/src/integrator/integrator_utils.cc:127-179 `setupRayCaster`. -/
def setup (A : Arith) (s e : Vec3 Fl) : Outcome Caster :=
  if anyNan s || anyNan e then .ok { len := 0, body := none }
  else do
    let cur ← gridFl A s
    let fin ← gridFl A e
    let r := A.vsub e s
    pure { len := l1 cur fin % 2 ^ 32
           body := some { t := ⟨tFirst A s.x r.x cur.x, tFirst A s.y r.y cur.y, tFirst A s.z r.z cur.z⟩
                          curr := cur
                          sign := r.map signumFl
                          tstep := r.map (tStep A)
                          step := 0 } }

/-- voxblox/src/integrator/integrator_utils.cc:111-125 `nextRayIndex`: `none` when it returns false.
Reading uninitialised members is undefined. -/
def next (A : Arith) (c : Caster) : Outcome (Option (Idx × Caster)) :=
  match c.body with
  | none => .ub
  | some b =>
    if b.step > c.len then .ok none
    else
      let i := minCoeffIdx b.t
      .ok (some (b.curr,
        { c with body := some { b with curr := modify3 b.curr i (· + at3 b.sign i)
                                       t := modify3 b.t i (A.add · (at3 b.tstep i))
                                       step := (b.step + 1) % 2 ^ 32 } }))

/-- The loop of `castRay`, voxblox/include/voxblox/integrator/integrator_utils.h:139-142, cut off after
`n` calls (`none` = not finished). -/
def castLoop (A : Arith) : ℕ → Caster → Outcome (Option (List Idx))
  | 0, _ => .ok none
  | n + 1, c => do
    match ← next A c with
    | none => pure (some [])
    | some (i, c') => do
      let rest ← castLoop A n c'
      pure (rest.map (i :: ·))

/-- voxblox/include/voxblox/integrator/integrator_utils.h:133-143 `castRay`. -/
def castRay (A : Arith) (s e : Vec3 Fl) (n : ℕ) : Outcome (Option (List Idx)) := do
  let c ← setup A s e
  castLoop A n c

/-- voxblox/src/integrator/integrator_utils.cc:72-104, the end points (before scaling) chosen by the
constructor for a ray with unit direction `u` and length `len`. -/
def rayEndpoints (origin point u : Pt) (len : ℚ) (clearing carving : Bool) (maxLen trunc : ℚ) : Pt × Pt :=
  if clearing then
    let l := min (max (len - trunc) 0) maxLen
    let e : Pt := origin + u.map (· * l)
    (if carving then origin else e, e)
  else
    (if carving then origin else point - u.map (· * trunc), point + u.map (· * trunc))

/-- `castRay` run to its end: the step counter gives the number of calls; `fatal` stands for a loop that
does not end (step counter at its 32-bit limit).
As used in voxblox/src/integrator/integrator_utils.cc:72-179. -/
def castAll (A : Arith) (s e : Vec3 Fl) : Outcome (List Idx) := do
  let c ← setup A s e
  match ← castLoop A (c.len + 2) c with
  | some l => .ok l
  | none => .fatal

end Vox.Ray
