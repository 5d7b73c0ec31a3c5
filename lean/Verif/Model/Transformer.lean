/-
Poses for point clouds from a queue of stamped transforms, and the queue of point clouds: voxblox_ros/src/transformer.cc and
voxblox_ros/src/tsdf_server.cc.
-/
import Verif.Model.Arith

namespace Vox.Tf

/-- The operations on poses used by voxblox_ros/src/transformer.cc:181-189. `blend r a b` is `a * exp (r * log (a⁻¹ * b))` (:181-183); exponential
and logarithm are not modelled further. -/
structure PoseOps (P : Type) where
  mul : P → P → P
  inv : P → P
  blend : Fl → P → P → P

/-- A stamped transform in nanoseconds, `geometry_msgs::TransformStamped`, voxblox_ros/include/voxblox_ros/transformer.h:79. Simplified: differences of
stamps of more than 2^31 seconds (which throw) are not modelled. -/
structure Stamped (P : Type) where
  stamp : ℤ
  pose : P
deriving DecidableEq

/-- voxblox_ros/include/voxblox_ros/transformer.h:52-59, :79. -/
structure Transformer (P : Type) where
  tolerance : ℤ
  staticBD : P
  staticBC : P
  queue : List (Stamped P)
deriving DecidableEq

/-- voxblox_ros/src/transformer.cc:69-72 `transformCallback`. -/
def Transformer.receive {P : Type} (t : Transformer P) (m : Stamped P) : Transformer P := { t with queue := t.queue ++ [m] }

/-- The loop over the queue, voxblox_ros/src/transformer.cc:131-148: where it stops and whether that is a match. -/
def scan {P : Type} (tol time : ℤ) : List (Stamped P) → ℕ × Bool
  | [] => (0, false)
  | x :: xs =>
    if time < x.stamp then (0, decide (x.stamp - time < tol))
    else if time - x.stamp < tol then (0, true)
    else ((scan tol time xs).1 + 1, (scan tol time xs).2)

/-- The ratio of the interpolation, voxblox_ros/src/transformer.cc:177-179 (in single precision). -/
def ratio (A : Arith) (older newer : ℤ) : Fl := A.div (A.rnd older) (A.rnd (newer + older : ℤ))

/-- The dynamic transform and the part of the queue that is kept, voxblox_ros/src/transformer.cc:150-184, :193. -/
def resolve {P : Type} (A : Arith) (ops : PoseOps P) (tol time : ℤ) (q : List (Stamped P)) : Option (P × List (Stamped P)) :=
  if (scan tol time q).2 then
    match q.drop (scan tol time q).1 with
    | x :: xs => some (x.pose, x :: xs)
    | [] => none
  else if (scan tol time q).1 = 0 ∨ (scan tol time q).1 = q.length then none
  else
    match q.drop ((scan tol time q).1 - 1) with
    | a :: b :: xs => some (ops.blend (ratio A (time - a.stamp) (b.stamp - time)) a.pose b.pose, a :: b :: xs)
    | _ => none

/-- voxblox_ros/src/transformer.cc:121-195 `lookupTransformQueue`: the pose, if there is one, and the transformer afterwards. -/
def Transformer.lookup {P : Type} (A : Arith) (ops : PoseOps P) (t : Transformer P) (time : ℤ) : Option P × Transformer P :=
  match resolve A ops t.tolerance time t.queue with
  | some (p, q) => (some (ops.mul (ops.mul p (ops.inv t.staticBD)) t.staticBC), { t with queue := q })
  | none => (none, t)

/-! ### The queue of point clouds -/

/-- A point cloud message, known by its stamp in nanoseconds and its content, voxblox_ros/src/tsdf_server.cc:353-359. -/
structure Cloud where
  stamp : ℤ
  content : ℕ
deriving DecidableEq

/-- `kMaxQueueSize`, voxblox_ros/src/tsdf_server.cc:329. -/
def kMaxQueueSize : ℕ := 10

/-- The loop of `insertPointcloud` with `getNextPointcloudFromQueue`, voxblox_ros/src/tsdf_server.cc:326-351, :365-371: what is processed, with which
pose, the queue that remains, and the state of the lookup. Popping from the front while there are ten or more leaves the last nine. -/
def drain {S P : Type} (look : S → ℤ → Option P × S) : List Cloud → S → List (Cloud × P) × List Cloud × S
  | [], s => ([], [], s)
  | c :: cs, s =>
    match look s c.stamp with
    | (some p, s') => ((c, p) :: (drain look cs s').1, (drain look cs s').2)
    | (none, s') => ([], (c :: cs).drop ((c :: cs).length - (kMaxQueueSize - 1)), s')

/-- The part of `TsdfServer` concerned with incoming clouds, voxblox_ros/include/voxblox_ros/tsdf_server.h:203, :253-258. -/
structure Inbox where
  minInterval : ℤ
  last : ℤ
  queue : List Cloud
deriving DecidableEq

/-- Whether a cloud enters the queue, voxblox_ros/src/tsdf_server.cc:355-356. -/
def Inbox.accepts (b : Inbox) (c : Cloud) : Bool := decide (b.minInterval < c.stamp - b.last)

/-- The queue before the loop, voxblox_ros/src/tsdf_server.cc:355-360. -/
def Inbox.push (b : Inbox) (c : Cloud) : Inbox := if b.accepts c then { b with last := c.stamp, queue := b.queue ++ [c] } else b

/-- voxblox_ros/src/tsdf_server.cc:353-371 `insertPointcloud` (and :388-405 `insertFreespacePointcloud`): what is integrated, and the state afterwards. -/
def Inbox.insert {S P : Type} (look : S → ℤ → Option P × S) (b : Inbox) (s : S) (c : Cloud) : List (Cloud × P) × Inbox × S :=
  ((drain look (b.push c).queue s).1, { b.push c with queue := (drain look (b.push c).queue s).2.1 }, (drain look (b.push c).queue s).2.2)

end Vox.Tf
