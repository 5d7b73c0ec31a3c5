/-
Bucket queue (voxblox/include/voxblox/utils/bucket_queue.h).
-/
import Verif.Model.Basic

namespace Vox

/-- Members of `BucketQueue<T>`, voxblox/include/voxblox/utils/bucket_queue.h:91-99. `configured` is
false as long as `num_buckets_`, `max_val_` and `num_elements_` have never been written (default
constructor); reading them then is undefined. The number of buckets is a natural number: a negative
`int` makes `resize` throw. Each bucket is a FIFO, oldest element first. -/
structure BQueue (T : Type) where
  configured : Bool
  numBuckets : ℕ
  maxVal : ℚ
  buckets : List (List T)
  last : ℕ
  numElements : ℕ
deriving DecidableEq

namespace BQueue

variable {T : Type}

/-- voxblox/include/voxblox/utils/bucket_queue.h:23 default constructor. -/
def mkDefault : BQueue T :=
  { configured := false, numBuckets := 0, maxVal := 0, buckets := [], last := 0, numElements := 0 }

/-- voxblox/include/voxblox/utils/bucket_queue.h:24-30 constructor. -/
def mk' (n : ℕ) (maxVal : ℚ) : BQueue T :=
  { configured := true, numBuckets := n, maxVal := maxVal, buckets := List.replicate n [],
    last := 0, numElements := 0 }

/-- voxblox/include/voxblox/utils/bucket_queue.h:33-39 `setNumBuckets`; note that
`last_bucket_index_` is kept. -/
def setNumBuckets (q : BQueue T) (n : ℕ) (maxVal : ℚ) : BQueue T :=
  { q with configured := true, numBuckets := n, maxVal := maxVal,
           buckets := List.replicate n [], numElements := 0 }

/-- The computation of `bucket_index` in voxblox/include/voxblox/utils/bucket_queue.h:43-50, in exact
arithmetic. Division by zero gives NaN or infinity in C++, whose conversion to `int` is undefined, as
is the conversion of a value outside the `int` range. -/
def bucketIndex (n : ℕ) (maxVal value : ℚ) : Outcome ℤ :=
  let value := if value > maxVal then maxVal else value
  if maxVal = 0 then .ub
  else
    let i := ⌊|value| / maxVal * ((n : ℚ) - 1)⌋
    if IsI32 i then .ok (if i ≥ n then (n : ℤ) - 1 else i) else .ub

/-- voxblox/include/voxblox/utils/bucket_queue.h:41-56 `push`. -/
def push (q : BQueue T) (key : T) (value : ℚ) : Outcome (BQueue T) := do
  Outcome.require q.configured
  Outcome.check (q.numBuckets != 0)
  let i ← bucketIndex q.numBuckets q.maxVal value
  if 0 ≤ i ∧ i < q.buckets.length then
    let j := i.toNat
    pure { q with last := if j < q.last then j else q.last,
                  buckets := q.buckets.modify j (· ++ [key]),
                  numElements := q.numElements + 1 }
  else .ub

/-- The scan loop of voxblox/include/voxblox/utils/bucket_queue.h:62-65 and 75-78, on the buckets from
`last_bucket_index_` on: `buckets_[last_bucket_index_]` is read before the bound is tested, so running
past the last bucket is an out-of-range read. -/
def scan : List (List T) → ℕ → Outcome ℕ
  | [], _ => .ub
  | [] :: rest, i => scan rest (i + 1)
  | (_ :: _) :: _, i => .ok i

/-- voxblox/include/voxblox/utils/bucket_queue.h:82 `empty`. -/
def empty (q : BQueue T) : Outcome Bool := do
  Outcome.require q.configured
  pure (q.numElements == 0)

/-- voxblox/include/voxblox/utils/bucket_queue.h:58-70 `pop`. -/
def pop (q : BQueue T) : Outcome (BQueue T) := do
  let e ← q.empty
  if e then pure q
  else
    let i ← scan (q.buckets.drop q.last) q.last
    pure { q with last := i, buckets := q.buckets.modify i List.tail,
                  numElements := q.numElements - 1 }

/-- voxblox/include/voxblox/utils/bucket_queue.h:72-80 `front` (also moves the cursor). -/
def front (q : BQueue T) : Outcome (BQueue T × T) := do
  Outcome.require q.configured
  Outcome.check (q.numBuckets != 0)
  let e ← q.empty
  Outcome.check (!e)
  let i ← scan (q.buckets.drop q.last) q.last
  match q.buckets[i]? with
  | some (x :: _) => pure ({ q with last := i }, x)
  | _ => .ub

/-- voxblox/include/voxblox/utils/bucket_queue.h:84-89 `clear`. -/
def clear (q : BQueue T) : Outcome (BQueue T) := do
  Outcome.require q.configured
  pure { q with buckets := List.replicate q.numBuckets [], last := 0, numElements := 0 }

/-- The public operations. Operations of voxblox/include/voxblox/utils/bucket_queue.h:23-99. -/
inductive Op (T : Type) where
  | push (key : T) (value : ℚ)
  | pop
  | front
  | empty
  | clear
  | setNumBuckets (n : ℕ) (maxVal : ℚ)

/-- What an operation returns to the caller.
Operations of voxblox/include/voxblox/utils/bucket_queue.h:23-99. -/
inductive Out (T : Type) where
  | unit
  | key (k : T)
  | bool (b : Bool)

/-- One call of the public interface, voxblox/include/voxblox/utils/bucket_queue.h:33-89. -/
def step (q : BQueue T) : Op T → Outcome (BQueue T × Out T)
  | .push k v => do let q' ← q.push k v; pure (q', .unit)
  | .pop => do let q' ← q.pop; pure (q', .unit)
  | .front => do let r ← q.front; pure (r.1, .key r.2)
  | .empty => do let b ← q.empty; pure (q, .bool b)
  | .clear => do let q' ← q.clear; pure (q', .unit)
  | .setNumBuckets n m => .ok (q.setNumBuckets n m, .unit)

/-- A sequence of calls (on the interface of voxblox/include/voxblox/utils/bucket_queue.h:33-89),
collecting the outputs; stops at the first abort or undefined behaviour. -/
def run (q : BQueue T) : List (Op T) → Outcome (BQueue T × List (Out T))
  | [] => .ok (q, [])
  | op :: ops => do
    let r ← q.step op
    let rs ← run r.1 ops
    pure (rs.1, r.2 :: rs.2)

end BQueue
end Vox
