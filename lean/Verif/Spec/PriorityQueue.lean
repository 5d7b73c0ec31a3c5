/-
Specification of a stable bucketed priority queue: a list of (bucket, key) entries kept in bucket
order, equal buckets in insertion order.
-/
import Verif.Model.Basic

namespace Vox.Spec

/-- The queue: entries in service order. -/
structure PQ (T : Type) where
  n : ℕ
  maxVal : ℚ
  entries : List (ℕ × T)

/-- The bucket a value belongs to: `|min(value, max)|` scaled so that `max` maps to the last bucket,
rounded down, never beyond the last bucket. -/
def bucketOf (n : ℕ) (maxVal value : ℚ) : ℕ :=
  min (n - 1) (⌊|min value maxVal| * ((n : ℚ) - 1) / maxVal⌋).toNat

/-- Insert behind all entries of the same or a lower bucket. -/
def insertStable {T : Type} (b : ℕ) (k : T) (l : List (ℕ × T)) : List (ℕ × T) :=
  l.takeWhile (fun e => e.1 ≤ b) ++ (b, k) :: l.dropWhile (fun e => e.1 ≤ b)

/-- Operations of a priority queue and their answers. -/
inductive PQOp (T : Type) where
  | push (key : T) (value : ℚ)
  | pop
  | front
  | empty
  | clear
  | resize (n : ℕ) (maxVal : ℚ)

inductive PQOut (T : Type) where
  | unit
  | key (k : T)
  | bool (b : Bool)

/-- The preconditions of an operation: a queue has at least one bucket and a positive maximum, and a
pushed value is not so large that its bucket number leaves the `int` range. `front` needs an element. -/
def PQOp.Allowed {T : Type} (q : PQ T) : PQOp T → Prop
  | .push _ v => |v| * ((q.n : ℚ) - 1) / q.maxVal < 2 ^ 31
  | .front => q.entries ≠ []
  | .resize n m => 0 < n ∧ n < 2 ^ 31 ∧ 0 < m
  | _ => True

/-- Effect of an operation. -/
def PQ.step {T : Type} (q : PQ T) : PQOp T → PQ T × PQOut T
  | .push k v => ({ q with entries := insertStable (bucketOf q.n q.maxVal v) k q.entries }, .unit)
  | .pop => ({ q with entries := q.entries.tail }, .unit)
  | .front =>
    (q, match q.entries with
        | [] => .unit
        | e :: _ => .key e.2)
  | .empty => (q, .bool q.entries.isEmpty)
  | .clear => ({ q with entries := [] }, .unit)
  | .resize n m => ({ n := n, maxVal := m, entries := [] }, .unit)

/-- Run a sequence of operations. -/
def PQ.run {T : Type} (q : PQ T) : List (PQOp T) → PQ T × List (PQOut T)
  | [] => (q, [])
  | op :: ops =>
    let r := q.step op
    let rs := PQ.run r.1 ops
    (rs.1, r.2 :: rs.2)

/-- Every operation of the sequence meets its precondition when it is executed. -/
def PQ.AllowedRun {T : Type} (q : PQ T) : List (PQOp T) → Prop
  | [] => True
  | op :: ops => op.Allowed q ∧ PQ.AllowedRun (q.step op).1 ops

instance {T : Type} (q : PQ T) (op : PQOp T) : Decidable (op.Allowed q) := by
  cases op with
  | front =>
    simp only [PQOp.Allowed]
    cases q.entries with
    | nil => exact isFalse (by simp)
    | cons a l => exact isTrue (by simp)
  | _ => simp only [PQOp.Allowed]; infer_instance

instance {T : Type} (q : PQ T) (ops : List (PQOp T)) : Decidable (PQ.AllowedRun q ops) := by
  induction ops generalizing q with
  | nil => exact isTrue trivial
  | cons op ops ih => exact @instDecidableAnd _ _ inferInstance (ih _)

end Vox.Spec
