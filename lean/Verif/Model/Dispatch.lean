/-
Distribution of point indices to worker threads
(voxblox/include/voxblox/integrator/integrator_utils.h,
voxblox/src/integrator/integrator_utils.cc) and bundling of points in the merged integrator
(voxblox/src/integrator/tsdf_integrator.cc).
-/
import Verif.Model.Float

namespace Vox.Dispatch

/-- voxblox/include/voxblox/integrator/integrator_utils.h:64-65 `step_size_`. -/
def stepSize : ℕ := 1 <<< 10

/-- voxblox/src/integrator/integrator_utils.cc:20-22 and :54-63: `number_of_groups_` and
`MixedThreadSafeIndex::getNextIndexImpl`. The remainder and division by zero groups would be
undefined. All quantities stay below the number of points, so `size_t` does not wrap. -/
def mixedImpl (n k : ℕ) : Outcome ℕ := do
  let groups := n / stepSize
  if groups * stepSize ≤ k then pure k
  else
    Outcome.require (groups != 0)
    pure (k % groups * stepSize + k / groups)

/-- voxblox/src/integrator/integrator_utils.cc:24-37 `SortedThreadSafeIndex` constructor on the list of
squared norms of the cloud's points. `sort` stands for `std::sort` with the comparator `<` on the second
component (lines 33-36); NaN among two or more norms violates its strict-weak-order requirement. -/
def sortedCtor (sort : List (ℕ × Fl) → List (ℕ × Fl)) (norms : List Fl) :
    Outcome (List (ℕ × Fl)) := do
  Outcome.require (norms.length ≤ 1 || !norms.contains .nan)
  pure (sort (norms.zipIdx.map fun p => (p.2, p.1)))

/-- What the C++ standard guarantees about `std::sort` with a strict weak order: a permutation in which
no element is smaller than an earlier one.
Serves the model of voxblox/src/integrator/integrator_utils.cc:5-67. -/
def IsStdSort (sort : List (ℕ × Fl) → List (ℕ × Fl)) : Prop :=
  ∀ v : List (ℕ × Fl), (v.length ≤ 1 ∨ ∀ p ∈ v, p.2 ≠ .nan) →
    (sort v).Perm v ∧ (sort v).Pairwise fun a b => Fl.lt b.2 a.2 = false

/-- voxblox/src/integrator/integrator_utils.cc:65-67 `SortedThreadSafeIndex::getNextIndexImpl`. -/
def sortedImpl (l : List (ℕ × Fl)) (k : ℕ) : Outcome ℕ :=
  match l[k]? with
  | some p => .ok p.1
  | none => .ub

/-- The two kinds of index generators. Serves the model of voxblox/src/integrator/integrator_utils.cc:5-67. -/
inductive Getter where
  | mixed (n : ℕ)
  | sorted (l : List (ℕ × Fl))

/-- voxblox/src/integrator/integrator_utils.cc:5-15 `ThreadSafeIndexFactory::get`. -/
def factory (sort : List (ℕ × Fl) → List (ℕ × Fl)) (mode : String) (norms : List Fl) :
    Outcome Getter :=
  if mode = "mixed" then .ok (.mixed norms.length)
  else if mode = "sorted" then do
    let l ← sortedCtor sort norms
    pure (.sorted l)
  else .fatal

/-- The virtual `getNextIndexImpl`. Serves the model of voxblox/src/integrator/integrator_utils.cc:5-67. -/
def Getter.impl : Getter → ℕ → Outcome ℕ
  | .mixed n, k => mixedImpl n k
  | .sorted l, k => sortedImpl l k

/-- Where a worker is in its loop `while (getNextIndex(&i)) …`: about to call, between the
`fetch_add` and the rest of `getNextIndex` (with the sequence number it received), ended because
`getNextIndex` returned false (the number is kept for the proofs only), or it left the loop by itself
(integration time limit, voxblox/src/integrator/tsdf_integrator.cc:496-499). -/
inductive Status where
  | calling
  | fetched (k : ℕ)
  | ended (k : ℕ)
  | left
deriving DecidableEq, Repr

/-- Shared state: the atomic counter (64 bit), the workers, and all indices handed out so far with the
worker that received them (most recent first).
Serves the model of voxblox/src/integrator/integrator_utils.cc:5-67. -/
structure DState where
  counter : ℕ
  st : ℕ → Status
  handed : List (ℕ × ℕ)

/-- One atomic action of worker `t` in voxblox/src/integrator/integrator_utils.cc:40-50
`getNextIndex`, with `threads` workers and `n` points. -/
inductive DStep (threads n : ℕ) (impl : ℕ → Outcome ℕ) : DState → DState → Prop
  | fetch {s} (t : ℕ) : t < threads → s.st t = .calling →
      DStep threads n impl s { s with counter := (s.counter + 1) % 2 ^ 64,
                                      st := Function.update s.st t (.fetched s.counter) }
  | give {s} (t k i : ℕ) : t < threads → s.st t = .fetched k → k < n → impl k = .ok i →
      DStep threads n impl s { s with st := Function.update s.st t .calling,
                                      handed := (t, i) :: s.handed }
  | stop {s} (t k : ℕ) : t < threads → s.st t = .fetched k → n ≤ k →
      DStep threads n impl s { s with st := Function.update s.st t (.ended k) }
  | leave {s} (t : ℕ) : t < threads → s.st t = .calling →
      DStep threads n impl s { s with st := Function.update s.st t .left }

/-- voxblox/src/integrator/integrator_utils.cc:17-18: counter 0; all workers are about to call. -/
def DState.init : DState := { counter := 0, st := fun _ => .calling, handed := [] }

/-- States reachable in `len` atomic actions, under any scheduling.
Serves the model of voxblox/src/integrator/integrator_utils.cc:5-67. -/
inductive DReach (threads n : ℕ) (impl : ℕ → Outcome ℕ) : ℕ → DState → Prop
  | init : DReach threads n impl 0 DState.init
  | step {len s s'} : DReach threads n impl len s → DStep threads n impl s s' →
      DReach threads n impl (len + 1) s'

/-! ### Merged integrator: bundles and their distribution -/

/-- voxblox/src/integrator/tsdf_integrator.cc:450-456: does thread `t` process the `i`-th bundle? -/
def processes (threads t i : ℕ) : Bool := (i + t + 1) % threads == 0

/-- voxblox/src/integrator/tsdf_integrator.cc:434-457 `integrateVoxels`: the bundles processed by thread
`t`, given the iteration order of *its copy* of the map (thread arguments are copied, line 473). -/
def integrateVoxels {β : Type} (threads t : ℕ) (bundles : List β) : List β :=
  (bundles.zipIdx.filter fun p => processes threads t p.2).map (·.1)

/-- voxblox/src/integrator/tsdf_integrator.cc:459-486 `integrateRays`: the thread indices that are run.
The constructor replaces zero threads by one (lines 58-61). -/
def threadIds (threads : ℕ) : List ℕ :=
  if threads = 1 then [0] else List.range threads

/-- voxblox/src/integrator/tsdf_integrator.cc:58-61: the effective thread count. -/
def effectiveThreads (configured : ℕ) : ℕ := if configured = 0 then 1 else configured

/-- A bundle map: for each voxel index the list of point indices, in order of insertion.
Serves the model of voxblox/src/integrator/integrator_utils.cc:5-67. -/
abbrev BundleMap := List (Idx × List ℕ)

/-- `map[key].push_back(i)` on an unordered map (order of the entries immaterial).
Serves the model of voxblox/src/integrator/integrator_utils.cc:5-67. -/
def BundleMap.pushBack (m : BundleMap) (key : Idx) (i : ℕ) : BundleMap :=
  match m with
  | [] => [(key, [i])]
  | (k, l) :: m => if k = key then (k, l ++ [i]) :: m else (k, l) :: pushBack m key i

/-- voxblox/src/integrator/tsdf_integrator.cc:340-371 `bundleRays`. `valid i` is `isPointValid` of the
`i`-th point (`none` = rejected, `some clearing`), `key i` the voxel index of its end point. The result
is (voxel_map, clear_map). -/
def bundleRays (valid : ℕ → Option Bool) (key : ℕ → Idx) :
    List ℕ → BundleMap × BundleMap → BundleMap × BundleMap
  | [], m => m
  | i :: is, (vm, cm) =>
    match valid i with
    | none => bundleRays valid key is (vm, cm)
    | some true => bundleRays valid key is (vm, cm.pushBack (key i) i)
    | some false => bundleRays valid key is (vm.pushBack (key i) i, cm)

end Vox.Dispatch
