/-
Integration of a whole point cloud into a TSDF layer: the simple, the merged and the fast integrator and their factory
(voxblox/src/integrator/tsdf_integrator.cc, voxblox/include/voxblox/integrator/tsdf_integrator.h).
-/
import Verif.Model.Tsdf
import Verif.Model.RayCaster
import Verif.Model.Occupancy
import Verif.Model.Dispatch
import Verif.Model.GridWrite
import Verif.Model.ApproxHash

namespace Vox.TsdfScan

open Layer Grid Tsdf Ray

/-! ### Configuration and factory -/

/-- `TsdfIntegratorBase::Config`, voxblox/include/voxblox/integrator/tsdf_integrator.h:56-89 (the time limit of the fast
integrator is not a number here: a worker may stop at any point of its loop). -/
structure Params where
  tsdf : Tsdf.Config
  carving : Bool
  threads : ℕ
  mode : String
  antiGrazing : Bool
  subsampling : Fl
  maxCollisions : ℤ
  clearEvery : ℤ

/-- The constructor's corrections of the configuration, voxblox/src/integrator/tsdf_integrator.cc:58-65. -/
def Params.corrected (P : Params) : Params :=
  { P with threads := if P.threads = 0 then 1 else P.threads
           tsdf := { P.tsdf with allowClear := if P.tsdf.allowClear && !P.carving then false else P.tsdf.allowClear } }

/-- voxblox/include/voxblox/integrator/tsdf_integrator.h:30-34 `TsdfIntegratorType`. -/
inductive Kind where
  | simple
  | merged
  | fast
deriving DecidableEq, Repr

/-- The values of the enumeration, voxblox/include/voxblox/integrator/tsdf_integrator.h:30-34, and the switch of
voxblox/src/integrator/tsdf_integrator.cc:26-46 (another value is fatal). -/
def Kind.ofInt : ℤ → Outcome Kind
  | 1 => .ok .simple
  | 2 => .ok .merged
  | 3 => .ok .fast
  | _ => .fatal

/-- voxblox/include/voxblox/integrator/tsdf_integrator.h:38-41 `kTsdfIntegratorTypeNames`. -/
def typeNames : List String := ["simple", "merged", "fast"]

/-- The loop of voxblox/src/integrator/tsdf_integrator.cc:13-23 over the names, counting from `k`. -/
def findType (name : String) : List String → ℤ → Outcome Kind
  | [], _ => .fatal
  | n :: ns, k => if name = n then Kind.ofInt k else findType name ns (k + 1)

/-- voxblox/src/integrator/tsdf_integrator.cc:8-24 `TsdfIntegratorFactory::create` by name. -/
def create (name : String) : Outcome Kind := do
  Outcome.check (name != "")
  findType name typeNames 1

/-! ### Rays and visits -/

/-- `T_G_C`: the position of the sensor and the map from the sensor frame to the global frame. How minkindr computes the
latter is left open, voxblox/src/integrator/tsdf_integrator.cc:285-286. -/
structure View where
  position : Vec3 Fl
  toG : Vec3 Fl → Vec3 Fl

/-- Start and end of a ray before scaling, voxblox/src/integrator/integrator_utils.cc:72-94. -/
def rayEnds (A : Arith) (P : Params) (origin pointG : Vec3 Fl) (clearing : Bool) : Vec3 Fl × Vec3 Fl :=
  let unit := Occ.normalized A (A.vsub pointG origin)
  if clearing then
    let len := Fl.stdMin (Fl.stdMax (A.sub (A.norm (A.vsub pointG origin)) P.tsdf.truncation) (.fin 0)) P.tsdf.maxRay
    let e := A.vadd origin (A.vscale unit len)
    (if P.carving then origin else e, e)
  else
    (if P.carving then origin else A.vsub pointG (A.vscale unit P.tsdf.truncation),
      A.vadd pointG (A.vscale unit P.tsdf.truncation))

/-- `voxel_size_inv_`, voxblox/src/integrator/tsdf_integrator.cc:77 (rounded once). -/
def sizeInv (A : Arith) (s : ℚ) : Fl := A.div (.fin 1) (.fin s)

/-- The voxels enumerated by `RayCaster`, voxblox/src/integrator/integrator_utils.cc:96-104 and :111-125; `fatal` stands
for a ray that never ends (`Ray.castAll`). -/
def rayVoxels (A : Arith) (P : Params) (s : ℚ) (origin pointG : Vec3 Fl) (clearing fromOrigin : Bool) : Outcome (List Idx) :=
  let e := rayEnds A P origin pointG clearing
  let a := A.vscale e.1 (sizeInv A s)
  let b := A.vscale e.2 (sizeInv A s)
  if fromOrigin then castAll A a b else castAll A b a

/-- `getCenterPointFromGridIndex`, voxblox/include/voxblox/core/common.h:187-193 (the intermediate double results are
rounded like floats). -/
def centerFl (A : Arith) (s : ℚ) (g : Idx) : Vec3 Fl := g.map fun (c : ℤ) => A.mul (A.add (A.rnd c) (.fin (1 / 2))) (.fin s)

/-- One call of `updateTsdfVoxel` with the voxel returned by `allocateStorageAndGetVoxelPtr`,
voxblox/src/integrator/tsdf_integrator.cc:297-302: the voxel and the observation. -/
structure Visit where
  g : Idx
  obs : Obs

/-- The visit of voxel `g` by a ray, voxblox/src/integrator/tsdf_integrator.cc:157-160 and :302. -/
def visitOf (A : Arith) (s : ℚ) (origin pointG : Vec3 Fl) (color : Color) (weight : Fl) (g : Idx) : Visit :=
  { g := g, obs := { origin := origin, pointG := pointG, center := centerFl A s g, color := color, weight := weight } }

/-- The visits of one point of the simple integrator, voxblox/src/integrator/tsdf_integrator.cc:278-305. -/
def pointVisits (A : Arith) (P : Params) (s : ℚ) (V : View) (freespace : Bool) (p : Vec3 Fl × Color) : Outcome (List Visit) :=
  match isPointValid P.tsdf (A.norm p.1) freespace with
  | none => .ok []
  | some clearing => do
    let gs ← rayVoxels A P s V.position (V.toG p.1) clearing true
    pure (gs.map (visitOf A s V.position (V.toG p.1) p.2 (voxelWeight A P.tsdf p.1.z)))

/-! ### The map while integrating -/

/-- The layer and the temporary blocks, voxblox/include/voxblox/integrator/tsdf_integrator.h:180-184. That all
threads get the same block for the same index is C32. -/
structure Store where
  layer : VLayer (TsdfVoxel Fl)
  temp : VLayer (TsdfVoxel Fl)

/-- No temporary blocks, voxblox/src/integrator/tsdf_integrator.cc:146. -/
def Store.start (l : VLayer (TsdfVoxel Fl)) : Store := { layer := l, temp := { l with blocks := [] } }

/-- `updated().set()` and the update of a voxel of block `i`, voxblox/src/integrator/tsdf_integrator.cc:128-133 and
:186-209. -/
def visitIn (A : Arith) (P : Params) (l : VLayer (TsdfVoxel Fl)) (i v : Idx) (o : Obs) : Outcome (VLayer (TsdfVoxel Fl)) := do
  let l := modifyBlock l i fun b => { b with updated := Flags.setAll }
  let x ← readVoxel l i v
  let y ← updateVoxel A P.tsdf (.fin l.cfg.voxelSize) o x
  writeVoxel l i v y

/-- voxblox/src/integrator/tsdf_integrator.cc:91-134 `allocateStorageAndGetVoxelPtr` (a block of the layer, or else a
temporary one, created if necessary) followed by `updateTsdfVoxel`. The two are one step here: allocation is guarded by
one mutex (C32), the update by the voxel's mutex, and neither reads what the other writes. -/
def visit (A : Arith) (P : Params) (st : Store) (w : Visit) : Outcome Store := do
  let (i, v) ← splitGlobal st.layer.cfg.vps w.g
  match block? st.layer i with
  | some _ => do
    let l ← visitIn A P st.layer i v w.obs
    pure { st with layer := l }
  | none => do
    let t ← visitIn A P (allocateBlock freshVoxel st.temp i) i v w.obs
    pure { st with temp := t }

/-- voxblox/include/voxblox/core/layer.h:152-161 `insertBlock` (an existing index fails a `DCHECK`). -/
def insertBlock (l : VLayer (TsdfVoxel Fl)) (e : Idx × Block ℚ (TsdfVoxel Fl)) : Outcome (VLayer (TsdfVoxel Fl)) :=
  match block? l e.1 with
  | some _ => .fatal
  | none => .ok { l with blocks := e :: l.blocks }

/-- voxblox/src/integrator/tsdf_integrator.cc:137-147 `updateLayerWithStoredBlocks`. -/
def Store.merge (st : Store) : Outcome (VLayer (TsdfVoxel Fl)) := st.temp.blocks.foldlM insertBlock st.layer

/-! ### Worker threads -/

/-- Work on one point or bundle: the visits it makes, or how its computation fails. Serves
voxblox/src/integrator/tsdf_integrator.cc:242-305 and :373-457. -/
abbrev Job := Outcome (List Visit)

/-- The state of a pool of workers: the map, the jobs handed out by the shared index getter, per worker its own
jobs and the visits it still has to make for its current job. Serves voxblox/src/integrator/tsdf_integrator.cc:242-305 and
:434-486. -/
structure Pool where
  store : Store
  todo : List Job
  queue : ℕ → List Job
  pending : ℕ → List Visit

/-- One action of worker `t < n`: take the next job of the index getter (voxblox/src/integrator/tsdf_integrator.cc:277, C28),
take the next job of its own share (:450-456), or make the next visit of its ray (:297-302, :424-430). -/
inductive Act (A : Arith) (P : Params) (n : ℕ) : Pool → Pool → Prop
  | take {s : Pool} (t : ℕ) (vs : List Visit) (rest : List Job) : t < n → s.pending t = [] → s.todo = .ok vs :: rest →
      Act A P n s { s with todo := rest, pending := Function.update s.pending t vs }
  | own {s : Pool} (t : ℕ) (vs : List Visit) (rest : List Job) : t < n → s.pending t = [] → s.queue t = .ok vs :: rest →
      Act A P n s { s with queue := Function.update s.queue t rest, pending := Function.update s.pending t vs }
  | visit {s : Pool} (t : ℕ) (w : Visit) (ws : List Visit) (st : Store) : t < n → s.pending t = w :: ws →
      visit A P s.store w = .ok st →
      Act A P n s { s with store := st, pending := Function.update s.pending t ws }

/-- An action that aborts or is undefined, with its outcome. Serves voxblox/src/integrator/tsdf_integrator.cc:242-305 and
:434-486. -/
inductive Fault (A : Arith) (P : Params) (n : ℕ) (s : Pool) : Outcome (VLayer (TsdfVoxel Fl)) → Prop
  | takeFatal (t : ℕ) (rest : List Job) : t < n → s.pending t = [] → s.todo = .fatal :: rest → Fault A P n s .fatal
  | takeUb (t : ℕ) (rest : List Job) : t < n → s.pending t = [] → s.todo = .ub :: rest → Fault A P n s .ub
  | ownFatal (t : ℕ) (rest : List Job) : t < n → s.pending t = [] → s.queue t = .fatal :: rest → Fault A P n s .fatal
  | ownUb (t : ℕ) (rest : List Job) : t < n → s.pending t = [] → s.queue t = .ub :: rest → Fault A P n s .ub
  | visitFatal (t : ℕ) (w : Visit) (ws : List Visit) : t < n → s.pending t = w :: ws → visit A P s.store w = .fatal →
      Fault A P n s .fatal
  | visitUb (t : ℕ) (w : Visit) (ws : List Visit) : t < n → s.pending t = w :: ws → visit A P s.store w = .ub →
      Fault A P n s .ub

/-- The states reachable under any scheduling. Serves voxblox/src/integrator/tsdf_integrator.cc:242-305 and :434-486. -/
inductive Runs (A : Arith) (P : Params) (n : ℕ) (s : Pool) : Pool → Prop
  | refl : Runs A P n s s
  | step {s₁ s₂ : Pool} : Runs A P n s s₁ → Act A P n s₁ s₂ → Runs A P n s s₂

/-- All workers have been joined, voxblox/src/integrator/tsdf_integrator.cc:259-261 and :477-479. -/
def Pool.Done (n : ℕ) (s : Pool) : Prop := s.todo = [] ∧ ∀ t < n, s.queue t = [] ∧ s.pending t = []

/-- Start the workers, join them, merge the temporary blocks, voxblox/src/integrator/tsdf_integrator.cc:252-266 and
:459-486. -/
inductive Parallel (A : Arith) (P : Params) (n : ℕ) (l : VLayer (TsdfVoxel Fl)) (todo : List Job) (queue : ℕ → List Job) :
    Outcome (VLayer (TsdfVoxel Fl)) → Prop
  | fault {s : Pool} {r : Outcome (VLayer (TsdfVoxel Fl))} :
      Runs A P n { store := Store.start l, todo := todo, queue := queue, pending := fun _ => [] } s → Fault A P n s r →
      Parallel A P n l todo queue r
  | done {s : Pool} :
      Runs A P n { store := Store.start l, todo := todo, queue := queue, pending := fun _ => [] } s → s.Done n →
      Parallel A P n l todo queue s.store.merge

/-! ### Simple integrator -/

/-- The order in which the index getter hands out the points, voxblox/src/integrator/tsdf_integrator.cc:249-250 and
voxblox/src/integrator/integrator_utils.cc:5-67. -/
def order (sort : List (ℕ × Fl) → List (ℕ × Fl)) (mode : String) (norms : List Fl) : Outcome (List ℕ) := do
  let g ← Dispatch.factory sort mode norms
  (List.range norms.length).mapM g.impl

/-- The squared norms used for sorting, voxblox/src/integrator/integrator_utils.cc:28-31. -/
def sqNorms (A : Arith) (points : List (Vec3 Fl)) : List Fl := points.map fun p => A.dot p p

/-- The jobs in the order of `is`; an index outside the cloud would be undefined. Serves
voxblox/src/integrator/tsdf_integrator.cc:277-280. -/
def jobsFor (job : Vec3 Fl × Color → Job) (cloud : List (Vec3 Fl × Color)) (is : List ℕ) : List Job :=
  is.map fun i => match cloud[i]? with
    | some p => job p
    | none => .ub

/-- voxblox/src/integrator/tsdf_integrator.cc:242-305 `SimpleTsdfIntegrator::integratePointCloud`: the possible outcomes. -/
inductive Simple (A : Arith) (sort : List (ℕ × Fl) → List (ℕ × Fl)) (P : Params) (V : View) (points : List (Vec3 Fl)) (colors : List Color)
    (freespace : Bool) (l : VLayer (TsdfVoxel Fl)) : Outcome (VLayer (TsdfVoxel Fl)) → Prop
  | mismatch : points.length ≠ colors.length → Simple A sort P V points colors freespace l .fatal
  | noOrder {r : Outcome (List ℕ)} {r' : Outcome (VLayer (TsdfVoxel Fl))} : points.length = colors.length →
      order sort P.mode (sqNorms A points) = r → (r = .fatal ∧ r' = .fatal ∨ r = .ub ∧ r' = .ub) →
      Simple A sort P V points colors freespace l r'
  | run {is : List ℕ} {r : Outcome (VLayer (TsdfVoxel Fl))} : points.length = colors.length →
      order sort P.mode (sqNorms A points) = .ok is →
      Parallel A P P.threads l (jobsFor (pointVisits A P l.cfg.voxelSize V freespace) (points.zip colors) is) (fun _ => []) r →
      Simple A sort P V points colors freespace l r

/-! ### Merged integrator -/

/-- The voxel a point ends in, voxblox/src/integrator/tsdf_integrator.cc:358-359 and
voxblox/include/voxblox/core/common.h:153-159. -/
def endVoxel (A : Arith) (s : ℚ) (V : View) (p : Vec3 Fl) : Outcome Idx := gridFl A (A.vscale (V.toG p) (sizeInv A s))

/-- One iteration of voxblox/src/integrator/tsdf_integrator.cc:350-365 for point `i`. -/
def bundleOne (A : Arith) (P : Params) (s : ℚ) (V : View) (freespace : Bool) (points : List (Vec3 Fl))
    (m : Dispatch.BundleMap × Dispatch.BundleMap) (i : ℕ) : Outcome (Dispatch.BundleMap × Dispatch.BundleMap) :=
  match points[i]? with
  | none => .ub
  | some p =>
    match isPointValid P.tsdf (A.norm p) freespace with
    | none => .ok m
    | some clearing => do
      let g ← endVoxel A s V p
      pure (if clearing then (m.1, m.2.pushBack g i) else (m.1.pushBack g i, m.2))

/-- voxblox/src/integrator/tsdf_integrator.cc:340-371 `bundleRays`: the bundles of normal and of clearing rays. -/
def bundles (A : Arith) (P : Params) (s : ℚ) (V : View) (freespace : Bool) (points : List (Vec3 Fl)) (is : List ℕ) :
    Outcome (Dispatch.BundleMap × Dispatch.BundleMap) := is.foldlM (bundleOne A P s V freespace points) ([], [])

/-- The points and colours of a bundle, voxblox/src/integrator/tsdf_integrator.cc:387-389 (the indices of a bundle are
indices of the cloud, `bundleOne`). -/
def members (cloud : List (Vec3 Fl × Color)) (is : List ℕ) : List (Vec3 Fl × Color) := is.filterMap fun i => cloud[i]?

/-- Anti-grazing, voxblox/src/integrator/tsdf_integrator.cc:415-422: is voxel `g` left out on the ray of the bundle ending
in `key`? -/
def grazes (P : Params) (clearing : Bool) (key : Idx) (voxelMap : Dispatch.BundleMap) (g : Idx) : Bool :=
  P.antiGrazing && ((clearing || g != key) && (voxelMap.lookup g).isSome)

/-- voxblox/src/integrator/tsdf_integrator.cc:373-432 `integrateVoxel`. -/
def bundleVisits (A : Arith) (P : Params) (s : ℚ) (V : View) (cloud : List (Vec3 Fl × Color)) (clearing : Bool)
    (voxelMap : Dispatch.BundleMap) (kv : Idx × List ℕ) : Job :=
  if kv.2 = [] then .ok []
  else do
    let b ← mergeBundle A P.tsdf clearing (members cloud kv.2) Bundle.init
    let gs ← rayVoxels A P s V.position (V.toG b.pointC) clearing true
    pure ((gs.filter fun g => !grazes P clearing kv.1 voxelMap g).map
      (visitOf A s V.position (V.toG b.pointC) b.color b.weight))

/-- voxblox/src/integrator/tsdf_integrator.cc:434-457 `integrateVoxels`: the jobs of thread `t`, for the iteration order
`es` of the map (assumed to be the same for all threads' copies, see C31). -/
def share (A : Arith) (P : Params) (s : ℚ) (V : View) (cloud : List (Vec3 Fl × Color)) (clearing : Bool)
    (voxelMap es : Dispatch.BundleMap) (t : ℕ) : List Job :=
  (Dispatch.integrateVoxels P.threads t es).map (bundleVisits A P s V cloud clearing voxelMap)

/-- The two calls of `integrateRays`, voxblox/src/integrator/tsdf_integrator.cc:327-333: first the normal rays, then the
clearing rays on the result. `ev`, `ec` are the iteration orders of the two maps. -/
inductive TwoPhases (A : Arith) (P : Params) (V : View) (cloud : List (Vec3 Fl × Color)) (vm ev ec : Dispatch.BundleMap)
    (l : VLayer (TsdfVoxel Fl)) : Outcome (VLayer (TsdfVoxel Fl)) → Prop
  | fault {r : Outcome (VLayer (TsdfVoxel Fl))} :
      Parallel A P P.threads l [] (share A P l.cfg.voxelSize V cloud false vm ev) r → r = .fatal ∨ r = .ub →
      TwoPhases A P V cloud vm ev ec l r
  | both {l₁ : VLayer (TsdfVoxel Fl)} {r : Outcome (VLayer (TsdfVoxel Fl))} :
      Parallel A P P.threads l [] (share A P l.cfg.voxelSize V cloud false vm ev) (.ok l₁) →
      Parallel A P P.threads l₁ [] (share A P l.cfg.voxelSize V cloud true vm ec) r →
      TwoPhases A P V cloud vm ev ec l r

/-- voxblox/src/integrator/tsdf_integrator.cc:307-338 `MergedTsdfIntegrator::integratePointCloud`: the possible outcomes. -/
inductive Merged (A : Arith) (sort : List (ℕ × Fl) → List (ℕ × Fl)) (P : Params) (V : View) (points : List (Vec3 Fl)) (colors : List Color)
    (freespace : Bool) (l : VLayer (TsdfVoxel Fl)) : Outcome (VLayer (TsdfVoxel Fl)) → Prop
  | mismatch : points.length ≠ colors.length → Merged A sort P V points colors freespace l .fatal
  | noBundles {r : Outcome (Dispatch.BundleMap × Dispatch.BundleMap)} {r' : Outcome (VLayer (TsdfVoxel Fl))} :
      points.length = colors.length →
      (order sort P.mode (sqNorms A points) >>= bundles A P l.cfg.voxelSize V freespace points) = r →
      (r = .fatal ∧ r' = .fatal ∨ r = .ub ∧ r' = .ub) → Merged A sort P V points colors freespace l r'
  | run {m : Dispatch.BundleMap × Dispatch.BundleMap} {ev ec : Dispatch.BundleMap} {r : Outcome (VLayer (TsdfVoxel Fl))} :
      points.length = colors.length →
      (order sort P.mode (sqNorms A points) >>= bundles A P l.cfg.voxelSize V freespace points) = .ok m →
      ev.Perm m.1 → ec.Perm m.2 → TwoPhases A P V (points.zip colors) m.1 ev ec l r →
      Merged A sort P V points colors freespace l r

/-! ### Fast integrator -/

/-- `masked_bits_`, voxblox/include/voxblox/integrator/tsdf_integrator.h:315. -/
def maskedBits : ℕ := 20

/-- `full_reset_threshold_`, voxblox/include/voxblox/integrator/tsdf_integrator.h:320. -/
def fullReset : ℕ := 10000

/-- Work on one point of the fast integrator, voxblox/src/integrator/tsdf_integrator.cc:500-527: `none` for a rejected point,
otherwise the start voxel in the finer grid and the visits of the ray cast from its far end towards the sensor. -/
abbrev FastJob := Outcome (Option (Idx × List Visit))

/-- voxblox/src/integrator/tsdf_integrator.cc:500-527. -/
def fastPoint (A : Arith) (P : Params) (s : ℚ) (V : View) (freespace : Bool) (p : Vec3 Fl × Color) : FastJob :=
  match isPointValid P.tsdf (A.norm p.1) freespace with
  | none => .ok none
  | some clearing => do
    let start ← gridFl A (A.vscale (V.toG p.1) (A.mul P.subsampling (sizeInv A s)))
    let gs ← rayVoxels A P s V.position (V.toG p.1) clearing false
    pure (some (start, gs.map (visitOf A s V.position (V.toG p.1) p.2 (voxelWeight A P.tsdf p.1.z))))

/-- Where a worker is in voxblox/src/integrator/tsdf_integrator.cc:496-552: before the loop condition; between the load
and the store of `start_voxel_approx_set_.replaceHash` (:517); in front of `nextRayIndex` with the count of consecutive
collisions (:531); between load and store of `voxel_observed_approx_set_.replaceHash` (:536); in front of the update of a
voxel (:545-550); out of the loop. -/
inductive Stage where
  | idle
  | starting (start : Idx) (ws : List Visit)
  | casting (ws : List Visit) (k : ℤ)
  | marking (w : Visit) (ws : List Visit)
  | updating (w : Visit) (ws : List Visit) (k : ℤ)
  | left

/-- The shared state of the fast integrator, voxblox/include/voxblox/integrator/tsdf_integrator.h:322-337. -/
structure FastPool where
  store : Store
  start : ApproxHash.HSet
  seen : ApproxHash.HSet
  todo : List FastJob
  stage : ℕ → Stage

/-- The state of a worker after `++consecutive_ray_collisions` or the reset to zero: it goes on to the update or breaks
out of the ray, voxblox/src/integrator/tsdf_integrator.cc:536-543. -/
def afterCheck (P : Params) (w : Visit) (ws : List Visit) (k : ℤ) : Stage :=
  if k > P.maxCollisions then .idle else .updating w ws k

/-- One action of worker `t < n` in voxblox/src/integrator/tsdf_integrator.cc:488-553. The loads and stores of the sets are
atomic (voxblox/include/voxblox/utils/approx_hash_array.h:125-134). `leave` is the time limit, which is tested after the
index was taken (tsdf_integrator.cc:496-499): that point is dropped. -/
inductive FastAct (A : Arith) (P : Params) (n : ℕ) : FastPool → FastPool → Prop
  | reject {s : FastPool} (t : ℕ) (rest : List FastJob) : t < n → s.stage t = .idle → s.todo = .ok none :: rest →
      FastAct A P n s { s with todo := rest }
  | known {s : FastPool} (t : ℕ) (g : Idx) (ws : List Visit) (rest : List FastJob) : t < n → s.stage t = .idle →
      s.todo = .ok (some (g, ws)) :: rest →
      ApproxHash.present maskedBits fullReset s.start (ApproxHash.longIndexHash g) = .ok true →
      FastAct A P n s { s with todo := rest }
  | start {s : FastPool} (t : ℕ) (g : Idx) (ws : List Visit) (rest : List FastJob) : t < n → s.stage t = .idle →
      s.todo = .ok (some (g, ws)) :: rest →
      ApproxHash.present maskedBits fullReset s.start (ApproxHash.longIndexHash g) = .ok false →
      FastAct A P n s { s with todo := rest, stage := Function.update s.stage t (.starting g ws) }
  | begin {s : FastPool} (t : ℕ) (g : Idx) (ws : List Visit) (h : ApproxHash.HSet) : t < n → s.stage t = .starting g ws →
      ApproxHash.store maskedBits fullReset s.start (ApproxHash.longIndexHash g) = .ok h →
      FastAct A P n s { s with start := h, stage := Function.update s.stage t (.casting ws 0) }
  | hit {s : FastPool} (t : ℕ) (w : Visit) (ws : List Visit) (k : ℤ) : t < n → s.stage t = .casting (w :: ws) k →
      ApproxHash.present maskedBits fullReset s.seen (ApproxHash.longIndexHash w.g) = .ok true →
      FastAct A P n s { s with stage := Function.update s.stage t (afterCheck P w ws (k + 1)) }
  | miss {s : FastPool} (t : ℕ) (w : Visit) (ws : List Visit) (k : ℤ) : t < n → s.stage t = .casting (w :: ws) k →
      ApproxHash.present maskedBits fullReset s.seen (ApproxHash.longIndexHash w.g) = .ok false →
      FastAct A P n s { s with stage := Function.update s.stage t (.marking w ws) }
  | mark {s : FastPool} (t : ℕ) (w : Visit) (ws : List Visit) (h : ApproxHash.HSet) : t < n → s.stage t = .marking w ws →
      ApproxHash.store maskedBits fullReset s.seen (ApproxHash.longIndexHash w.g) = .ok h →
      FastAct A P n s { s with seen := h, stage := Function.update s.stage t (afterCheck P w ws 0) }
  | update {s : FastPool} (t : ℕ) (w : Visit) (ws : List Visit) (k : ℤ) (st : Store) : t < n →
      s.stage t = .updating w ws k → visit A P s.store w = .ok st →
      FastAct A P n s { s with store := st, stage := Function.update s.stage t (.casting ws k) }
  | finish {s : FastPool} (t : ℕ) (k : ℤ) : t < n → s.stage t = .casting [] k →
      FastAct A P n s { s with stage := Function.update s.stage t .idle }
  | leave {s : FastPool} (t : ℕ) (j : FastJob) (rest : List FastJob) : t < n → s.stage t = .idle → s.todo = j :: rest →
      FastAct A P n s { s with todo := rest, stage := Function.update s.stage t .left }

/-- The states reachable under any scheduling. Serves voxblox/src/integrator/tsdf_integrator.cc:488-553. -/
inductive FastRuns (A : Arith) (P : Params) (n : ℕ) (s : FastPool) : FastPool → Prop
  | refl : FastRuns A P n s s
  | step {s₁ s₂ : FastPool} : FastRuns A P n s s₁ → FastAct A P n s₁ s₂ → FastRuns A P n s s₂

/-- An action that aborts or is undefined, with its outcome. Serves voxblox/src/integrator/tsdf_integrator.cc:488-553. A point
whose ray cannot be computed counts as failing even if the ray would not be cast since its start is known. -/
inductive FastFault (A : Arith) (P : Params) (n : ℕ) (s : FastPool) : Outcome (VLayer (TsdfVoxel Fl)) → Prop
  | takeFatal (t : ℕ) (rest : List FastJob) : t < n → s.stage t = .idle → s.todo = .fatal :: rest → FastFault A P n s .fatal
  | takeUb (t : ℕ) (rest : List FastJob) : t < n → s.stage t = .idle → s.todo = .ub :: rest → FastFault A P n s .ub
  | startSet (t : ℕ) (g : Idx) (ws : List Visit) (rest : List FastJob) : t < n → s.stage t = .idle → s.todo = .ok (some (g, ws)) :: rest →
      ApproxHash.present maskedBits fullReset s.start (ApproxHash.longIndexHash g) = .ub → FastFault A P n s .ub
  | beginSet (t : ℕ) (g : Idx) (ws : List Visit) : t < n → s.stage t = .starting g ws →
      ApproxHash.store maskedBits fullReset s.start (ApproxHash.longIndexHash g) = .ub → FastFault A P n s .ub
  | seenSet (t : ℕ) (w : Visit) (ws : List Visit) (k : ℤ) : t < n → s.stage t = .casting (w :: ws) k →
      ApproxHash.present maskedBits fullReset s.seen (ApproxHash.longIndexHash w.g) = .ub → FastFault A P n s .ub
  | markSet (t : ℕ) (w : Visit) (ws : List Visit) : t < n → s.stage t = .marking w ws →
      ApproxHash.store maskedBits fullReset s.seen (ApproxHash.longIndexHash w.g) = .ub → FastFault A P n s .ub
  | visitFatal (t : ℕ) (w : Visit) (ws : List Visit) (k : ℤ) : t < n → s.stage t = .updating w ws k → visit A P s.store w = .fatal →
      FastFault A P n s .fatal
  | visitUb (t : ℕ) (w : Visit) (ws : List Visit) (k : ℤ) : t < n → s.stage t = .updating w ws k → visit A P s.store w = .ub →
      FastFault A P n s .ub

/-- All workers have ended their loop: there is no index left or they ran out of time,
voxblox/src/integrator/tsdf_integrator.cc:581-583. -/
def FastPool.Done (n : ℕ) (s : FastPool) : Prop := ∀ t < n, s.stage t = .left ∨ (s.stage t = .idle ∧ s.todo = [])

/-- The `static` frame counter of voxblox/src/integrator/tsdf_integrator.cc:564-569, shared by all fast integrators of the
process: its new value and whether the caller's sets are reset. -/
def frame (every : ℤ) (counter : ℤ) : ℤ × Bool := if counter + 1 ≥ every then (0, true) else (counter + 1, false)

/-- The sets at the start of a scan, voxblox/src/integrator/tsdf_integrator.cc:564-569. -/
def freshened (every counter : ℤ) (h : ApproxHash.HSet) : ApproxHash.HSet :=
  if (frame every counter).2 then ApproxHash.reset fullReset h else h

/-- Which of a sequence of calls of `integratePointCloud` reset the sets of the integrator they are made on; a call is
the `clear_checks_every_n_frames` of its integrator, voxblox/src/integrator/tsdf_integrator.cc:564-569. -/
def resets : ℤ → List ℤ → List Bool
  | _, [] => []
  | c, e :: es => (frame e c).2 :: resets (frame e c).1 es

/-- The fast jobs in the order of `is`, voxblox/src/integrator/tsdf_integrator.cc:496-500. -/
def fastJobs (A : Arith) (P : Params) (s : ℚ) (V : View) (freespace : Bool) (cloud : List (Vec3 Fl × Color)) (is : List ℕ) :
    List FastJob := is.map fun i => match cloud[i]? with
    | some p => fastPoint A P s V freespace p
    | none => .ub

/-- The workers at their start, voxblox/src/integrator/tsdf_integrator.cc:574-579. -/
def fastStart (A : Arith) (P : Params) (V : View) (cloud : List (Vec3 Fl × Color)) (freespace : Bool) (counter : ℤ)
    (start seen : ApproxHash.HSet) (l : VLayer (TsdfVoxel Fl)) (is : List ℕ) : FastPool :=
  { store := Store.start l, start := freshened P.clearEvery counter start, seen := freshened P.clearEvery counter seen,
    todo := fastJobs A P l.cfg.voxelSize V freespace cloud is, stage := fun _ => .idle }

/-- voxblox/src/integrator/tsdf_integrator.cc:555-590 `FastTsdfIntegrator::integratePointCloud`: the possible outcomes, with the
frame counter and the two sets before the call; `late` tells whether a worker ran out of time. -/
inductive Fast (A : Arith) (sort : List (ℕ × Fl) → List (ℕ × Fl)) (P : Params) (V : View) (points : List (Vec3 Fl)) (colors : List Color)
    (freespace : Bool) (counter : ℤ) (start seen : ApproxHash.HSet) (l : VLayer (TsdfVoxel Fl)) : Bool → Outcome (VLayer (TsdfVoxel Fl)) → Prop
  | mismatch : points.length ≠ colors.length → Fast A sort P V points colors freespace counter start seen l false .fatal
  | noOrder {r : Outcome (List ℕ)} {r' : Outcome (VLayer (TsdfVoxel Fl))} : points.length = colors.length →
      order sort P.mode (sqNorms A points) = r → (r = .fatal ∧ r' = .fatal ∨ r = .ub ∧ r' = .ub) →
      Fast A sort P V points colors freespace counter start seen l false r'
  | fault {is : List ℕ} {s : FastPool} {late : Bool} {r : Outcome (VLayer (TsdfVoxel Fl))} : points.length = colors.length →
      order sort P.mode (sqNorms A points) = .ok is →
      FastRuns A P P.threads (fastStart A P V (points.zip colors) freespace counter start seen l is) s →
      FastFault A P P.threads s r → Fast A sort P V points colors freespace counter start seen l late r
  | done {is : List ℕ} {s : FastPool} {late : Bool} : points.length = colors.length →
      order sort P.mode (sqNorms A points) = .ok is →
      FastRuns A P P.threads (fastStart A P V (points.zip colors) freespace counter start seen l is) s →
      s.Done P.threads → (late = true ↔ ∃ t < P.threads, s.stage t = .left) →
      Fast A sort P V points colors freespace counter start seen l late s.store.merge

end Vox.TsdfScan
