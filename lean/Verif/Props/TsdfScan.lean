/-
Properties C93 and C94: integration of a whole scan by the simple TSDF integrator, and its dependence on the scheduling of
its worker threads.
-/
import Verif.Lemmas.TsdfRay

namespace Vox.TsdfScan

open Layer Grid Tsdf Ray Spec

/-! Concrete data for the examples: voxels of size 1 in blocks of side 2, the sensor at the centre of voxel 0, and two
points on the same ray at distances 6 and 12. -/

def exSq : ℚ → Fl := fun q => if q = 36 then .fin 6 else if q = 144 then .fin 12 else .fin q

def exTsdf : Tsdf.Config :=
  { truncation := .fin 1, maxWeight := .fin 100, useConstWeight := true, useWeightDropoff := true, useSparsity := false,
    sparsityFactor := .fin 1, minRay := .fin (1 / 10), maxRay := .fin 20, allowClear := true }

def exScan : Params :=
  { tsdf := exTsdf, carving := true, threads := 2, mode := "sorted", antiGrazing := false, subsampling := .fin 2,
    maxCollisions := 2, clearEvery := 1 }

def exView : View :=
  { position := (⟨1 / 2, 1 / 2, 1 / 2⟩ : Pt).map .fin
    toG := fun p => (Arith.exact exSq).vadd p ((⟨1 / 2, 1 / 2, 1 / 2⟩ : Pt).map .fin) }

def exEmpty : VLayer (TsdfVoxel Fl) := { cfg := { voxelSize := 1, vps := 2 }, blocks := [] }

def exNear : Vec3 Fl × Color := (⟨.fin 4, .fin 2, .fin 4⟩, ⟨200#8, 0#8, 0#8, 255#8⟩)

def exFar : Vec3 Fl × Color := (⟨.fin 8, .fin 4, .fin 8⟩, ⟨0#8, 100#8, 0#8, 255#8⟩)

/-- The sort used in the examples. -/
def exSort : List (ℕ × Fl) → List (ℕ × Fl) := List.insertionSort fun a b => Fl.lt b.2 a.2 = false

/-- The visits of a point, in the examples. -/
def exVisits (p : Vec3 Fl × Color) : List Visit := match pointVisits (Arith.exact exSq) exScan 1 exView false p with
  | .ok ws => ws
  | _ => []

theorem exNear_ok : pointVisits (Arith.exact exSq) exScan 1 exView false exNear = .ok (exVisits exNear) := by
  have h : (match pointVisits (Arith.exact exSq) exScan 1 exView false exNear with | .ok _ => true | _ => false) = true := by
    decide +kernel
  unfold exVisits
  split at h
  · rename_i e; rw [e]
  · cases h

theorem exFar_ok : pointVisits (Arith.exact exSq) exScan 1 exView false exFar = .ok (exVisits exFar) := by
  have h : (match pointVisits (Arith.exact exSq) exScan 1 exView false exFar with | .ok _ => true | _ => false) = true := by
    decide +kernel
  unfold exVisits
  split at h
  · rename_i e; rw [e]
  · cases h

theorem exEmpty_wellFormed : WellFormed exEmpty :=
  ⟨by norm_num [exEmpty], by norm_num [exEmpty], by norm_num [exEmpty], fun i b h => by simp [exEmpty] at h⟩

theorem exVisits_inReach : InReach (visitsOf ([exNear, exFar].map (pointVisits (Arith.exact exSq) exScan 1 exView false))) := by
  have h : ∀ w ∈ exVisits exNear ++ exVisits exFar, (0 ≤ w.g.x ∧ w.g.x ≤ 20) ∧ (0 ≤ w.g.y ∧ w.g.y ≤ 20) ∧ (0 ≤ w.g.z ∧ w.g.z ≤ 20) := by
    have : ((exVisits exNear ++ exVisits exFar).all fun w => decide ((0 ≤ w.g.x ∧ w.g.x ≤ 20) ∧ (0 ≤ w.g.y ∧ w.g.y ≤ 20) ∧
        (0 ≤ w.g.z ∧ w.g.z ≤ 20))) = true := by decide +kernel
    intro w hw
    exact of_decide_eq_true (List.all_eq_true.1 this w hw)
  have e : visitsOf ([exNear, exFar].map (pointVisits (Arith.exact exSq) exScan 1 exView false)) = exVisits exNear ++ exVisits exFar := by
    simp only [List.map_cons, List.map_nil, exNear_ok, exFar_ok]
    simp [visitsOf]
  rw [e]
  intro w hw
  obtain ⟨⟨a, b⟩, ⟨c, d⟩, e, f⟩ := h w hw
  have key : ∀ x : ℤ, 0 ≤ x → x ≤ 20 → |x| ≤ 2 ^ 24 := fun x h1 h2 => by rw [abs_of_nonneg h1]; omega
  exact ⟨key _ a b, key _ c d, key _ e f⟩

/-! ### C93: a scan -/

/-- **C93.** Whatever the number of threads, the order of the points and the scheduling: when `integratePointCloud` of the
simple integrator returns, no ray has failed, every voxel of the map has received exactly the observations of the rays that
pass it (each once), in some order, on top of its former content; new blocks are created exactly where rays pass, the
blocks that rays pass are marked for all consumers, and nothing else has changed. -/
theorem C93_scan_adds {A : Arith} {sort : List (ℕ × Fl) → List (ℕ × Fl)} (hs : Dispatch.IsStdSort sort) {P : Params} {V : View}
    {points : List (Vec3 Fl)} {colors : List Color} {freespace : Bool} {l l' : VLayer (TsdfVoxel Fl)} (wf : WellFormed l) {k : ℕ}
    (hk : k < 31) (hside : l.cfg.vps = 2 ^ k)
    (hr : InReach (visitsOf ((points.zip colors).map (pointVisits A P l.cfg.voxelSize V freespace))))
    (h : Simple A sort P V points colors freespace l (.ok l')) :
    points.length = colors.length ∧
      (∀ p ∈ points.zip colors, ∃ ws, pointVisits A P l.cfg.voxelSize V freespace p = .ok ws) ∧
      Adds A P l (visitsOf ((points.zip colors).map (pointVisits A P l.cfg.voxelSize V freespace))) l' := by
  generalize hres : (Outcome.ok l' : Outcome (VLayer (TsdfVoxel Fl))) = r at h
  cases h with
  | mismatch _ => cases hres
  | noOrder _ _ h =>
    rcases h with ⟨-, rfl⟩ | ⟨-, rfl⟩ <;> cases hres
  | run hlen hord hpar =>
    rename_i is
    subst hres
    have hz : (sqNorms A points).length = (points.zip colors).length := by simp [sqNorms, hlen]
    have hp := order_perm hs hord
    rw [hz] at hp
    have hj := jobsFor_perm (pointVisits A P l.cfg.voxelSize V freespace) _ hp
    have hv := visitsOf_perm hj
    have hnil : ((List.range P.threads).flatMap fun _ => visitsOf []) = ([] : List Visit) := by simp [visitsOf]
    obtain ⟨h1, h2, -⟩ := parallel_ok wf hk hside (by
      rw [hnil, List.append_nil]
      exact fun w hw => hr w (hv.mem_iff.1 hw)) hpar
    rw [hnil, List.append_nil] at h1
    refine ⟨hlen, fun p hp' => h2 _ (hj.mem_iff.2 (List.mem_map.2 ⟨p, hp', rfl⟩)), ?_⟩
    have hT : ∀ i, Touched l.cfg.vps (visitsOf (jobsFor (pointVisits A P l.cfg.voxelSize V freespace) (points.zip colors) is)) i ↔
        Touched l.cfg.vps (visitsOf ((points.zip colors).map (pointVisits A P l.cfg.voxelSize V freespace))) i := fun i =>
      ⟨fun ⟨w, hw, e⟩ => ⟨w, hv.mem_iff.1 hw, e⟩, fun ⟨w, hw, e⟩ => ⟨w, hv.mem_iff.2 hw, e⟩⟩
    refine ⟨h1.cfg, h1.wellFormed, fun g hg => ?_, fun g hg => h1.untouched g fun hc => hg ((hT _).1 hc),
      fun i hi => h1.marked i ((hT i).2 hi), fun i hi => h1.unmarked i fun hc => hi ((hT i).1 hc)⟩
    obtain ⟨os, v, e1, e2, e3⟩ := h1.touched g ((hT _).2 hg)
    exact ⟨os, v, e1.trans (obsOf_perm hv g), e2, e3⟩

/-- In the example the two workers may finish in either order; the results are the two foldings of the visits. -/
theorem exScan_runs : ∀ ws ∈ [exVisits exNear ++ exVisits exFar, exVisits exFar ++ exVisits exNear], ∀ st l',
    ws.foldlM (visit (Arith.exact exSq) exScan) (Store.start exEmpty) = .ok st → st.merge = .ok l' →
    Simple (Arith.exact exSq) exSort exScan exView [exNear.1, exFar.1] [exNear.2, exFar.2] false exEmpty (.ok l') := by
  intro ws hws st l' hst hm
  have hord : order exSort exScan.mode (sqNorms (Arith.exact exSq) [exNear.1, exFar.1]) = .ok [0, 1] := by decide +kernel
  refine Simple.run rfl hord ?_
  have hjobs : jobsFor (pointVisits (Arith.exact exSq) exScan exEmpty.cfg.voxelSize exView false)
      ([exNear.1, exFar.1].zip [exNear.2, exFar.2]) [0, 1] = [.ok (exVisits exNear), .ok (exVisits exFar)] := by
    show [pointVisits (Arith.exact exSq) exScan 1 exView false exNear, pointVisits (Arith.exact exSq) exScan 1 exView false exFar] = _
    rw [exNear_ok, exFar_ok]
  rw [hjobs, ← hm]
  simp only [List.mem_cons, List.not_mem_nil, or_false] at hws
  rcases hws with rfl | rfl
  · have := sequential (A := Arith.exact exSq) (P := exScan) (n := exScan.threads) (by decide) exEmpty [exVisits exNear, exVisits exFar]
      (st := st) (by simpa using hst)
    exact this
  · exact second_first (by decide) exEmpty _ _ hst

/-- The run of one folding of the visits, for the examples. -/
def exRun (ws : List Visit) : Outcome (VLayer (TsdfVoxel Fl)) :=
  ws.foldlM (visit (Arith.exact exSq) exScan) (Store.start exEmpty) >>= Store.merge

theorem exScan_result {ws : List Visit} (hws : ws ∈ [exVisits exNear ++ exVisits exFar, exVisits exFar ++ exVisits exNear]) {g : Idx} {d w : Fl}
    (h : (match exRun ws with | .ok l => (content l g).map fun v => (v.distance, v.weight) | _ => none) = some (d, w)) :
    ∃ l' v, Simple (Arith.exact exSq) exSort exScan exView [exNear.1, exFar.1] [exNear.2, exFar.2] false exEmpty (.ok l') ∧
      content l' g = some v ∧ v.distance = d ∧ v.weight = w := by
  split at h
  · rename_i l' e
    obtain ⟨st, h1, h2⟩ := Outcome.bind_eq_ok.1 (show (ws.foldlM (visit (Arith.exact exSq) exScan) (Store.start exEmpty) >>= Store.merge) = _ from e)
    obtain ⟨v, hv, he⟩ := Option.map_eq_some_iff.1 h
    injection he with e1 e2
    exact ⟨l', v, exScan_runs ws hws st l' h1 h2, hv, e1, e2⟩
  · cases h

/-- The hypotheses of the theorem hold for the example, and it does return. -/
example : Dispatch.IsStdSort exSort ∧ WellFormed exEmpty ∧ exEmpty.cfg.vps = 2 ^ 1 ∧
    InReach (visitsOf ([exNear, exFar].map (pointVisits (Arith.exact exSq) exScan 1 exView false))) ∧
    ∃ l', Simple (Arith.exact exSq) exSort exScan exView [exNear.1, exFar.1] [exNear.2, exFar.2] false exEmpty (.ok l') := by
  refine ⟨Dispatch.insertionSort_isStdSort, exEmpty_wellFormed, rfl, exVisits_inReach, ?_⟩
  obtain ⟨l', -, h, -⟩ := exScan_result (ws := exVisits exNear ++ exVisits exFar) (by simp) (g := ⟨4, 2, 4⟩) (d := .fin 1) (w := .fin 2)
    (by decide +kernel)
  exact ⟨l', h⟩

/-- **C93.** Clouds whose numbers of points and colours differ are refused, always. -/
theorem C93_mismatch_refused {A : Arith} {sort : List (ℕ × Fl) → List (ℕ × Fl)} {P : Params} {V : View} {points : List (Vec3 Fl)}
    {colors : List Color} {freespace : Bool} {l : VLayer (TsdfVoxel Fl)} (hne : points.length ≠ colors.length)
    (r : Outcome (VLayer (TsdfVoxel Fl))) : Simple A sort P V points colors freespace l r ↔ r = .fatal := by
  constructor
  · intro h
    cases h with
    | mismatch _ => rfl
    | noOrder h _ _ => exact absurd h hne
    | run h _ _ => exact absurd h hne
  · rintro rfl
    exact Simple.mismatch hne

example : ([exNear.1, exFar.1] : List (Vec3 Fl)).length ≠ ([exNear.2] : List Color).length := by decide

/-- **C93.** All distances in the map stay within the truncation band and all weights within `[0, max]`, whatever the
rounding, the cloud and the scheduling. -/
theorem C93_bounds {A : Arith} {sort : List (ℕ × Fl) → List (ℕ × Fl)} (hs : Dispatch.IsStdSort sort) {P : Params} {V : View}
    {points : List (Vec3 Fl)} {colors : List Color} {freespace : Bool} {l l' : VLayer (TsdfVoxel Fl)} (wf : WellFormed l) {k : ℕ}
    (hk : k < 31) (hside : l.cfg.vps = 2 ^ k)
    (hr : InReach (visitsOf ((points.zip colors).map (pointVisits A P l.cfg.voxelSize V freespace))))
    {T M : ℚ} (hT : 0 ≤ T) (hM : 0 ≤ M) (hcT : P.tsdf.truncation = .fin T) (hcM : P.tsdf.maxWeight = .fin M)
    (hl : ∀ g v, content l g = some v → Within (-T) T v.distance ∧ Within 0 M v.weight)
    (h : Simple A sort P V points colors freespace l (.ok l')) :
    ∀ g v, content l' g = some v → Within (-T) T v.distance ∧ Within 0 M v.weight := by
  obtain ⟨-, -, had⟩ := C93_scan_adds hs wf hk hside hr h
  intro g v hv
  by_cases ht : Touched l.cfg.vps (visitsOf ((points.zip colors).map (pointVisits A P l.cfg.voxelSize V freespace))) (blockOf l.cfg.vps g)
  · obtain ⟨os, v', -, h2, h3⟩ := had.touched g ht
    rw [hv] at h3
    obtain rfl := Option.some.inj h3
    have h0 : Within (-T) T ((content l g).getD freshVoxel).distance ∧ Within 0 M ((content l g).getD freshVoxel).weight := by
      cases hc : content l g with
      | none => exact ⟨⟨0, rfl, by linarith, hT⟩, ⟨0, rfl, le_rfl, hM⟩⟩
      | some x => exact hl g x hc
    exact C24_bounds A P.tsdf T M hT hM hcT hcM _ os _ v h0.1 h0.2 h2
  · rw [had.untouched g ht] at hv
    exact hl g v hv

example : (0 : ℚ) ≤ 1 ∧ exScan.tsdf.truncation = .fin 1 ∧ exScan.tsdf.maxWeight = .fin 100 ∧
    ∀ g v, content exEmpty g = some v → Within (-1) 1 v.distance ∧ Within 0 100 v.weight :=
  ⟨by norm_num, rfl, rfl, fun g v h => by simp [content, exEmpty] at h⟩

/-- **C93.** A scan whose rays can be cast is integrated without abort or undefined behaviour under every schedule, in
`float` arithmetic with moderate parameters as well as for any rounding with a relative error of at most 1/4096. -/
theorem C93_never_fails {A : Arith} {sort : List (ℕ × Fl) → List (ℕ × Fl)} (hs : Dispatch.IsStdSort sort) {P : Params}
    {V : View} {points : List (Vec3 Fl)} {colors : List Color} {freespace : Bool} {l : VLayer (TsdfVoxel Fl)} (hP : Sane A P.tsdf l.cfg.voxelSize)
    (wf : WellFormed l) (hl : GoodWeights A l) {k : ℕ} (hk : k < 31) (hside : l.cfg.vps = 2 ^ k) (hlen : points.length = colors.length)
    (hmode : P.mode = "mixed" ∨ P.mode = "sorted" ∧ Fl.nan ∉ sqNorms A points)
    (hrays : ∀ p ∈ points.zip colors, ∃ ws, pointVisits A P l.cfg.voxelSize V freespace p = .ok ws)
    (hr : InReach (visitsOf ((points.zip colors).map (pointVisits A P l.cfg.voxelSize V freespace))))
    {r : Outcome (VLayer (TsdfVoxel Fl))} (h : Simple A sort P V points colors freespace l r) : ∃ l', r = .ok l' := by
  obtain ⟨is, hord⟩ : ∃ is, order sort P.mode (sqNorms A points) = .ok is := by
    have mk : ∀ g, Dispatch.factory sort P.mode (sqNorms A points) = .ok g → IsOrder (sqNorms A points).length g.impl →
        ∃ is, order sort P.mode (sqNorms A points) = .ok is := by
      rintro g hg ⟨is, h1, -⟩
      exact ⟨is, by unfold order; rw [hg]; exact (mapM_ok_iff _ _ _).2 h1⟩
    rcases hmode with hm | ⟨hm, hn⟩
    · exact mk (.mixed (sqNorms A points).length) (by rw [hm]; rfl) (Props.C29_mixed_order _)
    · obtain ⟨g, hg, ho, -⟩ := Props.C30_sorted_order hs (sqNorms A points) (Or.inr hn)
      exact mk g (by rw [hm]; exact hg) ho
  cases h with
  | mismatch hne => exact absurd hlen hne
  | noOrder _ he hc =>
    rw [hord] at he
    subst he
    rcases hc with ⟨e, -⟩ | ⟨e, -⟩ <;> cases e
  | run _ hord' hpar =>
    rename_i is'
    have hz : (sqNorms A points).length = (points.zip colors).length := by simp [sqNorms, hlen]
    have hp := order_perm hs hord'
    rw [hz] at hp
    have hj := jobsFor_perm (pointVisits A P l.cfg.voxelSize V freespace) _ hp
    have hv := visitsOf_perm hj
    have hnil : ((List.range P.threads).flatMap fun _ => visitsOf []) = ([] : List Visit) := by simp [visitsOf]
    refine no_fault hP wf hl hk hside (fun j hjm => ?_) (fun t _ j hj => by simp at hj) (by
      rw [hnil, List.append_nil]
      exact fun w hw => hr w (hv.mem_iff.1 hw)) (fun w hw => ?_) hpar
    · obtain ⟨p, hp', rfl⟩ := List.mem_map.1 (hj.mem_iff.1 hjm)
      exact hrays p hp'
    · rw [hnil, List.append_nil] at hw
      have hw' := hv.mem_iff.1 hw
      unfold visitsOf at hw'
      obtain ⟨j, hjm, hwj⟩ := List.mem_flatMap.1 hw'
      obtain ⟨p, hp', rfl⟩ := List.mem_map.1 hjm
      unfold pointVisits at hwj
      cases hval : isPointValid P.tsdf (A.norm p.1) freespace with
      | none => rw [hval] at hwj; cases hwj
      | some c =>
        rw [hval] at hwj
        simp only at hwj
        cases hray : rayVoxels A P l.cfg.voxelSize V.position (V.toG p.1) c true with
        | ok gs =>
          rw [hray] at hwj
          obtain ⟨g, -, rfl⟩ := List.mem_map.1 hwj
          exact hP.point p.1.z
        | fatal => rw [hray] at hwj; cases hwj
        | ub => rw [hray] at hwj; cases hwj

theorem exScan_sane : Sane (Arith.exact exSq) exScan.tsdf 1 :=
  .relative 0 1 100 1 (relErr_exact _) le_rfl (by norm_num) rfl rfl (by norm_num) rfl (by norm_num)

theorem exScan_sane32 : Sane Ieee.float32 exScan.tsdf 1 :=
  .float 1 100 1 rfl rfl (by decide +kernel) (by norm_num) (by decide +kernel) (by norm_num) rfl (by norm_num) (by norm_num) rfl (by norm_num) (by norm_num)

example : Sane (Arith.exact exSq) exScan.tsdf 1 ∧ Sane Ieee.float32 exScan.tsdf 1 ∧ GoodWeights (Arith.exact exSq) exEmpty ∧ Fl.nan ∉ sqNorms (Arith.exact exSq) [exNear.1, exFar.1] ∧
    ∀ p ∈ [exNear.1, exFar.1].zip [exNear.2, exFar.2], ∃ ws, pointVisits (Arith.exact exSq) exScan 1 exView false p = .ok ws := by
  refine ⟨exScan_sane, exScan_sane32, fun g v h => by simp [content, exEmpty] at h, by decide +kernel, ?_⟩
  intro p hp
  have : p = exNear ∨ p = exFar := by simpa [exNear, exFar] using hp
  rcases this with rfl | rfl
  · exact ⟨_, exNear_ok⟩
  · exact ⟨_, exFar_ok⟩

/-- **C93.** Every execution ends: from any reachable state only boundedly many actions are possible, and as long as not
all workers are done one of them can act (or fails); so there always is an outcome. -/
theorem C93_terminates {A : Arith} {P : Params} {n : ℕ} (hn : 0 < n) :
    (¬ ∃ f : ℕ → Pool, ∀ i, Act A P n (f i) (f (i + 1))) ∧
    (∀ s : Pool, ¬ s.Done n → (∃ s', Act A P n s s') ∨ ∃ r, Fault A P n s r) ∧
    ∀ l todo queue, ∃ r, Parallel A P n l todo queue r := by
  refine ⟨?_, fun s hs => progress hn s hs, fun l todo queue => parallel_exists A P hn l todo queue⟩
  rintro ⟨f, hf⟩
  have hdec : ∀ i, (f i).work n + i ≤ (f 0).work n := by
    intro i
    induction i with
    | zero => simp
    | succ i ih => have := act_work (hf i); omega
  have := hdec ((f 0).work n + 1)
  omega

example : 0 < exScan.threads := by decide

/-- **C93, measured points become observed (rays not parallel to a coordinate plane).** In exact arithmetic, after a scan
containing the point `p` as an accepted measurement of weight at least 1e-6, the voxel in which the point lies is part of
the map and has a weight of at least 1e-6, whatever the other points and the scheduling. The sensor origin and the end of the ray must not lie on (or
within 1e-6 below) voxel boundaries; with components of the ray equal to zero the ray caster does not reach the end of the ray
(`C33_axis_parallel_violated`), hence `_partial`. -/
theorem C93_measured_voxel_observed_partial {sq : ℚ → Fl} {sort : List (ℕ × Fl) → List (ℕ × Fl)} (hs : Dispatch.IsStdSort sort)
    {P : Params} {V : View} {points : List (Vec3 Fl)} {colors : List Color} {l l' : VLayer (TsdfVoxel Fl)} (wf : WellFormed l) {k : ℕ}
    (hk : k < 31) (hside : l.cfg.vps = 2 ^ k)
    (hr : InReach (visitsOf ((points.zip colors).map (pointVisits (Arith.exact sq) P l.cfg.voxelSize V false))))
    (h : Simple (Arith.exact sq) sort P V points colors false l (.ok l'))
    {T M : ℚ} (hT : P.tsdf.truncation = .fin T) (hT0 : 0 < T) (hM : P.tsdf.maxWeight = .fin M) (hM0 : 1 / 1000000 ≤ M)
    (hF : Fl.le (.fin 0) P.tsdf.sparsityFactor = true) (hsp : P.tsdf.useSparsity = false)
    (hl : ∀ g v, content l g = some v → Within 0 M v.weight)
    {p : Vec3 Fl} {c : Color} (hp : (p, c) ∈ points.zip colors)
    (hmin : Fl.lt ((Arith.exact sq).norm p) P.tsdf.minRay = false) (hmax : Fl.lt P.tsdf.maxRay ((Arith.exact sq).norm p) = false)
    {w : ℚ} (hw : voxelWeight (Arith.exact sq) P.tsdf p.z = .fin w) (hw0 : 1 / 1000000 ≤ w)
    {o q : Pt} (ho : V.position = o.map .fin) (hq : V.toG p = q.map .fin) {L : ℚ} (hL : 0 < L) (hLL : L * L = dist2 o q)
    (hsq : sq (L * L) = .fin L) (hx : q.x ≠ o.x) (hy : q.y ≠ o.y) (hz : q.z ≠ o.z) {S E g : Idx}
    (ha : InRange (scaled l.cfg.voxelSize (rayEndpoints o q (dirTo o q L) L false P.carving 0 T).1))
    (hb : InRange (scaled l.cfg.voxelSize (rayEndpoints o q (dirTo o q L) L false P.carving 0 T).2))
    (hS : InsideLow S (scaled l.cfg.voxelSize (rayEndpoints o q (dirTo o q L) L false P.carving 0 T).1))
    (hE : ClearlyInside E (scaled l.cfg.voxelSize (rayEndpoints o q (dirTo o q L) L false P.carving 0 T).2))
    (hlen : l1dist S E + 1 < 2 ^ 32) (hg : ClearlyInside g (scaled l.cfg.voxelSize q)) :
    ∃ v W, content l' g = some v ∧ v.weight = .fin W ∧ 1 / 1000000 ≤ W := by
  obtain ⟨-, hrays, had⟩ := C93_scan_adds hs wf hk hside hr h
  have hvalid : isPointValid P.tsdf ((Arith.exact sq).norm p) false = some false := by
    unfold isPointValid
    rw [if_neg (by rw [hmin]; simp), if_neg (by rw [hmax]; simp)]
  obtain ⟨ws, hws⟩ := hrays _ hp
  have hvis : visitOf (Arith.exact sq) l.cfg.voxelSize V.position (V.toG p) c (.fin w) g ∈ ws := by
    unfold pointVisits at hws
    simp only [hvalid] at hws
    obtain ⟨gs, hgs, hws⟩ := Outcome.bind_eq_ok.1 hws
    have hwse := Outcome.ok.inj hws
    rw [ho, hq] at hgs
    have := measured_on_ray wf.size_pos hT hT0 hL hLL hsq hx hy hz ha hb hS hE hlen hg hgs
    rw [← hwse, hw]
    exact List.mem_map.2 ⟨g, this, rfl⟩
  generalize hall : visitsOf ((points.zip colors).map (pointVisits (Arith.exact sq) P l.cfg.voxelSize V false)) = all at *
  have hmem : visitOf (Arith.exact sq) l.cfg.voxelSize V.position (V.toG p) c (.fin w) g ∈ all := by
    rw [← hall]
    unfold visitsOf
    refine List.mem_flatMap.2 ⟨_, List.mem_map.2 ⟨(p, c), hp, rfl⟩, ?_⟩
    rw [hws]
    exact hvis
  obtain ⟨os, v, h1, h2, h3⟩ := had.touched g ⟨_, hmem, rfl⟩
  have hobs : (visitOf (Arith.exact sq) l.cfg.voxelSize V.position (V.toG p) c (.fin w) g).obs ∈ os := by
    refine h1.mem_iff.2 ?_
    unfold obsOf
    exact List.mem_map.2 ⟨_, List.mem_filter.2 ⟨hmem, by simp [visitOf]⟩, rfl⟩
  have hnn : ∀ o ∈ os, Fl.le (.fin 0) o.weight = true := by
    intro o ho'
    obtain ⟨u, hu, rfl⟩ := mem_obsOf (h1.mem_iff.1 ho')
    rw [← hall] at hu
    unfold visitsOf at hu
    obtain ⟨j, hjm, huj⟩ := List.mem_flatMap.1 hu
    obtain ⟨p', hp', rfl⟩ := List.mem_map.1 hjm
    obtain ⟨ws', hws'⟩ := hrays p' hp'
    rw [hws'] at huj
    unfold pointVisits at hws'
    cases hval : isPointValid P.tsdf ((Arith.exact sq).norm p'.1) false with
    | none =>
      rw [hval] at hws'
      rw [← Outcome.ok.inj hws'] at huj
      cases huj
    | some b =>
      rw [hval] at hws'
      simp only at hws'
      obtain ⟨gs, -, hws'⟩ := Outcome.bind_eq_ok.1 hws'
      rw [← Outcome.ok.inj hws'] at huj
      obtain ⟨g', -, rfl⟩ := List.mem_map.1 huj
      exact voxelWeight_nonneg (Arith.exact_faithful sq) _ _
  obtain ⟨d, hd, hd0⟩ := measured_distance wf.size_pos hL hLL hsq hg
  have hupd : updatedWeight (Arith.exact sq) P.tsdf (.fin l.cfg.voxelSize)
      (computeDistance (Arith.exact sq) V.position (V.toG p) (centerFl (Arith.exact sq) l.cfg.voxelSize g)) (.fin w) = .fin w := by
    rw [ho, hq, hd]
    unfold updatedWeight
    rw [if_neg (c := (P.tsdf.useWeightDropoff && Fl.lt (.fin d) (Fl.neg (.fin l.cfg.voxelSize))) = true) (by
      simp only [Fl.neg, Fl.lt, Bool.and_eq_true, decide_eq_true_eq, not_and, not_lt]
      intro _; linarith), if_neg (by rw [hsp]; simp)]
  obtain ⟨W, hW, hW0, hWM⟩ : Within 0 M ((content l g).getD freshVoxel).weight := by
    cases hc : content l g with
    | none => exact ⟨0, rfl, le_rfl, by linarith⟩
    | some x => exact hl g x hc
  obtain ⟨W', e1, e2⟩ := integrate_observed hM hM0 hF hnn hobs hupd hw0 hW hW0 hWM h2
  exact ⟨v, W', h3, e1, e2⟩

/-- The hypotheses hold for the nearer point of the example, measured in voxel (4, 2, 4). -/
example : voxelWeight (Arith.exact exSq) exScan.tsdf exNear.1.z = .fin 1 ∧ (6 : ℚ) * 6 = dist2 ⟨1 / 2, 1 / 2, 1 / 2⟩ ⟨9 / 2, 5 / 2, 9 / 2⟩ ∧
    exSq (6 * 6) = .fin 6 ∧ exView.toG exNear.1 = (⟨9 / 2, 5 / 2, 9 / 2⟩ : Pt).map .fin ∧
    (rayEndpoints ⟨1 / 2, 1 / 2, 1 / 2⟩ ⟨9 / 2, 5 / 2, 9 / 2⟩ (dirTo ⟨1 / 2, 1 / 2, 1 / 2⟩ ⟨9 / 2, 5 / 2, 9 / 2⟩ 6) 6 false true 0 1).2 =
      ⟨31 / 6, 17 / 6, 31 / 6⟩ ∧ ClearlyInside ⟨5, 2, 5⟩ (scaled 1 ⟨31 / 6, 17 / 6, 31 / 6⟩) ∧
    ClearlyInside ⟨4, 2, 4⟩ (scaled 1 ⟨9 / 2, 5 / 2, 9 / 2⟩) ∧ InsideLow ⟨0, 0, 0⟩ (scaled 1 ⟨1 / 2, 1 / 2, 1 / 2⟩) ∧
    Fl.lt ((Arith.exact exSq).norm exNear.1) exScan.tsdf.minRay = false ∧ Fl.lt exScan.tsdf.maxRay ((Arith.exact exSq).norm exNear.1) = false := by
  refine ⟨rfl, by norm_num [dist2], by decide +kernel, by decide +kernel, by decide +kernel, ?_, ?_, ?_, by decide +kernel, by decide +kernel⟩ <;>
    norm_num [ClearlyInside, InsideLow, scaled, Vec3.map]

/-! ### C94: scheduling -/

/-- **C94, what does hold.** In exact arithmetic, two executions of the same scan — with different numbers of threads, different
orders of the points and different schedules — leave a voxel with the same distance and the same weight, provided all signed
distances observed for it lie within the truncation distance, the observations have weights of at least 1e-6 and the total weight
does not exceed the maximum. -/
theorem C94_schedule_independent_partial {sq : ℚ → Fl} {sort₁ sort₂ : List (ℕ × Fl) → List (ℕ × Fl)} (hs₁ : Dispatch.IsStdSort sort₁)
    (hs₂ : Dispatch.IsStdSort sort₂) {P : Params} {n₁ n₂ : ℕ} {mode₁ mode₂ : String} {V : View} {points : List (Vec3 Fl)} {colors : List Color}
    {freespace : Bool} {l l₁ l₂ : VLayer (TsdfVoxel Fl)} (wf : WellFormed l) {k : ℕ} (hk : k < 31) (hside : l.cfg.vps = 2 ^ k)
    (hr : InReach (visitsOf ((points.zip colors).map (pointVisits (Arith.exact sq) P l.cfg.voxelSize V freespace))))
    (h₁ : Simple (Arith.exact sq) sort₁ { P with threads := n₁, mode := mode₁ } V points colors freespace l (.ok l₁))
    (h₂ : Simple (Arith.exact sq) sort₂ { P with threads := n₂, mode := mode₂ } V points colors freespace l (.ok l₂))
    {T M D W : ℚ} (hT : P.tsdf.truncation = .fin T) (hM : P.tsdf.maxWeight = .fin M) {g : Idx}
    (hD : ((content l g).getD freshVoxel).distance = .fin D) (hW : ((content l g).getD freshVoxel).weight = .fin W) (hDT : |D| ≤ T) (hW0 : 0 ≤ W)
    (s u : Obs → ℚ)
    (hos : ∀ o ∈ obsOf (visitsOf ((points.zip colors).map (pointVisits (Arith.exact sq) P l.cfg.voxelSize V freespace))) g,
      computeDistance (Arith.exact sq) o.origin o.pointG o.center = .fin (s o) ∧
      updatedWeight (Arith.exact sq) P.tsdf (.fin l.cfg.voxelSize) (.fin (s o)) o.weight = .fin (u o) ∧ |s o| ≤ T ∧ 1 / 1000000 ≤ u o)
    (hWM : W + total u (obsOf (visitsOf ((points.zip colors).map (pointVisits (Arith.exact sq) P l.cfg.voxelSize V freespace))) g) ≤ M) :
    (content l₁ g).map (fun v => (v.distance, v.weight)) = (content l₂ g).map fun v => (v.distance, v.weight) := by
  have hv : ∀ n mode, pointVisits (Arith.exact sq) { P with threads := n, mode := mode } l.cfg.voxelSize V freespace =
      pointVisits (Arith.exact sq) P l.cfg.voxelSize V freespace := fun _ _ => rfl
  obtain ⟨-, -, a₁⟩ := C93_scan_adds hs₁ wf hk hside (by rw [hv]; exact hr) h₁
  obtain ⟨-, -, a₂⟩ := C93_scan_adds hs₂ wf hk hside (by rw [hv]; exact hr) h₂
  rw [hv] at a₁ a₂
  generalize visitsOf ((points.zip colors).map (pointVisits (Arith.exact sq) P l.cfg.voxelSize V freespace)) = ws at *
  by_cases ht : Touched l.cfg.vps ws (blockOf l.cfg.vps g)
  · obtain ⟨os₁, v₁, p₁, e₁, c₁⟩ := a₁.touched g ht
    obtain ⟨os₂, v₂, p₂, e₂, c₂⟩ := a₂.touched g ht
    have tot : ∀ (f : Obs → ℚ) {os : List Obs}, os.Perm (obsOf ws g) → total f os = total f (obsOf ws g) := by
      intro f os hp
      exact (hp.map f).sum_eq
    have k₁ := integrate_exact sq P.tsdf T M (.fin l.cfg.voxelSize) hT hM s u os₁ (fun o ho => hos o (p₁.mem_iff.1 ho)) _ D W hD hW hDT hW0
      (by rw [tot u p₁]; exact hWM)
    have k₂ := integrate_exact sq P.tsdf T M (.fin l.cfg.voxelSize) hT hM s u os₂ (fun o ho => hos o (p₂.mem_iff.1 ho)) _ D W hD hW hDT hW0
      (by rw [tot u p₂]; exact hWM)
    obtain ⟨x₁, D₁, i₁, w₁, d₁, m₁⟩ := k₁
    obtain ⟨x₂, D₂, i₂, w₂, d₂, m₂⟩ := k₂
    rw [e₁] at i₁
    rw [e₂] at i₂
    obtain rfl := Outcome.ok.inj i₁
    obtain rfl := Outcome.ok.inj i₂
    rw [tot u p₁] at w₁ m₁
    rw [tot u p₂] at w₂ m₂
    rw [tot _ p₁] at m₁
    rw [tot _ p₂] at m₂
    rw [c₁, c₂]
    simp only [Option.map_some, Option.some.injEq, Prod.mk.injEq]
    refine ⟨?_, w₁.trans w₂.symm⟩
    by_cases hne : obsOf ws g = []
    · rw [hne] at p₁ p₂
      rw [p₁.eq_nil] at e₁
      rw [p₂.eq_nil] at e₂
      rw [← Outcome.ok.inj e₁, ← Outcome.ok.inj e₂]
    · have hpos : 0 < W + total u (obsOf ws g) := by
        obtain ⟨o, os, he⟩ := List.exists_cons_of_ne_nil hne
        have hnn : ∀ (os : List Obs), (∀ o ∈ os, 1 / 1000000 ≤ u o) → 0 ≤ total u os := by
          intro os
          induction os with
          | nil => intro _; exact le_rfl
          | cons o os ih =>
            intro h
            have h1 := h o (by simp)
            have h2 := ih fun o ho => h o (by simp [ho])
            show 0 ≤ (List.map u (o :: os)).sum
            rw [List.map_cons, List.sum_cons]
            have : 0 ≤ (List.map u os).sum := h2
            linarith
        have h1 := (hos o (by rw [he]; simp)).2.2.2
        have h2 := hnn os fun o ho => (hos o (by rw [he]; simp [ho])).2.2.2
        rw [he]
        have e : total u (o :: os) = u o + total u os := by
          show (List.map u (o :: os)).sum = u o + (List.map u os).sum
          rw [List.map_cons, List.sum_cons]
        rw [e]
        linarith
      rw [d₁, d₂, mul_right_cancel₀ hpos.ne' (m₁.trans m₂.symm)]
  · rw [a₁.untouched g ht, a₂.untouched g ht]

/-- With a truncation distance of 20 the hypotheses hold for the voxel in which the nearer point is measured: it is observed by
both rays, at signed distances 0 and 6. -/
example : let P : Params := { exScan with tsdf := { exTsdf with truncation := .fin 20 } }
    let ws := visitsOf ([exNear, exFar].map (pointVisits (Arith.exact exSq) P 1 exView false))
    let s : Obs → ℚ := fun o => match computeDistance (Arith.exact exSq) o.origin o.pointG o.center with | .fin q => q | _ => 0
    (∀ o ∈ obsOf ws ⟨4, 2, 4⟩, computeDistance (Arith.exact exSq) o.origin o.pointG o.center = .fin (s o) ∧
      updatedWeight (Arith.exact exSq) P.tsdf (.fin 1) (.fin (s o)) o.weight = .fin 1 ∧ |s o| ≤ 20) ∧
    (obsOf ws ⟨4, 2, 4⟩).map s = [0, 6] ∧ 0 + total (fun _ => 1) (obsOf ws ⟨4, 2, 4⟩) ≤ 100 := by
  decide +kernel

/-- **C94 is violated for signed distances beyond the truncation distance.** They are averaged without being truncated first, and
only the result is truncated, so the outcome depends on the order: with two worker threads, a cloud of two points (one 6, the other
12 voxels away on the same ray) leaves the voxel in which the nearer point was measured either with distance 1 (the full
truncation distance) or with distance 1/2, depending on which worker is faster. -/
theorem C94_schedule_violated : ∃ (A : Arith) (sort : List (ℕ × Fl) → List (ℕ × Fl)) (P : Params) (V : View) (points : List (Vec3 Fl))
    (colors : List Color) (l l₁ l₂ : VLayer (TsdfVoxel Fl)) (g : Idx) (v₁ v₂ : TsdfVoxel Fl), Dispatch.IsStdSort sort ∧
    Simple A sort P V points colors false l (.ok l₁) ∧ Simple A sort P V points colors false l (.ok l₂) ∧
    content l₁ g = some v₁ ∧ content l₂ g = some v₂ ∧ v₁.distance = .fin 1 ∧ v₂.distance = .fin (1 / 2) := by
  obtain ⟨l₁, v₁, h1, h2, h3, -⟩ := exScan_result (ws := exVisits exNear ++ exVisits exFar) (by simp) (g := ⟨4, 2, 4⟩) (d := .fin 1)
    (w := .fin 2) (by decide +kernel)
  obtain ⟨l₂, v₂, k1, k2, k3, -⟩ := exScan_result (ws := exVisits exFar ++ exVisits exNear) (by simp) (g := ⟨4, 2, 4⟩) (d := .fin (1 / 2))
    (w := .fin 2) (by decide +kernel)
  exact ⟨_, exSort, exScan, exView, _, _, exEmpty, l₁, l₂, ⟨4, 2, 4⟩, v₁, v₂, Dispatch.insertionSort_isStdSort, h1, k1, h2, k2, h3, k3⟩

end Vox.TsdfScan
