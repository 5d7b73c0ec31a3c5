/-
Property C95: integration of a whole scan by the merged TSDF integrator.
-/
import Verif.Lemmas.TsdfMerged
import Verif.Props.TsdfScan

namespace Vox.TsdfScan

open Layer Grid Tsdf Ray Spec

/-! ### C95: the merged integrator -/

/-- **C95.** When `integratePointCloud` of the merged integrator returns, each accepted point is in exactly one bundle, that of
its end voxel (normal and clearing points separately); no bundle has failed; and the map has received exactly the visits of the
normal bundles and after them exactly those of the clearing bundles, each once, whatever the number of threads, the iteration
order of the bundle maps and the scheduling. -/
theorem C95_bundles_added {A : Arith} {sort : List (ℕ × Fl) → List (ℕ × Fl)} (hs : Dispatch.IsStdSort sort) {P : Params} (hP : 0 < P.threads)
    {V : View} {points : List (Vec3 Fl)} {colors : List Color} {freespace : Bool} {l l' : VLayer (TsdfVoxel Fl)} (wf : WellFormed l)
    {k : ℕ} (hk : k < 31) (hside : l.cfg.vps = 2 ^ k)
    (hr : ∀ m, (order sort P.mode (sqNorms A points) >>= bundles A P l.cfg.voxelSize V freespace points) = .ok m →
      InReach (visitsOf (m.1.map (bundleVisits A P l.cfg.voxelSize V (points.zip colors) false m.1))) ∧
      InReach (visitsOf (m.2.map (bundleVisits A P l.cfg.voxelSize V (points.zip colors) true m.1))))
    (h : Merged A sort P V points colors freespace l (.ok l')) :
    points.length = colors.length ∧ ∃ normal clear : List (Idx × List ℕ), ∃ l₁,
      (normal.flatMap (·.2)).Perm ((List.range points.length).filter fun i => accepts A P freespace points i == some false) ∧
      (clear.flatMap (·.2)).Perm ((List.range points.length).filter fun i => accepts A P freespace points i == some true) ∧
      (normal.map (·.1)).Nodup ∧ (clear.map (·.1)).Nodup ∧
      (∀ e ∈ normal ++ clear, ∀ i ∈ e.2, ∃ p, points[i]? = some p ∧ gridFl A (A.vscale (V.toG p) (sizeInv A l.cfg.voxelSize)) = .ok e.1) ∧
      (∀ e ∈ normal, ∃ ws, bundleVisits A P l.cfg.voxelSize V (points.zip colors) false normal e = .ok ws) ∧
      (∀ e ∈ clear, ∃ ws, bundleVisits A P l.cfg.voxelSize V (points.zip colors) true normal e = .ok ws) ∧
      Adds A P l (visitsOf (normal.map (bundleVisits A P l.cfg.voxelSize V (points.zip colors) false normal))) l₁ ∧
      Adds A P l₁ (visitsOf (clear.map (bundleVisits A P l.cfg.voxelSize V (points.zip colors) true normal))) l' := by
  generalize hres : (Outcome.ok l' : Outcome (VLayer (TsdfVoxel Fl))) = r at h
  cases h with
  | mismatch _ => cases hres
  | noBundles _ _ h =>
    rcases h with ⟨-, rfl⟩ | ⟨-, rfl⟩ <;> cases hres
  | run hlen hm hev hec htwo =>
    rename_i m ev ec
    cases htwo with
    | fault _ h => subst hres; rcases h with h | h <;> cases h
    | both h1 h2 =>
      rename_i l₁
      subst hres
      obtain ⟨hr1, hr2⟩ := hr m hm
      obtain ⟨is, hord, hb⟩ := Outcome.bind_eq_ok.1 hm
      obtain ⟨e, hall⟩ := bundles_eq hb
      have hperm : is.Perm (List.range points.length) := by
        have := order_perm hs hord
        simpa [sqNorms] using this
      obtain ⟨b1, b2, b3, b4, b5, b6⟩ := Props.C31_bundles_partition (accepts A P freespace points) (keyOf A l.cfg.voxelSize V points) is
      rw [← e] at b1 b2 b3 b4 b5 b6
      obtain ⟨a1, j1⟩ := phase_ok hP wf hk hside hev hr1 h1
      obtain ⟨a2, j2⟩ := phase_ok hP a1.wellFormed hk (by rw [a1.cfg]; exact hside) hec hr2 h2
      refine ⟨hlen, m.1, m.2, l₁, b1.trans (hperm.filter _), b2.trans (hperm.filter _), b5, b6, ?_, j1, j2, a1, a2⟩
      intro x hx i hi
      have hkey : keyOf A l.cfg.voxelSize V points i = x.1 ∧ accepts A P freespace points i ≠ none := by
        rcases List.mem_append.1 hx with hx | hx
        · refine ⟨b3 x hx i hi, ?_⟩
          have := (List.mem_filter.1 (b1.mem_iff.1 (List.mem_flatMap.2 ⟨x, hx, hi⟩))).2
          intro hc; rw [hc] at this; simp at this
        · refine ⟨b4 x hx i hi, ?_⟩
          have := (List.mem_filter.1 (b2.mem_iff.1 (List.mem_flatMap.2 ⟨x, hx, hi⟩))).2
          intro hc; rw [hc] at this; simp at this
      have hmem : i ∈ is := by
        rcases List.mem_append.1 hx with hx | hx
        · exact List.mem_of_mem_filter (b1.mem_iff.1 (List.mem_flatMap.2 ⟨x, hx, hi⟩))
        · exact List.mem_of_mem_filter (b2.mem_iff.1 (List.mem_flatMap.2 ⟨x, hx, hi⟩))
      obtain ⟨p, hp, hend⟩ := hall i hmem
      refine ⟨p, hp, ?_⟩
      rw [← hkey.1]
      refine hend ?_
      have := hkey.2
      simpa [accepts, hp] using this

/-! A cloud of three points for the examples: two measurements of the same voxel and one further away on the same ray. -/

def exPoints : List (Vec3 Fl) := [exNear.1, exNear.1, exFar.1]

def exColors : List Color := [exNear.2, exFar.2, exFar.2]

def exMerge : Params := { exScan with threads := 1, antiGrazing := true }

def exBundles : Dispatch.BundleMap := [(⟨4, 2, 4⟩, [0, 1]), (⟨8, 4, 8⟩, [2])]

theorem exMerge_bundles : (order exSort exMerge.mode (sqNorms (Arith.exact exSq) exPoints) >>=
    bundles (Arith.exact exSq) exMerge 1 exView false exPoints) = .ok (exBundles, []) := by decide +kernel

/-- The visits of a bundle in the example. -/
def exBundleVisits (kv : Idx × List ℕ) : List Visit :=
  match bundleVisits (Arith.exact exSq) exMerge 1 exView (exPoints.zip exColors) false exBundles kv with
  | .ok ws => ws
  | _ => []

theorem exBundle_ok (kv : Idx × List ℕ) (hkv : kv ∈ exBundles) :
    bundleVisits (Arith.exact exSq) exMerge 1 exView (exPoints.zip exColors) false exBundles kv = .ok (exBundleVisits kv) := by
  have h : ∀ kv ∈ exBundles, (match bundleVisits (Arith.exact exSq) exMerge 1 exView (exPoints.zip exColors) false exBundles kv with
      | .ok _ => true | _ => false) = true := by decide +kernel
  have h' := h kv hkv
  unfold exBundleVisits
  split at h'
  · rename_i e; rw [e]
  · cases h'

/-- The far ray leaves out the voxel (4, 2, 4), in which the near points were measured. -/
theorem exMerge_runs : ∃ l', Merged (Arith.exact exSq) exSort exMerge exView exPoints exColors false exEmpty (.ok l') ∧
    (content l' ⟨4, 2, 4⟩).map (fun v => (v.distance, v.weight)) = some (.fin 0, .fin 2) := by
  have hrun : (match (exBundles.map exBundleVisits).flatten.foldlM (visit (Arith.exact exSq) exMerge) (Store.start exEmpty) >>= Store.merge with
      | .ok l => (content l ⟨4, 2, 4⟩).map fun v => (v.distance, v.weight)
      | _ => none) = some (.fin 0, .fin 2) := by decide +kernel
  split at hrun
  · rename_i l' hl'
    obtain ⟨st, h1, h2⟩ := Outcome.bind_eq_ok.1 hl'
    refine ⟨l', Merged.run (by decide) exMerge_bundles (List.Perm.refl _) (List.Perm.refl _) ?_, hrun⟩
    have p1 : Parallel (Arith.exact exSq) exMerge exMerge.threads exEmpty []
        (share (Arith.exact exSq) exMerge exEmpty.cfg.voxelSize exView (exPoints.zip exColors) false exBundles exBundles) (.ok l') := by
      rw [← h2]
      refine own_sequential exEmpty (exBundles.map exBundleVisits) ?_ h1
      have e : Dispatch.integrateVoxels exMerge.threads 0 exBundles = exBundles := by decide +kernel
      unfold share
      rw [e, List.map_map]
      exact List.map_congr_left fun kv hkv => exBundle_ok kv hkv
    have p2 : Parallel (Arith.exact exSq) exMerge exMerge.threads l' []
        (share (Arith.exact exSq) exMerge exEmpty.cfg.voxelSize exView (exPoints.zip exColors) true exBundles []) (.ok l') :=
      own_sequential (st := Store.start l') l' [] rfl rfl
    exact TwoPhases.both p1 p2
  · cases hrun

/-- The hypotheses hold in the example. -/
example : 0 < exMerge.threads ∧
    (∀ m, (order exSort exMerge.mode (sqNorms (Arith.exact exSq) exPoints) >>= bundles (Arith.exact exSq) exMerge 1 exView false exPoints) = .ok m →
      InReach (visitsOf (m.1.map (bundleVisits (Arith.exact exSq) exMerge 1 exView (exPoints.zip exColors) false m.1))) ∧
      InReach (visitsOf (m.2.map (bundleVisits (Arith.exact exSq) exMerge 1 exView (exPoints.zip exColors) true m.1)))) ∧
    ∃ l', Merged (Arith.exact exSq) exSort exMerge exView exPoints exColors false exEmpty (.ok l') := by
  refine ⟨by decide, fun m hm => ?_, exMerge_runs.imp fun _ h => h.1⟩
  rw [exMerge_bundles] at hm
  rw [← Outcome.ok.inj hm]
  refine ⟨fun w hw => ?_, fun w hw => by simp [visitsOf] at hw⟩
  have h : ((visitsOf (exBundles.map (bundleVisits (Arith.exact exSq) exMerge 1 exView (exPoints.zip exColors) false exBundles))).all fun w =>
      decide ((0 ≤ w.g.x ∧ w.g.x ≤ 20) ∧ (0 ≤ w.g.y ∧ w.g.y ≤ 20) ∧ (0 ≤ w.g.z ∧ w.g.z ≤ 20))) = true := by decide +kernel
  obtain ⟨⟨a, b⟩, ⟨c, d⟩, e, f⟩ := of_decide_eq_true (List.all_eq_true.1 h w hw)
  have key : ∀ x : ℤ, 0 ≤ x → x ≤ 20 → |x| ≤ 2 ^ 24 := fun x h1 h2 => by rw [abs_of_nonneg h1]; omega
  exact ⟨key _ a b, key _ c d, key _ e f⟩

/-- **C95, anti-grazing.** With `enable_anti_grazing`, the voxel in which a normal bundle ends receives observations of that bundle
only: the rays of other normal bundles leave it out, and the clearing rays do not change it at all. -/
theorem C95_anti_grazing {A : Arith} {P : Params} (ha : P.antiGrazing = true) {s : ℚ} {V : View} {cloud : List (Vec3 Fl × Color)}
    {normal clear : List (Idx × List ℕ)} {l₁ l' : VLayer (TsdfVoxel Fl)}
    (hn : (normal.map (·.1)).Nodup)
    (h2 : Adds A P l₁ (visitsOf (clear.map (bundleVisits A P s V cloud true normal))) l')
    {e : Idx × List ℕ} (he : e ∈ normal) :
    (∀ o ∈ obsOf (visitsOf (normal.map (bundleVisits A P s V cloud false normal))) e.1,
      ∃ ws, bundleVisits A P s V cloud false normal e = .ok ws ∧ o ∈ obsOf ws e.1) ∧
    ∀ v, content l₁ e.1 = some v → content l' e.1 = some v := by
  constructor
  · intro o ho
    unfold obsOf at ho
    obtain ⟨w, hw, rfl⟩ := List.mem_map.1 ho
    obtain ⟨hw, hg⟩ := List.mem_filter.1 hw
    have hg' : w.g = e.1 := by simpa using hg
    unfold visitsOf at hw
    obtain ⟨j, hj, hwj⟩ := List.mem_flatMap.1 hw
    obtain ⟨kv, hkv, rfl⟩ := List.mem_map.1 hj
    cases hb : bundleVisits A P s V cloud false normal kv with
    | ok ws =>
      rw [hb] at hwj
      have hke : kv.1 = e.1 := by
        by_contra hne
        exact bundle_avoids ha he (Or.inr hne) hb w hwj hg'
      have : kv = e := List.inj_on_of_nodup_map hn hkv he hke
      subst this
      exact ⟨ws, hb, List.mem_map.2 ⟨w, List.mem_filter.2 ⟨hwj, by simpa using hg'⟩, rfl⟩⟩
    | fatal => rw [hb] at hwj; cases hwj
    | ub => rw [hb] at hwj; cases hwj
  · intro v hv
    refine h2.unvisited (fun w hw => ?_) hv
    unfold visitsOf at hw
    obtain ⟨j, hj, hwj⟩ := List.mem_flatMap.1 hw
    obtain ⟨kv, hkv, rfl⟩ := List.mem_map.1 hj
    cases hb : bundleVisits A P s V cloud true normal kv with
    | ok ws => rw [hb] at hwj; exact bundle_avoids ha he (Or.inl rfl) hb w hwj
    | fatal => rw [hb] at hwj; cases hwj
    | ub => rw [hb] at hwj; cases hwj

/-- Without anti-grazing the far ray does observe the near voxel; with it, only the near bundle does. -/
example : exMerge.antiGrazing = true ∧ (exBundles.map (·.1)).Nodup ∧
    (obsOf (visitsOf (exBundles.map (bundleVisits (Arith.exact exSq) exMerge 1 exView (exPoints.zip exColors) false exBundles))) ⟨4, 2, 4⟩).length = 1 ∧
    (obsOf (visitsOf (exBundles.map (bundleVisits (Arith.exact exSq) { exMerge with antiGrazing := false } 1 exView (exPoints.zip exColors) false
      exBundles))) ⟨4, 2, 4⟩).length = 2 := by decide +kernel

/-- **C95.** The merged integrator keeps all distances within the truncation band and all weights within `[0, max]`. -/
theorem C95_bounds {A : Arith} {sort : List (ℕ × Fl) → List (ℕ × Fl)} (hs : Dispatch.IsStdSort sort) {P : Params} (hP : 0 < P.threads)
    {V : View} {points : List (Vec3 Fl)} {colors : List Color} {freespace : Bool} {l l' : VLayer (TsdfVoxel Fl)} (wf : WellFormed l)
    {k : ℕ} (hk : k < 31) (hside : l.cfg.vps = 2 ^ k)
    (hr : ∀ m, (order sort P.mode (sqNorms A points) >>= bundles A P l.cfg.voxelSize V freespace points) = .ok m →
      InReach (visitsOf (m.1.map (bundleVisits A P l.cfg.voxelSize V (points.zip colors) false m.1))) ∧
      InReach (visitsOf (m.2.map (bundleVisits A P l.cfg.voxelSize V (points.zip colors) true m.1))))
    {T M : ℚ} (hT : 0 ≤ T) (hM : 0 ≤ M) (hcT : P.tsdf.truncation = .fin T) (hcM : P.tsdf.maxWeight = .fin M)
    (hl : ∀ g v, content l g = some v → Within (-T) T v.distance ∧ Within 0 M v.weight)
    (h : Merged A sort P V points colors freespace l (.ok l')) :
    ∀ g v, content l' g = some v → Within (-T) T v.distance ∧ Within 0 M v.weight := by
  obtain ⟨-, normal, clear, l₁, -, -, -, -, -, -, -, a1, a2⟩ := C95_bundles_added hs hP wf hk hside hr h
  exact a2.bounds hT hM hcT hcM (a1.bounds hT hM hcT hcM hl)

example : (0 : ℚ) ≤ 1 ∧ exMerge.tsdf.truncation = .fin 1 ∧ exMerge.tsdf.maxWeight = .fin 100 := ⟨by norm_num, rfl, rfl⟩

/-- **C95.** If all end voxels can be computed and all rays of bundles can be cast, the merged integrator neither aborts nor runs into
undefined behaviour, under every schedule. -/
theorem C95_never_fails {A : Arith} {sort : List (ℕ × Fl) → List (ℕ × Fl)} {P : Params}
    (hP : 0 < P.threads) {V : View} {points : List (Vec3 Fl)} {colors : List Color} {freespace : Bool} {l : VLayer (TsdfVoxel Fl)}
    (hS : Sane A P.tsdf l.cfg.voxelSize) (wf : WellFormed l) (hl : GoodWeights A l) {k : ℕ} (hk : k < 31) (hside : l.cfg.vps = 2 ^ k) (hlen : points.length = colors.length)
    {normal clear : List (Idx × List ℕ)}
    (hm : (order sort P.mode (sqNorms A points) >>= bundles A P l.cfg.voxelSize V freespace points) = .ok (normal, clear))
    (hr1 : InReach (visitsOf (normal.map (bundleVisits A P l.cfg.voxelSize V (points.zip colors) false normal))))
    (hr2 : InReach (visitsOf (clear.map (bundleVisits A P l.cfg.voxelSize V (points.zip colors) true normal))))
    (hj1 : ∀ e ∈ normal, ∃ ws, bundleVisits A P l.cfg.voxelSize V (points.zip colors) false normal e = .ok ws)
    (hj2 : ∀ e ∈ clear, ∃ ws, bundleVisits A P l.cfg.voxelSize V (points.zip colors) true normal e = .ok ws)
    {r : Outcome (VLayer (TsdfVoxel Fl))} (h : Merged A sort P V points colors freespace l r) : ∃ l', r = .ok l' := by
  cases h with
  | mismatch hne => exact absurd hlen hne
  | noBundles _ he hc =>
    rw [hm] at he
    subst he
    rcases hc with ⟨e, -⟩ | ⟨e, -⟩ <;> cases e
  | run _ hm' hev hec htwo =>
    rw [hm] at hm'
    obtain rfl := Outcome.ok.inj hm'
    cases htwo with
    | fault hpar hf =>
      obtain ⟨l', rfl⟩ := phase_no_fault hP hS wf hl hk hside hev hr1 hj1 hpar
      exact ⟨l', rfl⟩
    | both h1 h2 =>
      obtain ⟨a1, -⟩ := phase_ok hP wf hk hside hev hr1 h1
      exact phase_no_fault hP (by rw [a1.cfg]; exact hS) a1.wellFormed (Adds.weights hS a1 (bundle_weights hS) hl) hk (by rw [a1.cfg]; exact hside) hec hr2 hj2 h2

example : Sane (Arith.exact exSq) exMerge.tsdf 1 ∧ Sane Ieee.float32 exMerge.tsdf 1 ∧ exPoints.length = exColors.length ∧
    ∀ e ∈ exBundles, ∃ ws, bundleVisits (Arith.exact exSq) exMerge 1 exView (exPoints.zip exColors) false exBundles e = .ok ws :=
  ⟨exScan_sane, exScan_sane32, by decide, fun e he => ⟨_, exBundle_ok e he⟩⟩

/-! ### Bundles without weight -/

/-- One measurement in the plane of the sensor: its depth is zero and so is its weight. -/
def exFlat : Vec3 Fl := ⟨.fin 2, .fin 0, .fin 0⟩

def exDepth : Params := { exMerge with tsdf := { exTsdf with useConstWeight := false } }

/-- A map in which the sensor's voxel has been observed as free. -/
def exFree : VLayer (TsdfVoxel Fl) :=
  { cfg := { voxelSize := 1, vps := 1 }
    blocks := [(⟨0, 0, 0⟩,
      { vps := 1, voxelSize := 1, origin := ⟨0, 0, 0⟩, hasData := true, updated := Flags.setAll
        voxels := [{ distance := .fin (7 / 10), weight := .fin 5, color := Color.default }] })] }

/-- A square root that is right on 0, 1 and 4. -/
def exRoot : Arith := Arith.exact sq4

def exHere : View := { position := (⟨1 / 2, 1 / 2, 1 / 2⟩ : Pt).map .fin, toG := fun p => exRoot.vadd p ((⟨1 / 2, 1 / 2, 1 / 2⟩ : Pt).map .fin) }

/-- **C95 is violated by measurements without weight**: a single point in the plane of the sensor (e.g. of the horizontal ring of a
lidar), which has weight zero, makes the merged integrator set the distance of the observed free voxel that the sensor is in from 7/10
to minus the truncation distance, that is, to inside a surface; the weight stays the same. -/
theorem C95_weightless_point_violated : WellFormed exFree ∧ voxelWeight exRoot exDepth.tsdf exFlat.z = .fin 0 ∧
    ∃ l' v, Merged exRoot exSort exDepth exHere [exFlat] [Color.default] false exFree (.ok l') ∧ content l' ⟨0, 0, 0⟩ = some v ∧
      v.distance = .fin (-1) ∧ v.weight = .fin 5 := by
  refine ⟨⟨by norm_num [exFree], by norm_num [exFree], by norm_num [exFree], ?_⟩, by decide +kernel, ?_⟩
  · intro i b h
    simp only [exFree, List.lookup_cons, List.lookup_nil] at h
    split at h
    · rename_i hi
      obtain rfl : i = ⟨0, 0, 0⟩ := by simpa using hi
      obtain rfl := Option.some.inj h
      refine ⟨rfl, rfl, ?_, rfl⟩
      norm_num
    · cases h
  · have hm : (order exSort exDepth.mode (sqNorms exRoot [exFlat]) >>= bundles exRoot exDepth 1 exHere false [exFlat]) =
        .ok ([(⟨2, 0, 0⟩, [0])], []) := by decide +kernel
    have hrun : (match bundleVisits exRoot exDepth 1 exHere [(exFlat, Color.default)] false [(⟨2, 0, 0⟩, [0])] (⟨2, 0, 0⟩, [0]) with
        | .ok ws => (match ws.foldlM (visit exRoot exDepth) (Store.start exFree) >>= Store.merge with
          | .ok l => (content l ⟨0, 0, 0⟩).map fun v => (v.distance, v.weight)
          | _ => none)
        | _ => none) = some (.fin (-1), .fin 5) := by decide +kernel
    split at hrun
    · rename_i ws hws
      split at hrun
      · rename_i l' hl'
        obtain ⟨st, h1, h2⟩ := Outcome.bind_eq_ok.1 hl'
        obtain ⟨v, hv, he⟩ := Option.map_eq_some_iff.1 hrun
        injection he with e1 e2
        refine ⟨l', v, Merged.run rfl hm (List.Perm.refl _) (List.Perm.refl _) ?_, hv, e1, e2⟩
        have p1 : Parallel exRoot exDepth exDepth.threads exFree []
            (share exRoot exDepth exFree.cfg.voxelSize exHere ([exFlat].zip [Color.default]) false [(⟨2, 0, 0⟩, [0])] [(⟨2, 0, 0⟩, [0])]) (.ok l') := by
          rw [← h2]
          refine own_sequential exFree [ws] ?_ (by simpa using h1)
          show [bundleVisits exRoot exDepth 1 exHere [(exFlat, Color.default)] false [(⟨2, 0, 0⟩, [0])] (⟨2, 0, 0⟩, [0])] = [.ok ws]
          rw [hws]
        have p2 : Parallel exRoot exDepth exDepth.threads l' []
            (share exRoot exDepth exFree.cfg.voxelSize exHere ([exFlat].zip [Color.default]) true [(⟨2, 0, 0⟩, [0])] []) (.ok l') :=
          own_sequential (st := Store.start l') l' [] rfl rfl
        exact TwoPhases.both p1 p2
      · cases hrun
    · cases hrun

end Vox.TsdfScan
