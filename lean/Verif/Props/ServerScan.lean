/-
Property C103, continued: the clouds of a run may be those of the three integrators.
-/
import Verif.Lemmas.ServerScan
import Verif.Props.ServerMesh
import Verif.Props.TsdfFast
import Verif.Props.TsdfMerged

namespace Vox.ServerMesh

open Layer Grid Tsdf TsdfScan Spec

/-- **C103 (scans of the simple integrator).** Whatever the cloud, the threads and the scheduling: a scan marks every block that it changes for meshing and keeps
the map sound, so that it may stand in a run of C103. -/
theorem C103_simple_marked {A : Arith} {sort : List (ℕ × Fl) → List (ℕ × Fl)} (hs : Dispatch.IsStdSort sort) {P : Params} {V : View}
    {points : List (Vec3 Fl)} {colors : List Color} {freespace : Bool} {l l' : VLayer (TsdfVoxel Fl)} (hl : MapSound l) {k : ℕ}
    (hk : k < 31) (hside : l.cfg.vps = 2 ^ k)
    (hr : InReach (visitsOf ((points.zip colors).map (pointVisits A P l.cfg.voxelSize V freespace))))
    (h : Simple A sort P V points colors freespace l (.ok l')) : MarkedChange l l' := by
  obtain ⟨-, -, ha⟩ := C93_scan_adds hs hl.wf hk hside hr h
  refine adds_marked hl ha hr ?_
  generalize hres : (Outcome.ok l' : Outcome (VLayer (TsdfVoxel Fl))) = r at h
  cases h with
  | mismatch _ => cases hres
  | noOrder _ _ h =>
    rcases h with ⟨-, rfl⟩ | ⟨-, rfl⟩ <;> cases hres
  | run _ _ hpar =>
    subst hres
    exact parallel_nodup hl.nodup hpar

/-- **C103 (scans of the merged integrator).** -/
theorem C103_merged_marked {A : Arith} {sort : List (ℕ × Fl) → List (ℕ × Fl)} {P : Params} (hP : 0 < P.threads)
    {V : View} {points : List (Vec3 Fl)} {colors : List Color} {freespace : Bool} {l l' : VLayer (TsdfVoxel Fl)} (hl : MapSound l)
    {k : ℕ} (hk : k < 31) (hside : l.cfg.vps = 2 ^ k)
    (hr : ∀ m, (order sort P.mode (sqNorms A points) >>= bundles A P l.cfg.voxelSize V freespace points) = .ok m →
      InReach (visitsOf (m.1.map (bundleVisits A P l.cfg.voxelSize V (points.zip colors) false m.1))) ∧
      InReach (visitsOf (m.2.map (bundleVisits A P l.cfg.voxelSize V (points.zip colors) true m.1))))
    (h : Merged A sort P V points colors freespace l (.ok l')) : MarkedChange l l' := by
  generalize hres : (Outcome.ok l' : Outcome (VLayer (TsdfVoxel Fl))) = r at h
  cases h with
  | mismatch _ => cases hres
  | noBundles _ _ h =>
    rcases h with ⟨-, rfl⟩ | ⟨-, rfl⟩ <;> cases hres
  | run hlen hm hev hec htwo =>
    rename_i m ev ec
    cases htwo with
    | fault _ h => subst hres; rcases h with h | h <;> cases h
    | both h1 h2 =>
      subst hres
      obtain ⟨hr1, hr2⟩ := hr m hm
      obtain ⟨a1, -⟩ := phase_ok hP hl.wf hk hside hev hr1 h1
      obtain ⟨a2, -⟩ := phase_ok hP a1.wellFormed hk (by rw [a1.cfg]; exact hside) hec hr2 h2
      have m1 := adds_marked hl a1 hr1 (parallel_nodup hl.nodup h1)
      exact MarkedChange.trans m1 (adds_marked m1.sound a2 hr2 (parallel_nodup m1.sound.nodup h2))

/-- **C103 (scans of the fast integrator).** -/
theorem C103_fast_marked {A : Arith} {sort : List (ℕ × Fl) → List (ℕ × Fl)} (hs : Dispatch.IsStdSort sort) {P : Params} (hP : 0 < P.threads)
    (hmax : 0 ≤ P.maxCollisions) {V : View} {points : List (Vec3 Fl)} {colors : List Color} {freespace : Bool} {counter : ℤ}
    {start seen : ApproxHash.HSet} {l l' : VLayer (TsdfVoxel Fl)} (hl : MapSound l) {k : ℕ} (hk : k < 31) (hside : l.cfg.vps = 2 ^ k)
    (hr : ∀ p ∈ points.zip colors, ∀ g ws, fastPoint A P l.cfg.voxelSize V freespace p = .ok (some (g, ws)) → InReach ws) {late : Bool}
    (h : Fast A sort P V points colors freespace counter start seen l late (.ok l')) : MarkedChange l l' := by
  obtain ⟨-, es, hj, ha, hju, -⟩ := C96_fast_adds hs hP hmax hl.wf hk hside hr h
  refine adds_marked hl ha ?_ ?_
  · intro w hw
    obtain ⟨e, he, hw⟩ := List.mem_flatMap.1 hw
    rcases hju e he with ⟨-, h2⟩ | ⟨-, g, ws, h1, h2⟩
    · rw [h2] at hw; cases hw
    · obtain ⟨p, hp, e1⟩ := List.mem_map.1 (hj.mem_iff.1 (List.mem_map.2 ⟨e, he, rfl⟩))
      refine hr p hp g ws (e1.trans h1) w ?_
      rcases h2 with h2 | ⟨pre, run, x, rest, h2, h3, -⟩
      · rw [← h2]; exact hw
      · rw [h2]
        rw [h3] at hw
        exact List.mem_append_left _ hw
  · generalize hres : (Outcome.ok l' : Outcome (VLayer (TsdfVoxel Fl))) = r at h
    cases h with
    | mismatch _ => cases hres
    | noOrder _ _ hc => rcases hc with ⟨-, rfl⟩ | ⟨-, rfl⟩ <;> cases hres
    | fault _ _ _ hf => subst hres; cases hf
    | done hlen hord hrun hdone hlate =>
      refine merge_nodup _ ?_ hres.symm
      rw [fastRuns_keys hrun]
      exact hl.nodup

/-- The empty map of the examples is sound; the other hypotheses are met by the scans of the examples of C93, C95 and C96. -/
theorem exEmpty_sound : MapSound exEmpty :=
  ⟨exEmpty_wellFormed, List.nodup_nil, fun i hi => by cases hi⟩

/-- Scans of the three integrators on it. -/
example : (∃ l', Simple (Arith.exact exSq) exSort exScan exView [exNear.1, exFar.1] [exNear.2, exFar.2] false exEmpty (.ok l') ∧ MarkedChange exEmpty l') ∧
    (∃ l', Fast (Arith.exact exSq) exSort exFast exView (exCloud.map (·.1)) (exCloud.map (·.2)) false 0 ApproxHash.init ApproxHash.init exEmpty
      false (.ok l') ∧ MarkedChange exEmpty l') ∧
    ∃ l', Merged (Arith.exact exSq) exSort exMerge exView exPoints exColors false exEmpty (.ok l') ∧ MarkedChange exEmpty l' := by
  refine ⟨?_, ?_, ?_⟩
  · obtain ⟨l', -, h, -⟩ := exScan_result (ws := exVisits exNear ++ exVisits exFar) (by simp) (g := ⟨4, 2, 4⟩) (d := .fin 1) (w := .fin 2)
      (by decide +kernel)
    exact ⟨l', h, C103_simple_marked Dispatch.insertionSort_isStdSort exEmpty_sound (k := 1) (by decide) rfl exVisits_inReach h⟩
  · obtain ⟨l', h, -⟩ := exFast_runs
    exact ⟨l', h, C103_fast_marked Dispatch.insertionSort_isStdSort (by decide) (by decide) exEmpty_sound (k := 1) (by decide) rfl
      (show ∀ p ∈ (exCloud.map (·.1)).zip (exCloud.map (·.2)), _ from exFast_inReach) h⟩
  · obtain ⟨l', h, -⟩ := exMerge_runs
    refine ⟨l', h, C103_merged_marked (by decide) exEmpty_sound (k := 1) (by decide) rfl (fun m hm => ?_) h⟩
    rw [show exEmpty.cfg.voxelSize = 1 from rfl, exMerge_bundles] at hm
    rw [← Outcome.ok.inj hm]
    refine ⟨fun w hw => ?_, fun w hw => by simp [visitsOf] at hw⟩
    have h : ((visitsOf (exBundles.map (bundleVisits (Arith.exact exSq) exMerge 1 exView (exPoints.zip exColors) false exBundles))).all fun w =>
        decide ((0 ≤ w.g.x ∧ w.g.x ≤ 20) ∧ (0 ≤ w.g.y ∧ w.g.y ≤ 20) ∧ (0 ≤ w.g.z ∧ w.g.z ≤ 20))) = true := by decide +kernel
    obtain ⟨⟨a, b⟩, ⟨c, d⟩, e, f⟩ := of_decide_eq_true (List.all_eq_true.1 h w hw)
    have key : ∀ x : ℤ, 0 ≤ x → x ≤ 20 → |x| ≤ 2 ^ 24 := fun x h1 h2 => by rw [abs_of_nonneg h1]; omega
    exact ⟨key _ a b, key _ c d, key _ e f⟩

end Vox.ServerMesh
