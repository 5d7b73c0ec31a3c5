/-
Lemmas for the merged TSDF integrator: its bundles, the shares of the threads, and what both phases add to the map.
-/
import Verif.Lemmas.TsdfRay

namespace Vox.TsdfScan

open Layer Grid Tsdf Ray Spec

/-! ### Consequences of adding visits -/

theorem _root_.Vox.Spec.Adds.perm {A : Arith} {P : Params} {l l' : VLayer (TsdfVoxel Fl)} {ws us : List Visit} (h : Adds A P l ws l') (hv : ws.Perm us) :
    Adds A P l us l' := by
  have hT : ∀ i, Touched l.cfg.vps ws i ↔ Touched l.cfg.vps us i := fun i =>
    ⟨fun ⟨w, hw, e⟩ => ⟨w, hv.mem_iff.1 hw, e⟩, fun ⟨w, hw, e⟩ => ⟨w, hv.mem_iff.2 hw, e⟩⟩
  refine ⟨h.cfg, h.wellFormed, fun g hg => ?_, fun g hg => h.untouched g fun hc => hg ((hT _).1 hc),
    fun i hi => h.marked i ((hT i).2 hi), fun i hi => h.unmarked i fun hc => hi ((hT i).1 hc)⟩
  obtain ⟨os, v, e1, e2, e3⟩ := h.touched g ((hT _).2 hg)
  exact ⟨os, v, e1.trans (obsOf_perm hv g), e2, e3⟩

theorem _root_.Vox.Spec.Adds.bounds {A : Arith} {P : Params} {l l' : VLayer (TsdfVoxel Fl)} {ws : List Visit} (had : Adds A P l ws l')
    {T M : ℚ} (hT : 0 ≤ T) (hM : 0 ≤ M) (hcT : P.tsdf.truncation = .fin T) (hcM : P.tsdf.maxWeight = .fin M)
    (hl : ∀ g v, content l g = some v → Within (-T) T v.distance ∧ Within 0 M v.weight) :
    ∀ g v, content l' g = some v → Within (-T) T v.distance ∧ Within 0 M v.weight := by
  intro g v hv
  by_cases ht : Touched l.cfg.vps ws (blockOf l.cfg.vps g)
  · obtain ⟨os, v', -, h2, h3⟩ := had.touched g ht
    rw [hv] at h3
    obtain rfl := Option.some.inj h3
    have h0 : Within (-T) T ((content l g).getD freshVoxel).distance ∧ Within 0 M ((content l g).getD freshVoxel).weight := by
      cases hc : content l g with
      | none => exact ⟨⟨0, rfl, by linarith, hT⟩, ⟨0, rfl, le_rfl, hM⟩⟩
      | some x => exact hl g x hc
    exact C24_bounds A P.tsdf T M hT hM hcT hcM _ os _ v h0.1 h0.2 h2
  · rw [had.untouched g ht] at hv
    exact hl g v hv

theorem _root_.Vox.Spec.Adds.weights {A : Arith} {P : Params} {l l' : VLayer (TsdfVoxel Fl)} (hs : Sane A P.tsdf l.cfg.voxelSize) {ws : List Visit} (had : Adds A P l ws l')
    (hw : ∀ w ∈ ws, ∃ u, w.obs.weight = .fin u ∧ ObsWeight A u) (hl : GoodWeights A l) : GoodWeights A l' := by
  intro g v hv
  by_cases ht : Touched l.cfg.vps ws (blockOf l.cfg.vps g)
  · obtain ⟨os, v', h1, h2, h3⟩ := had.touched g ht
    rw [hv] at h3
    obtain rfl := Option.some.inj h3
    have h0 : ∃ W, ((content l g).getD freshVoxel).weight = .fin W ∧ VoxelWeight A W := by
      cases hc : content l g with
      | none => exact ⟨0, rfl, voxelWeight_zero A⟩
      | some x => exact hl g x hc
    exact hs.integrate _ (fun o ho => by
      obtain ⟨w, hw', rfl⟩ := mem_obsOf (h1.mem_iff.1 ho)
      exact hw w hw') h0 h2
  · rw [had.untouched g ht] at hv
    exact hl g v hv

theorem _root_.Vox.Spec.Adds.unvisited {A : Arith} {P : Params} {l l' : VLayer (TsdfVoxel Fl)} {ws : List Visit} (had : Adds A P l ws l') {g : Idx}
    (hg : ∀ w ∈ ws, w.g ≠ g) {v : TsdfVoxel Fl} (hv : content l g = some v) : content l' g = some v := by
  by_cases ht : Touched l.cfg.vps ws (blockOf l.cfg.vps g)
  · obtain ⟨os, v', h1, h2, h3⟩ := had.touched g ht
    have : obsOf ws g = [] := by
      unfold obsOf
      rw [List.map_eq_nil_iff, List.filter_eq_nil_iff]
      intro w hw
      simpa using hg w hw
    rw [this] at h1
    rw [h1.eq_nil, hv] at h2
    rw [h3, ← Outcome.ok.inj h2]
    rfl
  · rw [had.untouched g ht, hv]

/-! ### Bundles -/

/-- Acceptance of the point with index `i`. -/
def accepts (A : Arith) (P : Params) (freespace : Bool) (points : List (Vec3 Fl)) (i : ℕ) : Option Bool :=
  points[i]?.bind fun p => isPointValid P.tsdf (A.norm p) freespace

/-- The end voxel of the point with index `i`. -/
def keyOf (A : Arith) (s : ℚ) (V : View) (points : List (Vec3 Fl)) (i : ℕ) : Idx :=
  match points[i]?.map (endVoxel A s V) with
  | some (.ok g) => g
  | _ => ⟨0, 0, 0⟩

theorem bundles_eq {A : Arith} {P : Params} {s : ℚ} {V : View} {freespace : Bool} {points : List (Vec3 Fl)} : ∀ {is : List ℕ}
    {m m' : Dispatch.BundleMap × Dispatch.BundleMap}, is.foldlM (bundleOne A P s V freespace points) m = .ok m' →
    m' = Dispatch.bundleRays (accepts A P freespace points) (keyOf A s V points) is m ∧
    ∀ i ∈ is, ∃ p, points[i]? = some p ∧
      (isPointValid P.tsdf (A.norm p) freespace ≠ none → endVoxel A s V p = .ok (keyOf A s V points i)) := by
  intro is
  induction is with
  | nil => intro m m' h; exact ⟨(Outcome.ok.inj h).symm, by simp⟩
  | cons i is ih =>
    intro m m' h
    rw [List.foldlM_cons, Outcome.bind_eq_ok] at h
    obtain ⟨m₁, h1, h2⟩ := h
    obtain ⟨e, hall⟩ := ih h2
    unfold bundleOne at h1
    cases hp : points[i]? with
    | none => rw [hp] at h1; cases h1
    | some p =>
      rw [hp] at h1
      simp only at h1
      have hacc : accepts A P freespace points i = isPointValid P.tsdf (A.norm p) freespace := by simp [accepts, hp]
      cases hv : isPointValid P.tsdf (A.norm p) freespace with
      | none =>
        rw [hv] at h1
        obtain rfl := Outcome.ok.inj h1
        refine ⟨?_, fun j hj => ?_⟩
        · rw [e]
          obtain ⟨vm, cm⟩ := m
          simp [Dispatch.bundleRays, hacc, hv]
        · rcases List.mem_cons.1 hj with rfl | hj
          · exact ⟨p, hp, fun h => absurd hv h⟩
          · exact hall j hj
      | some c =>
        rw [hv] at h1
        simp only at h1
        obtain ⟨g, hg, h1⟩ := Outcome.bind_eq_ok.1 h1
        have hkey : keyOf A s V points i = g := by simp [keyOf, hp, hg]
        have h1' := Outcome.ok.inj h1
        refine ⟨?_, fun j hj => ?_⟩
        · rw [e, ← h1']
          obtain ⟨vm, cm⟩ := m
          cases c <;> simp [Dispatch.bundleRays, hacc, hv, hkey]
        · rcases List.mem_cons.1 hj with rfl | hj
          · exact ⟨p, hp, fun _ => by rw [hg, hkey]⟩
          · exact hall j hj

/-- All shares together contain each bundle once. -/
theorem shares_perm {A : Arith} {P : Params} (hP : 0 < P.threads) {s : ℚ} {V : View} {cloud : List (Vec3 Fl × Color)} {clearing : Bool}
    {vm es m : Dispatch.BundleMap} (hes : es.Perm m) :
    ((List.range P.threads).flatMap fun t => visitsOf (share A P s V cloud clearing vm es t)).Perm
      (visitsOf (m.map (bundleVisits A P s V cloud clearing vm))) := by
  have h := Props.C31_each_bundle_once P.threads es
  have he : Dispatch.effectiveThreads P.threads = P.threads := if_neg (by omega)
  rw [he] at h
  have hids : Dispatch.threadIds P.threads = List.range P.threads := by
    unfold Dispatch.threadIds
    split
    · rename_i h1; rw [h1]; rfl
    · rfl
  rw [hids] at h
  have h2 := visitsOf_perm ((h.trans hes).map (bundleVisits A P s V cloud clearing vm))
  have e : visitsOf (((List.range P.threads).flatMap fun t => Dispatch.integrateVoxels P.threads t es).map
      (bundleVisits A P s V cloud clearing vm)) =
      (List.range P.threads).flatMap fun t => visitsOf (share A P s V cloud clearing vm es t) := by
    rw [List.map_flatMap]
    unfold visitsOf
    rw [List.flatMap_assoc]
    rfl
  exact e ▸ h2

theorem share_mem {A : Arith} {P : Params} (hP : 0 < P.threads) {s : ℚ} {V : View} {cloud : List (Vec3 Fl × Color)} {clearing : Bool}
    {vm es m : Dispatch.BundleMap} (hes : es.Perm m) {kv : Idx × List ℕ} (hkv : kv ∈ m) :
    ∃ t < P.threads, bundleVisits A P s V cloud clearing vm kv ∈ share A P s V cloud clearing vm es t := by
  have h := Props.C31_each_bundle_once P.threads es
  have he : Dispatch.effectiveThreads P.threads = P.threads := if_neg (by omega)
  rw [he] at h
  have hids : Dispatch.threadIds P.threads = List.range P.threads := by
    unfold Dispatch.threadIds
    split
    · rename_i h1; rw [h1]; rfl
    · rfl
  rw [hids] at h
  have hm := (h.trans hes).mem_iff.2 hkv
  obtain ⟨t, ht, hm⟩ := List.mem_flatMap.1 hm
  exact ⟨t, List.mem_range.1 ht, List.mem_map.2 ⟨kv, hm, rfl⟩⟩

theorem share_subset {A : Arith} {P : Params} {s : ℚ} {V : View} {cloud : List (Vec3 Fl × Color)} {clearing : Bool}
    {vm es m : Dispatch.BundleMap} (hes : es.Perm m) {t : ℕ} {j : Job} (hj : j ∈ share A P s V cloud clearing vm es t) :
    ∃ kv ∈ m, j = bundleVisits A P s V cloud clearing vm kv := by
  obtain ⟨kv, hkv, rfl⟩ := List.mem_map.1 hj
  unfold Dispatch.integrateVoxels at hkv
  obtain ⟨x, hx, rfl⟩ := List.mem_map.1 hkv
  refine ⟨x.1, hes.mem_iff.1 ?_, rfl⟩
  exact List.fst_mem_of_mem_zipIdx (List.mem_of_mem_filter hx)

/-- What one of the two calls of `integrateRays` does. -/
theorem phase_ok {A : Arith} {P : Params} (hP : 0 < P.threads) {k : ℕ} {l l' : VLayer (TsdfVoxel Fl)} (wf : WellFormed l) (hk : k < 31)
    (hside : l.cfg.vps = 2 ^ k) {s : ℚ} {V : View} {cloud : List (Vec3 Fl × Color)} {clearing : Bool} {vm es m : Dispatch.BundleMap} (hes : es.Perm m)
    (hr : InReach (visitsOf (m.map (bundleVisits A P s V cloud clearing vm))))
    (h : Parallel A P P.threads l [] (share A P s V cloud clearing vm es) (.ok l')) :
    Adds A P l (visitsOf (m.map (bundleVisits A P s V cloud clearing vm))) l' ∧
      ∀ kv ∈ m, ∃ ws, bundleVisits A P s V cloud clearing vm kv = .ok ws := by
  have hperm := shares_perm (A := A) hP (s := s) (V := V) (cloud := cloud) (clearing := clearing) (vm := vm) hes
  have hnil : ∀ xs : List Visit, visitsOf [] ++ xs = xs := fun xs => by simp [visitsOf]
  obtain ⟨h1, -, h3⟩ := parallel_ok wf hk hside (by
    rw [hnil]
    exact fun w hw => hr w (hperm.mem_iff.1 hw)) h
  rw [hnil] at h1
  refine ⟨h1.perm hperm, fun kv hkv => ?_⟩
  obtain ⟨t, ht, hm⟩ := share_mem (A := A) hP (s := s) (V := V) (cloud := cloud) (clearing := clearing) (vm := vm) hes hkv
  exact h3 t ht _ hm

/-- The weights of the visits of a bundle are finite and non-negative. -/
theorem bundle_weights {A : Arith} {P : Params} {vs : ℚ} (hs : Sane A P.tsdf vs) {s : ℚ} {V : View} {cloud : List (Vec3 Fl × Color)} {clearing : Bool}
    {vm m : Dispatch.BundleMap} : ∀ w ∈ visitsOf (m.map (bundleVisits A P s V cloud clearing vm)), ∃ u, w.obs.weight = .fin u ∧ ObsWeight A u := by
  intro w hw
  unfold visitsOf at hw
  obtain ⟨j, hj, hwj⟩ := List.mem_flatMap.1 hw
  obtain ⟨kv, -, rfl⟩ := List.mem_map.1 hj
  obtain ⟨b, hb, hbw⟩ := hs.bundle clearing (members cloud kv.2)
  unfold bundleVisits at hwj
  split at hwj
  · rename_i ws he
    split at he
    · rw [← Outcome.ok.inj he] at hwj; cases hwj
    · rw [hb] at he
      simp only [Outcome.bind_ok] at he
      obtain ⟨gs, -, he⟩ := Outcome.bind_eq_ok.1 he
      rw [← Outcome.ok.inj he] at hwj
      obtain ⟨g, -, rfl⟩ := List.mem_map.1 hwj
      exact hbw
  · cases hwj

theorem phase_no_fault {A : Arith} {P : Params} (hP : 0 < P.threads) {k : ℕ} {l : VLayer (TsdfVoxel Fl)} (hs : Sane A P.tsdf l.cfg.voxelSize) (wf : WellFormed l)
    (hl : GoodWeights A l) (hk : k < 31) (hside : l.cfg.vps = 2 ^ k) {s : ℚ} {V : View} {cloud : List (Vec3 Fl × Color)} {clearing : Bool}
    {vm es m : Dispatch.BundleMap} (hes : es.Perm m) (hr : InReach (visitsOf (m.map (bundleVisits A P s V cloud clearing vm))))
    (hrays : ∀ kv ∈ m, ∃ ws, bundleVisits A P s V cloud clearing vm kv = .ok ws)
    {r : Outcome (VLayer (TsdfVoxel Fl))} (h : Parallel A P P.threads l [] (share A P s V cloud clearing vm es) r) : ∃ l', r = .ok l' := by
  have hperm := shares_perm (A := A) hP (s := s) (V := V) (cloud := cloud) (clearing := clearing) (vm := vm) hes
  have hnil : ∀ xs : List Visit, visitsOf [] ++ xs = xs := fun xs => by simp [visitsOf]
  refine no_fault hs wf hl hk hside (by simp) (fun t _ j hj => ?_) (by
    rw [hnil]
    exact fun w hw => hr w (hperm.mem_iff.1 hw)) (fun w hw => ?_) h
  · obtain ⟨kv, hkv, rfl⟩ := share_subset hes hj
    exact hrays kv hkv
  · rw [hnil] at hw
    exact bundle_weights hs w (hperm.mem_iff.1 hw)

/-! ### Anti-grazing -/

theorem lookup_isSome_of_mem {m : Dispatch.BundleMap} {e : Idx × List ℕ} (h : e ∈ m) : (m.lookup e.1).isSome = true := by
  induction m with
  | nil => cases h
  | cons a m ih =>
    obtain ⟨k, v⟩ := a
    rw [List.lookup_cons]
    by_cases hk : e.1 = k
    · simp [hk]
    · have : (e.1 == k) = false := by simpa using hk
      rw [this]
      rcases List.mem_cons.1 h with rfl | h
      · exact absurd rfl hk
      · exact ih h

/-- With anti-grazing, the visits of a bundle to the end voxel of a normal bundle. -/
theorem bundle_avoids {A : Arith} {P : Params} (ha : P.antiGrazing = true) {s : ℚ} {V : View} {cloud : List (Vec3 Fl × Color)} {clearing : Bool}
    {vm : Dispatch.BundleMap} {e kv : Idx × List ℕ} (he : e ∈ vm) (hne : clearing = true ∨ kv.1 ≠ e.1) {ws : List Visit}
    (h : bundleVisits A P s V cloud clearing vm kv = .ok ws) : ∀ w ∈ ws, w.g ≠ e.1 := by
  intro w hw hc
  unfold bundleVisits at h
  split at h
  · rw [← Outcome.ok.inj h] at hw; cases hw
  · obtain ⟨b, -, h⟩ := Outcome.bind_eq_ok.1 h
    obtain ⟨gs, -, h⟩ := Outcome.bind_eq_ok.1 h
    rw [← Outcome.ok.inj h] at hw
    obtain ⟨g, hg, rfl⟩ := List.mem_map.1 hw
    have hg' := (List.mem_filter.1 hg).2
    have hge : g = e.1 := hc
    unfold grazes at hg'
    rw [ha, hge, lookup_isSome_of_mem he] at hg'
    rcases hne with hne | hne
    · simp [hne] at hg'
    · have : (e.1 != kv.1) = true := by simpa using fun h => hne h.symm
      simp [this] at hg'

end Vox.TsdfScan
