/-
Property C98: the visits of a ray, for the three TSDF integrators.
-/
import Verif.Lemmas.TsdfVisits
import Verif.Props.TsdfMerged

namespace Vox.TsdfScan

open Layer Grid Tsdf Ray Spec

theorem accepted_valid {cfg : Tsdf.Config} {lo hi n : ℚ} {freespace clearing : Bool} (hlo : cfg.minRay = .fin lo) (hhi : cfg.maxRay = .fin hi)
    (h : Accepted lo hi cfg.allowClear freespace n clearing) : isPointValid cfg (.fin n) freespace = some clearing := by
  obtain ⟨h1, h2, h3⟩ := h
  rw [C27_classification cfg lo hi n freespace hlo hhi, if_neg (not_lt.2 h1)]
  by_cases hn : n ≤ hi
  · rw [if_pos hn]
    have : clearing = true ↔ freespace = true := by rw [h3]; exact ⟨fun h => h.resolve_left (not_lt.2 hn), Or.inr⟩
    rw [Bool.eq_iff_iff.2 this]
  · rw [if_neg hn, if_pos (h2 (not_le.1 hn)), h3.2 (Or.inl (not_le.1 hn))]

theorem norm_exact {sq : ℚ → Fl} {p : Pt} {n : Fl} (hn : sq (p.x * p.x + p.y * p.y + p.z * p.z) = n) :
    (Arith.exact sq).norm (p.map .fin) = n := by
  have h0 : 0 ≤ p.x * p.x + p.y * p.y + p.z * p.z := add_nonneg (add_nonneg (mul_self_nonneg _) (mul_self_nonneg _)) (mul_self_nonneg _)
  simp only [Arith.norm, Arith.dot, Vec3.map_x, Vec3.map_y, Vec3.map_z, exact_mul, exact_add, Arith.sqrtFl, if_pos h0]
  exact hn

/-! ### C98: the observations of a ray -/

/-- **C98, simple integrator (rays not parallel to a coordinate plane).** In exact arithmetic an accepted point is observed in
voxels that its ray meets and that cover the ray, each of them once and beginning at the sensor; each observation has the position of
the sensor, the measured point in the global frame, the point's colour and weight and the centre of its voxel. Surface rays end
the truncation distance behind the point, clearing rays the truncation distance in front of it, and without carving the rays begin
the truncation distance in front of the point. The ends of the ray must not lie on voxel boundaries; for rays with a component equal
to zero the statement is false (`C33_axis_parallel_violated`), hence `_partial`. -/
theorem C98_simple_visits_partial {sq : ℚ → Fl} {P : Params} {V : View} {s lo T R : ℚ} (hs : 0 < s) (hT : P.tsdf.truncation = .fin T) (hT0 : 0 ≤ T)
    (hlo : P.tsdf.minRay = .fin lo) (hR : P.tsdf.maxRay = .fin R) (hR0 : 0 ≤ R) {p : Pt} {color : Color} {freespace clearing : Bool} {n : ℚ}
    (hn : sq (p.x * p.x + p.y * p.y + p.z * p.z) = .fin n) (hacc : Accepted lo R P.tsdf.allowClear freespace n clearing)
    {o q : Pt} (ho : V.position = o.map .fin) (hq : V.toG (p.map .fin) = q.map .fin) {L : ℚ} (hL : 0 < L) (hLL : L * L = dist2 o q)
    (hsq : sq (L * L) = .fin L) (hx : q.x ≠ o.x) (hy : q.y ≠ o.y) (hz : q.z ≠ o.z) {S E : Idx}
    (hS : WellInside s S (pointAt o q L (span clearing P.carving L T R).1)) (hE : WellInside s E (pointAt o q L (span clearing P.carving L T R).2))
    (nS : SmallIndex S) (nE : SmallIndex E) :
    ∃ ws, pointVisits (Arith.exact sq) P s V freespace (p.map .fin, color) = .ok ws ∧
      (ws.map (·.g)).head? = some S ∧ (ws.map (·.g)).getLast? = some E ∧
      Traverses s o q L (span clearing P.carving L T R).1 (span clearing P.carving L T R).2 (ws.map (·.g)) ∧
      ∀ w ∈ ws, Observes s o q color (depthWeight P.tsdf.useConstWeight p.z) w := by
  obtain ⟨gs, h1, h2, h3, h4⟩ := rayVoxels_traverse hs hT hT0 hR hR0 hL hLL hsq hx hy hz clearing true hS hE nS nE
  unfold pointVisits
  simp only [norm_exact hn, accepted_valid hlo hR hacc, ho, hq, h1, Outcome.bind_ok, Vec3.map_z, C27_weight_value]
  have hg : (gs.map (visitOf (Arith.exact sq) s (o.map .fin) (q.map .fin) color (.fin (depthWeight P.tsdf.useConstWeight p.z)))).map (·.g) = gs := by
    rw [List.map_map]; exact List.map_id _
  refine ⟨_, rfl, ?_, ?_, ?_, ?_⟩
  · rw [hg]; exact h2
  · rw [hg]; exact h3
  · rw [hg]; exact h4
  · intro w hw
    obtain ⟨g, -, rfl⟩ := List.mem_map.1 hw
    exact visitOf_observes o q color _ g

/-- A surface ray and a clearing (free-space) ray to the point at distance 6 meet the hypotheses. -/
example : exScan.tsdf.truncation = .fin 1 ∧ exScan.tsdf.minRay = .fin (1 / 10) ∧ exScan.tsdf.maxRay = .fin 20 ∧
    exNear.1 = (⟨4, 2, 4⟩ : Pt).map .fin ∧ exSq (4 * 4 + 2 * 2 + 4 * 4) = .fin 6 ∧
    Accepted (1 / 10) 20 true false 6 false ∧ Accepted (1 / 10) 20 true true 6 true ∧
    exView.toG exNear.1 = (⟨9 / 2, 5 / 2, 9 / 2⟩ : Pt).map .fin ∧ 6 * 6 = dist2 ⟨1 / 2, 1 / 2, 1 / 2⟩ ⟨9 / 2, 5 / 2, 9 / 2⟩ ∧
    WellInside 1 ⟨0, 0, 0⟩ (pointAt ⟨1 / 2, 1 / 2, 1 / 2⟩ ⟨9 / 2, 5 / 2, 9 / 2⟩ 6 (span false true 6 1 20).1) ∧
    WellInside 1 ⟨5, 2, 5⟩ (pointAt ⟨1 / 2, 1 / 2, 1 / 2⟩ ⟨9 / 2, 5 / 2, 9 / 2⟩ 6 (span false true 6 1 20).2) ∧
    WellInside 1 ⟨3, 2, 3⟩ (pointAt ⟨1 / 2, 1 / 2, 1 / 2⟩ ⟨9 / 2, 5 / 2, 9 / 2⟩ 6 (span true true 6 1 20).2) ∧
    SmallIndex ⟨0, 0, 0⟩ ∧ SmallIndex ⟨5, 2, 5⟩ ∧ SmallIndex ⟨3, 2, 3⟩ := by
  refine ⟨rfl, rfl, rfl, rfl, by decide +kernel, by norm_num [Accepted], by norm_num [Accepted], by decide +kernel, by norm_num [dist2], ?_, ?_, ?_, ?_, ?_, ?_⟩
  · norm_num [WellInside, pointAt, span]
  · norm_num [WellInside, pointAt, span]
  · norm_num [WellInside, pointAt, span]
  · norm_num [SmallIndex, Vec3.All]
  · norm_num [SmallIndex, Vec3.All]
  · norm_num [SmallIndex, Vec3.All]

/-- **C98.** Points that are not accepted make no visits at all, in the simple and in the fast integrator. -/
theorem C98_rejected {sq : ℚ → Fl} {P : Params} {V : View} {s lo R : ℚ} (hlo : P.tsdf.minRay = .fin lo) (hR : P.tsdf.maxRay = .fin R)
    {p : Pt} {color : Color} {freespace : Bool} {n : ℚ} (hn : sq (p.x * p.x + p.y * p.y + p.z * p.z) = .fin n)
    (hrej : ∀ clearing, ¬ Accepted lo R P.tsdf.allowClear freespace n clearing) :
    pointVisits (Arith.exact sq) P s V freespace (p.map .fin, color) = .ok [] ∧
    fastPoint (Arith.exact sq) P s V freespace (p.map .fin, color) = .ok none := by
  have hv : isPointValid P.tsdf (.fin n) freespace = none := by
    rw [C27_classification P.tsdf lo R n freespace hlo hR]
    by_cases h1 : n < lo
    · rw [if_pos h1]
    · rw [if_neg h1]
      by_cases h2 : n ≤ R
      · exact absurd ⟨not_lt.1 h1, fun h => absurd h2 (not_le.2 h), ⟨fun h => Or.inr h, fun h => h.resolve_left (not_lt.2 h2)⟩⟩ (hrej freespace)
      · rw [if_neg h2]
        split_ifs with h3
        · exact absurd ⟨not_lt.1 h1, fun _ => h3, ⟨fun _ => Or.inl (not_le.1 h2), fun _ => rfl⟩⟩ (hrej true)
        · rfl
  unfold pointVisits fastPoint
  simp only [norm_exact hn, hv, and_self]

example : ∀ clearing, ¬ Accepted (1 / 10) 5 false false 6 clearing := by intro c; norm_num [Accepted]

/-- **C98, fast integrator (rays not parallel to a coordinate plane).** The ray is the same but cast from its far end towards the
sensor; the hash set of start points is asked for the voxel of the measured point in a grid that is finer by
`start_voxel_subsampling_factor`. Partial like `C98_simple_visits_partial`. -/
theorem C98_fast_visits_partial {sq : ℚ → Fl} {P : Params} {V : View} {s lo T R f : ℚ} (hs : 0 < s) (hT : P.tsdf.truncation = .fin T) (hT0 : 0 ≤ T)
    (hlo : P.tsdf.minRay = .fin lo) (hR : P.tsdf.maxRay = .fin R) (hR0 : 0 ≤ R) (hf : P.subsampling = .fin f) (hf0 : 0 < f)
    {p : Pt} {color : Color} {freespace clearing : Bool} {n : ℚ}
    (hn : sq (p.x * p.x + p.y * p.y + p.z * p.z) = .fin n) (hacc : Accepted lo R P.tsdf.allowClear freespace n clearing)
    {o q : Pt} (ho : V.position = o.map .fin) (hq : V.toG (p.map .fin) = q.map .fin) {L : ℚ} (hL : 0 < L) (hLL : L * L = dist2 o q)
    (hsq : sq (L * L) = .fin L) (hx : q.x ≠ o.x) (hy : q.y ≠ o.y) (hz : q.z ≠ o.z) {S E g : Idx}
    (hS : WellInside s S (pointAt o q L (span clearing P.carving L T R).1)) (hE : WellInside s E (pointAt o q L (span clearing P.carving L T R).2))
    (nS : SmallIndex S) (nE : SmallIndex E) (hg : WellInside (s / f) g q) (ng : SmallIndex g) :
    ∃ ws, fastPoint (Arith.exact sq) P s V freespace (p.map .fin, color) = .ok (some (g, ws)) ∧
      (ws.map (·.g)).head? = some E ∧ (ws.map (·.g)).getLast? = some S ∧
      Traverses s o q L (span clearing P.carving L T R).1 (span clearing P.carving L T R).2 (ws.map (·.g)) ∧
      ∀ w ∈ ws, Observes s o q color (depthWeight P.tsdf.useConstWeight p.z) w := by
  obtain ⟨gs, h1, h2, h3, h4⟩ := rayVoxels_traverse hs hT hT0 hR hR0 hL hLL hsq hx hy hz clearing false hS hE nS nE
  have hstart : gridFl (Arith.exact sq) ((Arith.exact sq).vscale (q.map .fin) ((Arith.exact sq).mul P.subsampling (sizeInv (Arith.exact sq) s))) = .ok g := by
    have hsf : 0 < s / f := by positivity
    have hc := wellInside_scaled hsf hg
    have e : (Arith.exact sq).vscale (q.map .fin) ((Arith.exact sq).mul P.subsampling (sizeInv (Arith.exact sq) s)) = (scaled (s / f) q).map .fin := by
      rw [hf]
      unfold sizeInv
      rw [exact_div sq hs.ne', exact_mul]
      ext <;> simp only [Arith.vscale, scaled, Vec3.map, exact_mul, Fl.fin.injEq] <;> field_simp
    rw [e, gridFl_exact (near_inRange ng hc), gridIndexScaled_of_insideLow (ClearlyInside.low hc)]
  unfold fastPoint
  simp only [norm_exact hn, accepted_valid hlo hR hacc, ho, hq, h1, hstart, Outcome.bind_ok, Vec3.map_z, C27_weight_value]
  have hgs : (gs.map (visitOf (Arith.exact sq) s (o.map .fin) (q.map .fin) color (.fin (depthWeight P.tsdf.useConstWeight p.z)))).map (·.g) = gs := by
    rw [List.map_map]; exact List.map_id _
  refine ⟨_, rfl, ?_, ?_, ?_, ?_⟩
  · rw [hgs]; exact h2
  · rw [hgs]; exact h3
  · rw [hgs]; exact h4
  · intro w hw
    obtain ⟨g', -, rfl⟩ := List.mem_map.1 hw
    exact visitOf_observes o q color _ g'

/-- A point with another fine-grid voxel than voxel (twice the resolution); the other hypotheses are those of the simple integrator. -/
example : exScan.subsampling = .fin 2 ∧ WellInside (1 / 2) ⟨9, 5, 8⟩ (⟨19 / 4, 11 / 4, 17 / 4⟩ : Pt) ∧ SmallIndex ⟨9, 5, 8⟩ := by
  refine ⟨rfl, ?_, ?_⟩
  · norm_num [WellInside]
  · norm_num [SmallIndex, Vec3.All]

theorem mem_lookup {m : Dispatch.BundleMap} {g : Idx} : (m.lookup g).isSome = true ↔ ∃ e ∈ m, e.1 = g := by
  constructor
  · intro h
    induction m with
    | nil => simp at h
    | cons e m ih =>
      obtain ⟨k, v⟩ := e
      rw [List.lookup_cons] at h
      by_cases hk : g = k
      · exact ⟨_, List.mem_cons_self, hk.symm⟩
      · rw [beq_eq_false_iff_ne.2 hk] at h
        obtain ⟨e, he, h'⟩ := ih h
        exact ⟨e, List.mem_cons_of_mem _ he, h'⟩
  · rintro ⟨e, he, rfl⟩
    exact lookup_isSome_of_mem he

theorem bundleVisits_traverse {sq : ℚ → Fl} {P : Params} {V : View} {s T R : ℚ} (hs : 0 < s) (hT : P.tsdf.truncation = .fin T) (hT0 : 0 ≤ T)
    (hR : P.tsdf.maxRay = .fin R) (hR0 : 0 ≤ R) {cloud : List (Vec3 Fl × Color)} {clearing : Bool} {normal : List (Idx × List ℕ)}
    {key : Idx} {is : List ℕ} (his : is ≠ []) {m : Pt} {W : ℚ} {color : Color}
    (hm : mergeBundle (Arith.exact sq) P.tsdf clearing (members cloud is) Bundle.init = .ok ⟨color, m.map .fin, .fin W⟩)
    {o q : Pt} (ho : V.position = o.map .fin) (hq : V.toG (m.map .fin) = q.map .fin) {L : ℚ} (hL : 0 < L) (hLL : L * L = dist2 o q)
    (hsq : sq (L * L) = .fin L) (hx : q.x ≠ o.x) (hy : q.y ≠ o.y) (hz : q.z ≠ o.z) {S E : Idx}
    (hS : WellInside s S (pointAt o q L (span clearing P.carving L T R).1)) (hE : WellInside s E (pointAt o q L (span clearing P.carving L T R).2))
    (nS : SmallIndex S) (nE : SmallIndex E) :
    ∃ ws gs, bundleVisits (Arith.exact sq) P s V cloud clearing normal (key, is) = .ok ws ∧
      Traverses s o q L (span clearing P.carving L T R).1 (span clearing P.carving L T R).2 gs ∧
      ((ws.map (·.g)).Sublist gs ∧ ∀ g ∈ gs, g ∉ ws.map (·.g) ↔ P.antiGrazing = true ∧ (clearing = true ∨ g ≠ key) ∧ ∃ e ∈ normal, e.1 = g) ∧
      ∀ w ∈ ws, Observes s o q color W w := by
  obtain ⟨gs, h1, -, -, h4⟩ := rayVoxels_traverse hs hT hT0 hR hR0 hL hLL hsq hx hy hz clearing true hS hE nS nE
  unfold bundleVisits
  rw [if_neg his]
  simp only [hm, Outcome.bind_ok, ho, hq, h1]
  have hg : ((gs.filter fun g => !grazes P clearing key normal g).map (visitOf (Arith.exact sq) s (o.map .fin) (q.map .fin) color (.fin W))).map (·.g) =
      gs.filter fun g => !grazes P clearing key normal g := by
    rw [List.map_map]; exact List.map_id _
  refine ⟨_, gs, rfl, h4, ?_, ?_⟩
  · rw [hg]
    refine ⟨List.filter_sublist, fun g hgm => ?_⟩
    rw [List.mem_filter]
    simp only [hgm, true_and, Bool.not_eq_true', Bool.not_eq_false, grazes, Bool.and_eq_true, Bool.or_eq_true, bne_iff_ne, mem_lookup]
  · intro w hw
    obtain ⟨g, -, rfl⟩ := List.mem_map.1 hw
    exact visitOf_observes o q color _ g

/-- **C98, merged integrator (rays not parallel to a coordinate plane).** In exact arithmetic a bundle is observed like one point:
the weighted mean of its points with the sum of their weights. The voxels are those of its ray; with anti-grazing exactly those
are left out in which some other bundle of surface points ends. Partial like `C98_simple_visits_partial`. -/
theorem C98_bundle_visits_partial {sq : ℚ → Fl} {P : Params} {V : View} {s T R : ℚ} (hs : 0 < s) (hT : P.tsdf.truncation = .fin T) (hT0 : 0 ≤ T)
    (hR : P.tsdf.maxRay = .fin R) (hR0 : 0 ≤ R) {cloud : List (Vec3 Fl × Color)} {normal : List (Idx × List ℕ)}
    {key : Idx} {is : List ℕ} {ps used : List (Pt × Color)} (hps : (is.map fun i => cloud[i]?) = ps.map fun p => some (p.1.map .fin, p.2))
    (hused : used = ps.filter fun p => 1 / 1000000 ≤ depthWeight P.tsdf.useConstWeight p.1.z) (hne : used ≠ [])
    {m : Pt} (hmx : m.x = weightedMean (fun p => depthWeight P.tsdf.useConstWeight p.1.z) (fun p => p.1.x) used)
    (hmy : m.y = weightedMean (fun p => depthWeight P.tsdf.useConstWeight p.1.z) (fun p => p.1.y) used)
    (hmz : m.z = weightedMean (fun p => depthWeight P.tsdf.useConstWeight p.1.z) (fun p => p.1.z) used)
    {o q : Pt} (ho : V.position = o.map .fin) (hq : V.toG (m.map .fin) = q.map .fin) {L : ℚ} (hL : 0 < L) (hLL : L * L = dist2 o q)
    (hsq : sq (L * L) = .fin L) (hx : q.x ≠ o.x) (hy : q.y ≠ o.y) (hz : q.z ≠ o.z) {S E : Idx}
    (hS : WellInside s S (pointAt o q L (span false P.carving L T R).1)) (hE : WellInside s E (pointAt o q L (span false P.carving L T R).2))
    (nS : SmallIndex S) (nE : SmallIndex E) :
    ∃ ws gs color, bundleVisits (Arith.exact sq) P s V cloud false normal (key, is) = .ok ws ∧
      Traverses s o q L (span false P.carving L T R).1 (span false P.carving L T R).2 gs ∧
      ((ws.map (·.g)).Sublist gs ∧ ∀ g ∈ gs, g ∉ ws.map (·.g) ↔ P.antiGrazing = true ∧ g ≠ key ∧ ∃ e ∈ normal, e.1 = g) ∧
      ∀ w ∈ ws, Observes s o q color (total (fun p => depthWeight P.tsdf.useConstWeight p.1.z) used) w := by
  have hmem : members cloud is = ps.map fun p => (p.1.map .fin, p.2) := by
    unfold members
    have : ∀ (is : List ℕ) (ps : List (Pt × Color)), ((is.map fun i => cloud[i]?) = ps.map fun p => some (p.1.map Fl.fin, p.2)) →
        is.filterMap (fun i => cloud[i]?) = ps.map fun p => (p.1.map Fl.fin, p.2) := by
      intro is
      induction is with
      | nil => intro ps h; cases ps with
        | nil => rfl
        | cons _ _ => cases h
      | cons i is ih =>
        intro ps h
        cases ps with
        | nil => cases h
        | cons p ps =>
          injection h with h1 h2
          rw [List.filterMap_cons_some h1, ih ps h2]
          rfl
    exact this is ps hps
  have his : is ≠ [] := by
    rintro rfl
    obtain rfl : ps = [] := by
      cases ps with
      | nil => rfl
      | cons _ _ => cases hps
    exact hne (by simp [hused])
  obtain ⟨b, hb, hw, bx, by', bz⟩ := C25_bundle_mean sq P.tsdf ps used hused hne
  have hbe : b = ⟨b.color, m.map .fin, .fin (total (fun p => depthWeight P.tsdf.useConstWeight p.1.z) used)⟩ := by
    obtain ⟨c, pt, w⟩ := b
    obtain ⟨px, py, pz⟩ := pt
    simp only at hw bx by' bz
    subst hw bx by' bz
    simp only [Vec3.map, hmx, hmy, hmz]
  rw [← hmem, hbe] at hb
  obtain ⟨ws, gs, h1, h2, h3, h4⟩ := bundleVisits_traverse (normal := normal) (key := key) hs hT hT0 hR hR0 his hb ho hq hL hLL hsq hx hy hz hS hE nS nE
  refine ⟨ws, gs, b.color, h1, h2, ?_, h4⟩
  simpa using h3

/-- The bundle of the two near points in the example. -/
example : ([0, 1].map fun i => (exPoints.zip exColors)[i]?) =
      ([(⟨4, 2, 4⟩, exNear.2), (⟨4, 2, 4⟩, exFar.2)] : List (Pt × Color)).map (fun p => some (p.1.map .fin, p.2)) ∧
    (4 : ℚ) = weightedMean (fun _ => 1) (fun p => p.1.x) ([(⟨4, 2, 4⟩, exNear.2), (⟨4, 2, 4⟩, exFar.2)] : List (Pt × Color)) := by
  refine ⟨by decide +kernel, by norm_num [weightedMean, total]⟩

/-- **C98, clearing bundles of the merged integrator.** They are observed like their first point with enough weight, with its
colour and weight; with anti-grazing all voxels are left out in which a bundle of surface points ends. Partial like
`C98_simple_visits_partial`. -/
theorem C98_clearing_bundle_visits_partial {sq : ℚ → Fl} {P : Params} {V : View} {s T R : ℚ} (hs : 0 < s) (hT : P.tsdf.truncation = .fin T) (hT0 : 0 ≤ T)
    (hR : P.tsdf.maxRay = .fin R) (hR0 : 0 ≤ R) {cloud : List (Vec3 Fl × Color)} {normal : List (Idx × List ℕ)}
    {key : Idx} {is : List ℕ} {pre post : List (Pt × Color)} {p : Pt × Color}
    (hps : members cloud is = (pre ++ p :: post).map fun p => (p.1.map .fin, p.2))
    (hpre : ∀ r ∈ pre, depthWeight P.tsdf.useConstWeight r.1.z < 1 / 1000000) (hp : 1 / 1000000 ≤ depthWeight P.tsdf.useConstWeight p.1.z)
    {o q : Pt} (ho : V.position = o.map .fin) (hq : V.toG (p.1.map .fin) = q.map .fin) {L : ℚ} (hL : 0 < L) (hLL : L * L = dist2 o q)
    (hsq : sq (L * L) = .fin L) (hx : q.x ≠ o.x) (hy : q.y ≠ o.y) (hz : q.z ≠ o.z) {S E : Idx}
    (hS : WellInside s S (pointAt o q L (span true P.carving L T R).1)) (hE : WellInside s E (pointAt o q L (span true P.carving L T R).2))
    (nS : SmallIndex S) (nE : SmallIndex E) :
    ∃ ws gs, bundleVisits (Arith.exact sq) P s V cloud true normal (key, is) = .ok ws ∧
      Traverses s o q L (span true P.carving L T R).1 (span true P.carving L T R).2 gs ∧
      ((ws.map (·.g)).Sublist gs ∧ ∀ g ∈ gs, g ∉ ws.map (·.g) ↔ P.antiGrazing = true ∧ ∃ e ∈ normal, e.1 = g) ∧
      ∀ w ∈ ws, Observes s o q p.2 (depthWeight P.tsdf.useConstWeight p.1.z) w := by
  have hb := C25_clearing_bundle_first sq P.tsdf pre p post hpre hp
  rw [← hps] at hb
  have his : is ≠ [] := by
    rintro rfl
    have := congrArg List.length hps
    simp [members] at this
  obtain ⟨ws, gs, h1, h2, h3, h4⟩ := bundleVisits_traverse (normal := normal) (key := key) hs hT hT0 hR hR0 his hb ho hq hL hLL hsq hx hy hz hS hE nS nE
  refine ⟨ws, gs, h1, h2, ?_, h4⟩
  simpa using h3

example : members (exPoints.zip exColors) [2, 0] =
    ([] ++ (⟨8, 4, 8⟩, exFar.2) :: [(⟨4, 2, 4⟩, exNear.2)] : List (Pt × Color)).map fun p => (p.1.map .fin, p.2) := by decide +kernel

end Vox.TsdfScan
