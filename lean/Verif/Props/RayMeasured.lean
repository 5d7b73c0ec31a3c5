/-
C114: in single precision a measured point reaches its voxel; and the coverage of C113 for arbitrary end points.
-/
import Verif.Lemmas.ScanFloat
import Verif.Props.TsdfScan

namespace Vox.Ray

open Fl Spec Ieee

/-- **C113.** Without any condition on the end point: the traversal ends after at most `N + 1` voxels, and every point of the segment that is two tolerances
or more before the end along every axis lies, up to the tolerance, in one of the voxels. -/
theorem C113_coverage (s e : Pt) (X : ℚ) (N : ℕ) (hs : CoordsWithin X s) (he : CoordsWithin X e) (hX : X ≤ 2 ^ 20)
    (hr : ApartBy (1 / 2 ^ 60) s e) (hN : l1length s e + 4 ≤ N) (hN2 : N ≤ 2 ^ 11) (n : ℕ) (hn : N + 2 ≤ n) :
    ∃ l, castRay float32 (s.map .fin) (e.map .fin) n = .ok (some l) ∧ l.length ≤ N + 1 ∧
      ∀ t, 0 ≤ t → ApartBy (2 * rayTol X N) (segPoint s e t) e → t ≤ 1 → ∃ c ∈ l, NearUnitCell (rayTol X N) c (segPoint s e t) := by
  obtain ⟨l, h1, -, h3, h4⟩ := cast_cover hs he hX hr hN hN2
  refine ⟨l, h1 n hn, h3, fun t ht ha ht1 => h4 t ht fun i => ?_⟩
  have h := apart_at ha i
  have e1 : at3 e i - at3 (segPoint s e t) i = (at3 e i - at3 s i) * (1 - t) := by
    match i with
    | 0 => simp only [segPoint, at3]; ring
    | 1 => simp only [segPoint, at3]; ring
    | 2 => simp only [segPoint, at3]; ring
  rw [e1, abs_mul, abs_of_nonneg (sub_nonneg.2 ht1)] at h
  exact h

/-- A ray that ends on a corner of four voxels; nine tenths of it are covered. -/
example : CoordsWithin 100 ⟨71 / 2, -41 / 4, 1 / 3⟩ ∧ CoordsWithin 100 ⟨20, -1, 27 / 5⟩ ∧ ApartBy (1 / 2 ^ 60) ⟨71 / 2, -41 / 4, 1 / 3⟩ ⟨20, -1, 27 / 5⟩ ∧
    l1length ⟨71 / 2, -41 / 4, 1 / 3⟩ ⟨20, -1, 27 / 5⟩ + 4 ≤ (35 : ℕ) ∧
    ApartBy (2 * rayTol 100 35) (segPoint ⟨71 / 2, -41 / 4, 1 / 3⟩ ⟨20, -1, 27 / 5⟩ (9 / 10)) ⟨20, -1, 27 / 5⟩ := by
  refine ⟨by norm_num [CoordsWithin, abs_le], by norm_num [CoordsWithin, abs_le], ?_, ?_, ?_⟩
  · norm_num [ApartBy, abs_of_pos, abs_of_neg]
  · norm_num [l1length, abs_of_pos, abs_of_neg]
  · norm_num [ApartBy, rayTol, segPoint, abs_of_pos, abs_of_neg]

end Vox.Ray

namespace Vox.RayEnds

open Fl Spec Ieee Ray Tsdf Layer Grid TsdfScan

/-- **C114.** In IEEE single precision, from the sensor position `o` and the measured point `p` to the enumerated voxels: let `s` be the voxel size, `T` the
truncation distance, `X` bound the coordinates in voxels and `N` the length of the ray in voxels. With the tolerance `fusedTol X N` (in voxels): if the point
lies in the voxel `v` farther than the tolerance from its faces, and the ray leaves the point by at least two tolerances along every axis (the distance to the
sensor and the truncation distance do), the voxel `v` is enumerated — with and without carving, from either end. -/
theorem C114_measured_voxel_visited {P : Params} {o p : Pt} {s T X : ℚ} {N : ℕ} (hT : P.tsdf.truncation = .fin T) (hT0 : 0 < T)
    (hs : 1 / 2 ^ 20 ≤ s) (hs2 : s ≤ 2 ^ 10) (hX1 : 2 ≤ X) (hX : X ≤ 2 ^ 20) (ho : CoordsWithin ((X - 1) * s) o)
    (hp : CoordsWithin ((X - 1) * s - 101 / 100 * T) p) (hN : rayReach P.carving T o p / s + 7 ≤ N) (hN2 : N ≤ 2 ^ 11)
    (hd1 : ApartBy (2 * fusedTol X N * s) o p) (hd2 : ApartBy (3 * fusedTol X N * s / T * l1length o p) o p) {v : Idx}
    (hv : InsideBy (fusedTol X N) v (p.map (· / s))) (fromOrigin : Bool) :
    ∃ l, rayVoxels float32 P s (o.map .fin) (p.map .fin) false fromOrigin = .ok l ∧ l.length ≤ N + 1 ∧ v ∈ l :=
  measured_visited hT hT0 hs hs2 hX1 hX ho hp hN hN2 hd1 hd2 hv fromOrigin

/-- A point five metres away in a map of 0.1 m voxels with a truncation distance of 0.4 m. -/
example : CoordsWithin ((100 - 1) * (1 / 10)) ⟨1 / 3, 1 / 7, 1⟩ ∧ CoordsWithin ((100 - 1) * (1 / 10) - 101 / 100 * (4 / 10)) ⟨407 / 100, 313 / 100, 77 / 100⟩ ∧
    rayReach true (4 / 10) ⟨1 / 3, 1 / 7, 1⟩ ⟨407 / 100, 313 / 100, 77 / 100⟩ / (1 / 10) + 7 ≤ (93 : ℕ) ∧
    ApartBy (2 * fusedTol 100 93 * (1 / 10)) ⟨1 / 3, 1 / 7, 1⟩ ⟨407 / 100, 313 / 100, 77 / 100⟩ ∧
    ApartBy (3 * fusedTol 100 93 * (1 / 10) / (4 / 10) * l1length ⟨1 / 3, 1 / 7, 1⟩ ⟨407 / 100, 313 / 100, 77 / 100⟩) ⟨1 / 3, 1 / 7, 1⟩ ⟨407 / 100, 313 / 100, 77 / 100⟩ ∧
    InsideBy (fusedTol 100 93) ⟨40, 31, 7⟩ ((⟨407 / 100, 313 / 100, 77 / 100⟩ : Pt).map (· / (1 / 10))) ∧ fusedTol 100 93 < 4 / 10000 := by
  refine ⟨by norm_num [CoordsWithin, abs_le], by norm_num [CoordsWithin, abs_le], ?_, ?_, ?_, ?_, ?_⟩
  · norm_num [rayReach, l1length, abs_of_pos, abs_of_neg]
  · norm_num [ApartBy, fusedTol, rayTol, abs_of_pos, abs_of_neg]
  · norm_num [ApartBy, fusedTol, rayTol, l1length, abs_of_pos, abs_of_neg]
  · norm_num [InsideBy, fusedTol, rayTol, Vec3.map]
  · norm_num [fusedTol, rayTol]

/-- **C114.** The whole scan in single precision: whatever the other points, the number of threads and the scheduling, after a scan containing the point `pC` as an
accepted measurement of weight at least 1e-6 (measured under the conditions of `C114_measured_voxel_visited`, coordinates up to 2^13 voxels), its voxel is part of
the map and has a weight of at least 1e-6. -/
theorem C114_measured_voxel_observed {sort : List (ℕ × Fl) → List (ℕ × Fl)} (hsort : Dispatch.IsStdSort sort) {P : Params} {V : View} {points : List (Vec3 Fl)}
    {colors : List Color} {l l' : VLayer (TsdfVoxel Fl)} (wf : WellFormed l) {k : ℕ} (hk : k < 31) (hside : l.cfg.vps = 2 ^ k)
    (hr : InReach (visitsOf ((points.zip colors).map (pointVisits float32 P l.cfg.voxelSize V false))))
    (h : Simple float32 sort P V points colors false l (.ok l'))
    {M : ℚ} (hM : P.tsdf.maxWeight = .fin M) (hrM : float32.rnd M = .fin M) (hM0 : 1 / 1000000 ≤ M)
    (hF : Fl.le (.fin 0) P.tsdf.sparsityFactor = true) (hsp : P.tsdf.useSparsity = false)
    (hl : ∀ g v, content l g = some v → ∃ W, v.weight = .fin W ∧ float32.rnd W = .fin W ∧ 0 ≤ W ∧ W ≤ M)
    {pC : Vec3 Fl} {c : Color} (hpc : (pC, c) ∈ points.zip colors)
    (hmin : Fl.lt (float32.norm pC) P.tsdf.minRay = false) (hmax : Fl.lt P.tsdf.maxRay (float32.norm pC) = false)
    {w : ℚ} (hw : voxelWeight float32 P.tsdf pC.z = .fin w) (hw0 : 1 / 1000000 ≤ w)
    {o p : Pt} (ho' : V.position = o.map .fin) (hp' : V.toG pC = p.map .fin)
    {T X : ℚ} {N : ℕ} (hT : P.tsdf.truncation = .fin T) (hT0 : 0 < T)
    (hs : 1 / 2 ^ 20 ≤ l.cfg.voxelSize) (hs2 : l.cfg.voxelSize ≤ 2 ^ 10) (hX1 : 2 ≤ X) (hX : X ≤ 2 ^ 13) (ho : CoordsWithin ((X - 1) * l.cfg.voxelSize) o)
    (hp : CoordsWithin ((X - 1) * l.cfg.voxelSize - 101 / 100 * T) p) (hN : rayReach P.carving T o p / l.cfg.voxelSize + 7 ≤ N) (hN2 : N ≤ 2 ^ 11)
    (hL : 1 / 2 ^ 10 ≤ segLength o p)
    (hd1 : ApartBy (2 * fusedTol X N * l.cfg.voxelSize) o p) (hd2 : ApartBy (3 * fusedTol X N * l.cfg.voxelSize / T * l1length o p) o p) {g : Idx}
    (hg : InsideBy (fusedTol X N) g (p.map (· / l.cfg.voxelSize))) :
    ∃ v W, content l' g = some v ∧ v.weight = .fin W ∧ 1 / 1000000 ≤ W := by
  obtain ⟨-, hrays, had⟩ := C93_scan_adds hsort wf hk hside hr h
  have hvalid : isPointValid P.tsdf (float32.norm pC) false = some false := by
    unfold isPointValid
    rw [if_neg (by rw [hmin]; simp), if_neg (by rw [hmax]; simp)]
  obtain ⟨ws, hws⟩ := hrays _ hpc
  have hvis : visitOf float32 l.cfg.voxelSize V.position (V.toG pC) c (.fin w) g ∈ ws := by
    unfold pointVisits at hws
    simp only [hvalid] at hws
    obtain ⟨gs, hgs, hws⟩ := Outcome.bind_eq_ok.1 hws
    have hwse := Outcome.ok.inj hws
    rw [ho', hp'] at hgs
    obtain ⟨l2, e1, -, e2⟩ := measured_visited hT hT0 hs hs2 hX1 (hX.trans (by norm_num)) ho hp hN hN2 hd1 hd2 hg true
    rw [e1] at hgs
    rw [Outcome.ok.inj hgs] at e2
    rw [← hwse, hw]
    exact List.mem_map.2 ⟨g, e2, rfl⟩
  generalize hall : visitsOf ((points.zip colors).map (pointVisits float32 P l.cfg.voxelSize V false)) = all at *
  have hmem : visitOf float32 l.cfg.voxelSize V.position (V.toG pC) c (.fin w) g ∈ all := by
    rw [← hall]
    unfold visitsOf
    refine List.mem_flatMap.2 ⟨_, List.mem_map.2 ⟨(pC, c), hpc, rfl⟩, ?_⟩
    rw [hws]
    exact hvis
  obtain ⟨os, v, h1, h2, h3⟩ := had.touched g ⟨_, hmem, rfl⟩
  have hobs : (visitOf float32 l.cfg.voxelSize V.position (V.toG pC) c (.fin w) g).obs ∈ os := by
    refine h1.mem_iff.2 ?_
    unfold obsOf
    exact List.mem_map.2 ⟨_, List.mem_filter.2 ⟨hmem, by simp [visitOf]⟩, rfl⟩
  have hnn : ∀ o ∈ os, Fl.le (.fin 0) o.weight = true := by
    intro o ho2
    obtain ⟨x, hx, rfl⟩ := mem_obsOf (h1.mem_iff.1 ho2)
    rw [← hall] at hx
    unfold visitsOf at hx
    obtain ⟨j, hjm, huj⟩ := List.mem_flatMap.1 hx
    obtain ⟨p2, hp2, rfl⟩ := List.mem_map.1 hjm
    obtain ⟨ws', hws'⟩ := hrays p2 hp2
    rw [hws'] at huj
    unfold pointVisits at hws'
    cases hval : isPointValid P.tsdf (float32.norm p2.1) false with
    | none =>
      rw [hval] at hws'
      rw [← Outcome.ok.inj hws'] at huj
      cases huj
    | some b =>
      rw [hval] at hws'
      simp only at hws'
      obtain ⟨gs, -, hws'⟩ := Outcome.bind_eq_ok.1 hws'
      rw [← Outcome.ok.inj hws'] at huj
      obtain ⟨g', -, rfl⟩ := List.mem_map.1 huj
      exact voxelWeight_nonneg float32_faithful _ _
  have hp1 : CoordsWithin ((X - 1) * l.cfg.voxelSize) p := by
    obtain ⟨a, b, c⟩ := hp
    exact ⟨by linarith, by linarith, by linarith⟩
  have hm0 : 0 ≤ fusedTol X N := by
    unfold fusedTol rayTol
    positivity
  have hg0 : InsideBy 0 g (p.map (· / l.cfg.voxelSize)) := by
    obtain ⟨⟨a, b⟩, ⟨c, d⟩, e, f⟩ := hg
    exact ⟨⟨by linarith, by linarith⟩, ⟨by linarith, by linarith⟩, by linarith, by linarith⟩
  obtain ⟨d, hd, hd0⟩ := measured_distance_float hs hs2 hX ho hp1 hL hg0
  have hupd : updatedWeight float32 P.tsdf (.fin l.cfg.voxelSize)
      (computeDistance float32 V.position (V.toG pC) (centerFl float32 l.cfg.voxelSize g)) (.fin w) = .fin w := by
    rw [ho', hp', hd]
    unfold updatedWeight
    rw [if_neg (c := (P.tsdf.useWeightDropoff && Fl.lt (.fin d) (Fl.neg (.fin l.cfg.voxelSize))) = true) (by
      simp only [Fl.neg, Fl.lt, Bool.and_eq_true, decide_eq_true_eq, not_and, not_lt]
      intro _; linarith), if_neg (by rw [hsp]; simp)]
  obtain ⟨W, hW, hrW, hW0, hWM⟩ : ∃ W, ((content l g).getD freshVoxel).weight = .fin W ∧ float32.rnd W = .fin W ∧ 0 ≤ W ∧ W ≤ M := by
    cases hc : content l g with
    | none => exact ⟨0, rfl, float32_faithful.zero, le_rfl, by linarith⟩
    | some x => exact hl g x hc
  obtain ⟨W', e1, e2⟩ := observed_round float32_faithful hM hrM hM0 hF hnn hobs hupd (voxelWeight_rnd hw) hw0 hW hrW hW0 hWM h2
  exact ⟨v, W', h3, e1, e2⟩

/-- The view of the example in `float`. -/
def exView32 : View :=
  { position := (⟨1 / 2, 1 / 2, 1 / 2⟩ : Pt).map .fin
    toG := fun p => float32.vadd p ((⟨1 / 2, 1 / 2, 1 / 2⟩ : Pt).map .fin) }

def exVisits32 : List Visit := match pointVisits float32 exScan 1 exView32 false exNear with
  | .ok ws => ws
  | _ => []

theorem exNear32_ok : pointVisits float32 exScan 1 exView32 false exNear = .ok exVisits32 := by
  have h : (match pointVisits float32 exScan 1 exView32 false exNear with | .ok _ => true | _ => false) = true := by
    decide +kernel
  unfold exVisits32
  split at h
  · rename_i e; rw [e]
  · cases h

/-- A scan of one point, and the numbers of its measurement. -/
example : (∃ l', Simple float32 exSort exScan exView32 [exNear.1] [exNear.2] false exEmpty (.ok l')) ∧
    InReach (visitsOf ([exNear].map (pointVisits float32 exScan 1 exView32 false))) ∧
    float32.rnd 100 = .fin 100 ∧ Fl.lt (float32.norm exNear.1) exScan.tsdf.minRay = false ∧ Fl.lt exScan.tsdf.maxRay (float32.norm exNear.1) = false ∧
    voxelWeight float32 exScan.tsdf exNear.1.z = .fin 1 ∧ exView32.toG exNear.1 = (⟨9 / 2, 5 / 2, 9 / 2⟩ : Pt).map .fin ∧
    CoordsWithin ((10 - 1) * 1) ⟨1 / 2, 1 / 2, 1 / 2⟩ ∧ CoordsWithin ((10 - 1) * 1 - 101 / 100 * 1) ⟨9 / 2, 5 / 2, 9 / 2⟩ ∧
    rayReach true 1 ⟨1 / 2, 1 / 2, 1 / 2⟩ ⟨9 / 2, 5 / 2, 9 / 2⟩ / 1 + 7 ≤ (21 : ℕ) ∧ (1 / 2 ^ 10 : ℝ) ≤ segLength ⟨1 / 2, 1 / 2, 1 / 2⟩ ⟨9 / 2, 5 / 2, 9 / 2⟩ ∧
    ApartBy (2 * fusedTol 10 21 * 1) ⟨1 / 2, 1 / 2, 1 / 2⟩ ⟨9 / 2, 5 / 2, 9 / 2⟩ ∧
    ApartBy (3 * fusedTol 10 21 * 1 / 1 * l1length ⟨1 / 2, 1 / 2, 1 / 2⟩ ⟨9 / 2, 5 / 2, 9 / 2⟩) ⟨1 / 2, 1 / 2, 1 / 2⟩ ⟨9 / 2, 5 / 2, 9 / 2⟩ ∧
    InsideBy (fusedTol 10 21) ⟨4, 2, 4⟩ ((⟨9 / 2, 5 / 2, 9 / 2⟩ : Pt).map (· / 1)) := by
  refine ⟨?_, ?_, by decide +kernel, by decide +kernel, by decide +kernel, rfl, by decide +kernel, by norm_num [CoordsWithin, abs_le], by norm_num [CoordsWithin, abs_le], ?_, ?_, ?_, ?_, ?_⟩
  · have hord : order exSort exScan.mode (sqNorms float32 [exNear.1]) = .ok [0] := by decide +kernel
    have hrun : (match (exVisits32.foldlM (visit float32 exScan) (Store.start exEmpty) >>= fun st => st.merge) with | .ok _ => true | _ => false) = true := by
      decide +kernel
    split at hrun
    · rename_i l' e
      obtain ⟨st, h1, h2⟩ := Outcome.bind_eq_ok.1 e
      refine ⟨l', Simple.run rfl hord ?_⟩
      have hjobs : jobsFor (pointVisits float32 exScan exEmpty.cfg.voxelSize exView32 false) ([exNear.1].zip [exNear.2]) [0] = [.ok exVisits32] := by
        show [pointVisits float32 exScan 1 exView32 false exNear] = _
        rw [exNear32_ok]
      rw [hjobs, ← h2]
      exact sequential (A := float32) (P := exScan) (n := exScan.threads) (by decide) exEmpty [exVisits32] (st := st) (by simpa using h1)
    · cases hrun
  · have e : visitsOf ([exNear].map (pointVisits float32 exScan 1 exView32 false)) = exVisits32 := by
      simp only [List.map_cons, List.map_nil, exNear32_ok]
      simp [visitsOf]
    rw [e]
    have : (exVisits32.all fun w => decide (|w.g.x| ≤ 2 ^ 24 ∧ |w.g.y| ≤ 2 ^ 24 ∧ |w.g.z| ≤ 2 ^ 24)) = true := by decide +kernel
    intro w hw
    exact of_decide_eq_true (List.all_eq_true.1 this w hw)
  · norm_num [rayReach, l1length, abs_of_pos]
  · unfold segLength
    rw [Real.le_sqrt (by positivity) (by norm_num)]
    norm_num
  · norm_num [ApartBy, fusedTol, rayTol, abs_of_pos]
  · norm_num [ApartBy, fusedTol, rayTol, l1length, abs_of_pos]
  · norm_num [InsideBy, fusedTol, rayTol, Vec3.map]

/-- **C114, violated for rays in a plane x = const.** A point measured straight ahead in such a plane, well inside the voxel (0, 4, 2), leaves no trace there: the ray
never leaves the voxel of the sensor, with carving; without, it never leaves the voxel the truncation distance before the point. -/
theorem C114_plane_violated : ∀ carving : Bool, ∃ l,
    rayVoxels float32 { exScan with carving := carving } 1 ((⟨1 / 2, 1 / 2, 1 / 2⟩ : Pt).map .fin) ((⟨1 / 2, 9 / 2, 5 / 2⟩ : Pt).map .fin) false true = .ok l ∧
      (⟨0, 4, 2⟩ : Idx) ∉ l ∧ InsideBy (1 / 4) ⟨0, 4, 2⟩ ⟨1 / 2, 9 / 2, 5 / 2⟩ := by
  have h : ∀ o : Outcome (List Idx), (match o with | .ok l => decide ((⟨0, 4, 2⟩ : Idx) ∉ l) | _ => false) = true → ∃ l, o = .ok l ∧ (⟨0, 4, 2⟩ : Idx) ∉ l := by
    intro o ho
    match o with
    | .ok l => exact ⟨l, rfl, of_decide_eq_true ho⟩
    | .fatal => cases ho
    | .ub => cases ho
  have hin : InsideBy (1 / 4) ⟨0, 4, 2⟩ ⟨1 / 2, 9 / 2, 5 / 2⟩ := by norm_num [InsideBy]
  intro carving
  cases carving with
  | true =>
    obtain ⟨l, h1, h2⟩ := h (rayVoxels float32 { exScan with carving := true } 1 ((⟨1 / 2, 1 / 2, 1 / 2⟩ : Pt).map .fin) ((⟨1 / 2, 9 / 2, 5 / 2⟩ : Pt).map .fin) false true)
      (by decide +kernel)
    exact ⟨l, h1, h2, hin⟩
  | false =>
    obtain ⟨l, h1, h2⟩ := h (rayVoxels float32 { exScan with carving := false } 1 ((⟨1 / 2, 1 / 2, 1 / 2⟩ : Pt).map .fin) ((⟨1 / 2, 9 / 2, 5 / 2⟩ : Pt).map .fin) false true)
      (by decide +kernel)
    exact ⟨l, h1, h2, hin⟩

end Vox.RayEnds
