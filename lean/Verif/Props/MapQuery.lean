/-
Property C86: answers to queries of a map.
-/
import Verif.Lemmas.MapQuery

namespace Vox.MapQuery

open Layer Grid Interp Spec Ieee

/-! ### Example: one block of side 4 with voxels of size 1, holding the distance to the plane x = 0; the last voxel is not observed -/

def exVoxels : List (EsdfVoxel ℚ) :=
  (List.range 64).map fun (n : ℕ) => ⟨(n % 4 : ℕ) + 1 / 2, decide (n ≠ 63), false, false, false, ⟨0, 0, 0⟩⟩

def exLayer : VLayer (EsdfVoxel ℚ) :=
  { cfg := ⟨1, 4⟩
    blocks := [(⟨0, 0, 0⟩, { vps := 4, voxelSize := 1, origin := ⟨0, 0, 0⟩, hasData := true, updated := Flags.setAll, voxels := exVoxels })] }

theorem exLayer_wf : WellFormed exLayer := by
  refine ⟨by norm_num [exLayer], by decide, by decide, ?_⟩
  intro i b h
  have key : ∀ e ∈ exLayer.blocks, e.2.vps = exLayer.cfg.vps ∧ e.2.voxelSize = exLayer.cfg.voxelSize ∧
      e.2.origin = ⟨e.1.x * (exLayer.cfg.voxelSize * exLayer.cfg.vps), e.1.y * (exLayer.cfg.voxelSize * exLayer.cfg.vps),
        e.1.z * (exLayer.cfg.voxelSize * exLayer.cfg.vps)⟩ ∧ e.2.voxels.length = exLayer.cfg.vps * exLayer.cfg.vps * exLayer.cfg.vps := by decide +kernel
  have hm : (i, b) ∈ exLayer.blocks := by
    obtain ⟨l1, l2, e, -⟩ := List.lookup_eq_some_iff.1 h
    rw [e]
    simp
  exact key _ hm

theorem castPos_half (a b c : ℤ) (ha : |a| ≤ 2 ^ 24) (hb : |b| ≤ 2 ^ 24) (hc : |c| ≤ 2 ^ 24) : castPos ⟨a / 2, b / 2, c / 2⟩ = ⟨a / 2, b / 2, c / 2⟩ := by
  have h : ∀ n : ℤ, |n| ≤ 2 ^ 24 → rnd32 (n / 2) = n / 2 := by
    intro n h
    have := rne_exact (p := 24) (qmin := -149) (by norm_num) (k := n) (e := -1) (by exact_mod_cast h) (by norm_num)
    have e : pow2 (-1) = 1 / 2 := by norm_num [pow2]
    rw [e, mul_one_div] at this
    exact this
  unfold castPos Vec3.map
  rw [h a ha, h b hb, h c hc]

/-! ### Distances -/

/-- **C86**, without interpolation: the distance of the voxel is returned if it is observed, and this is what `isObserved` tells; otherwise the call fails
and the variable of the caller keeps its value. -/
theorem C86_nearest {l : VLayer (EsdfVoxel ℚ)} (wf : WellFormed l) {p : Pt} (hp : Addressable l (castPos p)) {g : Idx} (hg : ClearInVoxel l g (castPos p)) (out : ℚ) :
    (∀ v, content l g = some v → v.observed = true → getDistanceAtPosition l false p out = .ok (true, v.distance) ∧ isObserved l p = .ok true) ∧
    ((∀ v, content l g = some v → v.observed = false) → getDistanceAtPosition l false p out = .ok (false, out) ∧ isObserved l p = .ok false) := by
  have e1 : getDistanceAtPosition l false p out = .ok (answer out (((content l g).filter obsEsdf).map (·.distance))) := by
    obtain ⟨r, h1, h2⟩ := getDistanceAtPosition_get wf false hp out
    have := nearest_spec wf obsEsdf (·.distance) hp
    rw [gIdx_eq wf hg] at this
    rw [h2]
    have e : r = _ := Outcome.ok.inj (h1.symm.trans this)
    rw [e]
  have e2 : isObserved l p = .ok (match content l g with
      | none => false
      | some v => v.observed) := by
    unfold isObserved
    rw [voxelAt_ok wf hp, gIdx_eq wf hg, Outcome.bind_ok]
    cases content l g <;> rfl
  rw [e1, e2]
  constructor
  · intro v hv ho
    rw [hv, Option.filter_some, if_pos (show obsEsdf v = true from ho)]
    exact ⟨rfl, by rw [← ho]⟩
  · intro h
    cases hc : content l g with
    | none => exact ⟨rfl, rfl⟩
    | some v =>
      have ho := h v hc
      rw [Option.filter_some, if_neg (by rw [show obsEsdf v = false from ho]; exact Bool.false_ne_true)]
      exact ⟨rfl, by rw [← ho]⟩

example : ClearInVoxel exLayer ⟨2, 1, 1⟩ (castPos ⟨5 / 2, 3 / 2, 3 / 2⟩) ∧ getDistanceAtPosition exLayer false ⟨5 / 2, 3 / 2, 3 / 2⟩ 7 = .ok (true, 5 / 2) ∧
    getDistanceAtPosition exLayer false ⟨7 / 2, 7 / 2, 7 / 2⟩ 7 = .ok (false, 7) := by
  refine ⟨?_, by decide +kernel, by decide +kernel⟩
  have := castPos_half 5 3 3 (by norm_num) (by norm_num) (by norm_num)
  norm_num at this
  rw [this]
  refine ⟨?_, ?_, ?_⟩ <;> norm_num [exLayer]

/-- **C86**, with interpolation: the trilinear interpolation of the eight voxels around the position is returned if all of them are observed; otherwise the
call fails and the variable of the caller keeps its value. -/
theorem C86_interpolated {l : VLayer (EsdfVoxel ℚ)} (wf : WellFormed l) {p : Pt} (hp : Addressable l (castPos p)) {g : Idx}
    (hg : InDualCell l.cfg.voxelSize g (castPos p)) (out : ℚ) :
    (∀ f : Idx → EsdfVoxel ℚ, (∀ c, IsCorner c → content l (g + c) = some (f c) ∧ (f c).observed = true) →
      getDistanceAtPosition l true p out = .ok (true, trilinear (fun c => (f c).distance)
        ⟨((castPos p).x - (g.x + 1 / 2) * l.cfg.voxelSize) / l.cfg.voxelSize, ((castPos p).y - (g.y + 1 / 2) * l.cfg.voxelSize) / l.cfg.voxelSize,
          ((castPos p).z - (g.z + 1 / 2) * l.cfg.voxelSize) / l.cfg.voxelSize⟩)) ∧
    ∀ c, IsCorner c → (∀ v, content l (g + c) = some v → v.observed = false) → getDistanceAtPosition l true p out = .ok (false, out) := by
  obtain ⟨r, h1, h2⟩ := getDistanceAtPosition_get wf true hp out
  have h1' : interpDistance l obsEsdf (·.distance) (castPos p) = .ok r := h1
  rw [h2]
  constructor
  · intro f hf
    have := C47_trilinear wf obsEsdf (·.distance) hp hg hf
    rw [Outcome.ok.inj (h1'.symm.trans this)]
    rfl
  · intro c hc hv
    have := (C48_refuses wf obsEsdf hp hg hc hv).2 (·.distance)
    rw [Outcome.ok.inj (h1'.symm.trans this)]
    rfl

example : getDistanceAtPosition exLayer true ⟨2, 2, 2⟩ 7 = .ok (true, 2) ∧ getDistanceAtPosition exLayer true ⟨3, 3, 3⟩ 7 = .ok (false, 7) := by
  refine ⟨by decide +kernel, by decide +kernel⟩

/-- **C86**, consistency of the queries at every position within the range of indexes: the plain distance is known exactly where `isObserved` holds,
the interpolated one only there, and no failing call changes the variable of the caller. -/
theorem C86_consistent {l : VLayer (EsdfVoxel ℚ)} (wf : WellFormed l) {p : Pt} (hp : Addressable l (castPos p)) (out : ℚ) :
    ∃ b bi d di, isObserved l p = .ok b ∧ getDistanceAtPosition l false p out = .ok (b, d) ∧ getDistanceAtPosition l true p out = .ok (bi, di) ∧
      (bi = true → b = true) ∧ (b = false → d = out) ∧ (bi = false → di = out) := by
  obtain ⟨r, h1, h2⟩ := getDistanceAtPosition_get wf false hp out
  obtain ⟨ri, i1, i2⟩ := getDistanceAtPosition_get wf true hp out
  have h1' : r = _ := Outcome.ok.inj (h1.symm.trans (nearest_spec wf obsEsdf (·.distance) hp))
  have ho : isObserved l p = .ok (match content l (gIdx l (castPos p)) with
      | none => false
      | some v => v.observed) := by
    unfold isObserved
    rw [voxelAt_ok wf hp, Outcome.bind_ok]
    cases content l (gIdx l (castPos p)) <;> rfl
  obtain ⟨g, hg, -⟩ := C48_cell_exists_unique wf.size_pos (castPos p)
  obtain ⟨c, hc, e⟩ := gIdx_corner wf hg
  have him : (∀ v, content l (gIdx l (castPos p)) = some v → v.observed = false) → ri = none := by
    intro h
    rw [e] at h
    have := (C48_refuses wf obsEsdf hp hg hc h).2 (·.distance)
    exact Outcome.ok.inj (i1.symm.trans this)
  rw [h2, i2, ho]
  cases hv : content l (gIdx l (castPos p)) with
  | none =>
    rw [hv] at h1' him
    rw [h1', him (fun v h => by cases h)]
    exact ⟨_, _, _, _, rfl, rfl, rfl, by simp, by simp, by simp⟩
  | some v =>
    rw [hv] at h1' him
    cases hob : v.observed with
    | true =>
      rw [h1', Option.filter_some, if_pos (show obsEsdf v = true from hob)]
      refine ⟨true, _, _, _, by rw [← hob], rfl, rfl, fun _ => rfl, by simp, ?_⟩
      cases ri <;> simp
    | false =>
      rw [h1', Option.filter_some, if_neg (by rw [show obsEsdf v = false from hob]; exact Bool.false_ne_true), him (fun w hw => by rw [← Option.some.inj hw]; exact hob)]
      exact ⟨false, _, _, _, by rw [← hob], rfl, rfl, by simp, by simp, by simp⟩

example : Addressable exLayer (castPos ⟨3, 3, 3⟩) ∧ isObserved exLayer ⟨3, 3, 3⟩ = .ok false ∧ isObserved exLayer ⟨5 / 2, 3, 3⟩ = .ok true := by
  refine ⟨?_, by decide +kernel, by decide +kernel⟩
  have := castPos_half 6 6 6 (by norm_num) (by norm_num) (by norm_num)
  norm_num at this
  rw [this]
  refine ⟨?_, ?_, ?_⟩ <;> norm_num [exLayer]

/-! ### Gradients -/

/-- **C86**, distance and gradient: the call ends normally, and if it succeeds, the distance is that of `getDistanceAtPosition`, and in a linear field the gradient
(interpolated) is the slope and the distance exact. -/
theorem C86_gradient {l : VLayer (EsdfVoxel ℚ)} (wf : WellFormed l) (interpolate : Bool) {p : Pt} (hp : Interior l (castPos p)) :
    ∃ b d v, getDistanceAndGradientAtPosition l interpolate p = .ok (b, d, v) ∧
      (b = true ↔ (∃ d', getDistanceAtPosition l interpolate p 0 = .ok (true, d')) ∧ ∃ v', getGradient l obsEsdf (·.distance) interpolate (castPos p) = .ok (some v')) ∧
      (b = true → ∀ out, getDistanceAtPosition l interpolate p out = .ok (true, d)) ∧
      ∀ a k, AffineField l obsEsdf (·.distance) a k → interpolate = true → b = true → v = a ∧ d = affine a k (castPos p) := by
  have h0 := (addressable_of_interior wf hp).1
  obtain ⟨r, b, d, h1, h2, h3, h4⟩ := distanceTo_get wf obsEsdf (·.distance) interpolate h0 0
  obtain ⟨rg, bg, g, g1, g2, g3, g4⟩ := gradientTo_get wf obsEsdf (·.distance) interpolate hp ⟨0, 0, 0⟩
  have hd : ∀ out, getDistanceAtPosition l interpolate p out = .ok (answer out r) := by
    intro out
    obtain ⟨r', e1, e2⟩ := getDistanceAtPosition_get wf interpolate h0 out
    rw [e2, Outcome.ok.inj (e1.symm.trans h1)]
  refine ⟨b && bg, d, g, ?_, ?_, ?_, ?_⟩
  · unfold getDistanceAndGradientAtPosition
    rw [h2, Outcome.bind_ok, g2]
    rfl
  · rw [Bool.and_eq_true, hd, g1]
    constructor
    · rintro ⟨rfl, rfl⟩
      rw [h3 rfl, g3 rfl]
      exact ⟨⟨_, rfl⟩, _, rfl⟩
    · rintro ⟨⟨d', e⟩, v', e'⟩
      constructor
      · cases b with
        | true => rfl
        | false =>
          rw [h4 rfl] at e
          cases e
      · cases bg with
        | true => rfl
        | false =>
          rw [g4 rfl] at e'
          cases e'
  · intro hb out
    rw [Bool.and_eq_true] at hb
    rw [hd, h3 hb.1]
    rfl
  · intro a k hf hi hb
    rw [Bool.and_eq_true] at hb
    subst hi
    constructor
    · obtain ⟨r', e1, e2⟩ := C49_interpolated_exact wf obsEsdf (·.distance) hp a k hf
      rw [g1] at e1
      exact e2 g (by rw [← Outcome.ok.inj e1]; exact g3 hb.2)
    · have h1' : interpDistance l obsEsdf (·.distance) (castPos p) = .ok r := h1
      rw [h3 hb.1] at h1'
      exact C47_exact_on_affine wf obsEsdf (·.distance) h0 a k hf h1'

example : Interior exLayer (castPos ⟨2, 2, 2⟩) ∧ getDistanceAndGradientAtPosition exLayer true ⟨2, 2, 2⟩ = .ok (true, 2, ⟨1, 0, 0⟩) := by
  refine ⟨?_, by decide +kernel⟩
  have := castPos_half 4 4 4 (by norm_num) (by norm_num) (by norm_num)
  norm_num at this
  rw [this]
  refine ⟨?_, ?_, ?_⟩ <;> norm_num [exLayer]

/-- **C86** is violated by the query with gradient: unlike the other one it overwrites the variables when it fails. What they get then is zero, the distance of an
unobserved voxel, or a part of the gradient's sum that is not even scaled. -/
theorem C86_failure_violated :
    getDistanceAndGradientAtPosition exLayer true ⟨9, 9, 9⟩ = .ok (false, 0, ⟨0, 0, 0⟩) ∧
    getDistanceAndGradientAtPosition exLayer true ⟨3, 3, 3⟩ = .ok (false, 0, ⟨-2, 0, 0⟩) ∧
    getDistanceAndGradientAtPosition exLayer false ⟨7 / 2, 7 / 2, 7 / 2⟩ = .ok (false, 7 / 2, ⟨-5 / 2, 0, 0⟩) ∧
    isObserved exLayer ⟨7 / 2, 7 / 2, 7 / 2⟩ = .ok false ∧
    getDistanceAndGradientAtPosition exLayer false ⟨7 / 2, 3 / 2, 3 / 2⟩ = .ok (false, 7 / 2, ⟨-5 / 2, 0, 0⟩) ∧
    getDistanceAtPosition exLayer false ⟨7 / 2, 3 / 2, 3 / 2⟩ 0 = .ok (true, 7 / 2) := by
  refine ⟨by decide +kernel, by decide +kernel, by decide +kernel, by decide +kernel, by decide +kernel, by decide +kernel⟩

/-! ### Rounding of positions -/

/-- **C86**, positions are given as `double`s but looked up as `float`s: the voxel is the right one for positions that are further from the voxel's borders
than 2^-24 of their distance from the origin. -/
theorem C86_rounded {V : Type} {l : VLayer V} {g : Idx} {p : Pt}
    (h : Vec3.All₂ (fun (c : ℤ) (q : ℚ) => (c : ℚ) * l.cfg.voxelSize ≤ q - (|q| / 2 ^ 24 + 1 / 2 ^ 150) ∧
      q + (|q| / 2 ^ 24 + 1 / 2 ^ 150) < ((c : ℚ) + 1 - l.cfg.vps * (1 / 1000000)) * l.cfg.voxelSize) g p) : ClearInVoxel l g (castPos p) := by
  have ax : ∀ {c : ℤ} {q : ℚ}, (c : ℚ) * l.cfg.voxelSize ≤ q - (|q| / 2 ^ 24 + 1 / 2 ^ 150) ∧
      q + (|q| / 2 ^ 24 + 1 / 2 ^ 150) < ((c : ℚ) + 1 - l.cfg.vps * (1 / 1000000)) * l.cfg.voxelSize →
      (c : ℚ) * l.cfg.voxelSize ≤ rnd32 q ∧ rnd32 q < ((c : ℚ) + 1 - l.cfg.vps * (1 / 1000000)) * l.cfg.voxelSize := by
    intro c q hq
    have e := abs_le.1 (IndexF.rnd32_err q)
    have e2 : IndexF.u * |q| + IndexF.eta = |q| / 2 ^ 24 + 1 / 2 ^ 150 := by
      unfold IndexF.u IndexF.eta
      ring
    rw [e2] at e
    constructor
    · linarith [hq.1, e.1]
    · linarith [hq.2, e.2]
  exact ⟨ax h.1, ax h.2.1, ax h.2.2⟩

example : Vec3.All₂ (fun (c : ℤ) (q : ℚ) => (c : ℚ) * exLayer.cfg.voxelSize ≤ q - (|q| / 2 ^ 24 + 1 / 2 ^ 150) ∧
    q + (|q| / 2 ^ 24 + 1 / 2 ^ 150) < ((c : ℚ) + 1 - exLayer.cfg.vps * (1 / 1000000)) * exLayer.cfg.voxelSize) ⟨2, 1, 1⟩ ⟨12 / 5, 11 / 10, 19 / 10⟩ := by
  refine ⟨?_, ?_, ?_⟩ <;> norm_num [exLayer]

/-- A map of one voxel of size 1 between 16777217 and 16777218. -/
def exFar : VLayer (EsdfVoxel ℚ) :=
  { cfg := ⟨1, 1⟩
    blocks := [(⟨16777217, 0, 0⟩, { vps := 1, voxelSize := 1, origin := ⟨16777217, 0, 0⟩, hasData := true, updated := Flags.setAll,
                                    voxels := [⟨1, true, false, false, false, ⟨0, 0, 0⟩⟩] })] }

/-- **C86** is violated far from the origin: the middle of an observed voxel, given as a `double`, is not found. -/
theorem C86_rounded_violated : content exFar ⟨16777217, 0, 0⟩ = some ⟨1, true, false, false, false, ⟨0, 0, 0⟩⟩ ∧
    isObserved exFar ⟨16777217 + 1 / 2, 1 / 2, 1 / 2⟩ = .ok false ∧ getDistanceAtPosition exFar false ⟨16777217 + 1 / 2, 1 / 2, 1 / 2⟩ 0 = .ok (false, 0) := by
  refine ⟨by decide +kernel, by decide +kernel, by decide +kernel⟩

/-! ### Weights -/

/-- **C86** for weights of a TSDF map. -/
theorem C86_weight {l : VLayer (TsdfVoxel ℚ)} (wf : WellFormed l) {p : Pt} (hp : Addressable l (castPos p)) {g : Idx} (hg : ClearInVoxel l g (castPos p)) (out : ℚ) :
    (∀ v, content l g = some v → 1 / 1000000 < v.weight → getWeightAtPosition l false p out = .ok (true, v.weight)) ∧
    ((∀ v, content l g = some v → v.weight ≤ 1 / 1000000) → getWeightAtPosition l false p out = .ok (false, out)) := by
  obtain ⟨r, h1, h2⟩ := getWeightAtPosition_get wf false hp out
  have := nearest_spec wf obsTsdf (·.weight) hp
  rw [gIdx_eq wf hg] at this
  rw [h2, Outcome.ok.inj (h1.symm.trans this)]
  constructor
  · intro v hv ho
    rw [hv, Option.filter_some, if_pos (show obsTsdf v = true from decide_eq_true ho)]
    rfl
  · intro h
    cases hc : content l g with
    | none => rfl
    | some v =>
      rw [Option.filter_some, if_neg]
      · rfl
      · unfold obsTsdf
        rw [decide_eq_false (not_lt.2 (h v hc))]
        exact Bool.false_ne_true

example : getWeightAtPosition Interp.exLayer false ⟨9 / 4, 5 / 4, 1⟩ 7 = .ok (true, 1) ∧ getWeightAtPosition Interp.exLayer false ⟨9, 1, 1⟩ 7 = .ok (false, 7) ∧
    ClearInVoxel Interp.exLayer ⟨4, 2, 1⟩ (castPos ⟨9 / 4, 5 / 4, 3 / 4⟩) := by
  refine ⟨by decide +kernel, by decide +kernel, ?_⟩
  have e : castPos ⟨9 / 4, 5 / 4, 3 / 4⟩ = ⟨9 / 4, 5 / 4, 3 / 4⟩ := by decide +kernel
  rw [e]
  refine ⟨?_, ?_, ?_⟩ <;> norm_num [Interp.exLayer]

/-! ### Batches -/

/-- **C86**, batches of distances: arrays that are too short are refused before anything is written; otherwise each entry is the answer to its own query, entries
whose query fails keep their distance, and entries beyond the queries keep everything. -/
theorem C86_batch_distance {l : VLayer (EsdfVoxel ℚ)} (wf : WellFormed l) {ps : List Pt} (hp : ∀ p ∈ ps, Addressable l (castPos p)) (ds : List ℚ) (os : List Bool) :
    (ds.length < ps.length ∨ os.length < ps.length → batchDistance l ps ds os = .ok none) ∧
    (ps.length ≤ ds.length → ps.length ≤ os.length → ∃ ds' os', batchDistance l ps ds os = .ok (some (ds', os')) ∧ ds'.length = ds.length ∧ os'.length = os.length ∧
      (∀ (k : ℕ) p, ps[k]? = some p → ∃ b d, (∀ out, ds[k]? = some out → getDistanceAtPosition l true p out = .ok (b, d)) ∧ ds'[k]? = some d ∧ os'[k]? = some b) ∧
      ∀ k : ℕ, ps.length ≤ k → ds'[k]? = ds[k]? ∧ os'[k]? = os[k]?) := by
  constructor
  · intro h
    unfold batchDistance
    split_ifs
    · rfl
    · rfl
    · omega
  · intro h1 h2
    obtain ⟨⟨ds', os'⟩, h⟩ := distanceLoop_defined wf 0 (ds, os) hp
    obtain ⟨e1, e2, e3, e4⟩ := distanceLoop_ok h (by simpa using h1) (by simpa using h2)
    refine ⟨ds', os', ?_, e1, e2, ?_, ?_⟩
    · unfold batchDistance
      rw [if_neg (by omega), if_neg (by omega), h]
      rfl
    · intro k p hk
      obtain ⟨r, a, b, c⟩ := e3 k p hk
      rw [Nat.zero_add] at a b c
      refine ⟨r.1, r.2, fun out ho => ?_, b, c⟩
      dsimp only at a
      rwa [List.getD_eq_getElem?_getD, ho] at a
    · intro k hk
      exact e4 k (.inr (by omega))

example : batchDistance exLayer [⟨2, 2, 2⟩, ⟨3, 3, 3⟩] [7, 8, 9] [false, true, true] = .ok (some ([2, 8, 9], [true, false, true])) ∧
    batchDistance exLayer [⟨2, 2, 2⟩, ⟨3, 3, 3⟩] [7, 8, 9] [false] = .ok none := by
  refine ⟨by decide +kernel, by decide +kernel⟩

/-- **C86**, batches of distances and gradients. -/
theorem C86_batch_gradient {l : VLayer (EsdfVoxel ℚ)} (wf : WellFormed l) {ps : List Pt} (hp : ∀ p ∈ ps, Interior l (castPos p)) (ds : List ℚ) (gs : List Pt) (os : List Bool) :
    (ds.length < ps.length ∨ gs.length < ps.length ∨ os.length < ps.length → batchGradient l ps ds gs os = .ok none) ∧
    (ps.length ≤ ds.length → ps.length ≤ gs.length → ps.length ≤ os.length → ∃ ds' gs' os', batchGradient l ps ds gs os = .ok (some (ds', gs', os')) ∧
      ds'.length = ds.length ∧ gs'.length = gs.length ∧ os'.length = os.length ∧
      (∀ (k : ℕ) p, ps[k]? = some p → ∃ b d v, getDistanceAndGradientAtPosition l true p = .ok (b, d, v) ∧ ds'[k]? = some d ∧ gs'[k]? = some v ∧ os'[k]? = some b) ∧
      ∀ k : ℕ, ps.length ≤ k → ds'[k]? = ds[k]? ∧ gs'[k]? = gs[k]? ∧ os'[k]? = os[k]?) := by
  constructor
  · intro h
    unfold batchGradient
    split_ifs
    · rfl
    · rfl
    · rfl
    · omega
  · intro h1 h2 h3
    have hdef : ∀ (ps : List Pt) (i : ℕ) (st : List ℚ × List Pt × List Bool), (∀ p ∈ ps, Interior l (castPos p)) → ∃ st', gradientBatchLoop l i ps st = .ok st' := by
      intro ps
      induction ps with
      | nil => intro i st _; exact ⟨st, rfl⟩
      | cons q ps ih =>
        intro i st h
        obtain ⟨b, d, v, hr, -⟩ := C86_gradient wf true (h q List.mem_cons_self)
        obtain ⟨st', h'⟩ := ih (i + 1) _ (fun p hp => h p (List.mem_cons_of_mem _ hp))
        refine ⟨st', ?_⟩
        unfold gradientBatchLoop
        rw [hr, Outcome.bind_ok]
        exact h'
    obtain ⟨⟨ds', gs', os'⟩, h⟩ := hdef ps 0 (ds, gs, os) hp
    obtain ⟨e1, e2, e2', e3, e4⟩ := gradientBatchLoop_ok h (by simpa using h1) (by simpa using h2) (by simpa using h3)
    refine ⟨ds', gs', os', ?_, e1, e2, e2', ?_, ?_⟩
    · unfold batchGradient
      rw [if_neg (by omega), if_neg (by omega), if_neg (by omega), h]
      rfl
    · intro k p hk
      obtain ⟨r, a, b, c, d⟩ := e3 k p hk
      rw [Nat.zero_add] at b c d
      exact ⟨r.1, r.2.1, r.2.2, a, b, c, d⟩
    · intro k hk
      exact e4 k (.inr (by omega))

example : batchGradient exLayer [⟨3, 3, 3⟩, ⟨2, 2, 2⟩] [7, 8] [⟨1, 1, 1⟩, ⟨1, 1, 1⟩] [true, true] =
    .ok (some ([0, 2], [⟨-2, 0, 0⟩, ⟨1, 0, 0⟩], [false, true])) := by decide +kernel

/-- **C86**, batches of `isObserved`. -/
theorem C86_batch_observed {l : VLayer (EsdfVoxel ℚ)} (wf : WellFormed l) {ps : List Pt} (hp : ∀ p ∈ ps, Addressable l (castPos p)) (os : List Bool) :
    (os.length < ps.length → batchObserved l ps os = .ok none) ∧
    (ps.length ≤ os.length → ∃ os', batchObserved l ps os = .ok (some os') ∧ os'.length = os.length ∧
      (∀ (k : ℕ) p, ps[k]? = some p → ∃ b, isObserved l p = .ok b ∧ os'[k]? = some b) ∧ ∀ k : ℕ, ps.length ≤ k → os'[k]? = os[k]?) := by
  constructor
  · intro h
    unfold batchObserved
    rw [if_pos h]
  · intro h1
    have hdef : ∀ (ps : List Pt) (i : ℕ) (st : List Bool), (∀ p ∈ ps, Addressable l (castPos p)) → ∃ st', observedLoop l i ps st = .ok st' := by
      intro ps
      induction ps with
      | nil => intro i st _; exact ⟨st, rfl⟩
      | cons q ps ih =>
        intro i st h
        obtain ⟨b, _, _, _, hr, -⟩ := C86_consistent wf (h q List.mem_cons_self) 0
        obtain ⟨st', h'⟩ := ih (i + 1) _ (fun p hp => h p (List.mem_cons_of_mem _ hp))
        refine ⟨st', ?_⟩
        unfold observedLoop
        rw [hr, Outcome.bind_ok]
        exact h'
    obtain ⟨os', h⟩ := hdef ps 0 os hp
    obtain ⟨e1, e3, e4⟩ := observedLoop_ok h (by simpa using h1)
    refine ⟨os', ?_, e1, ?_, ?_⟩
    · unfold batchObserved
      rw [if_neg (by omega), h]
      rfl
    · intro k p hk
      obtain ⟨r, a, b⟩ := e3 k p hk
      rw [Nat.zero_add] at b
      exact ⟨r, a, b⟩
    · intro k hk
      exact e4 k (.inr (by omega))

example : batchObserved exLayer [⟨3, 3, 3⟩, ⟨2, 2, 2⟩] [true, false, true] = .ok (some [false, true, true]) := by decide +kernel

end Vox.MapQuery
