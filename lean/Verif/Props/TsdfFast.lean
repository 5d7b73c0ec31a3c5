/-
Properties C96 and C97: integration of a whole scan by the fast TSDF integrator; choice and configuration of an integrator.
-/
import Verif.Lemmas.TsdfFast
import Verif.Lemmas.TsdfMerged
import Verif.Props.TsdfScan
import Verif.Props.ApproxHash

namespace Vox.TsdfScan

open Layer Grid Tsdf Ray Spec

/-! ### C96: the fast integrator -/

/-- **C96.** When `integratePointCloud` of the fast integrator returns, then for some account `es` of what was done with each
point, whatever the number of threads, the order of the points and the scheduling: the map has received exactly the visits of `es`,
each once; each point's visits are none, or all voxels of its ray from the far end to the sensor, or an initial part
of these that ends in front of `max_consecutive_ray_collisions + 1` voxels in a row whose hashes were found, all of which belong to voxels
visited in this scan or were in the set before; and, within the time limit, a valid point is left out only if the hash of its start voxel is
that of a point whose ray was cast, or was in the set before. -/
theorem C96_fast_adds {A : Arith} {sort : List (ℕ × Fl) → List (ℕ × Fl)} (hs : Dispatch.IsStdSort sort) {P : Params} (hP : 0 < P.threads)
    (hmax : 0 ≤ P.maxCollisions) {V : View} {points : List (Vec3 Fl)} {colors : List Color} {freespace : Bool} {counter : ℤ}
    {start seen : ApproxHash.HSet} {l l' : VLayer (TsdfVoxel Fl)} (wf : WellFormed l) {k : ℕ} (hk : k < 31) (hside : l.cfg.vps = 2 ^ k)
    (hr : ∀ p ∈ points.zip colors, ∀ g ws, fastPoint A P l.cfg.voxelSize V freespace p = .ok (some (g, ws)) → InReach ws) {late : Bool}
    (h : Fast A sort P V points colors freespace counter start seen l late (.ok l')) :
    points.length = colors.length ∧ ∃ es : List Entry,
      (es.map (·.job)).Perm ((points.zip colors).map (fastPoint A P l.cfg.voxelSize V freespace)) ∧
      Adds A P l (es.flatMap (·.made)) l' ∧
      (∀ e ∈ es, Justified P (fun h => Present (freshened P.clearEvery counter seen) h ∨
        ∃ e' ∈ es, ∃ y ∈ e'.made, ApproxHash.longIndexHash y.g = h) e) ∧
      (late = false → ∀ e ∈ es, e.cast = false → e.job = .ok none ∨ ∃ g ws, e.job = .ok (some (g, ws)) ∧
        (Present (freshened P.clearEvery counter start) (ApproxHash.longIndexHash g) ∨ ∃ e' ∈ es, e'.cast = true ∧ ∃ g' ws',
          e'.job = .ok (some (g', ws')) ∧ ApproxHash.longIndexHash g' = ApproxHash.longIndexHash g)) := by
  generalize hres : (Outcome.ok l' : Outcome (VLayer (TsdfVoxel Fl))) = r at h
  cases h with
  | mismatch _ => cases hres
  | noOrder _ _ hc =>
    rcases hc with ⟨-, rfl⟩ | ⟨-, rfl⟩ <;> cases hres
  | fault _ _ _ hf => subst hres; cases hf
  | done hlen hord hrun hdone hlate =>
    rename_i is s
    have hp := order_perm hs hord
    have hz : (sqNorms A points).length = (points.zip colors).length := by simp [sqNorms, hlen]
    rw [hz] at hp
    have hj := fastJobs_perm (A := A) (P := P) (s := l.cfg.voxelSize) (V := V) (freespace := freespace) (points.zip colors) hp
    obtain ⟨es, h1, ⟨ws, h2, h3⟩, h4, h5⟩ := fast_done hmax hk (Store.start_inv wf) hside (fun _ => rfl) (fun g ws hm => by
      obtain ⟨p, hp', he⟩ := List.mem_map.1 (hj.mem_iff.1 hm)
      exact hr p hp' g ws he) hrun hdone hP
    refine ⟨hlen, es, h1.trans hj, h2.adds h3 hres.symm, h4, fun hl e he hc => ?_⟩
    rcases h5 e he hc with h6 | h6 | ⟨t, ht, h6⟩
    · exact Or.inl h6
    · exact Or.inr h6
    · rw [hlate.2 ⟨t, ht, h6⟩] at hl
      cases hl

/-- **C96.** In such an account, a ray that is cast updates at least its first `max_consecutive_ray_collisions` voxels. -/
theorem C96_cast_ray_prefix {P : Params} {known : ℕ → Prop} {e : Entry} (h : Justified P known e) (hc : e.cast = true) :
    ∃ g ws, e.job = .ok (some (g, ws)) ∧ e.made <+: ws ∧ (e.made = ws ∨ P.maxCollisions ≤ e.made.length) := by
  rcases h with ⟨h1, -⟩ | ⟨-, g, ws, h1, h2 | ⟨pre, run, w, rest, h2, h3, h4, -⟩⟩
  · rw [hc] at h1; cases h1
  · exact ⟨g, ws, h1, by rw [h2], Or.inl h2⟩
  · refine ⟨g, ws, h1, ⟨w :: rest, by rw [h2, h3]⟩, Or.inr ?_⟩
    rw [h3, List.length_append, ← h4]
    push_cast
    omega

/-! The example: two measurements of the same place and one further away on the same ray; one thread, fresh sets. -/

def exFast : Params := { exScan with threads := 1 }

def exCloud : List (Vec3 Fl × Color) := [exNear, exNear, exFar]

/-- The end of the example's scan. -/
def exFastEnd : FastPool :=
  fastLoop (Arith.exact exSq) exFast 200 (fastStart (Arith.exact exSq) exFast exView exCloud false 0 ApproxHash.init ApproxHash.init exEmpty [0, 1, 2])

/-- The far ray stops in front of the voxel (4, 2, 4), at the third voxel in a row that the near ray has passed. -/
theorem exFast_runs : ∃ l', Fast (Arith.exact exSq) exSort exFast exView (exCloud.map (·.1)) (exCloud.map (·.2)) false 0 ApproxHash.init ApproxHash.init
    exEmpty false (.ok l') ∧
    ([⟨8, 4, 8⟩, ⟨4, 2, 5⟩, ⟨4, 2, 4⟩, ⟨0, 0, 0⟩] : List Idx).map (fun g => (content l' g).map (·.weight)) =
      [some (.fin 1), some (.fin 2), some (.fin 1), some (.fin 1)] := by
  have hrun : (match exFastEnd.store.merge with
      | .ok l => ([⟨8, 4, 8⟩, ⟨4, 2, 5⟩, ⟨4, 2, 4⟩, ⟨0, 0, 0⟩] : List Idx).map (fun g => (content l g).map (·.weight))
      | _ => []) = [some (.fin 1), some (.fin 2), some (.fin 1), some (.fin 1)] := by decide +kernel
  have hend : (match exFastEnd.stage 0, exFastEnd.todo with | .idle, [] => true | _, _ => false) = true := by decide +kernel
  split at hrun
  · rename_i l' hl'
    refine ⟨l', ?_, hrun⟩
    rw [← hl']
    refine Fast.done (is := [0, 1, 2]) rfl (by decide +kernel) (fastLoop_runs (by decide) 200 FastRuns.refl) ?_ ?_
    · intro t ht
      obtain rfl : t = 0 := by have : t < 1 := ht; omega
      split at hend
      · rename_i h1 h2; exact Or.inr ⟨h1, h2⟩
      · cases hend
    · refine Iff.intro (fun h => by cases h) ?_
      rintro ⟨t, ht, h⟩
      obtain rfl : t = 0 := by have : t < 1 := ht; omega
      split at hend
      · rename_i h1 h2
        have h1' : exFastEnd.stage 0 = .idle := h1
        have h' : exFastEnd.stage 0 = .left := h
        rw [h1'] at h'
        cases h'
      · cases hend
  · cases hrun

theorem exFast_inReach : ∀ p ∈ exCloud, ∀ g ws, fastPoint (Arith.exact exSq) exFast 1 exView false p = .ok (some (g, ws)) → InReach ws := by
  intro p hp g ws h
  have hall : ∀ p ∈ exCloud, (match fastPoint (Arith.exact exSq) exFast 1 exView false p with
      | .ok (some (_, ws)) => ws.all fun w => decide ((0 ≤ w.g.x ∧ w.g.x ≤ 20) ∧ (0 ≤ w.g.y ∧ w.g.y ≤ 20) ∧ (0 ≤ w.g.z ∧ w.g.z ≤ 20))
      | _ => false) = true := by decide +kernel
  have h2 := hall p hp
  rw [h] at h2
  intro w hw
  obtain ⟨⟨a, b⟩, ⟨c, d⟩, e, f⟩ := of_decide_eq_true (List.all_eq_true.1 h2 w hw)
  have key : ∀ x : ℤ, 0 ≤ x → x ≤ 20 → |x| ≤ 2 ^ 24 := fun x h1 h2 => by rw [abs_of_nonneg h1]; omega
  exact ⟨key _ a b, key _ c d, key _ e f⟩

/-- The hypotheses hold in the example. -/
example : 0 < exFast.threads ∧ 0 ≤ exFast.maxCollisions ∧
    (∀ p ∈ exCloud, ∀ g ws, fastPoint (Arith.exact exSq) exFast 1 exView false p = .ok (some (g, ws)) → InReach ws) ∧
    ∃ l', Fast (Arith.exact exSq) exSort exFast exView (exCloud.map (·.1)) (exCloud.map (·.2)) false 0 ApproxHash.init ApproxHash.init exEmpty
      false (.ok l') :=
  ⟨by decide, by decide, exFast_inReach, exFast_runs.imp fun _ h => h.1⟩

def exObs : Obs := (visitOf (Arith.exact exSq) 1 exNear.1 exNear.1 exNear.2 (.fin 1) ⟨0, 0, 0⟩).obs

/-- A ray of three voxels that stops in front of the last one, which like the second is known. -/
example : Justified { exFast with maxCollisions := 1 } (fun h => h = 17191 ∨ h = 17192)
    { job := .ok (some (⟨0, 0, 0⟩, [⟨⟨5, 0, 0⟩, exObs⟩, ⟨⟨1, 1, 0⟩, exObs⟩, ⟨⟨0, 1, 0⟩, exObs⟩])),
      made := [⟨⟨5, 0, 0⟩, exObs⟩, ⟨⟨1, 1, 0⟩, exObs⟩], cast := true } := by
  refine Or.inr ⟨rfl, _, _, rfl, Or.inr ⟨[⟨⟨5, 0, 0⟩, exObs⟩], [⟨⟨1, 1, 0⟩, exObs⟩], ⟨⟨0, 1, 0⟩, exObs⟩, [], rfl, rfl, rfl, ?_⟩⟩
  intro x hx
  simp only [List.cons_append, List.nil_append, List.mem_cons, List.not_mem_nil, or_false] at hx
  rcases hx with rfl | rfl
  · right; decide +kernel
  · left; decide +kernel

/-- **C96.** What is left in a set after a reset: only the hash zero can be found. -/
theorem C96_reset_forgets {every counter : ℤ} (hr : (frame every counter).2 = true) {tr : List ApproxHash.Ev} {h : ApproxHash.HSet}
    {w : ℕ → Option ℕ} (he : ApproxHash.Exec maskedBits fullReset tr h w) (hw : ∀ t, w t = none) {a : ℕ}
    (hp : Present (freshened every counter h) a) : a = 0 := by
  by_contra ha
  have e : freshened every counter h = ApproxHash.reset fullReset h := if_pos hr
  unfold Present at hp
  rw [e] at hp
  obtain ⟨t, ht⟩ := Props.C38_no_false_positive_partial (ApproxHash.Exec.reset he hw) (Or.inl ha) (Or.inl (by decide)) hp
  simp at ht

example : (frame 1 0).2 = true ∧ ApproxHash.Exec maskedBits fullReset [] ApproxHash.init (fun _ => none) := ⟨rfl, .init⟩

/-- **C96.** In a scan for which the sets were reset, within the time limit: for each valid point whose start voxel does not hash to zero,
the ray of some point with the same start hash is cast. -/
theorem C96_starts_covered {A : Arith} {sort : List (ℕ × Fl) → List (ℕ × Fl)} (hs : Dispatch.IsStdSort sort) {P : Params} (hP : 0 < P.threads)
    (hmax : 0 ≤ P.maxCollisions) {V : View} {points : List (Vec3 Fl)} {colors : List Color} {freespace : Bool} {counter : ℤ}
    {start seen : ApproxHash.HSet} {l l' : VLayer (TsdfVoxel Fl)} (wf : WellFormed l) {k : ℕ} (hk : k < 31) (hside : l.cfg.vps = 2 ^ k)
    (hr : ∀ p ∈ points.zip colors, ∀ g ws, fastPoint A P l.cfg.voxelSize V freespace p = .ok (some (g, ws)) → InReach ws)
    (hreset : (frame P.clearEvery counter).2 = true) {tr : List ApproxHash.Ev} {w : ℕ → Option ℕ}
    (he : ApproxHash.Exec maskedBits fullReset tr start w) (hw : ∀ t, w t = none)
    (h : Fast A sort P V points colors freespace counter start seen l false (.ok l'))
    {p : Vec3 Fl × Color} (hp : p ∈ points.zip colors) {g : Idx} {ws : List Visit}
    (hg : fastPoint A P l.cfg.voxelSize V freespace p = .ok (some (g, ws))) (hz : ApproxHash.longIndexHash g ≠ 0) :
    ∃ es : List Entry, (es.map (·.job)).Perm ((points.zip colors).map (fastPoint A P l.cfg.voxelSize V freespace)) ∧
      Adds A P l (es.flatMap (·.made)) l' ∧
      ∃ e ∈ es, e.cast = true ∧ ∃ g' ws', e.job = .ok (some (g', ws')) ∧ ApproxHash.longIndexHash g' = ApproxHash.longIndexHash g ∧
        e.made <+: ws' ∧ (e.made = ws' ∨ P.maxCollisions ≤ e.made.length) := by
  obtain ⟨-, es, h1, h2, h3, h4⟩ := C96_fast_adds hs hP hmax wf hk hside hr h
  refine ⟨es, h1, h2, ?_⟩
  obtain ⟨e, hem, hej⟩ := List.mem_map.1 (h1.mem_iff.2 (List.mem_map.2 ⟨p, hp, hg⟩))
  have main : ∀ e ∈ es, e.cast = true → ∀ g' ws', e.job = .ok (some (g', ws')) → ApproxHash.longIndexHash g' = ApproxHash.longIndexHash g →
      ∃ e ∈ es, e.cast = true ∧ ∃ g' ws', e.job = .ok (some (g', ws')) ∧ ApproxHash.longIndexHash g' = ApproxHash.longIndexHash g ∧
        e.made <+: ws' ∧ (e.made = ws' ∨ P.maxCollisions ≤ e.made.length) := by
    intro e hem hc g' ws' hej hh
    obtain ⟨g₂, ws₂, h5, h6, h7⟩ := C96_cast_ray_prefix (h3 e hem) hc
    rw [hej] at h5
    injection h5 with h5
    injection h5 with h5
    injection h5 with h5 h8
    subst h5 h8
    exact ⟨e, hem, hc, g', ws', hej, hh, h6, h7⟩
  cases hc : e.cast with
  | true => exact main e hem hc g ws hej rfl
  | false =>
    rcases h4 rfl e hem hc with h5 | ⟨g₂, ws₂, h5, h6⟩
    · rw [hej] at h5; cases h5
    · rw [hej] at h5
      injection h5 with h5
      injection h5 with h5
      injection h5 with h5 h8
      subst h5
      rcases h6 with h6 | ⟨e', hem', hc', g', ws', hej', hh⟩
      · exact absurd (C96_reset_forgets hreset he hw h6) hz
      · exact main e' hem' hc' g' ws' hej' hh

/-- In the example the second point is covered by the first. -/
example : ∃ g ws, fastPoint (Arith.exact exSq) exFast 1 exView false exNear = .ok (some (g, ws)) ∧ ApproxHash.longIndexHash g ≠ 0 := by
  have h : (match fastPoint (Arith.exact exSq) exFast 1 exView false exNear with
    | .ok (some (g, _)) => some g | _ => none) = some ⟨9, 5, 9⟩ := by decide +kernel
  split at h
  · rename_i g ws e
    obtain rfl := Option.some.inj h
    exact ⟨_, ws, e, by decide +kernel⟩
  · cases h

/-- A sensor near the far end, looking back at the origin. -/
def exBack : View :=
  { position := (⟨17 / 4, 9 / 4, 17 / 4⟩ : Pt).map .fin
    toG := fun p => (Arith.exact exSq).vadd p ((⟨17 / 4, 9 / 4, 17 / 4⟩ : Pt).map .fin) }

/-- **C96 is violated at the origin of the map**: a scan with one valid point that lies in the start voxel (0, 0, 0) leaves the map as it
was, though the sets were reset and no ray was cast before. -/
theorem C96_origin_point_lost_violated :
    isPointValid exFast.tsdf ((Arith.exact exSq).norm ⟨.fin (-4), .fin (-2), .fin (-4)⟩) false = some false ∧
    (∃ ws, fastPoint (Arith.exact exSq) exFast 1 exBack false (⟨.fin (-4), .fin (-2), .fin (-4)⟩, Color.default) = .ok (some (⟨0, 0, 0⟩, ws)) ∧
      ws.length = 14) ∧
    Fast (Arith.exact exSq) exSort exFast exBack [⟨.fin (-4), .fin (-2), .fin (-4)⟩] [Color.default] false 0 ApproxHash.init ApproxHash.init
      exEmpty false (.ok exEmpty) := by
  have h : (match fastPoint (Arith.exact exSq) exFast 1 exBack false (⟨.fin (-4), .fin (-2), .fin (-4)⟩, Color.default) with
    | .ok (some (g, ws)) => some (g, ws.length) | _ => none) = some (⟨0, 0, 0⟩, 14) := by decide +kernel
  split at h
  · rename_i g ws e
    have h1 := Option.some.inj h
    injection h1 with h1 h2
    subst h1
    refine ⟨by decide +kernel, ⟨ws, e, h2⟩, ?_⟩
    have hjobs : fastJobs (Arith.exact exSq) exFast exEmpty.cfg.voxelSize exBack false
        ([(⟨.fin (-4), .fin (-2), .fin (-4)⟩ : Vec3 Fl)].zip [Color.default]) [0] = [.ok (some (⟨0, 0, 0⟩, ws))] := by
      show [fastPoint (Arith.exact exSq) exFast 1 exBack false (⟨.fin (-4), .fin (-2), .fin (-4)⟩, Color.default)] = _
      rw [e]
    have hstep : FastAct (Arith.exact exSq) exFast exFast.threads (fastStart (Arith.exact exSq) exFast exBack
        ([(⟨.fin (-4), .fin (-2), .fin (-4)⟩ : Vec3 Fl)].zip [Color.default]) false 0 ApproxHash.init ApproxHash.init exEmpty [0]) _ :=
      FastAct.known 0 ⟨0, 0, 0⟩ ws [] (by decide) rfl hjobs (by decide +kernel)
    have := Fast.done (A := Arith.exact exSq) (sort := exSort) (P := exFast) (V := exBack) (points := [⟨.fin (-4), .fin (-2), .fin (-4)⟩])
      (colors := [Color.default]) (freespace := false) (counter := 0) (start := ApproxHash.init) (seen := ApproxHash.init) (l := exEmpty)
      (is := [0]) (late := false) rfl (by decide +kernel) (FastRuns.refl.step hstep) (fun t _ => Or.inr ⟨rfl, rfl⟩)
      (Iff.intro (fun h => by cases h) (by rintro ⟨t, -, h⟩; cases h))
    exact this
  · cases h

/-- **C96.** The fast integrator keeps all distances within the truncation band and all weights within `[0, max]`. -/
theorem C96_bounds {A : Arith} {sort : List (ℕ × Fl) → List (ℕ × Fl)} (hs : Dispatch.IsStdSort sort) {P : Params} (hP : 0 < P.threads)
    (hmax : 0 ≤ P.maxCollisions) {V : View} {points : List (Vec3 Fl)} {colors : List Color} {freespace : Bool} {counter : ℤ}
    {start seen : ApproxHash.HSet} {l l' : VLayer (TsdfVoxel Fl)} (wf : WellFormed l) {k : ℕ} (hk : k < 31) (hside : l.cfg.vps = 2 ^ k)
    (hr : ∀ p ∈ points.zip colors, ∀ g ws, fastPoint A P l.cfg.voxelSize V freespace p = .ok (some (g, ws)) → InReach ws)
    {T M : ℚ} (hT : 0 ≤ T) (hM : 0 ≤ M) (hcT : P.tsdf.truncation = .fin T) (hcM : P.tsdf.maxWeight = .fin M)
    (hl : ∀ g v, content l g = some v → Within (-T) T v.distance ∧ Within 0 M v.weight) {late : Bool}
    (h : Fast A sort P V points colors freespace counter start seen l late (.ok l')) :
    ∀ g v, content l' g = some v → Within (-T) T v.distance ∧ Within 0 M v.weight := by
  obtain ⟨-, es, -, h2, -, -⟩ := C96_fast_adds hs hP hmax wf hk hside hr h
  exact h2.bounds hT hM hcT hcM hl

example : (0 : ℚ) ≤ 1 ∧ exFast.tsdf.truncation = .fin 1 ∧ exFast.tsdf.maxWeight = .fin 100 := ⟨by norm_num, rfl, rfl⟩

/-- **C96.** If all rays can be cast, the fast integrator neither aborts nor runs into undefined behaviour, under every schedule. -/
theorem C96_never_fails {A : Arith} {sort : List (ℕ × Fl) → List (ℕ × Fl)} (hs : Dispatch.IsStdSort sort) {P : Params}
    (hmax : 0 ≤ P.maxCollisions) {V : View} {points : List (Vec3 Fl)} {colors : List Color} {freespace : Bool} {counter : ℤ}
    {start seen : ApproxHash.HSet} (hf1 : start.offset < fullReset) (hf2 : seen.offset < fullReset)
    {l : VLayer (TsdfVoxel Fl)} (hS : Sane A P.tsdf l.cfg.voxelSize) (wf : WellFormed l) (hl : GoodWeights A l) {k : ℕ} (hk : k < 31) (hside : l.cfg.vps = 2 ^ k)
    (hlen : points.length = colors.length) (hord : ∃ is, order sort P.mode (sqNorms A points) = .ok is)
    (hrays : ∀ p ∈ points.zip colors, ∃ x, fastPoint A P l.cfg.voxelSize V freespace p = .ok x)
    (hr : ∀ p ∈ points.zip colors, ∀ g ws, fastPoint A P l.cfg.voxelSize V freespace p = .ok (some (g, ws)) → InReach ws)
    {late : Bool} {r : Outcome (VLayer (TsdfVoxel Fl))}
    (h : Fast A sort P V points colors freespace counter start seen l late r) : ∃ l', r = .ok l' := by
  have hz : (sqNorms A points).length = (points.zip colors).length := by simp [sqNorms, hlen]
  cases h with
  | mismatch hne => exact absurd hlen hne
  | noOrder _ he hc =>
    obtain ⟨is, hord⟩ := hord
    rw [hord] at he
    subst he
    rcases hc with ⟨e, -⟩ | ⟨e, -⟩ <;> cases e
  | fault _ hord' hrun hf =>
    rename_i is s _
    exfalso
    have hp := order_perm hs hord'
    rw [hz] at hp
    have hj := fastJobs_perm (A := A) (P := P) (s := l.cfg.voxelSize) (V := V) (freespace := freespace) (points.zip colors) hp
    refine fast_no_fault hmax hS wf hl hk hside (s₀ := fastStart A P V (points.zip colors) freespace counter start seen l is) rfl (fun _ => rfl)
      (Fits.freshened hf1 _ _) (Fits.freshened hf2 _ _) (fun j hm => ?_) (fun g ws hm => ?_) (fun g ws hm w hw => ?_) hrun r hf
    · obtain ⟨p, hp', rfl⟩ := List.mem_map.1 (hj.mem_iff.1 hm)
      exact hrays p hp'
    · obtain ⟨p, hp', he⟩ := List.mem_map.1 (hj.mem_iff.1 hm)
      exact hr p hp' g ws he
    · obtain ⟨p, hp', he⟩ := List.mem_map.1 (hj.mem_iff.1 hm)
      unfold fastPoint at he
      split at he
      · cases he
      · obtain ⟨st, -, he⟩ := Outcome.bind_eq_ok.1 he
        obtain ⟨gs, -, he⟩ := Outcome.bind_eq_ok.1 he
        have he := Outcome.ok.inj he
        injection he with he
        injection he with _ he
        rw [← he] at hw
        obtain ⟨g', -, rfl⟩ := List.mem_map.1 hw
        exact hS.point p.1.z
  | done _ hord' hrun hdone hlate =>
    rename_i is s
    have hp := order_perm hs hord'
    rw [hz] at hp
    have hj := fastJobs_perm (A := A) (P := P) (s := l.cfg.voxelSize) (V := V) (freespace := freespace) (points.zip colors) hp
    obtain ⟨fin, cur, starts, marks, inv⟩ := fast_runs hmax hk (Store.start_inv wf) hside (fun _ => rfl) (fun g ws hm => by
      obtain ⟨p, hp', he⟩ := List.mem_map.1 (hj.mem_iff.1 hm)
      exact hr p hp' g ws he) hrun
    obtain ⟨ws, h1, -⟩ := inv.made
    obtain ⟨l', h2, -⟩ := merge_eq h1.inv
    exact ⟨l', h2⟩

example : Sane (Arith.exact exSq) exFast.tsdf 1 ∧ Sane Ieee.float32 exFast.tsdf 1 ∧ ApproxHash.init.offset < fullReset ∧
    (∃ is, order exSort exFast.mode (sqNorms (Arith.exact exSq) (exCloud.map (·.1))) = .ok is) ∧
    ∀ p ∈ exCloud, ∃ x, fastPoint (Arith.exact exSq) exFast 1 exView false p = .ok x := by
  refine ⟨exScan_sane, exScan_sane32, by decide, ⟨[0, 1, 2], by decide +kernel⟩, fun p hp => ?_⟩
  have hall : ∀ p ∈ exCloud, (match fastPoint (Arith.exact exSq) exFast 1 exView false p with | .ok _ => true | _ => false) = true := by
    decide +kernel
  have h2 := hall p hp
  split at h2
  · rename_i x e; exact ⟨x, e⟩
  · cases h2

/-- **C96.** The workers of the fast integrator always come to an end. -/
theorem C96_terminates {A : Arith} {P : Params} {n : ℕ} :
    (¬ ∃ f : ℕ → FastPool, ∀ i, FastAct A P n (f i) (f (i + 1))) ∧
    (∀ s : FastPool, ¬ s.Done n → (∃ s', FastAct A P n s s') ∨ ∃ r, FastFault A P n s r) ∧
    ∀ s : FastPool, ∃ s', FastRuns A P n s s' ∧ (s'.Done n ∨ ∃ r, FastFault A P n s' r) := by
  refine ⟨?_, fun s hs => fast_progress s hs, fun s => fast_completes _ s s le_rfl FastRuns.refl⟩
  rintro ⟨f, hf⟩
  have hdec : ∀ i, (f i).work n + i ≤ (f 0).work n := by
    intro i
    induction i with
    | zero => simp
    | succ i ih => have := fast_work (hf i); omega
  have := hdec ((f 0).work n + 1)
  omega

/-- **C96.** With one integrator in the process, the sets are reset in each `n`-th call exactly; in every call for `n ≤ 1` (the default). -/
theorem C96_resets_every_n {n : ℤ} {m i : ℕ} (hi : i < m) :
    (1 ≤ n → (resets 0 (List.replicate m n))[i]? = some (decide (((i : ℤ) + 1) % n = 0))) ∧
    (n ≤ 1 → (resets 0 (List.replicate m n))[i]? = some true) := by
  have key : 1 ≤ n → ∀ m i : ℕ, ∀ c : ℤ, 0 ≤ c → c < n → i < m → (resets c (List.replicate m n))[i]? = some (decide ((c + i + 1) % n = 0)) := by
    intro hn m
    induction m with
    | zero => intro i c _ _ hi; omega
    | succ m ih =>
      intro i c h0 h1 hi
      rw [List.replicate_succ, resets]
      unfold frame
      cases i with
      | zero =>
        by_cases hc : c + 1 ≥ n
        · rw [if_pos hc]
          have : c + 1 = n := by omega
          simp [this]
        · rw [if_neg hc]
          have : (c + 1) % n = c + 1 := Int.emod_eq_of_lt (by omega) (by omega)
          simp only [List.getElem?_cons_zero, Int.natCast_zero, add_zero, this]
          simp; omega
      | succ i =>
        rw [List.getElem?_cons_succ]
        by_cases hc : c + 1 ≥ n
        · rw [if_pos hc, ih i 0 le_rfl (by omega) (by omega)]
          have e : c + ((i + 1 : ℕ) : ℤ) + 1 = (0 + i + 1) + n := by push_cast; omega
          rw [e, Int.add_emod_right]
        · rw [if_neg hc, ih i (c + 1) (by omega) (by omega) (by omega)]
          have e : c + ((i + 1 : ℕ) : ℤ) + 1 = c + 1 + i + 1 := by push_cast; omega
          rw [e]
  refine ⟨fun hn => ?_, fun hn => ?_⟩
  · have := key hn m i 0 le_rfl (by omega) hi
    simpa using this
  · clear key
    induction m generalizing i with
    | zero => omega
    | succ m ih =>
      have e : frame n 0 = (0, true) := if_pos (by omega)
      rw [List.replicate_succ, resets, e]
      cases i with
      | zero => rfl
      | succ i => rw [List.getElem?_cons_succ]; exact ih (by omega)

example : resets 0 (List.replicate 6 3) = [false, false, true, false, false, true] := by decide +kernel

/-- **C96 is violated by a second integrator in the process**, as the frame counter is shared: if two integrators with
`clear_checks_every_n_frames = 2` are called in turns, the sets of the first are never reset, and those of the second in every call. -/
theorem C96_shared_counter_violated (m : ℕ) : resets 0 (List.replicate (2 * m) 2) = (List.replicate m [false, true]).flatten := by
  induction m with
  | zero => rfl
  | succ m ih =>
    rw [show 2 * (m + 1) = 2 * m + 1 + 1 by ring, List.replicate_succ, List.replicate_succ, List.replicate_succ, List.flatten_cons, ← ih]
    rfl

/-! ### C97: choice and configuration -/

/-- **C97.** The factory makes the integrator of the name it is given, and aborts for any other name. -/
theorem C97_factory (name : String) :
    (create name = .ok .simple ↔ name = "simple") ∧ (create name = .ok .merged ↔ name = "merged") ∧ (create name = .ok .fast ↔ name = "fast") ∧
    (name ∉ ["simple", "merged", "fast"] → create name = .fatal) := by
  by_cases h0 : name = ""
  · subst h0; decide +kernel
  by_cases h1 : name = "simple"
  · subst h1; decide +kernel
  by_cases h2 : name = "merged"
  · subst h2; decide +kernel
  by_cases h3 : name = "fast"
  · subst h3; decide +kernel
  have : create name = .fatal := by
    unfold create typeNames
    simp [findType, h0, h1, h2, h3, Outcome.check]
  simp [this, h1, h2, h3]

example : create "merged" = .ok .merged ∧ create "Merged" = .fatal := by decide +kernel

/-- **C97.** Whatever the configuration, an integrator has at least one worker; without voxel carving no point of an ordinary cloud
gives a clearing ray, however far it is; with it the ray settings are those given. -/
theorem C97_corrected (P : Params) : 0 < P.corrected.threads ∧ (P.threads ≠ 0 → P.corrected.threads = P.threads) ∧
    (P.carving = false → ∀ d, isPointValid P.corrected.tsdf d false ≠ some true) ∧
    (P.carving = true → ∀ d f, isPointValid P.corrected.tsdf d f = isPointValid P.tsdf d f) := by
  refine ⟨?_, fun h => if_neg h, fun h d => ?_, fun h d f => ?_⟩
  · unfold Params.corrected
    dsimp only
    split <;> omega
  · have e : P.corrected.tsdf.allowClear = false := by
      unfold Params.corrected
      dsimp only
      cases hc : P.tsdf.allowClear <;> simp [h]
    unfold isPointValid
    rw [e]
    split_ifs <;> simp_all
  · have e : P.corrected.tsdf.allowClear = P.tsdf.allowClear := by
      unfold Params.corrected
      simp [h]
    unfold isPointValid
    rw [e]
    rfl

/-- Without the correction a far point would clear. -/
example : isPointValid { exTsdf with allowClear := true } (.fin 30) false = some true ∧
    isPointValid (Params.corrected { exScan with carving := false, threads := 0 }).tsdf (.fin 30) false = none ∧
    (Params.corrected { exScan with carving := false, threads := 0 }).threads = 1 := by decide +kernel

end Vox.TsdfScan
