/-
Property C132: the first scan after the map of a fast integrator was cleared or replaced.
-/
import Verif.Lemmas.FastCalls

namespace Vox.TsdfScan

open Layer Grid Tsdf Ray Spec

theorem Call.fast {A : Arith} {sort : List (ℕ × Fl) → List (ℕ × Fl)} {P : Params} {V : View} {points : List (Vec3 Fl)} {colors : List Color} {freespace : Bool}
    {l : VLayer (TsdfVoxel Fl)} {m m' : Memory} {late : Bool} {r : Outcome (VLayer (TsdfVoxel Fl))} (h : Call A sort P V points colors freespace l m late r m') :
    Fast A sort P V points colors freespace m.counter m.start m.seen l late r := by
  cases h with
  | done h1 h2 h3 h4 h5 => exact Fast.done h1 h2 h3 h4 h5

/-- **C132 (partial).** If `clear_checks_every_n_frames` is at most one, the first scan after the layer was cleared, replaced or left as it is, is not influenced by what the
integrator has seen before: within the time limit, for each valid point whose start voxel does not hash to zero, the ray of a point of this scan with the same start hash is cast
into the layer.

Full statement: for every `clear_checks_every_n_frames`; see `C132_second_call_violated`. -/
theorem C132_after_change_partial {A : Arith} {sort : List (ℕ × Fl) → List (ℕ × Fl)} (hs : Dispatch.IsStdSort sort) {P : Params} (hP : 0 < P.threads)
    (hmax : 0 ≤ P.maxCollisions) {V : View} {points : List (Vec3 Fl)} {colors : List Color} {freespace : Bool} {l₁ l₂ l' : VLayer (TsdfVoxel Fl)} {m m₂ m₃ : Memory}
    {b : Between} (hb : b.apply l₁ m = (l₂, m₂)) (wf : WellFormed l₂) {k : ℕ} (hk : k < 31) (hside : l₂.cfg.vps = 2 ^ k)
    (hr : ∀ p ∈ points.zip colors, ∀ g ws, fastPoint A P l₂.cfg.voxelSize V freespace p = .ok (some (g, ws)) → InReach ws)
    (hone : P.clearEvery ≤ 1) (hc : 0 ≤ m.counter) {tr : List ApproxHash.Ev} {w : ℕ → Option ℕ}
    (he : ApproxHash.Exec maskedBits fullReset tr m.start w) (hw : ∀ t, w t = none)
    (h : Call A sort P V points colors freespace l₂ m₂ false (.ok l') m₃)
    {p : Vec3 Fl × Color} (hp : p ∈ points.zip colors) {g : Idx} {ws : List Visit}
    (hg : fastPoint A P l₂.cfg.voxelSize V freespace p = .ok (some (g, ws))) (hz : ApproxHash.longIndexHash g ≠ 0) :
    ∃ es : List Entry, (es.map (·.job)).Perm ((points.zip colors).map (fastPoint A P l₂.cfg.voxelSize V freespace)) ∧
      Adds A P l₂ (es.flatMap (·.made)) l' ∧
      ∃ e ∈ es, e.cast = true ∧ ∃ g' ws', e.job = .ok (some (g', ws')) ∧ ApproxHash.longIndexHash g' = ApproxHash.longIndexHash g ∧
        e.made <+: ws' ∧ (e.made = ws' ∨ P.maxCollisions ≤ e.made.length) := by
  have em : m₂ = m := by
    cases b <;> exact (Prod.mk.inj hb).2.symm
  rw [em] at h
  refine C96_starts_covered hs hP hmax wf hk hside hr ?_ he hw h.fast hp hg hz
  unfold frame
  rw [if_pos (by omega)]

/-- **C132 is violated** if `clear_checks_every_n_frames` is larger: while the sets are not reset, a scan that is repeated after the map was cleared, or into another layer of the
same voxel size, changes nothing, whatever the threads do. An empty map stays empty, another layer stays as it is. All points are left out, since their start voxels have been seen by the integrator, though not by the layer. (Start voxels
of the scan that share one of the 2^20 slots of the set are assumed to share the hash.) -/
theorem C132_second_call_violated {A : Arith} {sort : List (ℕ × Fl) → List (ℕ × Fl)} (hs : Dispatch.IsStdSort sort) {P : Params} (hP : 0 < P.threads)
    {V : View} {points : List (Vec3 Fl)} {colors : List Color} {freespace : Bool} {l₀ l₁ l₂ : VLayer (TsdfVoxel Fl)} {m₀ m₁ m₂ m₃ : Memory}
    {r : Outcome (VLayer (TsdfVoxel Fl))} (h₁ : Call A sort P V points colors freespace l₀ m₀ false (.ok l₁) m₁) (hc : m₀.counter + 2 < P.clearEvery)
    (hn : NoClash ((points.zip colors).map (fastPoint A P l₀.cfg.voxelSize V freespace))) {b : Between} (hb : b.apply l₁ m₁ = (l₂, m₂))
    (hv : l₂.cfg.voxelSize = l₀.cfg.voxelSize) {late : Bool} (h₂ : Call A sort P V points colors freespace l₂ m₂ late r m₃) :
    r = .ok l₂ ∧ (b = .clear → l₂.cfg = l₁.cfg ∧ ∀ g, content l₂ g = none) ∧ (∀ l, b = .setLayer l → l₂ = l) ∧ (b = .same → l₂ = l₁) := by
  have em : m₂ = m₁ := by
    cases b <;> exact (Prod.mk.inj hb).2.symm
  have el : (b = .clear → l₂.cfg = l₁.cfg ∧ ∀ g, content l₂ g = none) ∧ (∀ l, b = .setLayer l → l₂ = l) ∧ (b = .same → l₂ = l₁) := by
    have e := (Prod.mk.inj hb).1
    refine ⟨?_, ?_, ?_⟩
    · rintro rfl
      rw [← e]
      exact ⟨rfl, fun g => rfl⟩
    · rintro l rfl
      exact e.symm
    · rintro rfl
      exact e.symm
  subst em
  refine ⟨?_, el⟩
  have jobs : ∀ is, order sort P.mode (sqNorms A points) = .ok is → points.length = colors.length → ∀ j,
      j ∈ fastJobs A P l₀.cfg.voxelSize V freespace (points.zip colors) is ↔ j ∈ (points.zip colors).map (fastPoint A P l₀.cfg.voxelSize V freespace) := by
    intro is hord hlen j
    have hp := order_perm hs hord
    have hz : (sqNorms A points).length = (points.zip colors).length := by simp [sqNorms, hlen]
    rw [hz] at hp
    exact (fastJobs_perm (points.zip colors) hp).mem_iff
  generalize hf : false = late₁ at h₁
  generalize ho : (Outcome.ok l₁ : Outcome (VLayer (TsdfVoxel Fl))) = r₁ at h₁
  cases h₁ with
  | done hlen hord hrun hdone hlate =>
    rename_i is s
    subst hf
    have seen : ∀ g ws, (.ok (some (g, ws)) : FastJob) ∈ (points.zip colors).map (fastPoint A P l₀.cfg.voxelSize V freespace) →
        Present s.start (ApproxHash.longIndexHash g) := by
      intro g ws hg
      have h0 : Taken P.threads ((points.zip colors).map (fastPoint A P l₀.cfg.voxelSize V freespace))
          (fastStart A P V (points.zip colors) freespace m₀.counter m₀.start m₀.seen l₀ is) :=
        ⟨fun j hj => (jobs is hord hlen j).1 hj, fun t g ws e => (by cases e), Or.inr fun g ws hj => Or.inl ((jobs is hord hlen _).2 hj)⟩
      have nl : ¬ ∃ t < P.threads, s.stage t = .left := fun h => by
        have := hlate.2 h
        cases this
      rcases (taken_runs hn h0 hrun).taken with h | h
      · exact absurd h nl
      · have idle : ∀ t < P.threads, s.stage t = .idle ∧ s.todo = [] := fun t ht => (hdone t ht).resolve_left fun e => nl ⟨t, ht, e⟩
        rcases h g ws hg with h | h | ⟨t, ht, ws', e⟩
        · rw [(idle 0 hP).2] at h
          cases h
        · exact h
        · rw [(idle t ht).1] at e
          cases e
    cases h₂ with
    | done hlen₂ hord₂ hrun₂ hdone₂ hlate₂ =>
      rename_i is₂ s₂
      have h6 : ∀ h, freshened P.clearEvery (frame P.clearEvery m₀.counter).1 h = h := by
        intro h
        unfold freshened frame
        rw [if_neg (show ¬ m₀.counter + 1 ≥ P.clearEvery by omega), if_neg (show ¬ (m₀.counter + 1, false).1 + 1 ≥ P.clearEvery by dsimp only; omega)]
        rfl
      have h7 := resting_runs (fun g ws hg => ?_) (fun _ => rfl) hrun₂
      · rw [h7.store]
        rfl
      · show Present (freshened P.clearEvery (frame P.clearEvery m₀.counter).1 s.start) _
        rw [h6]
        refine seen g ws ((jobs is₂ hord₂ hlen₂ _).1 ?_)
        rw [← hv]
        exact hg

/-! The example: the scan of C96 with `clear_checks_every_n_frames = 3`, the map cleared after the first call. -/

def exEvery (n : ℤ) : Params := { exFast with clearEvery := n }

def exFirstEnd (n : ℤ) : FastPool :=
  fastLoop (Arith.exact exSq) (exEvery n) 200 (fastStart (Arith.exact exSq) (exEvery n) exView exCloud false 0 ApproxHash.init ApproxHash.init exEmpty [0, 1, 2])

def exMemory (n : ℤ) : Memory := ⟨(exFirstEnd n).start, (exFirstEnd n).seen, (frame n 0).1⟩

def exSecondEnd (n : ℤ) : FastPool :=
  fastLoop (Arith.exact exSq) (exEvery n) 200 (fastStart (Arith.exact exSq) (exEvery n) exView exCloud false (frame n 0).1 (exFirstEnd n).start (exFirstEnd n).seen exEmpty
    [0, 1, 2])

theorem exCall {n : ℤ} {s : FastPool} {m : Memory}
    (hs : s = fastLoop (Arith.exact exSq) (exEvery n) 200 (fastStart (Arith.exact exSq) (exEvery n) exView exCloud false m.counter m.start m.seen exEmpty [0, 1, 2]))
    (hend : (match s.stage 0, s.todo with | .idle, [] => true | _, _ => false) = true) :
    Call (Arith.exact exSq) exSort (exEvery n) exView (exCloud.map (·.1)) (exCloud.map (·.2)) false exEmpty m false s.store.merge
      ⟨s.start, s.seen, (frame n m.counter).1⟩ := by
  have hend' : s.stage 0 = .idle ∧ s.todo = [] := by
    split at hend
    · rename_i h1 h2; exact ⟨h1, h2⟩
    · cases hend
  have hord : order exSort exFast.mode (sqNorms (Arith.exact exSq) (exCloud.map (·.1))) = .ok [0, 1, 2] := by decide +kernel
  refine Call.done (is := [0, 1, 2]) rfl hord ?_ ?_ ?_
  · rw [hs]
    exact fastLoop_runs (show 0 < 1 by decide) 200 FastRuns.refl
  · intro t ht
    obtain rfl : t = 0 := by have : t < 1 := ht; omega
    exact Or.inr hend'
  · refine Iff.intro (fun h => by cases h) ?_
    rintro ⟨t, ht, h⟩
    obtain rfl : t = 0 := by have : t < 1 := ht; omega
    rw [hend'.1] at h
    cases h

theorem exCloud_noClash : NoClash (exCloud.map (fastPoint (Arith.exact exSq) (exEvery 3) 1 exView false)) := by
  have h : ∀ j ∈ exCloud.map (fastPoint (Arith.exact exSq) (exEvery 3) 1 exView false), ∀ j' ∈ exCloud.map (fastPoint (Arith.exact exSq) (exEvery 3) 1 exView false),
      (match j, j' with
        | .ok (some (g, _)), .ok (some (g', _)) => decide (ApproxHash.longIndexHash g % 2 ^ 20 = ApproxHash.longIndexHash g' % 2 ^ 20 →
            ApproxHash.longIndexHash g = ApproxHash.longIndexHash g')
        | _, _ => true) = true := by decide +kernel
  intro g ws g' ws' h1 h2
  exact of_decide_eq_true (h _ h1 _ h2)

/-- The first call fills the map, the second, after `clear`, leaves it empty. -/
example : ∃ l₁ m₃, Call (Arith.exact exSq) exSort (exEvery 3) exView (exCloud.map (·.1)) (exCloud.map (·.2)) false exEmpty Memory.new false (.ok l₁) (exMemory 3) ∧
    (content l₁ ⟨8, 4, 8⟩).map (·.weight) = some (.fin 1) ∧ Memory.new.counter + 2 < (exEvery 3).clearEvery ∧
    Between.clear.apply l₁ (exMemory 3) = (exEmpty, exMemory 3) ∧
    Call (Arith.exact exSq) exSort (exEvery 3) exView (exCloud.map (·.1)) (exCloud.map (·.2)) false exEmpty (exMemory 3) false (.ok exEmpty) m₃ := by
  have hw : (match (exFirstEnd 3).store.merge with
      | .ok l => decide ((content l ⟨8, 4, 8⟩).map (·.weight) = some (.fin 1) ∧ l.cfg = exEmpty.cfg) | _ => false) = true := by decide +kernel
  have h1 := exCall (n := 3) (m := Memory.new) (s := exFirstEnd 3) rfl (by decide +kernel)
  have h2 := exCall (n := 3) (m := exMemory 3) (s := exSecondEnd 3) rfl (by decide +kernel)
  split at hw
  · rename_i l₁ hl
    rw [hl] at h1
    obtain ⟨hw1, hw2⟩ := of_decide_eq_true hw
    have hb : Between.clear.apply l₁ (exMemory 3) = (exEmpty, exMemory 3) := by
      show (({ l₁ with blocks := [] } : VLayer (TsdfVoxel Fl)), exMemory 3) = _
      rw [hw2]
      rfl
    have := (C132_second_call_violated Dispatch.insertionSort_isStdSort (by decide) h1 (by decide) exCloud_noClash hb rfl h2).1
    rw [this] at h2
    exact ⟨l₁, _, h1, hw1, by decide, hb, h2⟩
  · cases hw

/-- The hypotheses of the part that holds: with `clear_checks_every_n_frames = 1` the second call fills the cleared map again. -/
example : 0 < (exEvery 1).threads ∧ (exEvery 1).clearEvery ≤ 1 ∧ 0 ≤ (exMemory 1).counter ∧
    (∀ p ∈ exCloud, ∀ g ws, fastPoint (Arith.exact exSq) (exEvery 1) 1 exView false p = .ok (some (g, ws)) → InReach ws) ∧
    ApproxHash.Exec maskedBits fullReset [] Memory.new.start (fun _ => none) ∧
    ∃ l₂ m₃, Call (Arith.exact exSq) exSort (exEvery 1) exView (exCloud.map (·.1)) (exCloud.map (·.2)) false exEmpty (exMemory 1) false (.ok l₂) m₃ ∧
      (content l₂ ⟨8, 4, 8⟩).map (·.weight) = some (.fin 1) := by
  refine ⟨by decide, by decide, by decide, exFast_inReach, .init, ?_⟩
  have hw : (match (exSecondEnd 1).store.merge with
      | .ok l => decide ((content l ⟨8, 4, 8⟩).map (·.weight) = some (.fin 1)) | _ => false) = true := by decide +kernel
  have h2 := exCall (n := 1) (m := exMemory 1) (s := exSecondEnd 1) rfl (by decide +kernel)
  split at hw
  · rename_i l₂ hl
    rw [hl] at h2
    exact ⟨l₂, _, h2, of_decide_eq_true hw⟩
  · cases hw

end Vox.TsdfScan
