/-
Properties C45, C46 and C70: sequences of ESDF operations, update flags, robot clearing.
-/
import Verif.Props.Esdf

namespace Vox.Esdf

open Layer Grid Spec Sphere

variable {A : Flt} {cfg : Config} {L : Limits}

/-! ### C70: clearing around the robot -/

/-- **C70.** Adding a robot position succeeds. A voxel that was observed and not hallucinated keeps its whole content. In
the inner sphere all other voxels become hallucinated free space. In the outer sphere only voxels that were not observed
become hallucinated occupied. No other voxel changes (new blocks hold default voxels). No update flag changes. -/
theorem C70_robot (F : CopyFits A cfg L) {es : List (ℕ × Idx)} {s : State} (h : Ready A L es s) {p : Pt}
    (h1 : SphereInRange s.layer.cfg p cfg.clearRadius) (h2 : SphereInRange s.layer.cfg p cfg.occupiedRadius)
    (order : VoxelMap → VoxelMap) (ho : ∀ m, (order m).Perm m) :
    ∃ s', addRobotPosition cfg order p s = .ok s' ∧ ∀ g,
      (∀ x, content s.layer g = some x → x.observed = true → x.hallucinated = false → content s'.layer g = some x) ∧
      (Covered s.layer.cfg p cfg.clearRadius g → (∀ x, content s.layer g = some x → x.observed = false ∨ x.hallucinated = true) →
        ∃ y, content s'.layer g = some y ∧ y.distance = cfg.defaultDistance ∧ y.observed = true ∧ y.hallucinated = true ∧ y.parent = 0) ∧
      (¬ Covered s.layer.cfg p cfg.clearRadius g → Covered s.layer.cfg p cfg.occupiedRadius g →
        (∀ x, content s.layer g = some x → x.observed = false) →
        ∃ y, content s'.layer g = some y ∧ y.distance = -cfg.defaultDistance ∧ y.observed = true ∧ y.hallucinated = true ∧ y.parent = 0) ∧
      (¬ Covered s.layer.cfg p cfg.clearRadius g → ∀ x, content s.layer g = some x → x.observed = true → content s'.layer g = some x) ∧
      (¬ Covered s.layer.cfg p cfg.clearRadius g → ¬ Covered s.layer.cfg p cfg.occupiedRadius g →
        content s'.layer g = content s.layer g ∨ (content s.layer g = none ∧ content s'.layer g = some esdfDefault)) ∧
      (∀ j f, status s.layer j = some f → status s'.layer j = some f) := by
  obtain ⟨s', es', l1, a1, -, a3, a4⟩ := addRobotPosition_ok F h h1 h2 order ho
  refine ⟨s', a1, fun g => ?_⟩
  have hin1 := a3.inside g
  have hout1 := a3.outside g
  have hin2 := a4.inside g
  have hout2 := a4.outside g
  rw [a3.cfg] at hin2 hout2
  -- an observed voxel survives the second sphere
  have keep2 : ∀ x, content l1 g = some x → x.observed = true → content s'.layer g = some x := by
    intro x hx hobs
    by_cases hc : Covered s.layer.cfg p cfg.occupiedRadius g
    · rw [hin2 hc, hx]
      simp [shelled, hobs]
    · rcases hout2 hc with h | ⟨h, -⟩
      · rw [h, hx]
      · rw [hx] at h; cases h
  refine ⟨?_, ?_, ?_, ?_, ?_, ?_⟩
  · intro x hx ho hh
    refine keep2 x ?_ ho
    by_cases hc : Covered s.layer.cfg p cfg.clearRadius g
    · rw [hin1 hc, hx]
      simp [cleared, ho, hh]
    · rcases hout1 hc with h | ⟨h, -⟩
      · rw [h, hx]
      · rw [hx] at h; cases h
  · intro hc hx
    have hcl : ((content s.layer g).getD esdfDefault).observed = false ∨ ((content s.layer g).getD esdfDefault).hallucinated = true := by
      cases hg : content s.layer g with
      | none => exact Or.inl rfl
      | some x => exact hx x hg
    have := hin1 hc
    unfold cleared at this
    rw [if_pos hcl] at this
    exact ⟨_, keep2 _ this rfl, rfl, rfl, rfl, rfl⟩
  · intro hc hc2 hx
    have hobs : ((content l1 g).getD esdfDefault).observed = false := by
      rcases hout1 hc with h | ⟨-, h⟩
      · rw [h]
        cases hg : content s.layer g with
        | none => rfl
        | some x => exact hx x hg
      · rw [h]; rfl
    have := hin2 hc2
    unfold shelled at this
    rw [if_pos hobs] at this
    exact ⟨_, this, rfl, rfl, rfl, rfl⟩
  · intro hc x hx hobs
    refine keep2 x ?_ hobs
    rcases hout1 hc with h | ⟨h, -⟩
    · rw [h, hx]
    · rw [hx] at h; cases h
  · intro hc hc2
    rcases hout1 hc with h | ⟨h, k⟩
    · rcases hout2 hc2 with h' | ⟨h', k'⟩
      · exact Or.inl (h'.trans h)
      · exact Or.inr ⟨h ▸ h', k'⟩
    · rcases hout2 hc2 with h' | ⟨h', -⟩
      · exact Or.inr ⟨h, h'.trans k⟩
      · rw [k] at h'; cases h'
  · intro j f hf
    have hs1 : status l1 j = some f := by
      rcases a3.status j with h | ⟨h, -⟩
      · rw [h, hf]
      · rw [hf] at h; cases h
    rcases a4.status j with h | ⟨h, -⟩
    · rw [h, hs1]
    · rw [hs1] at h; cases h

theorem sample_sphere (r : ℚ) (hr : r ≤ 2 ^ 22) : SphereInRange unitCfg ⟨1 / 2, 1 / 2, 1 / 2⟩ r :=
  ⟨by norm_num [unitCfg], ⟨0, by norm_num, rfl⟩, by simpa [unitCfg] using hr, by
    refine ⟨?_, ?_, ?_⟩ <;> norm_num [unitCfg]⟩

example : SphereInRange (init sampleCfg ⟨unitCfg, []⟩).layer.cfg ⟨1 / 2, 1 / 2, 1 / 2⟩ sampleCfg.clearRadius ∧
    Covered unitCfg ⟨1 / 2, 1 / 2, 1 / 2⟩ sampleCfg.clearRadius ⟨1, 0, 0⟩ ∧
    ¬ Covered unitCfg ⟨1 / 2, 1 / 2, 1 / 2⟩ sampleCfg.clearRadius ⟨2, 0, 0⟩ ∧
    Covered unitCfg ⟨1 / 2, 1 / 2, 1 / 2⟩ sampleCfg.occupiedRadius ⟨2, 0, 0⟩ :=
  ⟨sample_sphere 1 (by norm_num), by decide +kernel, by decide +kernel, by decide +kernel⟩

/-! ### C45: sequences of operations -/

/-- The public operations of the integrator; each update names the TSDF layer as it is at that time. -/
inductive Op where
  | robot (p : Pt)
  | incremental (clearFlag : Bool) (tsdf : VLayer (TsdfVoxel ℚ))
  | batch (tsdf : VLayer (TsdfVoxel ℚ))
  | clear

/-- Execute one operation with at most `fuel` iterations per loop. -/
def Op.exec (A : Flt) (cfg : Config) (order : VoxelMap → VoxelMap) (set : List Idx → List Idx) (fuel : ℕ) (s : State) :
    Op → Outcome (Option State)
  | .robot p => do
    let s ← addRobotPosition cfg order p s
    pure (some s)
  | .incremental c tsdf => do
    let r ← updateIncremental A cfg fuel set c tsdf s
    pure (r.map (·.1))
  | .batch tsdf => updateBatch A cfg fuel set tsdf s
  | .clear => do
    let s ← Esdf.clear s
    pure (some s)

/-- Execute a sequence of operations. -/
def runOps (A : Flt) (cfg : Config) (order : VoxelMap → VoxelMap) (set : List Idx → List Idx) (fuel : ℕ) :
    State → List Op → Outcome (Option State)
  | s, [] => .ok (some s)
  | s, op :: ops => do
    let r ← op.exec A cfg order set fuel s
    match r with
    | none => pure none
    | some s => runOps A cfg order set fuel s ops

/-- **C45 fails**: a robot position followed by a batch update aborts, whatever the bound on the iterations. -/
theorem C45_counterexample (fuel : ℕ) :
    runOps fixedPoint sampleCfg id id (fuel + 1) (init sampleCfg ⟨unitCfg, []⟩) [.robot ⟨1 / 2, 1 / 2, 1 / 2⟩, .batch ⟨unitCfg, []⟩] =
      .fatal := by
  have h1 : ∃ s, addRobotPosition sampleCfg id ⟨1 / 2, 1 / 2, 1 / 2⟩ (init sampleCfg ⟨unitCfg, []⟩) = .ok s ∧ s.raise = [] ∧
      openStep fixedPoint sampleCfg ⟨⟨unitCfg, []⟩, s.open_, [], []⟩ = .fatal ∧ s.open_.empty = .ok false ∧ s.layer.cfg = unitCfg := by
    have h : (match addRobotPosition sampleCfg id ⟨1 / 2, 1 / 2, 1 / 2⟩ (init sampleCfg ⟨unitCfg, []⟩) with
      | .ok s => decide (s.raise = [] ∧ openStep fixedPoint sampleCfg ⟨⟨unitCfg, []⟩, s.open_, [], []⟩ = .fatal ∧
          s.open_.empty = .ok false ∧ s.layer.cfg = unitCfg)
      | _ => false) = true := by decide +kernel
    split at h
    · rename_i s e
      exact ⟨s, e, of_decide_eq_true h⟩
    · cases h
  obtain ⟨s, a1, a2, a3, a4, a5⟩ := h1
  have hskip : ∀ (is : List Idx) (s : State), is.foldlM (tsdfBlock fixedPoint sampleCfg false ⟨unitCfg, []⟩) s = .ok s := by
    intro is
    induction is with
    | nil => intro s; rfl
    | cons i is ih => intro s; rw [List.foldlM_cons]; exact ih s
  have hb : updateBatch fixedPoint sampleCfg (fuel + 1) id ⟨unitCfg, []⟩ s = .fatal := by
    unfold updateBatch updateFromTsdfBlocks
    simp only [a5, decide_true, hskip, Outcome.bind_ok, List.map_nil, List.nil_append, a2, processRaise]
    rw [show Outcome.check true = .ok () from rfl]
    simp only [Outcome.bind_ok, processOpen, a4, a3]
    rfl
  simp only [runOps, Op.exec, a1, Outcome.bind_ok, Outcome.pure_eq, hb]
  rfl

/-- Which sequences avoid the defect: `dirty` records that a robot position was added after the last update or
`clear`, and a batch update needs clean queues. The layers and positions are in range. -/
def Allowed (A : Flt) (cfg : Config) (L : Limits) (c : Cfg) : Bool → List Op → Prop
  | _, [] => True
  | _, .robot p :: ops => SphereInRange c p cfg.clearRadius ∧ SphereInRange c p cfg.occupiedRadius ∧ Allowed A cfg L c true ops
  | _, .incremental _ tsdf :: ops => TsdfFits A cfg L c.vps tsdf ∧ Allowed A cfg L c false ops
  | dirty, .batch tsdf :: ops => dirty = false ∧ TsdfFits A cfg L c.vps tsdf ∧ Allowed A cfg L c false ops
  | _, .clear :: ops => Allowed A cfg L c false ops

theorem clear_ok {q : BQueue Idx} {n : ℕ} {mx : ℚ} {es : List (ℕ × Idx)} (r : BQueue.Rel q ⟨n, mx, es⟩) :
    ∃ q', q.clear = .ok q' ∧ BQueue.Rel q' ⟨n, mx, []⟩ := by
  obtain ⟨q', o, h1, h2, -⟩ := BQueue.rel_step r .clear (by simp [BQueue.toSpecOp, PQOp.Allowed])
  simp only [BQueue.step, Outcome.bind_eq_ok, Outcome.pure_eq, Outcome.ok.injEq, Prod.mk.injEq] at h1
  obtain ⟨q'', h3, h4, -⟩ := h1
  exact ⟨q'', h3, h4 ▸ h2⟩

/-- **C45 (partial).** Every sequence of robot positions, incremental updates, batch updates and `clear` in which a batch
update does not directly follow a robot position completes without abort or undefined behaviour. What is missing: a
batch update with pending robot positions (`C45_counterexample`). -/
theorem C45_sequences_partial (F : CopyFits A cfg L) (order : VoxelMap → VoxelMap) (ho : ∀ m, (order m).Perm m)
    (set : List Idx → List Idx) (ops : List Op) : ∀ (dirty : Bool) (es : List (ℕ × Idx)) (s : State), Ready A L es s →
    (dirty = false → es = [] ∧ s.raise = []) → Allowed A cfg L s.layer.cfg dirty ops →
    ∃ N s', ∀ fuel, N ≤ fuel → runOps A cfg order set fuel s ops = .ok (some s') := by
  induction ops with
  | nil => intro dirty es s _ _ _; exact ⟨0, s, fun _ _ => rfl⟩
  | cons op ops ih =>
    intro dirty es s h hd ha
    have finish : ∀ {s1 : State} {N1 : ℕ}, (∀ fuel, N1 ≤ fuel → op.exec A cfg order set fuel s = .ok (some s1)) →
        (∃ N s', ∀ fuel, N ≤ fuel → runOps A cfg order set fuel s1 ops = .ok (some s')) →
        ∃ N s', ∀ fuel, N ≤ fuel → runOps A cfg order set fuel s (op :: ops) = .ok (some s') := by
      rintro s1 N1 h1 ⟨N, s', h2⟩
      refine ⟨max N1 N, s', fun fuel hf => ?_⟩
      simp only [runOps, h1 fuel (by omega), Outcome.bind_ok]
      exact h2 fuel (by omega)
    cases op with
    | robot p =>
      obtain ⟨r1, r2, r3⟩ := ha
      obtain ⟨s1, es1, l1, a1, a2, a3, a4⟩ := addRobotPosition_ok F h r1 r2 order ho
      refine finish (s1 := s1) (N1 := 0) (fun fuel _ => by simp only [Op.exec, a1, Outcome.bind_ok]; rfl) ?_
      exact ih true es1 s1 a2 (by simp) (by rw [a4.cfg, a3.cfg]; exact r3)
    | incremental c tsdf =>
      obtain ⟨T, r⟩ := ha
      obtain ⟨N, s1, _, a1, a2, a3, a4, -⟩ := updateFromTsdfBlocks_ok F (tsdf := tsdf) true (fun _ _ _ => True)
        (fun _ _ _ _ => trivial) (fun _ _ _ _ _ _ => trivial) (esdfUpdated tsdf ++ set s.updated) (h.reset []) T
      refine finish (s1 := s1) (N1 := N) (fun fuel hf => ?_) (ih false [] s1 a2 (fun _ => ⟨rfl, a3⟩) (by rw [a4.cfg]; exact r))
      simp only [Op.exec, updateIncremental, a1 fuel hf, Outcome.bind_ok]
      rfl
    | batch tsdf =>
      obtain ⟨rfl, T, r⟩ := ha
      obtain ⟨rfl, hr⟩ := hd rfl
      have h' : Ready A L [] ⟨⟨s.layer.cfg, []⟩, s.open_, s.raise, []⟩ := by
        obtain ⟨S, G, -⟩ := h
        refine ⟨∅, ⟨⟨G.wf.size_pos, G.wf.side_pos, G.wf.side_le, by simp⟩, G.power, ?_, by simp, ?_, G.queue, by simp⟩, by simp [hr]⟩
        · intro g; simp [content]
        · intro g v hv; simp [content] at hv
      obtain ⟨N, s1, _, a1, a2, a3, a4, -⟩ := updateFromTsdfBlocks_ok F (tsdf := tsdf) false (fun _ _ _ => True)
        (fun _ _ _ _ => trivial) (fun _ _ _ _ _ _ => trivial) (tsdf.blocks.map (·.1) ++ set s.updated) h' T
      refine finish (s1 := s1) (N1 := N) (fun fuel hf => ?_) (ih false [] s1 a2 (fun _ => ⟨rfl, a3⟩) (by rw [a4.cfg]; exact r))
      simp only [Op.exec, updateBatch]
      exact a1 fuel hf
    | clear =>
      obtain ⟨S, G, hr⟩ := h
      obtain ⟨q, q1, q2⟩ := clear_ok G.queue
      refine finish (s1 := ⟨s.layer, q, [], []⟩) (N1 := 0) (fun fuel _ => by
        simp only [Op.exec, Esdf.clear, q1, Outcome.bind_ok]; rfl) ?_
      exact ih false [] _ ⟨S, ⟨G.wf, G.power, G.dom, G.range, G.vals, q2, by simp⟩, by simp⟩ (fun _ => ⟨rfl, rfl⟩) ha

example : Allowed fixedPoint sampleCfg sampleLimits unitCfg false
    [.robot ⟨1 / 2, 1 / 2, 1 / 2⟩, .incremental true sampleTsdf, .batch sampleTsdf, .robot ⟨1 / 2, 1 / 2, 1 / 2⟩, .clear, .batch sampleTsdf] :=
  ⟨sample_sphere 1 (by norm_num), sample_sphere 2 (by norm_num), sampleTsdf_fits, rfl, sampleTsdf_fits,
    sample_sphere 1 (by norm_num), sample_sphere 2 (by norm_num), rfl, sampleTsdf_fits, trivial⟩

/-! ### C46: update flags -/

/-- **C46 (partial).** After an update, every listed block that exists in the TSDF is allocated with the map flag set.
What is missing: the other two flags (`C46_lost`), and blocks changed by propagation only (`C46_unlisted`,
`C46_propagation_counterexample`). -/
theorem C46_listed_partial (F : CopyFits A cfg L) {es : List (ℕ × Idx)} {s : State} (h : Ready A L es s)
    {tsdf : VLayer (TsdfVoxel ℚ)} (T : TsdfFits A cfg L s.layer.cfg.vps tsdf) (blocks : List Idx) (incremental : Bool) :
    ∃ N s', (∀ fuel, N ≤ fuel → updateFromTsdfBlocks A cfg fuel tsdf blocks incremental s = .ok (some s')) ∧
      ∀ j ∈ blocks, Spec.Allocated tsdf j → ∃ f, status s'.layer j = some f ∧ f.2.get .map = true := by
  obtain ⟨N, s', c, h1, -, -, -, -, h2, -⟩ := updateFromTsdfBlocks_ok F incremental (fun _ _ _ => True) (fun _ _ _ _ => trivial)
    (fun _ _ _ _ _ _ => trivial) blocks h T
  refine ⟨N, s', h1, fun j hj ha => ⟨_, (h2 j).trans (if_pos ⟨hj, ha⟩), rfl⟩⟩

/-- **C46 fails**: an update clears the mesh and ESDF flags of every block it processes, whatever they were before. -/
theorem C46_lost (F : CopyFits A cfg L) {es : List (ℕ × Idx)} {s : State} (h : Ready A L es s)
    {tsdf : VLayer (TsdfVoxel ℚ)} (T : TsdfFits A cfg L s.layer.cfg.vps tsdf) (blocks : List Idx) (incremental : Bool) :
    ∃ N s', (∀ fuel, N ≤ fuel → updateFromTsdfBlocks A cfg fuel tsdf blocks incremental s = .ok (some s')) ∧
      ∀ j ∈ blocks, Spec.Allocated tsdf j → ∃ f, status s'.layer j = some f ∧ f.2.get .mesh = false ∧ f.2.get .esdf = false := by
  obtain ⟨N, s', c, h1, -, -, -, -, h2, -⟩ := updateFromTsdfBlocks_ok F incremental (fun _ _ _ => True) (fun _ _ _ _ => trivial)
    (fun _ _ _ _ _ _ => trivial) blocks h T
  refine ⟨N, s', h1, fun j hj ha => ⟨_, (h2 j).trans (if_pos ⟨hj, ha⟩), rfl, rfl⟩⟩

/-- A state in which the block that is updated carries all three flags: the hypotheses hold and the flags are lost. -/
def flaggedState : State :=
  { init sampleCfg ⟨unitCfg, [esdfCell ⟨0, 0, 0⟩ ⟨4, true, false, false, false, 0⟩ ⟨true, true, true⟩]⟩ with updated := [] }

example : Spec.Allocated sampleTsdf ⟨0, 0, 0⟩ ∧ status flaggedState.layer ⟨0, 0, 0⟩ = some (false, ⟨true, true, true⟩) ∧
    (match updateFromTsdfBlocks fixedPoint sampleCfg 10 sampleTsdf [⟨0, 0, 0⟩] true flaggedState with
      | .ok (some s') => decide (status s'.layer ⟨0, 0, 0⟩ = some (false, ⟨true, false, false⟩))
      | _ => false) = true := by decide +kernel

/-- The flags of a block that is not listed never change, even if its voxels do. -/
theorem C46_unlisted (F : CopyFits A cfg L) {es : List (ℕ × Idx)} {s : State} (h : Ready A L es s)
    {tsdf : VLayer (TsdfVoxel ℚ)} (T : TsdfFits A cfg L s.layer.cfg.vps tsdf) (blocks : List Idx) (incremental : Bool) :
    ∃ N s', (∀ fuel, N ≤ fuel → updateFromTsdfBlocks A cfg fuel tsdf blocks incremental s = .ok (some s')) ∧
      ∀ j, j ∉ blocks → status s'.layer j = status s.layer j := by
  obtain ⟨N, s', c, h1, -, -, -, -, h2, -⟩ := updateFromTsdfBlocks_ok F incremental (fun _ _ _ => True) (fun _ _ _ _ => trivial)
    (fun _ _ _ _ _ _ => trivial) blocks h T
  refine ⟨N, s', h1, fun j hj => ?_⟩
  rw [h2, if_neg fun h => hj h.1]

/-- An ESDF with one far voxel next to a block that is updated. -/
def farState : State :=
  { init sampleCfg ⟨unitCfg, [esdfCell ⟨1, 0, 0⟩ ⟨4, true, false, false, false, 0⟩ (Flags.ofBool false)]⟩ with updated := [] }

/-- **C46 fails for blocks changed by propagation**: the voxel of block (1,0,0) gets a new distance, but no flag of
that block is set. -/
theorem C46_propagation_counterexample :
    ∃ s', updateFromTsdfBlocks fixedPoint sampleCfg 10 sampleTsdf [⟨0, 0, 0⟩] true farState = .ok (some s') ∧
      content farState.layer ⟨1, 0, 0⟩ = some ⟨4, true, false, false, false, 0⟩ ∧
      content s'.layer ⟨1, 0, 0⟩ = some ⟨3 / 2, true, false, false, false, ⟨-1, 0, 0⟩⟩ ∧
      status s'.layer ⟨1, 0, 0⟩ = some (false, Flags.ofBool false) := by
  have h : (match updateFromTsdfBlocks fixedPoint sampleCfg 10 sampleTsdf [⟨0, 0, 0⟩] true farState with
    | .ok (some s') => decide (content farState.layer ⟨1, 0, 0⟩ = some ⟨4, true, false, false, false, 0⟩ ∧
      content s'.layer ⟨1, 0, 0⟩ = some ⟨3 / 2, true, false, false, false, ⟨-1, 0, 0⟩⟩ ∧
      status s'.layer ⟨1, 0, 0⟩ = some (false, Flags.ofBool false))
    | _ => false) = true := by decide +kernel
  split at h
  · rename_i s' e
    exact ⟨s', e, of_decide_eq_true h⟩
  · cases h

end Vox.Esdf
