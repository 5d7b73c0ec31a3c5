/-
Clearing free space around the robot.
-/
import Verif.Lemmas.EsdfCopy
import Verif.Props.Sphere

namespace Vox.Esdf

open Layer Grid Spec Sphere

variable {A : Flt} {cfg : Config} {L : Limits}

/-- The map of a sphere and its pairs in any iteration order. -/
theorem sphere_pairs {c : Cfg} (hn : 0 < c.vps) {center : Pt} {radius : ℚ} (h : SphereInRange c center radius)
    (order : VoxelMap → VoxelMap) (ho : ∀ m, (order m).Perm m) :
    ∃ m, getSphere c center radius [] = .ok m ∧ (pairs (order m)).Nodup ∧
      (∀ i v, (i, v) ∈ pairs (order m) ↔ InBlock c.vps v ∧ Covered c center radius (globalIndex c.vps i v)) ∧
      (∀ i, i ∈ m.map (·.1) ↔ ∃ g, Covered c center radius g ∧ blockOf c.vps g = i) := by
  obtain ⟨h1, h2, h3⟩ := pushAll (sphereList c center radius) [] (by simp)
  set m := (sphereList c center radius).foldl pushVoxel [] with hm
  have hlist : ∀ i v, v ∈ listed m i ↔ (i, v) ∈ sphereList c center radius := by
    intro i v
    rw [h2]
    simp only [listed, List.lookup_nil, Option.getD_none, List.nil_append]
    simp
  have hlnd : ∀ i, (listed m i).Nodup := by
    intro i
    rw [h2]
    simp only [listed, List.lookup_nil, Option.getD_none, List.nil_append]
    refine List.Nodup.map_on ?_ ((sphereList_nodup c center radius).filter _)
    rintro ⟨a, b⟩ ha ⟨c, d⟩ hc hbd
    simp only [List.mem_filter, decide_eq_true_eq] at ha hc hbd
    rw [ha.2, hc.2, hbd]
  have hperm : (pairs (order m)).Perm (pairs m) := (ho m).flatMap_right _
  refine ⟨m, getSphere_ok h [], hperm.nodup_iff.2 (pairs_nodup h1 hlnd), ?_, ?_⟩
  · intro i v
    rw [hperm.mem_iff, mem_pairs h1, hlist, mem_sphereList hn]
    rfl
  · intro i
    rw [h3]
    simp only [List.map_nil, List.not_mem_nil, false_or, List.mem_map, Prod.exists, exists_and_right, exists_eq_right]
    constructor
    · rintro ⟨v, hv⟩
      obtain ⟨b1, b2⟩ := (mem_sphereList hn).1 hv
      exact ⟨_, b2, blockOf_globalIndex b1⟩
    · rintro ⟨g, hg, rfl⟩
      refine ⟨localOf c.vps g, (mem_sphereList hn).2 ⟨localOf_inBlock hn g, ?_⟩⟩
      rw [globalIndex_split]
      exact hg

/-- A voxel in a block that meets the sphere is in range. -/
theorem covered_range {c : Cfg} (hn : 0 < c.vps) (hle : c.vps ≤ 1290) {center : Pt} {radius : ℚ} (h : SphereInRange c center radius)
    {g g' : Idx} (hg : Covered c center radius g') (hb : blockOf c.vps g' = blockOf c.vps g) : Inner g := by
  have hr : radius / c.voxelSize ≤ 2 ^ 22 := by rw [div_le_iff₀ h.size_pos]; exact h.radius
  obtain ⟨cx, cy, cz⟩ := h.center
  have gx := sphere_index_range h.size_pos cx
  have gy := sphere_index_range h.size_pos cy
  have gz := sphere_index_range h.size_pos cz
  obtain ⟨ox, oy, oz⟩ := inSphere_range hg hr
  have key : ∀ {a b : ℤ}, a / (c.vps : ℤ) = b / (c.vps : ℤ) → |b - a| ≤ 1290 := by
    intro a b hab
    have hn' : (0 : ℤ) < c.vps := by omega
    have e1 := Int.mul_ediv_add_emod a c.vps
    have e2 := Int.mul_ediv_add_emod b c.vps
    have r1 := Int.emod_nonneg a hn'.ne'
    have r2 := Int.emod_nonneg b hn'.ne'
    have l1 := Int.emod_lt_of_pos a hn'
    have l2 := Int.emod_lt_of_pos b hn'
    rw [hab] at e1
    rw [abs_le]
    constructor <;> omega
  have bx := key (congrArg Vec3.x hb)
  have by_ := key (congrArg Vec3.y hb)
  have bz := key (congrArg Vec3.z hb)
  simp only [Vec3.sub_x, Vec3.sub_y, Vec3.sub_z, gridIndex, Vec3.map_x, Vec3.map_y, Vec3.map_z] at *
  rw [abs_le] at gx gy gz ox oy oz bx by_ bz
  refine ⟨?_, ?_, ?_⟩ <;> simp only [abs_lt] <;> omega

/-- Allocating a list of blocks in range. -/
theorem Ready.allocateAll (F : CopyFits A cfg L) (is : List Idx) : ∀ {es : List (ℕ × Idx)} {s : State}, Ready A L es s →
    (∀ i ∈ is, ∀ g, blockOf s.layer.cfg.vps g = i → Inner g) →
    Ready A L es ⟨is.foldl (allocateBlock esdfDefault) s.layer, s.open_, s.raise, s.updated⟩ := by
  induction is with
  | nil => intro es s h _; exact h
  | cons i is ih =>
    intro es s h hr
    have wf : WellFormed s.layer := h.choose_spec.1.wf
    have := h.allocate F (i := i) (hr i (by simp)) (allocateBlock_cfg esdfDefault s.layer i) (allocateBlock_wf wf _ i)
      (allocateBlock_content wf _ i)
    exact ih this fun j hj g hg => hr j (by simp [hj]) g (by rw [← hg]; simp only [allocateBlock_cfg])

/-- What a step of a sphere loop does: the voxel changes by `upd`. -/
def SphereStep (A : Flt) (L : Limits) (f : State → Idx × Idx → Outcome State) (upd : EVoxel → EVoxel) : Prop :=
  ∀ es s i v, Ready A L es s → Allocated s.layer i → InBlock s.layer.cfg.vps v →
    ∃ s' es', f s (i, v) = .ok s' ∧ Ready A L es' s' ∧ s'.layer.cfg = s.layer.cfg ∧
      (∀ j, status s'.layer j = status s.layer j) ∧
      ∀ g, content s'.layer g = if g = globalIndex s.layer.cfg.vps i v then (content s.layer g).map upd else content s.layer g

theorem sphereSteps_ok {f : State → Idx × Idx → Outcome State} {upd : EVoxel → EVoxel} (hf : SphereStep A L f upd)
    (ps : List (Idx × Idx)) : ∀ es s, Ready A L es s → ps.Nodup → (∀ e ∈ ps, InBlock s.layer.cfg.vps e.2 ∧ Allocated s.layer e.1) →
    ∃ s' es', ps.foldlM f s = .ok s' ∧ Ready A L es' s' ∧ s'.layer.cfg = s.layer.cfg ∧
      (∀ j, status s'.layer j = status s.layer j) ∧
      ∀ g, content s'.layer g = if (blockOf s.layer.cfg.vps g, localOf s.layer.cfg.vps g) ∈ ps then (content s.layer g).map upd
        else content s.layer g := by
  induction ps with
  | nil => intro es s h _ _; exact ⟨s, es, rfl, h, rfl, fun _ => rfl, by simp⟩
  | cons e ps ih =>
    intro es s h hn hp
    obtain ⟨i, v⟩ := e
    obtain ⟨hv, hi⟩ := hp (i, v) List.mem_cons_self
    rw [List.nodup_cons] at hn
    obtain ⟨s1, es1, e1, e2, e3, e4, e5⟩ := hf es s i v h hi hv
    obtain ⟨s2, es2, f1, f2, f3, f4, f5⟩ := ih es1 s1 e2 hn.2 (by
      intro p hp'
      obtain ⟨a, b⟩ := hp p (List.mem_cons_of_mem _ hp')
      refine ⟨by rw [e3]; exact a, ?_⟩
      rw [allocated_iff_status, e4]
      exact allocated_iff_status.1 b)
    refine ⟨s2, es2, by rw [List.foldlM_cons, e1]; exact f1, f2, f3.trans e3, fun j => (f4 j).trans (e4 j), ?_⟩
    intro g
    have hiff : (blockOf s.layer.cfg.vps g, localOf s.layer.cfg.vps g) = (i, v) ↔ g = globalIndex s.layer.cfg.vps i v := by
      constructor
      · intro h
        obtain ⟨h1, h2⟩ := Prod.mk.inj h
        rw [← h1, ← h2, globalIndex_split]
      · rintro rfl
        rw [blockOf_globalIndex hv, localOf_globalIndex hv]
    rw [f5, e3, e5]
    by_cases hg : g = globalIndex s.layer.cfg.vps i v
    · have hnot : (blockOf s.layer.cfg.vps g, localOf s.layer.cfg.vps g) ∉ ps := by
        rw [hiff.2 hg]; exact hn.1
      rw [if_neg hnot, if_pos hg, if_pos (by rw [hiff.2 hg]; exact List.mem_cons_self)]
    · have : (blockOf s.layer.cfg.vps g, localOf s.layer.cfg.vps g) ≠ (i, v) := fun h => hg (hiff.1 h)
      simp [hg, this]

/-- What one sphere of the robot clearing does to a layer. -/
structure Touched (upd : EVoxel → EVoxel) (center : Pt) (radius : ℚ) (l l' : VLayer EVoxel) : Prop where
  cfg : l'.cfg = l.cfg
  wf : WellFormed l'
  inside : ∀ g, Covered l.cfg center radius g → content l' g = some (upd ((content l g).getD esdfDefault))
  outside : ∀ g, ¬ Covered l.cfg center radius g → content l' g = content l g ∨
    (content l g = none ∧ content l' g = some esdfDefault)
  status : ∀ j, Spec.status l' j = Spec.status l j ∨ (Spec.status l j = none ∧ Spec.status l' j = some (false, Flags.ofBool false))

theorem spherePhase_ok (F : CopyFits A cfg L) {f : State → Idx × Idx → Outcome State} {upd : EVoxel → EVoxel}
    (hf : SphereStep A L f upd) {es : List (ℕ × Idx)} {s : State} (h : Ready A L es s) {center : Pt} {radius : ℚ}
    (hr : SphereInRange s.layer.cfg center radius) (order : VoxelMap → VoxelMap) (ho : ∀ m, (order m).Perm m) :
    ∃ r s' es', getAndAllocateSphere esdfDefault center radius s.layer [] = .ok r ∧
      overSphere f (order r.2) ⟨r.1, s.open_, s.raise, s.updated⟩ = .ok s' ∧ Ready A L es' s' ∧
      Touched upd center radius s.layer s'.layer := by
  have wf : WellFormed s.layer := h.choose_spec.1.wf
  have hn := wf.side_pos
  obtain ⟨m, m1, m2, m3, m4⟩ := sphere_pairs hn hr order ho
  obtain ⟨a1, a2, a3, a4⟩ := Vox.Grid.allocateAll wf esdfDefault (m.map (·.1))
  have hR := h.allocateAll F (m.map (·.1)) (by
    intro i hi g hg
    obtain ⟨g', h1, h2⟩ := (m4 i).1 hi
    exact covered_range hn wf.side_le hr h1 (h2.trans hg.symm))
  obtain ⟨s', es', f1, f2, f3, f4, f5⟩ := sphereSteps_ok hf (pairs (order m)) es _ hR m2 (by
    rintro ⟨i, v⟩ he
    obtain ⟨b1, b2⟩ := (m3 i v).1 he
    refine ⟨by simp only [a1]; exact b1, ?_⟩
    rw [allocated_iff_status]
    simp only [a4]
    rw [if_pos ((m4 i).2 ⟨_, b2, blockOf_globalIndex b1⟩)]
    rfl)
  simp only [a1] at f3 f5
  have hcov : ∀ g, (blockOf s.layer.cfg.vps g, localOf s.layer.cfg.vps g) ∈ pairs (order m) ↔ Covered s.layer.cfg center radius g := by
    intro g
    rw [m3, globalIndex_split]
    exact ⟨fun h => h.2, fun h => ⟨localOf_inBlock hn g, h⟩⟩
  refine ⟨((m.map (·.1)).foldl (allocateBlock esdfDefault) s.layer, m), s', es', ?_, ?_, f2, ⟨f3, f2.choose_spec.1.wf, ?_, ?_, ?_⟩⟩
  · unfold getAndAllocateSphere
    rw [m1]
    rfl
  · unfold overSphere
    rw [foldlM_pairs f]
    exact f1
  · intro g hg
    rw [f5, if_pos ((hcov g).2 hg), a3, if_pos ((m4 _).2 ⟨g, hg, rfl⟩)]
    rfl
  · intro g hg
    rw [f5, if_neg (fun h => hg ((hcov g).1 h)), a3]
    split_ifs with hb
    · cases hc : content s.layer g with
      | some x => exact Or.inl rfl
      | none => exact Or.inr ⟨rfl, rfl⟩
    · exact Or.inl rfl
  · intro j
    rw [f4, a4]
    split_ifs with hj
    · cases hc : Spec.status s.layer j with
      | some x => exact Or.inl rfl
      | none => exact Or.inr ⟨rfl, rfl⟩
    · exact Or.inl rfl

/-- The change of a voxel in the inner sphere. -/
def cleared (d : ℚ) (x : EVoxel) : EVoxel :=
  if x.observed = false ∨ x.hallucinated = true then ⟨d, true, true, x.inQueue, x.fixed, 0⟩ else x

/-- The change of a voxel in the outer sphere. -/
def shelled (d : ℚ) (x : EVoxel) : EVoxel :=
  if x.observed = false then ⟨-d, true, true, x.inQueue, x.fixed, 0⟩ else x

theorem valid_of_inBlock {n : ℕ} (hn : n ≤ 1290) {v : Idx} (h : InBlock n v) : isValidVoxelIndex n v = true :=
  (Props.C01_valid_voxel_iff (by omega) v).2 h

theorem clearVoxel_step (F : CopyFits A cfg L) : SphereStep A L (clearVoxel cfg) (cleared cfg.defaultDistance) := by
  intro es s i v h hi hv
  obtain ⟨S, G, hr⟩ := h
  obtain ⟨x, x1, x2⟩ := readVoxel_ok G.wf hv hi
  unfold clearVoxel
  simp only [valid_of_inBlock G.wf.side_le hv, Bool.not_true, Bool.false_eq_true, if_false, x1, Outcome.bind_ok]
  by_cases hc : x.observed = false ∨ x.hallucinated = true
  · rw [if_pos (by rcases hc with h | h <;> simp [h])]
    obtain ⟨hg, l', w1, w2, w3⟩ := G.writeBlock hi hv ⟨cfg.defaultDistance, true, true, x.inQueue, x.fixed, 0⟩
      ⟨F.default_rep, by rw [abs_of_nonneg F.default_nonneg]; exact F.default_le⟩
    obtain ⟨g1, -, g2, g3⟩ := w3 (if x.hallucinated then s.raise ++ [globalIndex s.layer.cfg.vps i v] else s.raise) s.open_ es
      (insertBlock s.updated i) G.queue G.queued
    rw [w1]
    refine ⟨_, es, rfl, ⟨S, g1, ?_⟩, g2, g3, ?_⟩
    · intro g hg'
      simp only at hg'
      split_ifs at hg'
      · rcases List.mem_append.1 hg' with h | h
        · exact hr g h
        · rw [List.mem_singleton.1 h]; exact hg
      · exact hr g hg'
    · intro g
      show content l' g = _
      rw [w2]
      split_ifs with h
      · rw [h, x2]
        simp [cleared, hc]
      · rfl
  · rw [if_neg (by simpa using hc)]
    refine ⟨s, es, rfl, ⟨S, G, hr⟩, rfl, fun _ => rfl, ?_⟩
    intro g
    split_ifs with h
    · rw [h, x2]
      simp [cleared, hc]
    · rfl

theorem occupyVoxel_step (F : CopyFits A cfg L) : SphereStep A L (occupyVoxel cfg) (shelled cfg.defaultDistance) := by
  intro es s i v h hi hv
  obtain ⟨S, G, hr⟩ := h
  obtain ⟨x, x1, x2⟩ := readVoxel_ok G.wf hv hi
  have hg : globalIndex s.layer.cfg.vps i v ∈ S := (G.dom _).1 (by rw [x2]; rfl)
  unfold occupyVoxel
  simp only [valid_of_inBlock G.wf.side_le hv, Bool.not_true, Bool.false_eq_true, if_false, x1, Outcome.bind_ok]
  by_cases hc : x.observed = false
  · rw [if_pos (by simp [hc])]
    obtain ⟨-, l', w1, w2, w3⟩ := G.writeBlock hi hv ⟨-cfg.defaultDistance, true, true, x.inQueue, x.fixed, 0⟩
      ⟨F.R.rep_neg F.default_rep, by
        simp only [abs_neg, abs_of_nonneg F.default_nonneg]
        exact F.default_le⟩
    obtain ⟨g1, -, g2, g3⟩ := w3 s.raise s.open_ es (insertBlock s.updated i) G.queue G.queued
    rw [w1]
    refine ⟨_, es, rfl, ⟨S, g1, hr⟩, g2, g3, ?_⟩
    intro g
    show content l' g = _
    rw [w2]
    split_ifs with h
    · rw [h, x2]
      simp [shelled, hc]
    · rfl
  · rw [if_neg (by simpa using hc)]
    have hsame : ∀ g, content s.layer g = if g = globalIndex s.layer.cfg.vps i v then
        (content s.layer g).map (shelled cfg.defaultDistance) else content s.layer g := by
      intro g
      split_ifs with h
      · rw [h, x2]
        simp [shelled, hc]
      · rfl
    split_ifs with hq
    · obtain ⟨q', p1, p2⟩ := push_ok G.queue (globalIndex s.layer.cfg.vps i v) (F.toFits.bucket (G.vals _ _ x2).2)
      rw [p1]
      refine ⟨_, _, rfl, ⟨S, ⟨G.wf, G.power, G.dom, G.range, G.vals, p2, ?_⟩, hr⟩, rfl, fun _ => rfl, hsame⟩
      intro e' he'
      rcases mem_insertStable.1 he' with h | h
      · rw [h]; exact hg
      · exact G.queued _ h
    · exact ⟨s, es, rfl, ⟨S, G, hr⟩, rfl, fun _ => rfl, hsame⟩

/-- Adding a robot position in range succeeds and leaves a consistent state. -/
theorem addRobotPosition_ok (F : CopyFits A cfg L) {es : List (ℕ × Idx)} {s : State} (h : Ready A L es s) {p : Pt}
    (h1 : SphereInRange s.layer.cfg p cfg.clearRadius) (h2 : SphereInRange s.layer.cfg p cfg.occupiedRadius)
    (order : VoxelMap → VoxelMap) (ho : ∀ m, (order m).Perm m) :
    ∃ s' es' l1, addRobotPosition cfg order p s = .ok s' ∧ Ready A L es' s' ∧
      Touched (cleared cfg.defaultDistance) p cfg.clearRadius s.layer l1 ∧
      Touched (shelled cfg.defaultDistance) p cfg.occupiedRadius l1 s'.layer := by
  obtain ⟨r, s1, es1, a1, a2, a3, a4⟩ := spherePhase_ok F (clearVoxel_step F) h h1 order ho
  obtain ⟨r', s2, es2, b1, b2, b3, b4⟩ := spherePhase_ok F (occupyVoxel_step F) a3 (by rw [a4.cfg]; exact h2) order ho
  refine ⟨s2, es2, s1.layer, ?_, b3, a4, b4⟩
  unfold addRobotPosition
  simp only [a1, Outcome.bind_ok, a2, b1]
  exact b2

end Vox.Esdf
