/-
Property C105: the ESDF of a server over its operations.
-/
import Verif.Lemmas.EsdfServer
import Verif.Props.EsdfOps
import Mathlib.Data.Int.Interval

namespace Vox.EsdfServer

open Layer Grid Spec Sphere Esdf

variable {A : Flt} {L : Limits} {env : Env}

/-! ### Which events are handled -/

/-- A layer that an ESDF message may result in: the configuration stays, voxels are in range, distances representable. -/
structure EsdfFits (A : Flt) (L : Limits) (c : Cfg) (l : VLayer EVoxel) : Prop where
  wf : WellFormed l
  once : Once l
  cfg : l.cfg = c
  range : ∀ g, (content l g).isSome = true → Inner g
  vals : ∀ g v, content l g = some v → Rep A v.distance ∧ |v.distance| ≤ L.B

/-- A TSDF layer that a scan or a message may result in. -/
structure MapFits (A : Flt) (cfg : Config) (L : Limits) (c : Cfg) (t : VLayer (TsdfVoxel ℚ)) : Prop where
  fits : TsdfFits A cfg L c.vps t
  once : Once t
  cfg : t.cfg = c

/-- The voxels that a robot at one of the positions `ps` may have queued. -/
def Reached (cfg : Config) (c : Cfg) (ps : List Pt) (g : Idx) : Prop :=
  ∃ p ∈ ps, Covered c p cfg.clearRadius g ∨ Covered c p cfg.occupiedRadius g

/-- The state of a server: the two maps share their configuration, and only voxels around the robot positions `ps`, added since the last update,
wait in the queues. -/
structure Sound (A : Flt) (L : Limits) (ps : List Pt) (s : State) : Prop where
  fits : CopyFits A s.cfg L
  ready : ∃ es, Ready A L es s.esdf
  waits : ∀ g, Waits s.esdf g → Reached s.cfg s.esdf.layer.cfg ps g
  once : Once s.esdf.layer
  map : MapFits A s.cfg L s.esdf.layer.cfg s.tsdf

/-- The events a server has to handle. With robot positions that wait for an update, a scan must not remove a block that a queued voxel may be in, and
neither a batch update nor an ESDF message may come. -/
def Admissible (A : Flt) (L : Limits) (env : Env) (ps : List Pt) (s : State) : Event → Prop
  | .scan t p => MapFits A s.cfg L s.esdf.layer.cfg t ∧ (env.clearSphere = true → SphereInRange s.esdf.layer.cfg p s.cfg.clearRadius ∧
      SphereInRange s.esdf.layer.cfg p s.cfg.occupiedRadius) ∧
      ∀ g, Reached s.cfg s.esdf.layer.cfg (if env.clearSphere then p :: ps else ps) g →
        NearRobot s.esdf.layer.cfg p env.maxDistance (blockOf s.esdf.layer.cfg.vps g)
  | .update => True
  | .generate => ps = []
  | .batch _ => ps = []
  | .maxDistance m => CopyFits A (setMaxDistance s.cfg m) L
  | .tsdfMap t => MapFits A s.cfg L s.esdf.layer.cfg t
  | .esdfMap l => ps = [] ∧ EsdfFits A L s.esdf.layer.cfg l
  | .clear => True

/-- The robot positions that wait for an update after an event. -/
def waiting (env : Env) (ps : List Pt) (s : State) : Event → List Pt
  | .scan _ p => if env.clearSphere then p :: ps else ps
  | .update => if s.tsdf.blocks.length > 0 then [] else ps
  | .clear => []
  | _ => ps

/-- The server handles the event and is in state `s'` afterwards. -/
def Leads (env : Env) (s : State) (e : Event) (s' : State) : Prop :=
  ∃ N, ∀ fuel, N ≤ fuel → step { env with fuel := fuel } s e = .ok (some s')

/-- The states of a server that starts in `s₀`: all events are admissible and satisfy `K`. -/
inductive History (A : Flt) (L : Limits) (env : Env) (K : State → Event → Prop) (s₀ : State) : List Pt → State → Prop
  | start : History A L env K s₀ [] s₀
  | event {ps : List Pt} {s s' : State} {e : Event} : History A L env K s₀ ps s → Admissible A L env ps s e → K s e → Leads env s e s' →
      History A L env K s₀ (waiting env ps s e) s'

theorem Leads.unique {s s1 s2 : State} {e : Event} (h1 : Leads env s e s1) (h2 : Leads env s e s2) : s1 = s2 := by
  obtain ⟨N1, h1⟩ := h1
  obtain ⟨N2, h2⟩ := h2
  have := (h1 (max N1 N2) (by omega)).symm.trans (h2 (max N1 N2) (by omega))
  exact Option.some.inj (Outcome.ok.inj this)

/-! ### Lemmas -/

theorem clean_of {s : State} (h : Sound A L [] s) : Ready A L [] s.esdf ∧ s.esdf.raise = [] := by
  obtain ⟨es, S, G, hr⟩ := h.ready
  have none : ∀ g, ¬ Waits s.esdf g := by
    intro g hg
    obtain ⟨p, hp, -⟩ := h.waits g hg
    cases hp
  have e1 : es = [] := by
    cases es with
    | nil => rfl
    | cons e es => exact absurd (Or.inr ((waits_iff G.queue e.2).2 ⟨e, List.mem_cons_self, rfl⟩)) (none e.2)
  have e2 : s.esdf.raise = [] := by
    cases hc : s.esdf.raise with
    | nil => rfl
    | cons g gs => exact absurd (Or.inl (by rw [hc]; exact List.mem_cons_self)) (none g)
  subst e1
  exact ⟨⟨S, G, hr⟩, e2⟩

theorem MapFits.prune {cfg : Config} {c : Cfg} {t : VLayer (TsdfVoxel ℚ)} (h : MapFits A cfg L c t) (p : Pt) (d : ℚ) :
    MapFits A cfg L c (ServerMesh.removeDistant t p d) := by
  obtain ⟨⟨wf, vps, range, vals⟩, once, hc⟩ := h
  refine ⟨⟨prune_wf wf once p d, vps, ?_, ?_⟩, prune_once once p d, hc⟩
  · intro g hg
    rw [prune_content wf once] at hg
    split_ifs at hg
    · exact range g hg
    · cases hg
  · intro g t ht
    rw [prune_content wf once] at ht
    split_ifs at ht
    exact vals g t ht

theorem resetEsdf_block? (t : VLayer (TsdfVoxel ℚ)) (i j : Idx) :
    block? (resetEsdf t i) j = if j = i then (block? t j).map fun b => { b with updated := b.updated.put .esdf false } else block? t j :=
  modifyBlock_block? _ _ _ _

theorem resetEsdf_wf {t : VLayer (TsdfVoxel ℚ)} (wf : WellFormed t) (i : Idx) : WellFormed (resetEsdf t i) :=
  modifyBlock_wf wf _ _ fun _ => ⟨rfl, rfl, rfl, rfl⟩

theorem resetEsdf_content {t : VLayer (TsdfVoxel ℚ)} (wf : WellFormed t) (i g : Idx) : content (resetEsdf t i) g = content t g := by
  rw [content_eq (resetEsdf_wf wf i), content_eq wf]
  show (block? (resetEsdf t i) (blockOf t.cfg.vps g)).bind _ = _
  rw [resetEsdf_block?]
  split_ifs
  · cases block? t (blockOf t.cfg.vps g) <;> rfl
  · rfl

/-- Resetting the flags of a list of blocks. -/
theorem resetAll (is : List Idx) : ∀ {t : VLayer (TsdfVoxel ℚ)}, WellFormed t →
    WellFormed (is.foldl resetEsdf t) ∧ (is.foldl resetEsdf t).cfg = t.cfg ∧ (is.foldl resetEsdf t).blocks.map (·.1) = t.blocks.map (·.1) ∧
      (∀ g, content (is.foldl resetEsdf t) g = content t g) ∧
      ∀ i, block? (is.foldl resetEsdf t) i =
        (block? t i).map fun b => if i ∈ is then { b with updated := b.updated.put .esdf false } else b := by
  induction is with
  | nil =>
    intro t wf
    refine ⟨wf, rfl, rfl, fun _ => rfl, fun i => ?_⟩
    simp
  | cons j is ih =>
    intro t wf
    obtain ⟨h1, h2, h3, h4, h5⟩ := ih (resetEsdf_wf wf j)
    refine ⟨h1, h2, h3.trans (LayerMsg.modifyBlock_keys _ _ _), fun g => (h4 g).trans (resetEsdf_content wf j g), fun i => ?_⟩
    rw [List.foldl_cons, h5, resetEsdf_block?]
    by_cases hij : i = j
    · subst hij
      rw [if_pos rfl]
      cases block? t i with
      | none => rfl
      | some b =>
        simp only [Option.map_some, List.mem_cons, true_or, if_true]
        split_ifs
        · cases b; rfl
        · rfl
    · rw [if_neg hij]
      simp [hij]

theorem MapFits.reset {cfg : Config} {c : Cfg} {t : VLayer (TsdfVoxel ℚ)} (h : MapFits A cfg L c t) (is : List Idx) :
    MapFits A cfg L c (is.foldl resetEsdf t) := by
  obtain ⟨⟨wf, vps, range, vals⟩, once, hc⟩ := h
  obtain ⟨h1, h2, h3, h4, -⟩ := resetAll is wf
  refine ⟨⟨h1, by rw [h2]; exact vps, fun g hg => range g (by rw [← h4]; exact hg), fun g t ht => vals g t (by rw [← h4]; exact ht)⟩, ?_, h2.trans hc⟩
  unfold Once at *
  rw [h3]
  exact once

theorem box_finset (n : ℤ) : ∃ B : Finset Idx, ∀ g : Idx, (g.All fun c => |c| < n) → g ∈ B := by
  classical
  refine ⟨(Finset.Icc (-n) n ×ˢ Finset.Icc (-n) n ×ˢ Finset.Icc (-n) n).image fun t => ⟨t.1, t.2.1, t.2.2⟩, ?_⟩
  rintro ⟨x, y, z⟩ ⟨h1, h2, h3⟩
  simp only [abs_lt] at h1 h2 h3
  refine Finset.mem_image.2 ⟨(x, y, z), ?_, rfl⟩
  simp only [Finset.mem_product, Finset.mem_Icc]
  omega

/-- A layer of voxels in range and integrator queues without voxels give a consistent state. -/
theorem EsdfFits.ready {c : Cfg} {l : VLayer EVoxel} (h : EsdfFits A L c l) {s : Esdf.State} (r : Ready A L [] s) (hr : s.raise = [])
    (hc : s.layer.cfg = c) : Ready A L [] { s with layer := l } := by
  obtain ⟨S, G, -⟩ := r
  classical
  obtain ⟨B, hB⟩ := box_finset (2 ^ 24)
  refine ⟨B.filter fun g => (content l g).isSome = true, ⟨h.wf, ?_, ?_, ?_, h.vals, G.queue, by simp⟩, by simp [hr]⟩
  · obtain ⟨k, k1, k2⟩ := G.power
    exact ⟨k, k1, by rw [h.cfg, ← hc]; exact k2⟩
  · intro g
    rw [Finset.mem_filter]
    exact ⟨fun hg => ⟨hB g (h.range g hg), hg⟩, fun hg => hg.2⟩
  · intro g hg
    exact h.range g (Finset.mem_filter.1 hg).2

theorem MapFits.config {cfg cfg' : Config} {c : Cfg} {t : VLayer (TsdfVoxel ℚ)} (h : MapFits A cfg L c t) (e : cfg'.minDistance = cfg.minDistance) :
    MapFits A cfg' L c t :=
  ⟨⟨h.fits.wf, h.fits.vps, h.fits.range, fun g t ht hf => h.fits.vals g t ht (by unfold isFixed at *; rw [← e]; exact hf)⟩, h.once, h.cfg⟩

theorem ready_empty {s : Esdf.State} (h : Ready A L [] s) (hr : s.raise = []) : Ready A L [] ⟨⟨s.layer.cfg, []⟩, s.open_, s.raise, []⟩ := by
  obtain ⟨S, G, -⟩ := h
  refine ⟨∅, ⟨⟨G.wf.size_pos, G.wf.side_pos, G.wf.side_le, by simp⟩, G.power, ?_, by simp, ?_, G.queue, by simp⟩, by simp [hr]⟩
  · intro g; simp [content]
  · intro g v hv; simp [content] at hv

theorem generate_ok {s : State} (h : Sound A L [] s) (he : env.A = A) : ∃ N s', (∀ fuel, N ≤ fuel →
    generateEsdf { env with fuel := fuel } s = .ok (some s')) ∧ Sound A L [] s' ∧
    ∀ i, Allocated s'.esdf.layer i → Allocated s'.tsdf i := by
  obtain ⟨r, hr⟩ := clean_of h
  obtain ⟨N, e, c, a1, a2, a3, a4, -, a6, -⟩ := updateFromTsdfBlocks_ok h.fits (tsdf := s.tsdf) false (fun _ _ _ => True)
    (fun _ _ _ _ => trivial) (fun _ _ _ _ _ _ => trivial) (s.tsdf.blocks.map (·.1) ++ env.set s.esdf.updated) (ready_empty r hr) h.map.fits
  have hc : e.layer.cfg = s.esdf.layer.cfg := a4.cfg
  refine ⟨N, { s with esdf := e }, fun fuel hf => ?_, ⟨h.fits, ⟨[], a2⟩, fun g hg => absurd hg (not_waits a2 a3 g), ?_, ?_⟩, ?_⟩
  · unfold generateEsdf updateBatch
    rw [he]
    have := a1 fuel hf
    simp only [this, Outcome.bind_ok]
    rfl
  · exact updateFromTsdfBlocks_once (a1 N le_rfl) (by simp [Once])
  · show MapFits A s.cfg L e.layer.cfg s.tsdf
    rw [hc]
    exact h.map
  · intro i hi
    rw [allocated_iff_status] at hi
    have hi : (status e.layer i).isSome = true := hi
    rw [a6] at hi
    split_ifs at hi with h'
    · exact h'.2
    · simp [status] at hi

/-! ### Theorems -/

/-- **C105 (safety, partial).** From a consistent state the server handles every admissible event without abort and without undefined behaviour, in
finitely many iterations, and is in a consistent state afterwards. What is missing: scans that remove blocks around a robot position waiting for an
update (`C105_prune_violated`), batch updates and ESDF messages while a robot position is waiting (`C105_generate_violated`,
`C105_message_violated`). -/
theorem C105_handled_partial (he : env.A = A) (ho : ∀ m, (env.order m).Perm m) {ps : List Pt} {s : State} (h : Sound A L ps s) {e : Event}
    (ha : Admissible A L env ps s e) : ∃ s', Leads env s e s' ∧ Sound A L (waiting env ps s e) s' := by
  cases e with
  | scan t p =>
    obtain ⟨m, rng, near⟩ := ha
    obtain ⟨es, r⟩ := h.ready
    have key : ∃ e1 es1, (∀ fuel, addRobot { env with fuel := fuel } p { s with tsdf := ServerMesh.removeDistant t p env.maxDistance } = .ok e1) ∧
        Ready A L es1 e1 ∧ e1.layer.cfg = s.esdf.layer.cfg ∧ Once e1.layer ∧
        ∀ g, Waits e1 g → Reached s.cfg s.esdf.layer.cfg (if env.clearSphere then p :: ps else ps) g := by
      cases hcs : env.clearSphere with
      | false =>
        refine ⟨s.esdf, es, fun fuel => ?_, r, rfl, h.once, ?_⟩
        · simp [addRobot, *]
        · simpa using h.waits
      | true =>
        obtain ⟨r1, r2⟩ := rng hcs
        obtain ⟨s1, es1, l1, a1, a2, a3, a4⟩ := addRobotPosition_ok h.fits r r1 r2 env.order ho
        have hn : 0 < s.esdf.layer.cfg.vps := r.choose_spec.1.wf.side_pos
        obtain ⟨k1, k2⟩ := addRobotPosition_from ho hn r1 r2 a1 (Q := Reached s.cfg s.esdf.layer.cfg (p :: ps))
          (fun g hg => by
            obtain ⟨q, q1, q2⟩ := h.waits g hg
            exact ⟨q, List.mem_cons_of_mem _ q1, q2⟩)
          (fun g hg => ⟨p, List.mem_cons_self, Or.inl hg⟩) (fun g hg => ⟨p, List.mem_cons_self, Or.inr hg⟩)
        refine ⟨s1, es1, fun fuel => ?_, a2, k1, addRobotPosition_once a1 h.once, ?_⟩
        · simp only [addRobot, if_true]
          exact a1
        · simpa using k2
    obtain ⟨e1, es1, b1, b2, b3, b4, b5⟩ := key
    have rp := ready_prune b2 b4 env p (by
      intro g hg
      rw [b3]
      exact near g (b5 g hg))
    refine ⟨⟨ServerMesh.removeDistant t p env.maxDistance, s.cfg, pruneEsdf env p e1⟩, ⟨0, fun fuel _ => ?_⟩,
      ⟨h.fits, ⟨es1, rp⟩, ?_, prune_once b4 p _, ?_⟩⟩
    · simp only [step, scan, newPose, b1 fuel, Outcome.bind_ok, Outcome.pure_eq]
      rfl
    · intro g hg
      show Reached s.cfg e1.layer.cfg _ g
      rw [b3]
      exact b5 g hg
    · show MapFits A s.cfg L e1.layer.cfg _
      rw [b3]
      exact m.prune p _
  | update =>
    by_cases hb : s.tsdf.blocks.length > 0
    · obtain ⟨es, r⟩ := h.ready
      obtain ⟨N, e1, c, a1, a2, a3, a4, -⟩ := updateFromTsdfBlocks_ok h.fits (tsdf := s.tsdf) true (fun _ _ _ => True)
        (fun _ _ _ _ => trivial) (fun _ _ _ _ _ _ => trivial) (esdfUpdated s.tsdf ++ env.set s.esdf.updated) (r.reset []) h.map.fits
      have hc : e1.layer.cfg = s.esdf.layer.cfg := a4.cfg
      refine ⟨⟨(esdfUpdated s.tsdf ++ env.set s.esdf.updated).foldl resetEsdf s.tsdf, s.cfg, e1⟩, ⟨N, fun fuel hf => ?_⟩,
        ⟨h.fits, ⟨[], a2⟩, fun g hg => absurd hg (not_waits a2 a3 g), updateFromTsdfBlocks_once (a1 N le_rfl) h.once, ?_⟩⟩
      · simp only [step, updateEsdf, if_pos hb, updateIncremental, he, a1 fuel hf, Outcome.bind_ok]
        rfl
      · show MapFits A s.cfg L e1.layer.cfg _
        rw [hc]
        exact h.map.reset _
    · refine ⟨s, ⟨0, fun fuel _ => ?_⟩, ?_⟩
      · simp only [step, updateEsdf, if_neg hb]
        rfl
      · simp only [waiting, if_neg hb]
        exact h
  | generate =>
    obtain rfl : ps = [] := ha
    obtain ⟨N, s', a1, a2, -⟩ := generate_ok h he
    exact ⟨s', ⟨N, a1⟩, a2⟩
  | batch full =>
    obtain rfl : ps = [] := ha
    by_cases hb : s.tsdf.blocks.length > 0
    · have h' : Sound A L [] { s with cfg := setFullEuclidean s.cfg full } :=
        ⟨⟨⟨h.fits.R, h.fits.minDiff, h.fits.default_rep, h.fits.default_nonneg, h.fits.default_le, h.fits.mx_pos, h.fits.n_pos, h.fits.buckets⟩,
          h.fits.near⟩, h.ready, h.waits, h.once, h.map.config rfl⟩
      obtain ⟨N, s', a1, a2, -⟩ := generate_ok h' he
      refine ⟨s', ⟨N, fun fuel hf => ?_⟩, a2⟩
      simp only [step, updateEsdfBatch, if_pos hb]
      exact a1 fuel hf
    · refine ⟨s, ⟨0, fun fuel _ => ?_⟩, h⟩
      simp only [step, updateEsdfBatch, if_neg hb]
      rfl
  | maxDistance m =>
    have ha : CopyFits A (setMaxDistance s.cfg m) L := ha
    exact ⟨setEsdfMaxDistance m s, ⟨0, fun fuel _ => rfl⟩, ⟨ha, h.ready, h.waits, h.once, h.map.config rfl⟩⟩
  | tsdfMap t => exact ⟨{ s with tsdf := t }, ⟨0, fun fuel _ => rfl⟩, ⟨h.fits, h.ready, h.waits, h.once, ha⟩⟩
  | esdfMap l =>
    obtain ⟨rfl, hl⟩ := ha
    obtain ⟨r, hr⟩ := clean_of h
    refine ⟨{ s with esdf := { s.esdf with layer := l } }, ⟨0, fun fuel _ => rfl⟩, ⟨h.fits, ⟨[], hl.ready r hr rfl⟩, ?_, hl.once, ?_⟩⟩
    · intro g hg
      exact absurd hg (not_waits r hr g)
    · show MapFits A s.cfg L l.cfg s.tsdf
      rw [hl.cfg]
      exact h.map
  | clear =>
    obtain ⟨es, S, G, hr⟩ := h.ready
    obtain ⟨q, q1, q2⟩ := clear_ok G.queue
    have r : Ready A L [] ⟨⟨s.esdf.layer.cfg, []⟩, q, [], []⟩ := by
      refine ⟨∅, ⟨⟨G.wf.size_pos, G.wf.side_pos, G.wf.side_le, by simp⟩, G.power, ?_, by simp, ?_, q2, by simp⟩, by simp⟩
      · intro g; simp [content]
      · intro g v hv; simp [content] at hv
    refine ⟨⟨⟨s.tsdf.cfg, []⟩, s.cfg, ⟨⟨s.esdf.layer.cfg, []⟩, q, [], []⟩⟩, ⟨0, fun fuel _ => ?_⟩,
      ⟨h.fits, ⟨[], r⟩, fun g hg => absurd hg (not_waits r rfl g), by simp [Once], ?_⟩⟩
    · simp only [step, clear, Esdf.clear, q1, Outcome.bind_ok, Outcome.pure_eq, MapServer.removeAllBlocks]
      rfl
    · refine ⟨⟨⟨?_, ?_, ?_, by simp⟩, h.map.fits.vps, by simp [content], by simp [content]⟩, by simp [Once], h.map.cfg⟩
      · exact h.map.fits.wf.size_pos
      · exact h.map.fits.wf.side_pos
      · exact h.map.fits.wf.side_le

/-- **C105 (histories, partial).** The same for whole histories: in every state that a server reaches by admissible events, every admissible event
is handled. What is missing: see `C105_handled_partial`. -/
theorem C105_safe_partial (he : env.A = A) (ho : ∀ m, (env.order m).Perm m) {s₀ : State} (h₀ : Sound A L [] s₀) {K : State → Event → Prop} {ps : List Pt}
    {s : State} (h : History A L env K s₀ ps s) : Sound A L ps s ∧ ∀ e, Admissible A L env ps s e → ∃ s', Leads env s e s' := by
  have hs : Sound A L ps s := by
    induction h with
    | start => exact h₀
    | event _ ha _ hl ih =>
      obtain ⟨s2, l2, k2⟩ := C105_handled_partial he ho ih ha
      rw [hl.unique l2]
      exact k2
  exact ⟨hs, fun e ha => (C105_handled_partial he ho hs ha).imp fun _ h => h.1⟩

/-- What a scan does to the state. -/
theorem scan_eq (ho : ∀ m, (env.order m).Perm m) {ps : List Pt} {s s' : State} (h : Sound A L ps s) {t : VLayer (TsdfVoxel ℚ)} {p : Pt}
    (ha : Admissible A L env ps s (.scan t p)) (hl : Leads env s (.scan t p) s') : s'.cfg = s.cfg ∧
    s'.tsdf = ServerMesh.removeDistant t p env.maxDistance ∧ ∃ e, s'.esdf = pruneEsdf env p e ∧ e.layer.cfg = s.esdf.layer.cfg ∧ WellFormed e.layer ∧
      Once e.layer ∧ (env.clearSphere = false → e = s.esdf) ∧ (env.clearSphere = true → addRobotPosition s.cfg env.order p s.esdf = .ok e) := by
  obtain ⟨m, rng, near⟩ := ha
  obtain ⟨N, hl⟩ := hl
  have hl := hl N le_rfl
  obtain ⟨es, r⟩ := h.ready
  cases hcs : env.clearSphere with
  | false =>
    simp only [step, scan, newPose, addRobot, hcs, Bool.false_eq_true, if_false, Outcome.pure_eq, Outcome.bind_ok, Outcome.ok.injEq, Option.some.injEq] at hl
    rw [← hl]
    exact ⟨rfl, rfl, s.esdf, rfl, rfl, r.choose_spec.1.wf, h.once, fun _ => rfl, fun h => by cases h⟩
  | true =>
    obtain ⟨r1, r2⟩ := rng hcs
    obtain ⟨s1, es1, l1, a1, a2, a3, a4⟩ := addRobotPosition_ok h.fits r r1 r2 env.order ho
    simp only [step, scan, newPose, addRobot, hcs, if_true, a1, Outcome.pure_eq, Outcome.bind_ok, Outcome.ok.injEq, Option.some.injEq] at hl
    rw [← hl]
    exact ⟨rfl, rfl, s1, rfl, a4.cfg.trans a3.cfg, a4.wf, addRobotPosition_once a1 h.once, (fun h => by cases h), fun _ => a1⟩

/-- **C105 (distant blocks).** After a scan both maps only have blocks near the robot. The TSDF has all near blocks of the integrated layer. The ESDF
keeps its near blocks as they were; with free-space clearing, at least the voxels that have been measured. -/
theorem C105_pruned (ho : ∀ m, (env.order m).Perm m) {ps : List Pt} {s s' : State} (h : Sound A L ps s) {t : VLayer (TsdfVoxel ℚ)} {p : Pt}
    (ha : Admissible A L env ps s (.scan t p)) (hl : Leads env s (.scan t p) s') :
    (∀ i, Allocated s'.esdf.layer i → NearRobot s.esdf.layer.cfg p env.maxDistance i) ∧
    (∀ g, content s'.tsdf g = if NearRobot s.esdf.layer.cfg p env.maxDistance (blockOf s.esdf.layer.cfg.vps g) then content t g else none) ∧
    (∀ g x, NearRobot s.esdf.layer.cfg p env.maxDistance (blockOf s.esdf.layer.cfg.vps g) → content s.esdf.layer g = some x → x.observed = true →
      x.hallucinated = false → content s'.esdf.layer g = some x) ∧
    (env.clearSphere = false → ∀ g, content s'.esdf.layer g =
      if NearRobot s.esdf.layer.cfg p env.maxDistance (blockOf s.esdf.layer.cfg.vps g) then content s.esdf.layer g else none) := by
  obtain ⟨-, b1, e, b2, b3, b4, b5, b6, b7⟩ := scan_eq ho h ha hl
  obtain ⟨m, rng, -⟩ := ha
  have hc : ∀ g, content s'.esdf.layer g =
      if NearRobot s.esdf.layer.cfg p env.maxDistance (blockOf s.esdf.layer.cfg.vps g) then content e.layer g else none := by
    intro g
    rw [b2, ← b3]
    exact prune_content b4 b5 p _ g
  refine ⟨?_, ?_, ?_, ?_⟩
  · intro i hi
    rw [b2] at hi
    have := ((prune_allocated b4 b5 p _ i).1 hi).2
    rwa [b3] at this
  · intro g
    rw [b1, prune_content m.fits.wf m.once, m.cfg]
  · intro g x hn hx h1 h2
    rw [hc, if_pos hn]
    cases hcs : env.clearSphere with
    | false => rw [b6 hcs]; exact hx
    | true =>
      obtain ⟨es, r⟩ := h.ready
      obtain ⟨s1, c1, c2⟩ := C70_robot h.fits r (rng hcs).1 (rng hcs).2 env.order ho
      obtain rfl := Outcome.ok.inj (c1.symm.trans (b7 hcs))
      exact (c2 g).1 x hx h1 h2
  · intro hcs g
    rw [hc, b6 hcs]

/-- Events in the normal operation of a server without maps from elsewhere: scans do not remove blocks of the TSDF (C93, C95, C96). -/
def Ordinary (s : State) : Event → Prop
  | .scan t _ => ∀ i, Allocated s.tsdf i → Allocated t i
  | .tsdfMap _ => False
  | .esdfMap _ => False
  | _ => True

theorem update_eq {s s' : State} (hl : Leads env s .update s') (hb : s.tsdf.blocks.length > 0) :
    s'.cfg = s.cfg ∧ s'.tsdf = (esdfUpdated s.tsdf ++ env.set s.esdf.updated).foldl resetEsdf s.tsdf ∧
      ∃ N, ∀ fuel, N ≤ fuel → updateIncremental env.A s.cfg fuel env.set true s.tsdf s.esdf = .ok (some (s'.esdf, s'.tsdf)) := by
  obtain ⟨N, hl⟩ := hl
  have key : ∀ fuel, N ≤ fuel → s'.cfg = s.cfg ∧ updateIncremental env.A s.cfg fuel env.set true s.tsdf s.esdf = .ok (some (s'.esdf, s'.tsdf)) := by
    intro fuel hf
    have := hl fuel hf
    simp only [step, updateEsdf, if_pos hb] at this
    obtain ⟨r, h1, h2⟩ := Outcome.bind_eq_ok.1 this
    simp only [Outcome.pure_eq, Outcome.ok.injEq] at h2
    obtain ⟨x, rfl, h3⟩ := Option.map_eq_some_iff.1 h2
    rw [← h3]
    exact ⟨rfl, h1⟩
  refine ⟨(key N le_rfl).1, ?_, N, fun fuel hf => (key fuel hf).2⟩
  have := (key N le_rfl).2
  unfold updateIncremental at this
  obtain ⟨r, h1, h2⟩ := Outcome.bind_eq_ok.1 this
  cases r with
  | none => cases h2
  | some x =>
    simp only [Outcome.pure_eq, Outcome.ok.injEq, Option.some.injEq, Prod.mk.injEq, if_true] at h2
    exact h2.2.symm

/-- **C105 (no ghosts).** In the normal operation of a server without free-space clearing, the ESDF never has a voxel that the TSDF does not have: the
distances of removed blocks are forgotten with them. -/
theorem C105_no_ghosts (he : env.A = A) (ho : ∀ m, (env.order m).Perm m) (hcs : env.clearSphere = false) {s₀ : State} (h₀ : Sound A L [] s₀)
    (g₀ : ∀ g, (content s₀.esdf.layer g).isSome = true → (content s₀.tsdf g).isSome = true) {ps : List Pt} {s : State}
    (h : History A L env Ordinary s₀ ps s) : ∀ g, (content s.esdf.layer g).isSome = true → (content s.tsdf g).isSome = true := by
  have wfs : ∀ {ps s}, Sound A L ps s → WellFormed s.esdf.layer := fun h => h.ready.choose_spec.choose_spec.1.wf
  have conv : ∀ {ps s}, Sound A L ps s → ((∀ g, (content s.esdf.layer g).isSome = true → (content s.tsdf g).isSome = true) ↔
      ∀ i, Allocated s.esdf.layer i → Allocated s.tsdf i) := by
    intro ps s hs
    have hn : 0 < s.esdf.layer.cfg.vps := (wfs hs).side_pos
    have key : ∀ g, ((content s.esdf.layer g).isSome = true ↔ Allocated s.esdf.layer (blockOf s.esdf.layer.cfg.vps g)) ∧
        ((content s.tsdf g).isSome = true ↔ Allocated s.tsdf (blockOf s.esdf.layer.cfg.vps g)) := by
      intro g
      rw [content_isSome (wfs hs), content_isSome hs.map.fits.wf, hs.map.fits.vps]
      exact ⟨Iff.rfl, Iff.rfl⟩
    constructor
    · intro h i hi
      have hb : blockOf s.esdf.layer.cfg.vps (globalIndex s.esdf.layer.cfg.vps i 0) = i :=
        blockOf_globalIndex ⟨⟨le_refl (0 : ℤ), by show (0 : ℤ) < _; omega⟩, ⟨le_refl (0 : ℤ), by show (0 : ℤ) < _; omega⟩,
          ⟨le_refl (0 : ℤ), by show (0 : ℤ) < _; omega⟩⟩
      have := h (globalIndex s.esdf.layer.cfg.vps i 0)
      rw [(key _).1, (key _).2, hb] at this
      exact this hi
    · intro h g hg
      rw [(key g).2]
      exact h _ ((key g).1.1 hg)
  rw [conv (C105_safe_partial he ho h₀ h).1]
  have g₀ := (conv h₀).1 g₀
  induction h with
  | start => exact g₀
  | @event ps s s' e hh ha hk hl ih =>
    have hs := (C105_safe_partial he ho h₀ hh).1
    cases e with
    | scan t p =>
      obtain ⟨-, b1, e, b2, b3, b4, b5, b6, -⟩ := scan_eq ho hs ha hl
      obtain rfl := b6 hcs
      intro i hi
      rw [b2] at hi
      obtain ⟨c1, c2⟩ := (prune_allocated b4 b5 p _ i).1 hi
      rw [b1, prune_allocated ha.1.fits.wf ha.1.once, ha.1.cfg]
      exact ⟨hk i (ih i c1), c2⟩
    | update =>
      by_cases hb : s.tsdf.blocks.length > 0
      · obtain ⟨-, u1, N, u2⟩ := update_eq hl hb
        obtain ⟨es, r⟩ := hs.ready
        obtain ⟨N1, e1, c, a1, a2, a3, a4, -, a6, -⟩ := updateFromTsdfBlocks_ok hs.fits (tsdf := s.tsdf) true (fun _ _ _ => True)
          (fun _ _ _ _ => trivial) (fun _ _ _ _ _ _ => trivial) (esdfUpdated s.tsdf ++ env.set s.esdf.updated) (r.reset []) hs.map.fits
        have := u2 (max N N1) (by omega)
        simp only [updateIncremental, he, a1 (max N N1) (by omega), Outcome.bind_ok, Outcome.pure_eq, Outcome.ok.injEq, Option.some.injEq,
          Prod.mk.injEq] at this
        intro i hi
        rw [← this.1, allocated_iff_status, a6] at hi
        have hal : Allocated s.tsdf i := by
          split_ifs at hi with h'
          · exact h'.2
          · exact ih i (allocated_iff_status.2 hi)
        rw [u1]
        unfold Allocated at *
        have h5 := (resetAll (esdfUpdated s.tsdf ++ env.set s.esdf.updated) hs.map.fits.wf).2.2.2.2 i
        unfold block? at h5
        rw [h5, Option.isSome_map]
        exact hal
      · obtain ⟨N, hl⟩ := hl
        have := hl N le_rfl
        simp only [step, updateEsdf, if_neg hb, Outcome.pure_eq, Outcome.ok.injEq, Option.some.injEq] at this
        rw [← this]
        exact ih
    | generate =>
      obtain rfl : ps = [] := ha
      obtain ⟨N, s2, c1, -, c3⟩ := generate_ok hs he
      rw [hl.unique (s2 := s2) ⟨N, c1⟩]
      exact c3
    | batch full =>
      obtain rfl : ps = [] := ha
      by_cases hb : s.tsdf.blocks.length > 0
      · have h' : Sound A L [] { s with cfg := setFullEuclidean s.cfg full } :=
          ⟨⟨⟨hs.fits.R, hs.fits.minDiff, hs.fits.default_rep, hs.fits.default_nonneg, hs.fits.default_le, hs.fits.mx_pos, hs.fits.n_pos, hs.fits.buckets⟩,
            hs.fits.near⟩, hs.ready, hs.waits, hs.once, hs.map.config rfl⟩
        obtain ⟨N, s2, c1, -, c3⟩ := generate_ok h' he
        rw [hl.unique (s2 := s2) ⟨N, fun fuel hf => by
          simp only [step, updateEsdfBatch, if_pos hb]
          exact c1 fuel hf⟩]
        exact c3
      · rw [hl.unique (s2 := s) ⟨0, fun fuel _ => by
          simp only [step, updateEsdfBatch, if_neg hb]
          rfl⟩]
        exact ih
    | maxDistance m =>
      rw [hl.unique (s2 := setEsdfMaxDistance m s) ⟨0, fun _ _ => rfl⟩]
      exact ih
    | tsdfMap t => exact absurd hk id
    | esdfMap l => exact absurd hk id
    | clear =>
      obtain ⟨N, hl⟩ := hl
      have := hl N le_rfl
      simp only [step, clear] at this
      obtain ⟨x, h1, h2⟩ := Outcome.bind_eq_ok.1 this
      obtain ⟨y, h3, h4⟩ := Outcome.bind_eq_ok.1 h1
      obtain ⟨-, -, h6⟩ := Outcome.bind_eq_ok.1 h4
      unfold Esdf.clear at h3
      obtain ⟨q, -, h8⟩ := Outcome.bind_eq_ok.1 h3
      simp only [Outcome.pure_eq, Outcome.ok.injEq, Option.some.injEq] at h2 h6 h8
      intro i hi
      rw [← h2, ← h6, ← h8] at hi
      simp [Allocated, MapServer.removeAllBlocks] at hi

/-- **C105 (the service).** If no robot position is waiting, `generateEsdf` replaces the ESDF by that of the TSDF alone, whatever it was before: it has
exactly the voxels of the TSDF, each with the content of a batch update (`BatchVoxel`, C44; distances: C91). -/
theorem C105_generate (he : env.A = A) {s s' : State} (h : Sound A L [] s) (hl : Leads env s .generate s') :
    s'.tsdf = s.tsdf ∧ ∀ g, (content s.tsdf g = none → content s'.esdf.layer g = none) ∧
      ∀ t, content s.tsdf g = some t → ∃ y, content s'.esdf.layer g = some y ∧ BatchVoxel s.cfg t y := by
  obtain ⟨r, hr⟩ := clean_of h
  obtain ⟨N, e, a1, a2⟩ := C44_batch h.fits r hr h.map.fits env.set
  have : Leads env s .generate { s with esdf := e } := ⟨N, fun fuel hf => by
    simp only [step, generateEsdf, he, a1 fuel hf, Outcome.bind_ok]
    rfl⟩
  rw [hl.unique this]
  exact ⟨rfl, a2⟩

/-- **C105 (the timer).** An update leaves no flagged block and no waiting voxel, and the measured voxels of the TSDF as they are; measured voxels in
flagged blocks are observed in the ESDF (C44). It does nothing to a server whose TSDF has no blocks. -/
theorem C105_update (he : env.A = A) (ho : ∀ m, (env.order m).Perm m) {ps : List Pt} {s s' : State} (h : Sound A L ps s) (hl : Leads env s .update s') :
    (∀ g, content s'.tsdf g = content s.tsdf g) ∧ (s.tsdf.blocks = [] → s' = s) ∧ (s.tsdf.blocks ≠ [] →
      (∀ i f, status s'.tsdf i = some f → f.2.get .esdf = false) ∧ (∀ g, ¬ Waits s'.esdf g) ∧
      ∀ g t f, content s.tsdf g = some t → status s.tsdf (blockOf s.esdf.layer.cfg.vps g) = some f → f.2.get .esdf = true →
        s.cfg.minWeight ≤ t.weight → ∃ y, content s'.esdf.layer g = some y ∧ y.observed = true ∧ y.hallucinated = false) := by
  by_cases hb : s.tsdf.blocks.length > 0
  · have hb' : s.tsdf.blocks ≠ [] := by intro h; rw [h] at hb; simp at hb
    obtain ⟨-, u1, N, u2⟩ := update_eq hl hb
    obtain ⟨r1, r2, r3, r4, r5⟩ := resetAll (esdfUpdated s.tsdf ++ env.set s.esdf.updated) h.map.fits.wf
    refine ⟨fun g => by rw [u1, r4], fun h => absurd h hb', fun _ => ⟨?_, ?_, ?_⟩⟩
    · intro i f hf
      rw [u1] at hf
      unfold status at hf
      have h5 := r5 i
      unfold block? at h5
      rw [h5, Option.map_map] at hf
      obtain ⟨b, hb1, hb2⟩ := Option.map_eq_some_iff.1 hf
      rw [← hb2]
      simp only [Function.comp_apply]
      split_ifs with hm
      · cases b.updated; rfl
      · cases hfl : b.updated.get .esdf with
        | false => rfl
        | true =>
          refine absurd (List.mem_append_left _ ?_) hm
          unfold esdfUpdated
          obtain ⟨l1, l2, h1, -⟩ := List.lookup_eq_some_iff.1 hb1
          exact List.mem_map.2 ⟨(i, b), List.mem_filter.2 ⟨by rw [h1]; simp, hfl⟩, rfl⟩
    · obtain ⟨s2, l2, k2⟩ := C105_handled_partial he ho h (e := .update) trivial
      rw [hl.unique l2]
      intro g hg
      obtain ⟨q, hq, -⟩ := k2.waits g hg
      simp only [waiting, if_pos hb] at hq
      cases hq
    · subst he
      obtain ⟨es, r⟩ := h.ready
      obtain ⟨N1, e1, t1, a1, a2⟩ := C44_incremental_partial h.fits r h.map.fits env.set true
      have := (u2 (max N N1) (by omega)).symm.trans (a1 (max N N1) (by omega))
      simp only [Outcome.ok.injEq, Option.some.injEq, Prod.mk.injEq] at this
      intro g t f h1 h2 h3 h4
      obtain ⟨y, y1, y2, y3, -⟩ := a2 g t f h1 h2 h3 h4
      exact ⟨y, by rw [this.1]; exact y1, y2, y3⟩
  · have hb' : s.tsdf.blocks = [] := by simpa using hb
    have : s' = s := hl.unique ⟨0, fun fuel _ => by
      simp only [step, updateEsdf, if_neg hb]
      rfl⟩
    exact ⟨fun g => by rw [this], fun _ => this, fun h => absurd hb' h⟩

/-- **C105 (clear).** `clear` empties both maps and forgets the robot positions, in every state. -/
theorem C105_clear {s s' : State} (hl : Leads env s .clear s') :
    (∀ g, content s'.tsdf g = none ∧ content s'.esdf.layer g = none ∧ ¬ Waits s'.esdf g) ∧ s'.esdf.updated = [] := by
  obtain ⟨N, hl⟩ := hl
  have := hl N le_rfl
  simp only [step, clear] at this
  obtain ⟨x, h1, h2⟩ := Outcome.bind_eq_ok.1 this
  obtain ⟨y, h3, h4⟩ := Outcome.bind_eq_ok.1 h1
  obtain ⟨-, -, h6⟩ := Outcome.bind_eq_ok.1 h4
  unfold Esdf.clear BQueue.clear at h3
  obtain ⟨q, h7, h8⟩ := Outcome.bind_eq_ok.1 h3
  obtain ⟨-, -, h9⟩ := Outcome.bind_eq_ok.1 h7
  simp only [Outcome.pure_eq, Outcome.ok.injEq, Option.some.injEq] at h2 h6 h8 h9
  rw [← h2, ← h6, ← h8, ← h9]
  refine ⟨fun g => ⟨by simp [content, MapServer.removeAllBlocks], by simp [content, MapServer.removeAllBlocks], ?_⟩, rfl⟩
  rintro (h | ⟨b, hb, hg⟩)
  · cases h
  · rw [List.eq_of_mem_replicate hb] at hg
    cases hg

/-- **C105 (batch updates).** A batch update with the wanted kind of distance sets that kind for itself and all later updates, nothing else of the
configuration, and then acts as the service under it; on a map without blocks it does nothing. -/
theorem C105_batch {full : Bool} {s s' : State} (hl : Leads env s (.batch full) s') :
    (s.tsdf.blocks = [] → s' = s) ∧ (s.tsdf.blocks ≠ [] → s'.cfg = { s.cfg with fullEuclidean := full } ∧
      ∀ s₁ : State, s₁.tsdf = s.tsdf → s₁.esdf = s.esdf → s₁.cfg = s'.cfg → Leads env s₁ .generate s') := by
  obtain ⟨N, hN⟩ := hl
  by_cases hb : s.tsdf.blocks.length > 0
  · refine ⟨fun h => by rw [h] at hb; simp at hb, fun _ => ?_⟩
    have key : ∀ fuel, N ≤ fuel → step { env with fuel := fuel } { s with cfg := { s.cfg with fullEuclidean := full } } .generate = .ok (some s') := by
      intro fuel hf
      have := hN fuel hf
      simp only [step, updateEsdfBatch, if_pos hb] at this
      exact this
    have hc : s'.cfg = { s.cfg with fullEuclidean := full } := by
      have := key N le_rfl
      simp only [step, generateEsdf] at this
      obtain ⟨r, -, h2⟩ := Outcome.bind_eq_ok.1 this
      cases r with
      | none => cases h2
      | some e =>
        have h3 := Option.some.inj (Outcome.ok.inj h2)
        rw [← h3]
    refine ⟨hc, fun s₁ h1 h2 h3 => ⟨N, fun fuel hf => ?_⟩⟩
    obtain ⟨t, c, e⟩ := s₁
    obtain rfl : t = s.tsdf := h1
    obtain rfl : e = s.esdf := h2
    obtain rfl : c = { s.cfg with fullEuclidean := full } := h3.trans hc
    exact key fuel hf
  · refine ⟨fun _ => ?_, fun h => absurd (List.length_pos_iff.2 h) hb⟩
    have := hN N le_rfl
    simp only [step, updateEsdfBatch, if_neg hb] at this
    exact (Option.some.inj (Outcome.ok.inj this)).symm

/-- The states a server passes through, each event with a bounded number of iterations. -/
inductive Passes (env : Env) : State → List Event → State → Prop
  | nil {s : State} : Passes env s [] s
  | cons {s s1 s' : State} {e : Event} {es : List Event} : step env s e = .ok (some s1) → Passes env s1 es s' → Passes env s (e :: es) s'

/-- **C105 (sequences).** A sequence of events is handled exactly if every event is, one after the other; a loop that does not end within the bound
ends the sequence. -/
theorem C105_sequence (s s' : State) (es : List Event) : run env s es = .ok (some s') ↔ Passes env s es s' := by
  induction es generalizing s with
  | nil =>
    constructor
    · intro h
      obtain rfl := Option.some.inj (Outcome.ok.inj h)
      exact .nil
    · intro h
      cases h
      rfl
  | cons e es ih =>
    constructor
    · intro h
      obtain ⟨r, h1, h2⟩ := Outcome.bind_eq_ok.1 (show (step env s e >>= _) = _ from h)
      cases r with
      | none => cases h2
      | some s1 => exact .cons h1 ((ih s1).1 h2)
    · intro h
      cases h with
      | cons h1 h2 =>
        show (step env s e >>= _) = _
        rw [h1]
        exact (ih _).2 h2

/-! ### A server in operation -/

/-- A server that clears free space or not, and forgets blocks farther away than `d`. -/
def sampleEnv (sphere : Bool) (d : ℚ) : Env := ⟨fixedPoint, id, id, 0, sphere, d⟩

/-- A new server. -/
def newServer : State := ⟨⟨unitCfg, []⟩, sampleCfg, init sampleCfg ⟨unitCfg, []⟩⟩

/-- The robot at the origin, and 20 m farther on. -/
def here : Pt := ⟨1 / 2, 1 / 2, 1 / 2⟩
def there : Pt := ⟨41 / 2, 1 / 2, 1 / 2⟩

/-- A map with one measured voxel, far from surfaces. -/
def farTsdf (x : ℤ) : VLayer (TsdfVoxel ℚ) := ⟨unitCfg, [tsdfCell ⟨x, 0, 0⟩ 2 1 Flags.setAll]⟩

theorem empty_mapFits : MapFits fixedPoint sampleCfg sampleLimits unitCfg ⟨unitCfg, []⟩ :=
  ⟨⟨⟨by norm_num [unitCfg], by decide, by decide, by simp⟩, rfl, by simp [content], by simp [content]⟩, by simp [Once], rfl⟩

theorem newServer_sound : Sound fixedPoint sampleLimits [] newServer := by
  have r : Ready fixedPoint sampleLimits [] newServer.esdf := ready_init (by norm_num [unitCfg]) ⟨0, by norm_num, rfl⟩ rfl rfl (by norm_num [sampleLimits])
    (by norm_num [sampleLimits]) (by norm_num [sampleLimits])
  exact ⟨sample_fits, ⟨[], r⟩, fun g hg => absurd hg (not_waits r rfl g), by simp [Once, newServer, init], empty_mapFits⟩

theorem sampleTsdf_mapFits : MapFits fixedPoint sampleCfg sampleLimits unitCfg sampleTsdf := ⟨sampleTsdf_fits, by unfold Once; decide +kernel, rfl⟩

theorem farTsdf_mapFits (x : ℤ) (hx : |x| < 2 ^ 24) : MapFits fixedPoint sampleCfg sampleLimits unitCfg (farTsdf x) := by
  have hl : ∀ i b, (farTsdf x).blocks.lookup i = some b → i = ⟨x, 0, 0⟩ ∧ b = (tsdfCell ⟨x, 0, 0⟩ 2 1 Flags.setAll).2 := by
    intro i b hb
    simp only [farTsdf, tsdfCell, List.lookup_cons, List.lookup_nil] at hb
    split at hb
    · rename_i h
      exact ⟨by simpa using h, (Option.some.inj hb).symm⟩
    · cases hb
  have hc : ∀ g t, content (farTsdf x) g = some t → g = ⟨x, 0, 0⟩ ∧ t = ⟨2, 1, ⟨0, 0, 0, 0⟩⟩ := by
    intro g t ht
    unfold content at ht
    obtain ⟨b, h1, h2⟩ := Option.bind_eq_some_iff.1 ht
    obtain ⟨h3, rfl⟩ := hl _ _ h1
    refine ⟨?_, ?_⟩
    · have : g.map (· / (((farTsdf x).cfg.vps : ℕ) : ℤ)) = g := by simp [farTsdf, unitCfg, Vec3.map]
      rw [← this]
      exact h3
    · have := List.mem_of_getElem? h2
      simpa [tsdfCell] using this
  refine ⟨⟨⟨by norm_num [farTsdf, unitCfg], by show 0 < 1; decide, by show 1 ≤ 1290; decide, ?_⟩, rfl, ?_, ?_⟩, by simp [Once, farTsdf], rfl⟩
  · intro i b hb
    obtain ⟨rfl, rfl⟩ := hl i b hb
    refine ⟨rfl, rfl, ?_, rfl⟩
    simp [tsdfCell, originPoint, farTsdf, unitCfg, Vec3.map]
  · intro g hg
    obtain ⟨t, ht⟩ := Option.isSome_iff_exists.1 hg
    obtain ⟨rfl, -⟩ := hc g t ht
    exact ⟨hx, by norm_num, by norm_num⟩
  · intro g t ht hf
    obtain ⟨-, rfl⟩ := hc g t ht
    refine absurd hf ?_
    unfold isFixed
    norm_num [sampleCfg]

/-- A scan, an update and the service on a server without free-space clearing. -/
example : ∃ s1 s2 s3, Leads (sampleEnv false 3) newServer (.scan sampleTsdf here) s1 ∧ Leads (sampleEnv false 3) s1 .update s2 ∧
    Leads (sampleEnv false 3) s2 .generate s3 ∧ (∀ g, (content s3.esdf.layer g).isSome = true → (content s3.tsdf g).isSome = true) ∧
    Ordinary newServer (.scan sampleTsdf here) := by
  have ha : Admissible fixedPoint sampleLimits (sampleEnv false 3) [] newServer (.scan sampleTsdf here) :=
    ⟨sampleTsdf_mapFits, by simp [sampleEnv], by
      rintro g ⟨p, hp, -⟩
      cases hp⟩
  have ho : Ordinary newServer (.scan sampleTsdf here) := by
    intro i hi
    simp [newServer, Allocated] at hi
  have hp : ∀ m, ((sampleEnv false 3).order m).Perm m := fun m => List.Perm.refl m
  obtain ⟨s1, l1, -⟩ := C105_handled_partial rfl hp newServer_sound ha
  have h1 := History.event (K := Ordinary) .start ha ho l1
  obtain ⟨s2, l2⟩ := (C105_safe_partial rfl hp newServer_sound h1).2 .update trivial
  have h2 := History.event h1 (show Admissible fixedPoint sampleLimits (sampleEnv false 3) _ s1 .update from trivial) trivial l2
  have e2 : waiting (sampleEnv false 3) (waiting (sampleEnv false 3) [] newServer (.scan sampleTsdf here)) s1 .update = [] := by
    simp [waiting, sampleEnv]
  rw [e2] at h2
  obtain ⟨s3, l3⟩ := (C105_safe_partial rfl hp newServer_sound h2).2 .generate rfl
  have h3 := History.event h2 (show Admissible fixedPoint sampleLimits (sampleEnv false 3) [] s2 .generate from rfl) trivial l3
  exact ⟨s1, s2, s3, l1, l2, l3, C105_no_ghosts rfl hp rfl newServer_sound (by simp [newServer, init, content]) h3, ho⟩

/-- Voxels of a sphere of radius at most 2 around the robot are near it. -/
theorem covered_near {r : ℚ} (h0 : r = 1 ∨ r = 2) {g : Idx} (h : Covered unitCfg here r g) : NearRobot unitCfg here 10 (blockOf unitCfg.vps g) := by
  obtain ⟨x, y, z⟩ := g
  have e : gridIndex here (1 / unitCfg.voxelSize) = (⟨0, 0, 0⟩ : Idx) := by decide +kernel
  unfold Covered InSphere at h
  rw [e] at h
  have hs : sphereShift (r / unitCfg.voxelSize) = 0 := by rcases h0 with rfl | rfl <;> norm_num [sphereShift, unitCfg]
  rw [hs] at h
  obtain ⟨-, h⟩ := h
  have h1 : ((x : ℚ)) ^ 2 + (y : ℚ) ^ 2 + (z : ℚ) ^ 2 ≤ 4 := by
    have : (r / unitCfg.voxelSize) ^ 2 ≤ 4 := by rcases h0 with rfl | rfl <;> norm_num [unitCfg]
    simpa using h.trans this
  have hb : blockOf unitCfg.vps (⟨x, y, z⟩ : Idx) = ⟨x, y, z⟩ := by simp [blockOf, unitCfg, Vec3.map]
  rw [hb]
  show ((x : ℚ) * (1 * (1 : ℕ)) - 1 / 2) ^ 2 + ((y : ℚ) * (1 * (1 : ℕ)) - 1 / 2) ^ 2 + ((z : ℚ) * (1 * (1 : ℕ)) - 1 / 2) ^ 2 ≤ 10 ^ 2
  push_cast
  nlinarith [sq_nonneg ((x : ℚ) + 2), sq_nonneg ((y : ℚ) + 2), sq_nonneg ((z : ℚ) + 2)]

/-- With free-space clearing a scan is admissible if the spheres are in the blocks that are kept; the update that follows forgets the position. -/
example : ∃ s1 s2, Leads (sampleEnv true 10) newServer (.scan sampleTsdf here) s1 ∧ Leads (sampleEnv true 10) s1 .update s2 ∧
    Sound fixedPoint sampleLimits [here] s1 := by
  have ha : Admissible fixedPoint sampleLimits (sampleEnv true 10) [] newServer (.scan sampleTsdf here) := by
    refine ⟨sampleTsdf_mapFits, fun _ => ⟨sample_sphere 1 (by norm_num), sample_sphere 2 (by norm_num)⟩, ?_⟩
    rintro g ⟨p, hp, hg⟩
    simp only [sampleEnv, if_true, List.mem_singleton] at hp
    subst hp
    rcases hg with hg | hg
    · exact covered_near (Or.inl rfl) hg
    · exact covered_near (Or.inr rfl) hg
  have hp : ∀ m, ((sampleEnv true 10).order m).Perm m := fun m => List.Perm.refl m
  obtain ⟨s1, l1, k1⟩ := C105_handled_partial rfl hp newServer_sound ha
  obtain ⟨s2, l2, -⟩ := C105_handled_partial rfl hp k1 (e := .update) trivial
  exact ⟨s1, s2, l1, l2, k1⟩

/-! ### Violations -/

/-- The first voxel of the open queue has no block. -/
def stale : Outcome Esdf.State → Bool
  | .ok e => decide (e.raise = [] ∧ openStep fixedPoint sampleCfg e = .fatal ∧ e.open_.empty = .ok false)
  | _ => false

/-- The state when an update starts to process the queues. -/
def beforeQueues (s : State) : Outcome Esdf.State :=
  (esdfUpdated s.tsdf ++ s.esdf.updated).foldlM (tsdfBlock fixedPoint sampleCfg true s.tsdf) { s.esdf with updated := [] }

/-- The next update meets a queued voxel without a block. -/
def staleUpdate (s : State) : Bool :=
  decide (s.tsdf.blocks.length > 0 ∧ s.cfg = sampleCfg ∧ s.tsdf.cfg.vps = s.esdf.layer.cfg.vps) && stale (beforeQueues s)

theorem stale_fatal {s : State} (h : staleUpdate s = true) (b : Bool) (d : ℚ) (fuel : ℕ) :
    step { sampleEnv b d with fuel := fuel + 1 } s .update = .fatal := by
  unfold staleUpdate at h
  rw [Bool.and_eq_true, decide_eq_true_eq] at h
  obtain ⟨⟨h1, h2, h3⟩, h4⟩ := h
  unfold stale at h4
  split at h4
  · rename_i e he
    obtain ⟨h5, h6, h7⟩ := of_decide_eq_true h4
    unfold beforeQueues at he
    simp only [step, updateEsdf, if_pos h1, updateIncremental, updateFromTsdfBlocks, h2, sampleEnv, id]
    rw [show Outcome.check (decide (s.tsdf.cfg.vps = s.esdf.layer.cfg.vps)) = .ok () by simp [Outcome.check, h3]]
    simp only [Outcome.bind_ok, he, processRaise, h5, processOpen, h7, Bool.false_eq_true, if_false, h6]
    rfl
  · cases h4

/-- **C105 fails with free-space clearing (moving away)**: the robot position of the first scan queues voxels around it. The second scan, far away,
removes their blocks, but not the entries of the queues. The next update aborts the server. Both scans are harmless by themselves. -/
theorem C105_prune_violated : ∃ s1 s2, Leads (sampleEnv true 10) newServer (.scan (farTsdf 5) here) s1 ∧
    Leads (sampleEnv true 10) s1 (.scan (farTsdf 25) there) s2 ∧
    (∀ fuel, step { sampleEnv true 10 with fuel := fuel + 1 } s2 .update = .fatal) ∧
    ∃ s3, Leads (sampleEnv true 10) s1 .update s3 := by
  have h : (match scan (sampleEnv true 10) (farTsdf 5) here newServer with
      | .ok s1 => match scan (sampleEnv true 10) (farTsdf 25) there s1 with
        | .ok s2 => staleUpdate s2
        | _ => false
      | _ => false) = true := by decide +kernel
  split at h
  · rename_i s1 e1
    split at h
    · rename_i s2 e2
      have l1 : Leads (sampleEnv true 10) newServer (.scan (farTsdf 5) here) s1 := ⟨0, fun fuel _ => by
        show (scan (sampleEnv true 10) (farTsdf 5) here newServer).bind _ = _
        rw [e1]
        rfl⟩
      refine ⟨s1, s2, l1, ⟨0, fun fuel _ => ?_⟩, stale_fatal h true 10, ?_⟩
      · show (scan (sampleEnv true 10) (farTsdf 25) there s1).bind _ = _
        rw [e2]
        rfl
      · have ha : Admissible fixedPoint sampleLimits (sampleEnv true 10) [] newServer (.scan (farTsdf 5) here) := by
          refine ⟨farTsdf_mapFits 5 (by norm_num), fun _ => ⟨sample_sphere 1 (by norm_num), sample_sphere 2 (by norm_num)⟩, ?_⟩
          rintro g ⟨p, hp, hg⟩
          simp only [sampleEnv, if_true, List.mem_singleton] at hp
          subst hp
          rcases hg with hg | hg
          · exact covered_near (Or.inl rfl) hg
          · exact covered_near (Or.inr rfl) hg
        have hp : ∀ m, ((sampleEnv true 10).order m).Perm m := fun m => List.Perm.refl m
        obtain ⟨s1', l1', k1⟩ := C105_handled_partial rfl hp newServer_sound ha
        obtain rfl := l1.unique l1'
        obtain ⟨s3, l3, -⟩ := C105_handled_partial rfl hp k1 (e := .update) trivial
        exact ⟨s3, l3⟩
    · cases h
  · cases h

/-- **C105 fails with free-space clearing (messages)**: an ESDF message that resets the map leaves the queues, and the next update aborts. -/
theorem C105_message_violated : ∃ s1 s2, Leads (sampleEnv true 10) newServer (.scan (farTsdf 5) here) s1 ∧
    Leads (sampleEnv true 10) s1 (.esdfMap ⟨unitCfg, []⟩) s2 ∧ EsdfFits fixedPoint sampleLimits unitCfg ⟨unitCfg, []⟩ ∧
    ∀ fuel, step { sampleEnv true 10 with fuel := fuel + 1 } s2 .update = .fatal := by
  have h : (match scan (sampleEnv true 10) (farTsdf 5) here newServer with
      | .ok s1 => staleUpdate { s1 with esdf := { s1.esdf with layer := ⟨unitCfg, []⟩ } }
      | _ => false) = true := by decide +kernel
  split at h
  · rename_i s1 e1
    refine ⟨s1, { s1 with esdf := { s1.esdf with layer := ⟨unitCfg, []⟩ } }, ⟨0, fun fuel _ => ?_⟩, ⟨0, fun fuel _ => rfl⟩, ?_, stale_fatal h true 10⟩
    · show (scan (sampleEnv true 10) (farTsdf 5) here newServer).bind _ = _
      rw [e1]
      rfl
    · exact ⟨⟨by norm_num [unitCfg], by decide, by decide, by simp⟩, by simp [Once], rfl, by simp [content], by simp [content]⟩
  · cases h

/-- **C105 fails with free-space clearing (the service)**: `generateEsdf` after a scan aborts, since the blocks of the queued voxels are removed first. -/
theorem C105_generate_violated : ∃ s1, Leads (sampleEnv true 10) newServer (.scan ⟨unitCfg, []⟩ here) s1 ∧
    ∀ fuel, step { sampleEnv true 10 with fuel := fuel + 1 } s1 .generate = .fatal := by
  have h : (match scan (sampleEnv true 10) ⟨unitCfg, []⟩ here newServer with
      | .ok s => decide (s.tsdf.blocks = [] ∧ s.tsdf.cfg = unitCfg ∧ s.cfg = sampleCfg ∧ s.esdf.layer.cfg = unitCfg ∧ s.esdf.raise = [] ∧
          openStep fixedPoint sampleCfg ⟨⟨unitCfg, []⟩, s.esdf.open_, [], []⟩ = .fatal ∧ s.esdf.open_.empty = .ok false)
      | _ => false) = true := by decide +kernel
  split at h
  · rename_i s1 e1
    obtain ⟨h0, h1, h2, h3, h4, h5, h6⟩ := of_decide_eq_true h
    refine ⟨s1, ⟨0, fun fuel _ => ?_⟩, fun fuel => ?_⟩
    · show (scan (sampleEnv true 10) ⟨unitCfg, []⟩ here newServer).bind _ = _
      rw [e1]
      rfl
    · obtain ⟨⟨c, bs⟩, cfg, ⟨⟨c', bs'⟩, q, rs, us⟩⟩ := s1
      simp only at h0 h1 h2 h3 h4 h5 h6
      subst h0 h1 h2 h3 h4
      have hskip : ∀ (is : List Idx) (s : Esdf.State), is.foldlM (tsdfBlock fixedPoint sampleCfg false ⟨unitCfg, []⟩) s = .ok s := by
        intro is
        induction is with
        | nil => intro s; rfl
        | cons i is ih => intro s; rw [List.foldlM_cons]; exact ih s
      simp only [step, generateEsdf, updateBatch, updateFromTsdfBlocks, sampleEnv, id, List.map_nil, List.nil_append, hskip, decide_true]
      rw [show Outcome.check true = .ok () from rfl]
      simp only [Outcome.bind_ok, processRaise, processOpen, h6, Bool.false_eq_true, if_false, h5]
      rfl
  · cases h

/-- **C105 fails for maps from elsewhere**: after a TSDF message that resets the map, updates leave the old ESDF in place. -/
theorem C105_stale_violated : ∃ s1 s2 s3 s4, Leads (sampleEnv false 10) newServer (.scan sampleTsdf here) s1 ∧ Leads (sampleEnv false 10) s1 .update s2 ∧
    Leads (sampleEnv false 10) s2 (.tsdfMap ⟨unitCfg, []⟩) s3 ∧ Leads (sampleEnv false 10) s3 .update s4 ∧
    (∀ g, content s4.tsdf g = none) ∧ ∃ y, content s4.esdf.layer ⟨0, 0, 0⟩ = some y ∧ y.observed = true := by
  have hp : ∀ m, ((sampleEnv false 10).order m).Perm m := fun m => List.Perm.refl m
  have ha : Admissible fixedPoint sampleLimits (sampleEnv false 10) [] newServer (.scan sampleTsdf here) :=
    ⟨sampleTsdf_mapFits, by simp [sampleEnv], by
      rintro g ⟨p, hp, -⟩
      cases hp⟩
  obtain ⟨s1, l1, k1⟩ := C105_handled_partial rfl hp newServer_sound ha
  obtain ⟨s2, l2, k2⟩ := C105_handled_partial rfl hp k1 (e := .update) trivial
  have h1 : s1 = ⟨ServerMesh.removeDistant sampleTsdf here 10, sampleCfg, pruneEsdf (sampleEnv false 10) here newServer.esdf⟩ :=
    l1.unique ⟨0, fun _ _ => rfl⟩
  refine ⟨s1, s2, { s2 with tsdf := ⟨unitCfg, []⟩ }, { s2 with tsdf := ⟨unitCfg, []⟩ }, l1, l2, ⟨0, fun _ _ => rfl⟩, ⟨0, fun _ _ => rfl⟩, ?_, ?_⟩
  · intro g; simp [content]
  · obtain ⟨-, -, u⟩ := C105_update rfl hp k1 l2
    obtain ⟨-, -, u⟩ := u (by rw [h1]; decide +kernel)
    obtain ⟨y, y1, y2, -⟩ := u ⟨0, 0, 0⟩ ⟨1 / 2, 1, ⟨0, 0, 0, 0⟩⟩ (false, Flags.setAll) (by rw [h1]; decide +kernel) (by rw [h1]; decide +kernel)
      (by decide) (by rw [h1]; decide +kernel)
    exact ⟨y, y1, y2⟩

/-- The configuration after a run. -/
def ranFull (r : Outcome (Option State)) : Bool :=
  match r with
  | .ok (some s) => s.cfg.fullEuclidean
  | _ => false

example : sampleCfg.fullEuclidean = false ∧
    ranFull (run { sampleEnv false 10 with fuel := 100 } newServer [.scan sampleTsdf here, .batch true]) = true ∧
    ranFull (run { sampleEnv false 10 with fuel := 100 } newServer [.scan sampleTsdf here, .batch true, .batch false]) = false := by decide +kernel

/-- **C105.** The maximum distance is the one set last. The default distance, which unknown space gets, is the largest of the one configured and
all maximum distances ever set: lowering the maximum again does not lower it. Nothing else changes. -/
theorem C105_max_distance (ms : List ℚ) (m : ℚ) (s : State) :
    let s' := (ms ++ [m]).foldl (fun s m => setEsdfMaxDistance m s) s
    s'.cfg.maxDistance = m ∧ (∀ x ∈ s.cfg.defaultDistance :: (ms ++ [m]), x ≤ s'.cfg.defaultDistance) ∧
      s'.cfg.defaultDistance ∈ s.cfg.defaultDistance :: (ms ++ [m]) ∧
      s' = { s with cfg := { s.cfg with maxDistance := m, defaultDistance := s'.cfg.defaultDistance } } := by
  dsimp only
  induction ms generalizing s with
  | nil =>
    simp only [List.nil_append, List.foldl_cons, List.foldl_nil, setEsdfMaxDistance, setMaxDistance, List.mem_cons, List.not_mem_nil, or_false, forall_eq_or_imp,
      forall_eq, true_and, and_true]
    split
    · next h => exact ⟨⟨h.le, le_rfl⟩, .inr rfl⟩
    · next h => exact ⟨⟨le_rfl, not_lt.1 h⟩, .inl rfl⟩
  | cons n ms ih =>
    obtain ⟨h1, h2, h3, h4⟩ := ih (setEsdfMaxDistance n s)
    rw [List.cons_append, List.foldl_cons]
    have hd : (setEsdfMaxDistance n s).cfg.defaultDistance = if s.cfg.defaultDistance < n then n else s.cfg.defaultDistance := rfl
    generalize (ms ++ [m]).foldl (fun s m => setEsdfMaxDistance m s) (setEsdfMaxDistance n s) = s' at *
    refine ⟨h1, ?_, ?_, ?_⟩
    · have hb := h2 _ List.mem_cons_self
      rw [hd] at hb
      intro x hx
      rcases List.mem_cons.1 hx with rfl | hx
      · split at hb
        · next h => exact h.le.trans hb
        · exact hb
      rcases List.mem_cons.1 hx with rfl | hx
      · split at hb
        · exact hb
        · next h => exact (not_lt.1 h).trans hb
      · exact h2 x (List.mem_cons_of_mem _ hx)
    · rcases List.mem_cons.1 h3 with h3 | h3
      · rw [hd] at h3
        split at h3
        · rw [h3]; exact List.mem_cons_of_mem _ List.mem_cons_self
        · rw [h3]; exact List.mem_cons_self
      · exact List.mem_cons_of_mem _ (List.mem_cons_of_mem _ h3)
    · conv_lhs => rw [h4]
      rfl

example : sampleCfg.defaultDistance ≠ 9 ∧ ((([9, 1] : List ℚ).foldl (fun s m => setEsdfMaxDistance m s) newServer).cfg.maxDistance,
    (([9, 1] : List ℚ).foldl (fun s m => setEsdfMaxDistance m s) newServer).cfg.defaultDistance) = (1, 9) := by decide +kernel

end Vox.EsdfServer
