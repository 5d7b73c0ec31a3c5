/-
The open-set loop of the occupancy ESDF integrator: one step, and termination.
-/
import Verif.Model.EsdfOcc
import Verif.Lemmas.EsdfCopy
import Verif.Spec.EsdfOcc

namespace Vox.EsdfOcc

open Layer Grid Spec Esdf

variable {A : Flt} {cfg : Config} {u B : ℚ}

/-- Global index of a key. -/
def gk (n : ℕ) (k : Idx × Idx) : Idx := globalIndex n k.1 k.2

/-- Conditions on arithmetic and configuration. -/
structure Fits (A : Flt) (cfg : Config) (u B : ℚ) : Prop where
  R : Rounding A u
  default_rep : Rep A cfg.defaultDistance
  default_nonneg : 0 ≤ cfg.defaultDistance
  default_le : cfg.defaultDistance ≤ B
  max_pos : 0 < cfg.maxDistance
  n_pos : 0 < cfg.numBuckets
  n_lt : cfg.numBuckets < 2 ^ 31

theorem Fits.bucket (F : Fits A cfg u B) {x : ℚ} (h0 : 0 ≤ x) (h : x < cfg.maxDistance) :
    |x| * ((cfg.numBuckets : ℚ) - 1) / cfg.maxDistance < 2 ^ 31 := by
  have hn : (1 : ℚ) ≤ cfg.numBuckets := by exact_mod_cast F.n_pos
  have hn2 : (cfg.numBuckets : ℚ) < 2 ^ 31 := by exact_mod_cast F.n_lt
  have hm := F.max_pos
  rw [abs_of_nonneg h0, div_lt_iff₀ hm]
  nlinarith

/-- The state is consistent: `S` are the voxels of the allocated blocks, `es` the content of the queue. -/
structure Good (A : Flt) (cfg : Config) (B : ℚ) (S : Finset Idx) (es : List (ℕ × (Idx × Idx))) (s : State) : Prop where
  wf : WellFormed s.layer
  dom : ∀ g, (content s.layer g).isSome = true ↔ g ∈ S
  vals : ∀ g v, content s.layer g = some v → Rep A v.distance ∧ 0 ≤ v.distance ∧ v.distance ≤ B
  queue : BQueue.Rel s.open_ ⟨cfg.numBuckets, cfg.maxDistance, es⟩
  queued : ∀ e ∈ es, InBlock s.layer.cfg.vps e.2.2 ∧ gk s.layer.cfg.vps e.2 ∈ S

/-- What a step leaves alone. -/
structure Frame (s s' : State) : Prop where
  cfg : s'.layer.cfg = s.layer.cfg
  status : ∀ j, status s'.layer j = status s.layer j

theorem Frame.refl (s : State) : Frame s s := ⟨rfl, fun _ => rfl⟩

theorem Frame.trans {a b c : State} (h : Frame a b) (k : Frame b c) : Frame a c :=
  ⟨k.cfg.trans h.cfg, fun j => (k.status j).trans (h.status j)⟩

theorem Good.allocated {S : Finset Idx} {es : List (ℕ × (Idx × Idx))} {s : State} (G : Good A cfg B S es s) {k : Idx × Idx}
    (hv : InBlock s.layer.cfg.vps k.2) : Allocated s.layer k.1 ↔ gk s.layer.cfg.vps k ∈ S := by
  rw [allocated_iff_content G.wf hv, ← G.dom]
  rfl

/-- Writing a voxel by key. -/
theorem Good.set {S : Finset Idx} {es : List (ℕ × (Idx × Idx))} {s : State} (G : Good A cfg B S es s) {k : Idx × Idx}
    (hv : InBlock s.layer.cfg.vps k.2) (hk : gk s.layer.cfg.vps k ∈ S) {x : EVoxel} (hx : Rep A x.distance ∧ 0 ≤ x.distance ∧ x.distance ≤ B) :
    ∃ s', setKey s k x = .ok s' ∧ Good A cfg B S es s' ∧ Frame s s' ∧
      ∀ g, content s'.layer g = if g = gk s.layer.cfg.vps k then some x else content s.layer g := by
  obtain ⟨l', h1, h2, h3, h4, h5, -⟩ := writeVoxel_ok G.wf hv ((G.allocated hv).2 hk) x
  refine ⟨⟨l', s.open_⟩, by unfold setKey; rw [h1]; rfl, ⟨h3, ?_, ?_, G.queue, ?_⟩, ⟨h2, h5⟩, h4⟩
  · intro g
    show (content l' g).isSome = true ↔ _
    rw [h4]
    split_ifs with e
    · rw [e]; exact ⟨fun _ => hk, fun _ => rfl⟩
    · exact G.dom g
  · intro g v hg
    replace hg : content l' g = some v := hg
    rw [h4] at hg
    split_ifs at hg with e
    · injection hg with hg
      rw [← hg]; exact hx
    · exact G.vals g v hg
  · show ∀ e ∈ es, InBlock l'.cfg.vps _ ∧ gk l'.cfg.vps _ ∈ S
    rw [h2]
    exact G.queued

theorem Good.withQueue {S : Finset Idx} {es es' : List (ℕ × (Idx × Idx))} {s : State} (G : Good A cfg B S es s) {q : BQueue (Idx × Idx)}
    (hq : BQueue.Rel q ⟨cfg.numBuckets, cfg.maxDistance, es'⟩)
    (he : ∀ e ∈ es', InBlock s.layer.cfg.vps e.2.2 ∧ gk s.layer.cfg.vps e.2 ∈ S) : Good A cfg B S es' ⟨s.layer, q⟩ :=
  ⟨G.wf, G.dom, G.vals, hq, he⟩

/-! ### Neighbours -/

theorem occDirections_small : ∀ e ∈ occDirections, e.1.All (fun c => -1 ≤ c ∧ c ≤ 1) ∧ e.1 ≠ 0 ∧ kDistance e.2 = unitLength e.1 := by
  decide +kernel

theorem occNeighbor_pos {n : ℕ} (hn : 0 < n) {b v d : Idx} (hv : InBlock n v) (hd : d.All fun c => -1 ≤ c ∧ c ≤ 1) :
    InBlock n (occNeighbor n b v d).2 ∧ gk n (occNeighbor n b v d) = gk n (b, v) + d := by
  have key : ∀ b v d : ℤ, (0 ≤ v ∧ v < n) → (-1 ≤ d ∧ d ≤ 1) →
      (occNeighborAxis n b (v + d)).1 * n + (occNeighborAxis n b (v + d)).2 = b * n + v + d ∧
        0 ≤ (occNeighborAxis n b (v + d)).2 ∧ (occNeighborAxis n b (v + d)).2 < n := by
    intro b v d h1 h2
    unfold occNeighborAxis
    split_ifs
    · exact ⟨by ring, by simp only; omega, by simp only; omega⟩
    · exact ⟨by ring, by simp only; omega, by simp only; omega⟩
    · exact ⟨by ring, by simp only; omega, by simp only; omega⟩
  obtain ⟨hx, hy, hz⟩ := hv
  obtain ⟨dx, dy, dz⟩ := hd
  obtain ⟨x1, x2⟩ := key b.x v.x d.x hx dx
  obtain ⟨y1, y2⟩ := key b.y v.y d.y hy dy
  obtain ⟨z1, z2⟩ := key b.z v.z d.z hz dz
  refine ⟨⟨x2, y2, z2⟩, ?_⟩
  unfold gk globalIndex occNeighbor
  ext <;> simp only [Vec3.map₂_x, Vec3.map₂_y, Vec3.map₂_z, Vec3.add_x, Vec3.add_y, Vec3.add_z] <;> omega

/-! ### One neighbour -/

/-- The new value `y` of the neighbour `n` at offset `dir` of a voxel with distance `v`. -/
def Change (A : Flt) (cfg : Config) (v d : ℚ) (dir : Idx) (n y : EVoxel) : Prop :=
  (n.fixed = false ∧ A.rnd (v + d) < n.distance ∧
    y = ⟨A.rnd (v + d), n.observed, n.hallucinated, n.inQueue || decide (A.rnd (v + d) < cfg.maxDistance), false, -dir⟩) ∨
  (n.fixed = true ∧ n.distance < A.rnd (v - d) ∧ y = ⟨A.rnd (v - d), n.observed, n.hallucinated, true, true, -dir⟩)

/-- The queue after the change. -/
def queueAfter (cfg : Config) (k : Idx × Idx) (n y : EVoxel) (es : List (ℕ × (Idx × Idx))) : List (ℕ × (Idx × Idx)) :=
  if (y.inQueue && !n.inQueue) = true then insertStable (bucketOf cfg.numBuckets cfg.maxDistance y.distance) k es else es

/-- The neighbour has no reason to change. -/
def Settled (A : Flt) (v d : ℚ) (n : EVoxel) : Prop :=
  (n.fixed = false → n.distance ≤ A.rnd (v + d)) ∧ (n.fixed = true → A.rnd (v - d) ≤ n.distance)

theorem pushNeighbor_ok (F : Fits A cfg u B) {S : Finset Idx} {es : List (ℕ × (Idx × Idx))} {s : State} (G : Good A cfg B S es s)
    {k : Idx × Idx} (hv : InBlock s.layer.cfg.vps k.2) (hk : gk s.layer.cfg.vps k ∈ S) {n : EVoxel}
    (hn : Rep A n.distance ∧ 0 ≤ n.distance ∧ n.distance ≤ B) (hm : n.distance < cfg.maxDistance) :
    ∃ s', pushNeighbor s k n = .ok s' ∧ Frame s s' ∧
      Good A cfg B S (if n.inQueue = true then es else insertStable (bucketOf cfg.numBuckets cfg.maxDistance n.distance) k es) s' ∧
      ∀ g, content s'.layer g = if g = gk s.layer.cfg.vps k then
        some ⟨n.distance, n.observed, n.hallucinated, true, n.fixed, n.parent⟩ else content s.layer g := by
  unfold pushNeighbor
  by_cases hq : n.inQueue = true
  · rw [if_pos hq, if_pos hq]
    obtain ⟨s', h1, h2, h3, h4⟩ := G.set hv hk hn
    refine ⟨s', h1, h3, h2, ?_⟩
    have : n = ⟨n.distance, n.observed, n.hallucinated, true, n.fixed, n.parent⟩ := by
      rw [← hq]
    rw [← this]
    exact h4
  · rw [if_neg hq, if_neg hq]
    obtain ⟨q', p1, p2⟩ := push_ok G.queue k (F.bucket hn.2.1 hm)
    rw [p1]
    simp only [Outcome.bind_ok]
    have G' := G.withQueue p2 (by
      intro e he
      rcases mem_insertStable.1 he with h | h
      · rw [h]; exact ⟨hv, hk⟩
      · exact G.queued e h)
    obtain ⟨s', h1, h2, h3, h4⟩ := G'.set hv hk (x := ⟨n.distance, n.observed, n.hallucinated, true, n.fixed, n.parent⟩) hn
    exact ⟨s', h1, ⟨h3.cfg, h3.status⟩, h2, h4⟩

theorem relaxNeighbor_ok (F : Fits A cfg u B) {S : Finset Idx} {es : List (ℕ × (Idx × Idx))} {s : State} (G : Good A cfg B S es s)
    {k : Idx × Idx} (hv : InBlock s.layer.cfg.vps k.2) {n : EVoxel} (hc : content s.layer (gk s.layer.cfg.vps k) = some n)
    {v d : ℚ} (hv0 : 0 ≤ v) (hvm : v < cfg.maxDistance) (hvr : Rep A v) (hvB : v ≤ B) (hd : 0 ≤ d) (dir : Idx) :
    ∃ s' es', relaxNeighbor A cfg s k dir v d n = .ok s' ∧ Frame s s' ∧ Good A cfg B S es' s' ∧
      ((Settled A v d n ∧ s' = s ∧ es' = es) ∨ ∃ y, Change A cfg v d dir n y ∧ es' = queueAfter cfg k n y es ∧
        ∀ g, content s'.layer g = if g = gk s.layer.cfg.vps k then some y else content s.layer g) := by
  have hk : gk s.layer.cfg.vps k ∈ S := (G.dom _).1 (by rw [hc]; rfl)
  have hn := G.vals _ _ hc
  unfold relaxNeighbor
  by_cases c1 : (!n.fixed && decide (A.rnd (v + d) < n.distance)) = true
  · rw [if_pos c1]
    simp only [Bool.and_eq_true, Bool.not_eq_true', decide_eq_true_eq] at c1
    obtain ⟨hf, hlt⟩ := c1
    have hx : Rep A (A.rnd (v + d)) ∧ 0 ≤ A.rnd (v + d) ∧ A.rnd (v + d) ≤ B :=
      ⟨F.R.rep _, F.R.ge_of_ge (by linarith) F.R.zero, hlt.le.trans hn.2.2⟩
    simp only
    by_cases hm : A.rnd (v + d) < cfg.maxDistance
    · rw [if_pos hm]
      obtain ⟨s', h1, h2, h3, h4⟩ := pushNeighbor_ok F G hv hk (n := ⟨A.rnd (v + d), n.observed, n.hallucinated, n.inQueue, n.fixed, -dir⟩) hx hm
      refine ⟨s', _, h1, h2, h3, Or.inr ⟨_, Or.inl ⟨hf, hlt, rfl⟩, ?_, ?_⟩⟩
      · unfold queueAfter
        cases hq : n.inQueue <;> simp [hm]
      · rw [hf] at h4
        simpa [hm] using h4
    · rw [if_neg hm]
      obtain ⟨s', h1, h2, h3, h4⟩ := G.set hv hk (x := ⟨A.rnd (v + d), n.observed, n.hallucinated, n.inQueue, n.fixed, -dir⟩) hx
      refine ⟨s', _, h1, h3, h2, Or.inr ⟨_, Or.inl ⟨hf, hlt, rfl⟩, ?_, ?_⟩⟩
      · unfold queueAfter
        cases hq : n.inQueue <;> simp [hm]
      · rw [hf] at h4
        simpa [hm] using h4
  rw [if_neg c1]
  by_cases c2 : (n.fixed && decide (n.distance < A.rnd (v - d))) = true
  · rw [if_pos c2]
    simp only [Bool.and_eq_true, decide_eq_true_eq] at c2
    obtain ⟨hf, hlt⟩ := c2
    have hle : A.rnd (v - d) ≤ v := F.R.le_of_le (by linarith) hvr
    obtain ⟨s', h1, h2, h3, h4⟩ := pushNeighbor_ok F G hv hk (n := ⟨A.rnd (v - d), n.observed, n.hallucinated, n.inQueue, n.fixed, -dir⟩)
      ⟨F.R.rep _, hn.2.1.trans hlt.le, hle.trans hvB⟩ (lt_of_le_of_lt hle hvm)
    refine ⟨s', _, h1, h2, h3, Or.inr ⟨_, Or.inr ⟨hf, hlt, rfl⟩, ?_, ?_⟩⟩
    · unfold queueAfter
      cases hq : n.inQueue <;> simp
    · rw [hf] at h4
      exact h4
  · rw [if_neg c2]
    refine ⟨s, es, rfl, Frame.refl s, G, Or.inl ⟨⟨?_, ?_⟩, rfl, rfl⟩⟩
    · intro hf
      simpa [hf] using c1
    · intro hf
      simpa [hf] using c2

/-- The effect of the neighbour at offset `o` (distance `d`) of voxel `g` on content and queue. -/
def Moved (A : Flt) (cfg : Config) (vps : ℕ) (v d : ℚ) (g o : Idx) (c : Idx → Option EVoxel) (es : List (ℕ × (Idx × Idx)))
    (c' : Idx → Option EVoxel) (es' : List (ℕ × (Idx × Idx))) : Prop :=
  ∃ n y k, InBlock vps k.2 ∧ gk vps k = g + o ∧ c (g + o) = some n ∧ n.observed = true ∧ Change A cfg v d o n y ∧
    es' = queueAfter cfg k n y es ∧ ∀ g', c' g' = if g' = g + o then some y else c g'

theorem occOpenNeighbor_ok (F : Fits A cfg u B) {S : Finset Idx} {es : List (ℕ × (Idx × Idx))} {s : State} (G : Good A cfg B S es s)
    {k : Idx × Idx} (hv : InBlock s.layer.cfg.vps k.2) {v : ℚ} (hv0 : 0 ≤ v) (hvm : v < cfg.maxDistance) (hvr : Rep A v) (hvB : v ≤ B)
    {e : Idx × DistSq} (he : e ∈ occDirections) :
    ∃ s' es', occOpenNeighbor A cfg v s (occNeighbor s.layer.cfg.vps k.1 k.2 e.1, e.2, e.1) = .ok s' ∧ Frame s s' ∧ Good A cfg B S es' s' ∧
      ((s' = s ∧ es' = es ∧ ∀ n, content s.layer (gk s.layer.cfg.vps k + e.1) = some n → n.observed = true →
          Settled A v (A.rnd (unitLength e.1 * s.layer.cfg.voxelSize)) n) ∨
        Moved A cfg s.layer.cfg.vps v (A.rnd (unitLength e.1 * s.layer.cfg.voxelSize)) (gk s.layer.cfg.vps k) e.1
          (content s.layer) es (content s'.layer) es') := by
  obtain ⟨h1, h2, h3⟩ := occDirections_small e he
  obtain ⟨p1, p2⟩ := occNeighbor_pos G.wf.side_pos (b := k.1) hv h1
  unfold occOpenNeighbor
  cases hb : block? s.layer (occNeighbor s.layer.cfg.vps k.1 k.2 e.1).1 with
  | none =>
    refine ⟨s, es, rfl, Frame.refl s, G, Or.inl ⟨rfl, rfl, ?_⟩⟩
    intro n hn
    have := (allocated_iff_content G.wf p1 (i := (occNeighbor s.layer.cfg.vps k.1 k.2 e.1).1)).2 (by
      show (content s.layer (gk s.layer.cfg.vps (occNeighbor s.layer.cfg.vps k.1 k.2 e.1))).isSome = true
      rw [p2, show gk s.layer.cfg.vps (k.1, k.2) = gk s.layer.cfg.vps k from rfl, hn]; rfl)
    unfold Allocated at this
    change (block? s.layer _).isSome = true at this
    rw [hb] at this
    cases this
  | some b =>
    obtain ⟨n, n1, n2⟩ := voxelByIndex_content G.wf hb p1
    obtain ⟨b1, -⟩ := G.wf.block _ _ hb
    have hc : content s.layer (gk s.layer.cfg.vps k + e.1) = some n := by
      rw [← n2]
      show _ = content s.layer (gk s.layer.cfg.vps (occNeighbor s.layer.cfg.vps k.1 k.2 e.1))
      rw [p2]
    have hval : isValidVoxelIndex b.vps (occNeighbor s.layer.cfg.vps k.1 k.2 e.1).2 = true := by
      rw [b1]
      exact (Props.C01_valid_voxel_iff (by have := G.wf.side_le; omega) _).2 p1
    simp only [hval, n1, Outcome.bind_ok]
    rw [show Outcome.check true = .ok () from rfl]
    simp only [Outcome.bind_ok]
    cases ho : n.observed with
    | false =>
      refine ⟨s, es, rfl, Frame.refl s, G, Or.inl ⟨rfl, rfl, ?_⟩⟩
      intro n' hn' ho'
      rw [hc] at hn'
      injection hn' with hn'
      rw [← hn', ho] at ho'
      cases ho'
    | true =>
      have hd : 0 ≤ A.rnd (kDistance e.2 * s.layer.cfg.voxelSize) := by
        refine F.R.ge_of_ge ?_ F.R.zero
        have := G.wf.size_pos
        have : 0 ≤ kDistance e.2 := by unfold kDistance; split <;> norm_num
        positivity
      rw [p2.symm.trans rfl] at hc
      obtain ⟨s', es', r1, r2, r3, r4⟩ := relaxNeighbor_ok F G p1 hc hv0 hvm hvr hvB hd e.1
      refine ⟨s', es', ?_, r2, r3, ?_⟩
      · simp only [Bool.not_true, Bool.false_eq_true, if_false]
        exact r1
      · rw [h3] at r4
        rcases r4 with ⟨a, b, c⟩ | ⟨y, a, b, c⟩
        · refine Or.inl ⟨b, c, ?_⟩
          intro n' hn' _
          rw [show gk s.layer.cfg.vps k + e.1 = gk s.layer.cfg.vps (occNeighbor s.layer.cfg.vps k.1 k.2 e.1) from p2.symm, hc] at hn'
          injection hn' with hn'
          rw [← hn']; exact a
        · refine Or.inr ⟨n, y, _, p1, p2, ?_, ho, a, b, ?_⟩
          · rw [show gk s.layer.cfg.vps k + e.1 = gk s.layer.cfg.vps (occNeighbor s.layer.cfg.vps k.1 k.2 e.1) from p2.symm]
            exact hc
          · intro g'
            rw [c g', p2]

/-! ### One iteration -/

theorem foldlM_done {σ α : Type} {f : σ → α → Outcome σ} {P : List α → σ → Prop} (l : List α)
    (h : ∀ done s a, a ∈ l → P done s → ∃ s', f s a = .ok s' ∧ P (a :: done) s') :
    ∀ done s, P done s → ∃ s' d, l.foldlM f s = .ok s' ∧ P d s' ∧ ∀ a, a ∈ l ∨ a ∈ done → a ∈ d := by
  induction l with
  | nil => intro done s hs; exact ⟨s, done, rfl, hs, by simp⟩
  | cons a l ih =>
    intro done s hs
    obtain ⟨s1, h1, h2⟩ := h done s a (by simp) hs
    obtain ⟨s', d, k1, k2, k3⟩ := ih (fun dn s b hb => h dn s b (by simp [hb])) (a :: done) s1 h2
    refine ⟨s', d, by rw [List.foldlM_cons, h1]; exact k1, k2, ?_⟩
    intro b hb
    apply k3
    simp only [List.mem_cons] at hb ⊢
    tauto

/-- The potential of a voxel: fixed voxels only rise, others only fall. -/
def pot (u B : ℚ) (c : Idx → Option EVoxel) (g : Idx) : ℕ :=
  match c g with
  | some v => if v.fixed then ht u B - ht u v.distance else ht u v.distance
  | none => 0

/-- Potential of the state. -/
def phi (u B : ℚ) (S : Finset Idx) (c : Idx → Option EVoxel) (es : List (ℕ × (Idx × Idx))) : ℕ :=
  2 * ∑ g ∈ S, pot u B c g + es.length

theorem phi_moved (F : Fits A cfg u B) {S : Finset Idx} {vps : ℕ} {v d : ℚ} {g o : Idx} {c c' : Idx → Option EVoxel}
    {es es' : List (ℕ × (Idx × Idx))} (hS : g + o ∈ S)
    (hval : ∀ g v, c g = some v → Rep A v.distance ∧ 0 ≤ v.distance ∧ v.distance ≤ B) (hv : 0 ≤ v) (hd : 0 ≤ d) (hvB : v ≤ B)
    (hvr : Rep A v) (h : Moved A cfg vps v d g o c es c' es') : phi u B S c' es' < phi u B S c es := by
  obtain ⟨n, y, k, h1, h2, h3, h4, h5, h6, h7⟩ := h
  have hn := hval _ _ h3
  have hpot : pot u B c' (g + o) < pot u B c (g + o) := by
    unfold pot
    rw [h7, if_pos rfl, h3]
    rcases h5 with ⟨f1, f2, f3⟩ | ⟨f1, f2, f3⟩
    · rw [f3]
      simp only [f1, Bool.false_eq_true, if_false]
      refine ht_lt F.R (F.R.rep _) hn.1 ?_
      rw [abs_of_nonneg (F.R.ge_of_ge (by linarith) F.R.zero), abs_of_nonneg hn.2.1]
      exact f2
    · rw [f3]
      simp only [f1, if_true]
      have h0 : 0 ≤ A.rnd (v - d) := hn.2.1.trans f2.le
      have e1 : ht u n.distance < ht u (A.rnd (v - d)) := by
        refine ht_lt F.R hn.1 (F.R.rep _) ?_
        rw [abs_of_nonneg hn.2.1, abs_of_nonneg h0]
        exact f2
      have e2 : ht u (A.rnd (v - d)) ≤ ht u B := by
        refine ht_le F.R ?_
        rw [abs_of_nonneg h0]
        exact (F.R.le_of_le (by linarith) hvr).trans hvB
      omega
  have hsum : ∑ g ∈ S, pot u B c' g < ∑ g ∈ S, pot u B c g := by
    refine Finset.sum_lt_sum ?_ ⟨_, hS, hpot⟩
    intro g' _
    by_cases e : g' = g + o
    · rw [e]; exact hpot.le
    · unfold pot
      rw [h7, if_neg e]
  have hlen : es'.length ≤ es.length + 1 := by
    rw [h6]
    unfold queueAfter
    split_ifs
    · have := (insertStable_perm (bucketOf cfg.numBuckets cfg.maxDistance y.distance) k es).length_eq
      simp only [List.length_map, List.length_cons] at this
      omega
    · omega
  unfold phi
  omega

/-- Voxels that the loop does not propagate. -/
def Skipped (cfg : Config) (v : EVoxel) : Prop := v.observed = false ∨ cfg.maxDistance ≤ v.distance

/-- One iteration. `Q` describes content and queue while the neighbours of the popped voxel are visited. -/
theorem occOpenStep_ok (F : Fits A cfg u B) {S : Finset Idx} {b : ℕ} {k : Idx × Idx} {es : List (ℕ × (Idx × Idx))} {s : State}
    (G : Good A cfg B S ((b, k) :: es) s) {v : EVoxel} (hv : content s.layer (gk s.layer.cfg.vps k) = some v)
    (P : (Idx → Option EVoxel) → List (ℕ × (Idx × Idx)) → Prop)
    (Q : List (Idx × DistSq) → (Idx → Option EVoxel) → List (ℕ × (Idx × Idx)) → Prop)
    (hskip : Skipped cfg v → ∀ c', (∀ g, c' g = if g = gk s.layer.cfg.vps k then
        some ⟨v.distance, v.observed, v.hallucinated, false, v.fixed, v.parent⟩ else content s.layer g) → P c' es)
    (h0 : ¬ Skipped cfg v → Q [] (content s.layer) es)
    (hstay : ∀ done c es1 e, e ∈ occDirections → Q done c es1 → (∀ n, c (gk s.layer.cfg.vps k + e.1) = some n → n.observed = true →
        Settled A v.distance (A.rnd (unitLength e.1 * s.layer.cfg.voxelSize)) n) → Q (e :: done) c es1)
    (hmove : ∀ done c es1 c' es2 e, e ∈ occDirections → Q done c es1 →
        Moved A cfg s.layer.cfg.vps v.distance (A.rnd (unitLength e.1 * s.layer.cfg.voxelSize)) (gk s.layer.cfg.vps k) e.1 c es1 c' es2 →
        Q (e :: done) c' es2)
    (hend : ∀ done c es1 c', ¬ Skipped cfg v → (∀ e ∈ occDirections, e ∈ done) → Q done c es1 → c (gk s.layer.cfg.vps k) = some v →
        (∀ g, c' g = if g = gk s.layer.cfg.vps k then
          some ⟨v.distance, v.observed, v.hallucinated, false, v.fixed, v.parent⟩ else c g) → P c' es1) :
    ∃ s' es', occOpenStep A cfg s = .ok s' ∧ Frame s s' ∧ Good A cfg B S es' s' ∧ P (content s'.layer) es' ∧
      phi u B S (content s'.layer) es' < phi u B S (content s.layer) ((b, k) :: es) := by
  obtain ⟨hk1, hk2⟩ := G.queued _ (List.mem_cons_self)
  simp only at hk1 hk2
  have hvv := G.vals _ _ hv
  obtain ⟨q1, q2, e1, e2, e3⟩ := front_pop_ok G.queue
  obtain ⟨v', r1, r2⟩ := readVoxel_ok G.wf hk1 ((G.allocated hk1).2 hk2)
  have hvv' : v' = v := by
    have : content s.layer (gk s.layer.cfg.vps k) = some v' := r2
    rw [hv] at this
    injection this with this
    exact this.symm
  subst hvv'
  have G0 := G.withQueue e3 (fun e he => G.queued e (by simp [he]))
  unfold occOpenStep
  rw [e1]
  simp only [Outcome.bind_ok]
  rw [e2]
  simp only [Outcome.bind_ok, r1]
  have hsame : ∀ {c c' : Idx → Option EVoxel}, c (gk s.layer.cfg.vps k) = some v' → (∀ g, c' g = if g = gk s.layer.cfg.vps k then
      some ⟨v'.distance, v'.observed, v'.hallucinated, false, v'.fixed, v'.parent⟩ else c g) → ∀ es, phi u B S c' es = phi u B S c es := by
    intro c c' hcv hc' es
    unfold phi
    congr 2
    refine Finset.sum_congr rfl fun g _ => ?_
    unfold pot
    by_cases e : g = gk s.layer.cfg.vps k
    · rw [hc', if_pos e, e, hcv]
    · rw [hc', if_neg e]
  by_cases hs : (!v'.observed || decide (cfg.maxDistance ≤ v'.distance)) = true
  · have hloop : occNeighborLoop A cfg k v' ⟨s.layer, q2⟩ = .ok ⟨s.layer, q2⟩ := by
      unfold occNeighborLoop
      rw [if_pos hs]
      rfl
    rw [hloop]
    simp only [Outcome.bind_ok]
    obtain ⟨s', a1, a2, a3, a4⟩ := G0.set hk1 hk2 (x := ⟨v'.distance, v'.observed, v'.hallucinated, false, v'.fixed, v'.parent⟩) hvv
    refine ⟨s', es, a1, ⟨a3.cfg, a3.status⟩, a2, hskip ?_ _ a4, ?_⟩
    · simp only [Bool.or_eq_true, Bool.not_eq_true', decide_eq_true_eq] at hs
      exact hs
    · rw [hsame hv a4]
      unfold phi
      simp
  · have hns : ¬ Skipped cfg v' := by
      simp only [Bool.or_eq_true, Bool.not_eq_true', decide_eq_true_eq] at hs
      exact hs
    have hm : v'.distance < cfg.maxDistance := by
      unfold Skipped at hns
      push Not at hns
      exact hns.2
    have hphi0 : phi u B S (content s.layer) es < phi u B S (content s.layer) ((b, k) :: es) := by
      unfold phi; simp
    obtain ⟨s1, d, l1, ⟨es1, f1, g1, Q1, c1, p1⟩, l3⟩ := foldlM_done (P := fun done (s1 : State) => ∃ es1, Frame ⟨s.layer, q2⟩ s1 ∧
        Good A cfg B S es1 s1 ∧ Q done (content s1.layer) es1 ∧ content s1.layer (gk s.layer.cfg.vps k) = some v' ∧
        phi u B S (content s1.layer) es1 < phi u B S (content s.layer) ((b, k) :: es))
      (f := fun s1 (e : Idx × DistSq) => occOpenNeighbor A cfg v'.distance s1 (occNeighbor s.layer.cfg.vps k.1 k.2 e.1, e.2, e.1))
      occDirections (by
        rintro done s1 e he ⟨es1, f1, g1, Q1, c1, p1⟩
        have ec : s1.layer.cfg = s.layer.cfg := f1.cfg
        obtain ⟨s2, es2, a1, a2, a3, a4⟩ := occOpenNeighbor_ok F g1 (k := k) (by rw [ec]; exact hk1) hvv.2.1 hm hvv.1 hvv.2.2 he
        rw [ec] at a1 a4
        refine ⟨s2, a1, es2, f1.trans a2, a3, ?_⟩
        obtain ⟨h1, h2, h3⟩ := occDirections_small e he
        rcases a4 with ⟨b1, b2, b3⟩ | b1
        · rw [b1, b2]
          exact ⟨hstay done _ _ e he Q1 b3, c1, p1⟩
        · refine ⟨hmove done _ _ _ _ e he Q1 b1, ?_, ?_⟩
          · obtain ⟨n, y, k', -, -, -, -, -, -, hc'⟩ := b1
            rw [hc', if_neg, c1]
            intro e0
            apply h2
            have hx := congrArg Vec3.x e0
            have hy := congrArg Vec3.y e0
            have hz := congrArg Vec3.z e0
            simp only [Vec3.add_x, Vec3.add_y, Vec3.add_z] at hx hy hz
            ext
            · show e.1.x = 0; omega
            · show e.1.y = 0; omega
            · show e.1.z = 0; omega
          · refine lt_trans (phi_moved F ?_ g1.vals hvv.2.1 ?_ hvv.2.2 hvv.1 b1) p1
            · obtain ⟨n, y, k', -, -, hc, -⟩ := b1
              exact (g1.dom _).1 (by rw [hc]; rfl)
            · refine F.R.ge_of_ge ?_ F.R.zero
              have := G.wf.size_pos
              have : 0 ≤ unitLength e.1 := by unfold unitLength; split_ifs <;> norm_num
              positivity) [] ⟨s.layer, q2⟩ ⟨es, ⟨rfl, fun _ => rfl⟩, G0, h0 hns, hv, hphi0⟩
    have ec : s1.layer.cfg = s.layer.cfg := f1.cfg
    have hloop : occNeighborLoop A cfg k v' ⟨s.layer, q2⟩ = .ok s1 := by
      unfold occNeighborLoop
      rw [if_neg hs]
      unfold occNeighbors
      rw [List.foldlM_map]
      exact l1
    rw [hloop]
    simp only [Outcome.bind_ok]
    obtain ⟨s', a1, a2, a3, a4⟩ := g1.set (k := k) (by rw [ec]; exact hk1) (by rw [ec]; exact hk2)
      (x := ⟨v'.distance, v'.observed, v'.hallucinated, false, v'.fixed, v'.parent⟩) hvv
    rw [ec] at a4
    refine ⟨s', es1, a1, ⟨a3.cfg.trans f1.cfg, fun j => (a3.status j).trans (f1.status j)⟩, a2, ?_, ?_⟩
    · exact hend d _ _ _ hns (fun e he => l3 e (Or.inl he)) Q1 c1 a4
    · rw [hsame c1 a4]
      exact p1

/-- The loop ends with an empty queue and keeps `P`, if `Q` connects `P` before and after each iteration. -/
theorem processOpen_ok (F : Fits A cfg u B) {S : Finset Idx} (vps : ℕ) (size : ℚ)
    (P : (Idx → Option EVoxel) → List (ℕ × (Idx × Idx)) → Prop)
    (Q : Idx → EVoxel → List (Idx × DistSq) → (Idx → Option EVoxel) → List (ℕ × (Idx × Idx)) → Prop)
    (hskip : ∀ c b k es v c', P c ((b, k) :: es) → InBlock vps k.2 → c (gk vps k) = some v → Skipped cfg v →
      (∀ g, c' g = if g = gk vps k then some ⟨v.distance, v.observed, v.hallucinated, false, v.fixed, v.parent⟩ else c g) → P c' es)
    (h0 : ∀ c b k es v, P c ((b, k) :: es) → InBlock vps k.2 → c (gk vps k) = some v → ¬ Skipped cfg v → Q (gk vps k) v [] c es)
    (hstay : ∀ g v done c es e, e ∈ occDirections → Q g v done c es → (∀ n, c (g + e.1) = some n → n.observed = true →
        Settled A v.distance (A.rnd (unitLength e.1 * size)) n) → Q g v (e :: done) c es)
    (hmove : ∀ g v done c es c' es' e, e ∈ occDirections → Q g v done c es →
        Moved A cfg vps v.distance (A.rnd (unitLength e.1 * size)) g e.1 c es c' es' → Q g v (e :: done) c' es')
    (hend : ∀ g v done c es c', (∀ e ∈ occDirections, e ∈ done) → Q g v done c es → c g = some v →
        (∀ g', c' g' = if g' = g then some ⟨v.distance, v.observed, v.hallucinated, false, v.fixed, v.parent⟩ else c g') → P c' es) :
    ∀ es s, s.layer.cfg.vps = vps → s.layer.cfg.voxelSize = size → Good A cfg B S es s → P (content s.layer) es →
      ∃ N s', (∀ fuel, N ≤ fuel → processOpen A cfg fuel s = .ok (some s')) ∧ Good A cfg B S [] s' ∧ Frame s s' ∧ P (content s'.layer) [] := by
  have key : ∀ m es s, phi u B S (content s.layer) es = m → s.layer.cfg.vps = vps → s.layer.cfg.voxelSize = size →
      Good A cfg B S es s → P (content s.layer) es →
      ∃ N s', (∀ fuel, N ≤ fuel → processOpen A cfg fuel s = .ok (some s')) ∧ Good A cfg B S [] s' ∧ Frame s s' ∧ P (content s'.layer) [] := by
    intro m
    induction m using Nat.strong_induction_on with
    | _ m ih =>
      intro es s hm hvps hsize G p
      cases es with
      | nil =>
        refine ⟨1, s, ?_, G, Frame.refl s, p⟩
        intro fuel hf
        obtain ⟨m, rfl⟩ : ∃ m, fuel = m + 1 := ⟨fuel - 1, by omega⟩
        unfold processOpen
        rw [empty_ok G.queue]
        rfl
      | cons e es =>
        obtain ⟨b, k⟩ := e
        subst hvps hsize
        obtain ⟨hk1, hk2⟩ := G.queued _ (List.mem_cons_self)
        simp only at hk1 hk2
        obtain ⟨v, hv⟩ := Option.isSome_iff_exists.1 ((G.dom _).2 hk2)
        obtain ⟨s1, es1, h1, h2, h3, h4, h5⟩ := occOpenStep_ok F G hv P (Q (gk s.layer.cfg.vps k) v)
          (fun hs c' hc' => hskip _ _ _ _ _ _ p hk1 hv hs hc') (fun hs => h0 _ _ _ _ _ p hk1 hv hs)
          (fun done c es1 e he hq hn => hstay _ _ done c es1 e he hq hn)
          (fun done c es1 c' es2 e he hq hm => hmove _ _ done c es1 c' es2 e he hq hm)
          (fun done c es1 c' _ hd hq hc hc' => hend _ _ done c es1 c' hd hq hc hc')
        rw [hm] at h5
        obtain ⟨N, s', k1, k2, k3, k4⟩ := ih _ h5 es1 s1 rfl (by rw [h2.cfg]) (by rw [h2.cfg]) h3 h4
        refine ⟨N + 1, s', ?_, k2, h2.trans k3, k4⟩
        intro fuel hf
        obtain ⟨m, rfl⟩ : ∃ m, fuel = m + 1 := ⟨fuel - 1, by omega⟩
        unfold processOpen
        rw [empty_ok G.queue]
        simp only [Outcome.bind_ok, List.isEmpty_cons, Bool.false_eq_true, if_false, h1]
        exact k1 m (by omega)
  intro es s h1 h2 G p
  exact key _ es s rfl h1 h2 G p

/-! ### Seeding -/

/-- An ESDF voxel after the visit of its occupancy voxel. -/
def seeded (cfg : Config) (o : OccVoxel ℚ) (x : EVoxel) : EVoxel :=
  if o.observed = false then x
  else if 0 < o.probabilityLog then ⟨0, true, x.hallucinated, true, true, 0⟩
  else ⟨cfg.defaultDistance, true, x.hallucinated, x.inQueue, false, 0⟩

theorem seeded_seeded (o : OccVoxel ℚ) (x : EVoxel) : seeded cfg o (seeded cfg o x) = seeded cfg o x := by
  unfold seeded
  split_ifs <;> rfl

theorem bucketOf_zero (n : ℕ) {mx : ℚ} (hm : 0 < mx) : bucketOf n mx 0 = 0 := by
  unfold bucketOf
  rw [min_eq_left hm.le]
  simp

theorem occVoxel_ok (F : Fits A cfg u B) {S : Finset Idx} {es : List (ℕ × (Idx × Idx))} {s : State} (G : Good A cfg B S es s)
    {occ : VLayer (OccVoxel ℚ)} (wf : WellFormed occ) (hside : occ.cfg.vps = s.layer.cfg.vps) {i : Idx} {b : Block ℚ (OccVoxel ℚ)}
    (hb : block? occ i = some b) (hi : Allocated s.layer i) {lin : ℕ} (hl : lin < b.voxels.length) :
    ∃ s' es' g o x, occVoxel cfg i b s lin = .ok s' ∧ Frame s s' ∧ Good A cfg B S es' s' ∧ blockOf s.layer.cfg.vps g = i ∧
      linOf s.layer.cfg.vps g = lin ∧ content occ g = some o ∧ content s.layer g = some x ∧
      (∀ g', content s'.layer g' = if g' = g then some (seeded cfg o x) else content s.layer g') ∧
      (∀ e, e ∈ es' ↔ e ∈ es ∨ (o.observed = true ∧ 0 < o.probabilityLog ∧ e.1 = 0 ∧ InBlock s.layer.cfg.vps e.2.2 ∧ gk s.layer.cfg.vps e.2 = g)) := by
  obtain ⟨o, v, t1, t2, t3, t4, t5⟩ := tsdf_linear wf hb hl
  obtain ⟨hb1, -⟩ := wf.block _ _ hb
  rw [hb1, hside] at t2
  rw [hside] at t3 t4 t5
  obtain ⟨x, r1, r2⟩ := readVoxel_ok G.wf t3 hi
  have hk : gk s.layer.cfg.vps (i, v) ∈ S := (G.allocated (k := (i, v)) t3).1 hi
  have hpair : ∀ k : Idx × Idx, InBlock s.layer.cfg.vps k.2 → gk s.layer.cfg.vps k = globalIndex s.layer.cfg.vps i v → k = (i, v) := by
    rintro ⟨i', v'⟩ hv' he
    have e1 := congrArg (blockOf s.layer.cfg.vps) he
    have e2 := congrArg (localOf s.layer.cfg.vps) he
    simp only [gk] at e1 e2
    rw [blockOf_globalIndex hv', blockOf_globalIndex t3] at e1
    rw [localOf_globalIndex hv', localOf_globalIndex t3] at e2
    simp only at e2
    rw [e1, e2]
  unfold occVoxel
  simp only [t1, Outcome.bind_ok]
  cases ho : o.observed with
  | false =>
    refine ⟨s, es, _, o, x, rfl, Frame.refl s, G, blockOf_globalIndex t3, ?_, t5, r2, ?_, ?_⟩
    · unfold linOf; rw [localOf_globalIndex t3, t4]
    · intro g'
      split_ifs with e
      · rw [e, r2]; unfold seeded; rw [if_pos ho]
      · rfl
    · simp [ho]
  | true =>
    simp only [Bool.not_true, Bool.false_eq_true, if_false, t2, r1, Outcome.bind_ok]
    by_cases hp : 0 < o.probabilityLog
    · rw [if_pos hp]
      obtain ⟨q', p1, p2⟩ := push_ok G.queue (i, v) (F.bucket le_rfl F.max_pos)
      rw [p1]
      simp only [Outcome.bind_ok]
      have G' := G.withQueue p2 (by
        intro e he
        rcases mem_insertStable.1 he with h | h
        · rw [h]; exact ⟨t3, hk⟩
        · exact G.queued e h)
      obtain ⟨s', h1, h2, h3, h4⟩ := G'.set (k := (i, v)) t3 hk (x := ⟨0, true, x.hallucinated, true, true, 0⟩)
        ⟨F.R.zero, le_rfl, F.default_nonneg.trans F.default_le⟩
      refine ⟨s', _, _, o, x, h1, ⟨h3.cfg, h3.status⟩, h2, blockOf_globalIndex t3, ?_, t5, r2, ?_, ?_⟩
      · unfold linOf; rw [localOf_globalIndex t3, t4]
      · intro g'
        rw [show seeded cfg o x = _ from (if_neg (by simp [ho])).trans (if_pos hp)]
        exact h4 g'
      · rintro ⟨b', k⟩
        rw [mem_insertStable, bucketOf_zero _ F.max_pos]
        simp only [Prod.mk.injEq, ho, hp, true_and]
        constructor
        · rintro (⟨h1, h2⟩ | h)
          · rw [h1, h2]; exact Or.inr ⟨rfl, t3, rfl⟩
          · exact Or.inl h
        · rintro (h | ⟨h1, h2, h3⟩)
          · exact Or.inr h
          · exact Or.inl ⟨h1, hpair k h2 h3⟩
    · rw [if_neg hp]
      obtain ⟨s', h1, h2, h3, h4⟩ := G.set (k := (i, v)) t3 hk (x := ⟨cfg.defaultDistance, true, x.hallucinated, x.inQueue, false, 0⟩)
        ⟨F.default_rep, F.default_nonneg, F.default_le⟩
      refine ⟨s', _, _, o, x, h1, h3, h2, blockOf_globalIndex t3, ?_, t5, r2, ?_, ?_⟩
      · unfold linOf; rw [localOf_globalIndex t3, t4]
      · intro g'
        rw [show seeded cfg o x = _ from (if_neg (by simp [ho])).trans (if_neg hp)]
        exact h4 g'
      · simp [hp]

theorem Good.allocate (F : Fits A cfg u B) {S : Finset Idx} {es : List (ℕ × (Idx × Idx))} {s : State} (G : Good A cfg B S es s) (i : Idx) :
    Good A cfg B (S ∪ blockSet s.layer.cfg.vps i) es ⟨allocateBlock Sphere.esdfDefault s.layer i, s.open_⟩ := by
  have hcon := fun g => allocateBlock_content G.wf Sphere.esdfDefault i g
  refine ⟨allocateBlock_wf G.wf _ i, ?_, ?_, G.queue, ?_⟩
  · intro g
    show (content (allocateBlock Sphere.esdfDefault s.layer i) g).isSome = true ↔ _
    rw [hcon, Finset.mem_union, mem_blockSet G.wf.side_pos, ← G.dom]
    split_ifs with h
    · simp [h]
    · simp [h]
  · intro g v hv
    change content (allocateBlock Sphere.esdfDefault s.layer i) g = some v at hv
    rw [hcon] at hv
    split_ifs at hv
    · injection hv with hv
      cases hcg : content s.layer g with
      | none =>
        rw [hcg] at hv
        rw [← hv]
        exact ⟨F.R.zero, le_rfl, F.default_nonneg.trans F.default_le⟩
      | some w =>
        rw [hcg] at hv
        rw [← hv]
        exact G.vals g w hcg
    · exact G.vals g v hv
  · intro e he
    show InBlock (allocateBlock Sphere.esdfDefault s.layer i).cfg.vps _ ∧ gk (allocateBlock Sphere.esdfDefault s.layer i).cfg.vps _ ∈ _
    rw [allocateBlock_cfg]
    exact ⟨(G.queued e he).1, Finset.mem_union_left _ (G.queued e he).2⟩

/-- The state `s'` after seeding from the blocks in `done`, starting from `s`. -/
structure Seeded (A : Flt) (cfg : Config) (B : ℚ) (occ : VLayer (OccVoxel ℚ)) (done : Idx → Prop) (es : List (ℕ × (Idx × Idx))) (s : State)
    (es' : List (ℕ × (Idx × Idx))) (s' : State) : Prop where
  good : ∃ S, Good A cfg B S es' s'
  geom : s'.layer.cfg = s.layer.cfg
  seen : ∀ g o, done (blockOf s.layer.cfg.vps g) → content occ g = some o →
    content s'.layer g = some (seeded cfg o ((content s.layer g).getD Sphere.esdfDefault))
  rest : ∀ g, ¬ done (blockOf s.layer.cfg.vps g) → content s'.layer g = content s.layer g
  queue : ∀ e, e ∈ es' ↔ e ∈ es ∨ (e.1 = 0 ∧ InBlock s.layer.cfg.vps e.2.2 ∧ OccOccupied occ (gk s.layer.cfg.vps e.2) ∧
    done (blockOf s.layer.cfg.vps (gk s.layer.cfg.vps e.2)))

theorem linOf_lt {n : ℕ} (hn : 0 < n) (hn' : n ≤ 1290) (g : Idx) : linOf n g < n * n * n :=
  (linearIndex_eq hn' (localOf_inBlock hn g)).2

theorem occBlock_ok (F : Fits A cfg u B) {occ : VLayer (OccVoxel ℚ)} (wf : WellFormed occ) {done : Idx → Prop}
    {es0 es : List (ℕ × (Idx × Idx))} {s0 s : State} (hside : occ.cfg.vps = s0.layer.cfg.vps) (h : Seeded A cfg B occ done es0 s0 es s)
    {i : Idx} (hi : Allocated occ i) :
    ∃ s' es', occBlock cfg occ s i = .ok s' ∧ Seeded A cfg B occ (fun j => j = i ∨ done j) es0 s0 es' s' := by
  classical
  obtain ⟨⟨S, G⟩, hcfg, hseen, hrest, hq⟩ := h
  obtain ⟨b, hb⟩ := Option.isSome_iff_exists.1 hi
  have hb' : block? occ i = some b := hb
  have hvps : s.layer.cfg.vps = s0.layer.cfg.vps := by rw [hcfg]
  obtain ⟨b1, -, -, b4⟩ := wf.block _ _ hb
  unfold occBlock
  rw [hb']
  simp only
  set s1 : State := ⟨allocateBlock Sphere.esdfDefault s.layer i, s.open_⟩ with hs1
  have G1 := G.allocate F i
  have c1 : s1.layer.cfg = s.layer.cfg := allocateBlock_cfg _ _ _
  have lcon : ∀ g, content s1.layer g = if blockOf s.layer.cfg.vps g = i then some ((content s.layer g).getD Sphere.esdfDefault)
      else content s.layer g := fun g => allocateBlock_content G.wf Sphere.esdfDefault i g
  have lall : Allocated s1.layer i := by
    have := allocateBlock_block? Sphere.esdfDefault s.layer i i
    rw [if_pos rfl] at this
    show (block? s1.layer i).isSome = true
    rw [hs1, this]
    rfl
  obtain ⟨s', a1, es', a2, a3, a4, a5, a6⟩ := foldlM_range (f := occVoxel cfg i b)
    (P := fun k s2 => ∃ es2, Good A cfg B (S ∪ blockSet s.layer.cfg.vps i) es2 s2 ∧ Frame s1 s2 ∧
      (∀ g, (blockOf s.layer.cfg.vps g = i → k ≤ linOf s.layer.cfg.vps g) → content s2.layer g = content s1.layer g) ∧
      (∀ g, blockOf s.layer.cfg.vps g = i → linOf s.layer.cfg.vps g < k → ∃ o, content occ g = some o ∧
        content s2.layer g = some (seeded cfg o ((content s.layer g).getD Sphere.esdfDefault))) ∧
      (∀ e, e ∈ es2 ↔ e ∈ es ∨ (e.1 = 0 ∧ InBlock s.layer.cfg.vps e.2.2 ∧ OccOccupied occ (gk s.layer.cfg.vps e.2) ∧
        blockOf s.layer.cfg.vps (gk s.layer.cfg.vps e.2) = i ∧ linOf s.layer.cfg.vps (gk s.layer.cfg.vps e.2) < k)))
    b.voxels.length (by
      rintro k s2 hk ⟨es2, g2, f2, u2, d2, q2⟩
      have c2 : s2.layer.cfg.vps = s.layer.cfg.vps := by rw [f2.cfg, c1]
      obtain ⟨s3, es3, g, o, x, o1, o2, o3, o4, o5, o6, o7, o8, o9⟩ := occVoxel_ok F g2 wf (by rw [c2, hside, hvps]) hb'
        (by rw [allocated_iff_status, f2.status, ← allocated_iff_status]; exact lall) hk
      rw [c2] at o4 o5 o9
      have ex : x = (content s.layer g).getD Sphere.esdfDefault := by
        rw [u2 g (by intro; omega), lcon, if_pos o4] at o7
        injection o7 with o7
        exact o7.symm
      have inj : ∀ g', blockOf s.layer.cfg.vps g' = i → linOf s.layer.cfg.vps g' = k → g' = g := by
        intro g' h1 h2
        have : localOf s.layer.cfg.vps g' = localOf s.layer.cfg.vps g :=
          linearIndex_inj G.wf.side_le (localOf_inBlock G.wf.side_pos _) (localOf_inBlock G.wf.side_pos _) (by
            unfold linOf at h2 o5; rw [h2, o5])
        rw [← globalIndex_split (n := s.layer.cfg.vps) g', ← globalIndex_split (n := s.layer.cfg.vps) g, h1, o4, this]
      refine ⟨s3, o1, es3, o3, f2.trans o2, ?_, ?_, ?_⟩
      · intro g' hg'
        rw [o8, if_neg, u2 g' (fun h => by have := hg' h; omega)]
        rintro rfl
        have := hg' o4
        omega
      · intro g' h1 h2
        by_cases e : g' = g
        · exact ⟨o, by rw [e]; exact o6, by rw [o8, if_pos e, ex, e]⟩
        · obtain ⟨o', p1, p2⟩ := d2 g' h1 (by
            have : linOf s.layer.cfg.vps g' ≠ k := fun h => e (inj g' h1 h)
            omega)
          exact ⟨o', p1, by rw [o8, if_neg e, p2]⟩
      · intro e
        rw [o9, q2]
        constructor
        · rintro ((h | ⟨h1, h2, h3, h4, h5⟩) | ⟨h1, h2, h3, h4, h5⟩)
          · exact Or.inl h
          · exact Or.inr ⟨h1, h2, h3, h4, by omega⟩
          · exact Or.inr ⟨h3, h4, ⟨o, by rw [h5]; exact o6, h1, h2⟩, by rw [h5]; exact o4, by rw [h5, o5]; omega⟩
        · rintro (h | ⟨h1, h2, h3, h4, h5⟩)
          · exact Or.inl (Or.inl h)
          · by_cases e0 : linOf s.layer.cfg.vps (gk s.layer.cfg.vps e.2) = k
            · have hg := inj _ h4 e0
              obtain ⟨o', p1, p2, p3⟩ := h3
              rw [hg, o6] at p1
              injection p1 with p1
              subst p1
              exact Or.inr ⟨p2, p3, h1, h2, hg⟩
            · exact Or.inl (Or.inr ⟨h1, h2, h3, h4, by omega⟩)) s1
    ⟨es, G1, Frame.refl _, fun _ _ => rfl, fun _ _ h => absurd h (by omega), by simp⟩
  rw [b4] at a5 a6
  have hlin : ∀ g, linOf s.layer.cfg.vps g < occ.cfg.vps * occ.cfg.vps * occ.cfg.vps := by
    intro g
    rw [hside, ← hvps]
    exact linOf_lt G.wf.side_pos G.wf.side_le g
  have hcase : ∀ g, done (blockOf s0.layer.cfg.vps g) ∨ content s.layer g = content s0.layer g := by
    intro g
    by_cases h : done (blockOf s0.layer.cfg.vps g)
    · exact Or.inl h
    · exact Or.inr (hrest g h)
  refine ⟨s', es', a1, ⟨⟨_, a2⟩, by rw [a3.cfg, c1, hcfg], ?_, ?_, ?_⟩⟩
  · intro g o hd ho
    rw [← hvps] at hd
    by_cases hgi : blockOf s.layer.cfg.vps g = i
    · obtain ⟨o', p1, p2⟩ := a5 g hgi (hlin g)
      rw [ho] at p1
      injection p1 with p1
      rw [p2, ← p1]
      rcases hcase g with h | h
      · rw [hseen g o h ho]
        simp only [Option.getD_some, seeded_seeded]
      · rw [h]
    · rw [a4 g (fun h => absurd h hgi), lcon, if_neg hgi]
      rcases hd with h | h
      · exact absurd h hgi
      · rw [hvps] at h
        exact hseen g o h ho
  · intro g hd
    rw [not_or, ← hvps] at hd
    rw [a4 g (fun h => absurd h hd.1), lcon, if_neg hd.1]
    exact hrest g (by rw [← hvps]; exact hd.2)
  · intro e
    rw [a6, hq, ← hvps]
    constructor
    · rintro ((h | ⟨h1, h2, h3, h4⟩) | ⟨h1, h2, h3, h4, -⟩)
      · exact Or.inl h
      · exact Or.inr ⟨h1, h2, h3, Or.inr h4⟩
      · exact Or.inr ⟨h1, h2, h3, Or.inl h4⟩
    · rintro (h | ⟨h1, h2, h3, h4 | h4⟩)
      · exact Or.inl (Or.inl h)
      · exact Or.inr ⟨h1, h2, h3, h4, hlin _⟩
      · exact Or.inl (Or.inr ⟨h1, h2, h3, h4⟩)

theorem occBlocks_ok (F : Fits A cfg u B) {occ : VLayer (OccVoxel ℚ)} (wf : WellFormed occ) {es0 : List (ℕ × (Idx × Idx))} {s0 : State}
    (hside : occ.cfg.vps = s0.layer.cfg.vps) {S : Finset Idx} (G : Good A cfg B S es0 s0) (blocks : List Idx)
    (hi : ∀ i ∈ blocks, Allocated occ i) :
    ∃ s' es', blocks.foldlM (occBlock cfg occ) s0 = .ok s' ∧ Seeded A cfg B occ (· ∈ blocks) es0 s0 es' s' := by
  obtain ⟨s', d, h1, ⟨hsub, es', h2⟩, h3⟩ := foldlM_done (f := occBlock cfg occ)
    (P := fun done s => (∀ a ∈ done, a ∈ blocks) ∧ ∃ es, Seeded A cfg B occ (· ∈ done) es0 s0 es s) blocks (by
      rintro done s i hib ⟨hsub, es, h⟩
      obtain ⟨s', es', a1, a2⟩ := occBlock_ok F wf hside h (hi i hib)
      refine ⟨s', a1, ?_, es', ?_⟩
      · intro a ha
        rcases List.mem_cons.1 ha with h | h
        · rw [h]; exact hib
        · exact hsub a h
      · simpa only [List.mem_cons] using a2) [] s0
    ⟨by simp, es0, ⟨⟨S, G⟩, rfl, by simp, by simp, by simp⟩⟩
  have e : (· ∈ d) = (· ∈ blocks) := by
    funext a
    exact propext ⟨hsub a, fun h => h3 a (Or.inl h)⟩
  rw [e] at h2
  exact ⟨s', es', h1, h2⟩

end Vox.EsdfOcc
