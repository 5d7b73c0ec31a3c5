/-
Termination of the open-set loop and what it preserves.
-/
import Verif.Lemmas.Esdf

namespace Vox.Esdf

open Layer Grid Spec

/-! ### Heights -/

/-- The magnitude of a distance in units. -/
def ht (u x : ℚ) : ℕ := ⌊|x| / u⌋.toNat

theorem ht_eq {A : Flt} {u : ℚ} (R : Rounding A u) {x : ℚ} (hx : Rep A x) : (ht u x : ℚ) * u = |x| := by
  obtain ⟨k, hk⟩ := R.grid x
  rw [hx] at hk
  have hu := R.unit_pos
  have e : |x| / u = ((|k| : ℤ) : ℚ) := by
    rw [hk, abs_mul, abs_of_pos hu, mul_div_assoc, div_self hu.ne', mul_one, Int.cast_abs]
  unfold ht
  rw [e, Int.floor_intCast]
  have e2 : (((|k|).toNat : ℕ) : ℚ) = ((|k| : ℤ) : ℚ) := by
    have : (((|k|).toNat : ℕ) : ℤ) = |k| := Int.toNat_of_nonneg (abs_nonneg k)
    exact_mod_cast congrArg (Int.cast : ℤ → ℚ) this
  rw [e2, hk, abs_mul, abs_of_pos hu, Int.cast_abs]

theorem ht_lt {A : Flt} {u : ℚ} (R : Rounding A u) {x y : ℚ} (hx : Rep A x) (hy : Rep A y) (h : |x| < |y|) : ht u x < ht u y := by
  rw [← ht_eq R hx, ← ht_eq R hy] at h
  have := lt_of_mul_lt_mul_right h R.unit_pos.le
  exact_mod_cast this

theorem ht_le {A : Flt} {u : ℚ} (R : Rounding A u) {x B : ℚ} (h : |x| ≤ B) : ht u x ≤ ht u B := by
  have h2 : |x| / u ≤ |B| / u := by
    have := R.unit_pos
    have h3 : |x| ≤ |B| := h.trans (le_abs_self B)
    gcongr
  exact Int.toNat_le_toNat (Int.floor_le_floor h2)

/-- The heights of the voxels of a layer. -/
def heights (u : ℚ) (c : Idx → Option EVoxel) (g : Idx) : ℕ :=
  match c g with
  | some v => ht u v.distance
  | none => 0

theorem heights_update {u : ℚ} {c c' : Idx → Option EVoxel} {g : Idx} {x : EVoxel}
    (h : ∀ g', c' g' = if g' = g then some x else c g') :
    heights u c' = Function.update (heights u c) g (ht u x.distance) := by
  funext g'
  unfold heights
  by_cases e : g' = g
  · subst e
    rw [h, if_pos rfl, Function.update_self]
  · rw [h, if_neg e, Function.update_of_ne e]

/-! ### Neighbours -/

theorem offset_small : ∀ o ∈ kOffsets, o.All (fun c => |c| ≤ 1) ∧ o ≠ 0 := by decide

theorem table_offset {e : Idx × ℚ} (h : e ∈ neighborTable) : e.1 ∈ kOffsets := by
  obtain ⟨o, d⟩ := e
  exact (List.of_mem_zip h).1

theorem table_pos {e : Idx × ℚ} (h : e ∈ neighborTable) : 0 < e.2 := by
  obtain ⟨o, d⟩ := e
  have := (List.of_mem_zip h).2
  rw [List.mem_map] at this
  obtain ⟨k, -, e⟩ := this
  simp only
  rw [← e]
  unfold kDistance
  split <;> norm_num

/-- Indices whose neighbours can still be addressed. -/
def Inner (g : Idx) : Prop := g.All fun c => |c| < 2 ^ 24

theorem neighbor_range {g o : Idx} (hg : Inner g) (ho : o ∈ kOffsets) : (g + o).All fun c => |c| ≤ 2 ^ 24 := by
  have h1 := (offset_small o ho).1
  obtain ⟨a1, a2, a3⟩ := hg
  obtain ⟨b1, b2, b3⟩ := h1
  rw [abs_lt] at a1 a2 a3
  rw [abs_le] at b1 b2 b3
  refine ⟨?_, ?_, ?_⟩
  · show |g.x + o.x| ≤ _
    rw [abs_le]; omega
  · show |g.y + o.y| ≤ _
    rw [abs_le]; omega
  · show |g.z + o.z| ≤ _
    rw [abs_le]; omega

theorem inner_range {g : Idx} (hg : Inner g) : g.All fun c => |c| ≤ 2 ^ 24 :=
  ⟨hg.1.le, hg.2.1.le, hg.2.2.le⟩

theorem stepTo_ok {A : Flt} {u : ℚ} (R : Rounding A u) {cfg : Config} {size : ℚ} (hs : 0 ≤ size) {parent dir p : Idx} {kd d : ℚ}
    (hk : 0 < kd) (h : stepTo A cfg size parent dir kd = some (p, d)) : Rep A d ∧ 0 ≤ d := by
  unfold stepTo at h
  split_ifs at h with h1
  · simp only at h
    split_ifs at h with h3
    simp only [Option.some.injEq, Prod.mk.injEq] at h
    rw [← h.2]
    exact ⟨R.rep _, not_lt.1 h3⟩
  · simp only [Option.some.injEq, Prod.mk.injEq] at h
    rw [← h.2]
    exact ⟨R.rep _, R.ge_of_ge (by positivity) R.zero⟩

/-! ### The invariant of the integrator -/

/-- The numbers of a run: unit `u`, bound `B` on the distances, buckets `n` up to `mx`. -/
structure Limits where
  u : ℚ
  B : ℚ
  n : ℕ
  mx : ℚ

/-- Conditions on arithmetic and configuration. -/
structure Fits (A : Flt) (cfg : Config) (L : Limits) : Prop where
  R : Rounding A L.u
  minDiff : 0 ≤ cfg.minDiff
  default_rep : Rep A cfg.defaultDistance
  default_nonneg : 0 ≤ cfg.defaultDistance
  default_le : cfg.defaultDistance ≤ L.B
  mx_pos : 0 < L.mx
  n_pos : 0 < L.n
  buckets : L.B * ((L.n : ℚ) - 1) / L.mx < 2 ^ 31

theorem Fits.bucket {A : Flt} {cfg : Config} {L : Limits} (F : Fits A cfg L) {x : ℚ} (h : |x| ≤ L.B) :
    |x| * ((L.n : ℚ) - 1) / L.mx < 2 ^ 31 := by
  refine lt_of_le_of_lt ?_ F.buckets
  have h1 : (0 : ℚ) ≤ (L.n : ℚ) - 1 := by
    have : (1 : ℚ) ≤ L.n := by exact_mod_cast F.n_pos
    linarith
  have := F.mx_pos
  gcongr

/-- The state is consistent: `S` are the voxels of the allocated blocks, `es` the content of the open queue. -/
structure Good (A : Flt) (L : Limits) (S : Finset Idx) (es : List (ℕ × Idx)) (s : State) : Prop where
  wf : WellFormed s.layer
  power : PowerSide s.layer
  dom : ∀ g, (content s.layer g).isSome = true ↔ g ∈ S
  range : ∀ g ∈ S, Inner g
  vals : ∀ g v, content s.layer g = some v → Rep A v.distance ∧ |v.distance| ≤ L.B
  queue : BQueue.Rel s.open_ ⟨L.n, L.mx, es⟩
  queued : ∀ e ∈ es, e.2 ∈ S

/-- What a step leaves alone. -/
structure Frame (s s' : State) : Prop where
  cfg : s'.layer.cfg = s.layer.cfg
  status : ∀ j, status s'.layer j = status s.layer j
  keys : s'.layer.blocks.map (·.1) = s.layer.blocks.map (·.1)
  updated : s'.updated = s.updated

theorem Frame.refl (s : State) : Frame s s := ⟨rfl, fun _ => rfl, rfl, rfl⟩

theorem Frame.trans {a b c : State} (h : Frame a b) (k : Frame b c) : Frame a c :=
  ⟨k.cfg.trans h.cfg, fun j => (k.status j).trans (h.status j), k.keys.trans h.keys, k.updated.trans h.updated⟩

/-- Writing a voxel of an allocated block. -/
theorem Good.write {A : Flt} {L : Limits} {S : Finset Idx} {es : List (ℕ × Idx)} {s : State} (G : Good A L S es s) {g : Idx}
    (hg : g ∈ S) (x : EVoxel) (hx : Rep A x.distance ∧ |x.distance| ≤ L.B) :
    ∃ l', setVoxel s.layer g x = .ok l' ∧ (∀ g', content l' g' = if g' = g then some x else content s.layer g') ∧
      ∀ r q es', BQueue.Rel q ⟨L.n, L.mx, es'⟩ → (∀ e ∈ es', e.2 ∈ S) →
        Good A L S es' ⟨l', q, r, s.updated⟩ ∧ Frame s ⟨l', q, r, s.updated⟩ := by
  obtain ⟨l', h1, h2, h3, h4, h5, h6⟩ := setVoxel_ok G.wf G.power (inner_range (G.range g hg)) ((G.dom g).2 hg) x
  refine ⟨l', h1, h4, fun r q es' hq he => ⟨⟨h3, ?_, ?_, G.range, ?_, hq, he⟩, ⟨h2, h5, h6, rfl⟩⟩⟩
  · obtain ⟨k, hk, e⟩ := G.power
    exact ⟨k, hk, by rw [h2]; exact e⟩
  · intro g'
    show (content l' g').isSome = true ↔ _
    rw [h4]
    split_ifs with e
    · rw [e]; simp [hg]
    · exact G.dom g'
  · intro g' v hv
    replace hv : content l' g' = some v := hv
    rw [h4] at hv
    split_ifs at hv with e
    · injection hv with hv
      rw [← hv]; exact hx
    · exact G.vals g' v hv

/-- The effect of one neighbour on the state: the neighbour at `k` gets a new distance. -/
def Moved (A : Flt) (cfg : Config) (L : Limits) (v : EVoxel) (size : ℚ) (k : Idx) (e : Idx × ℚ) (s : State) (es : List (ℕ × Idx))
    (s' : State) (es' : List (ℕ × Idx)) : Prop :=
  ∃ n x p d, content s.layer k = some n ∧ n.observed = true ∧ n.fixed = false ∧
    stepTo A cfg size v.parent e.1 e.2 = some (p, d) ∧ relaxDistance A cfg v.distance n.distance d = some x ∧
    (∀ g, content s'.layer g = if g = k then some ⟨x, true, n.hallucinated, true, false, p⟩ else content s.layer g) ∧
    ((es' = es ∧ n.inQueue = true) ∨ es' = insertStable (bucketOf L.n L.mx x) k es) ∧ s'.raise = s.raise

/-- The neighbour at `k` is left alone because it cannot be updated. -/
def Stays (A : Flt) (cfg : Config) (v : EVoxel) (size : ℚ) (k : Idx) (e : Idx × ℚ) (s : State) : Prop :=
  ∀ n p d, content s.layer k = some n → n.observed = true → n.fixed = false → stepTo A cfg size v.parent e.1 e.2 = some (p, d) →
    relaxDistance A cfg v.distance n.distance d = none

theorem openNeighbor_ok {A : Flt} {cfg : Config} {L : Limits} (F : Fits A cfg L) {S : Finset Idx} {es : List (ℕ × Idx)} {s : State}
    (G : Good A L S es s) {g : Idx} (hg : g ∈ S) {v : EVoxel} (hv : Rep A v.distance ∧ |v.distance| ≤ L.B)
    {e : Idx × ℚ} (he : e ∈ neighborTable) :
    ∃ s' es', openNeighbor A cfg g v s e = .ok s' ∧ Good A L S es' s' ∧ Frame s s' ∧
      ((s' = s ∧ es' = es ∧ Stays A cfg v s.layer.cfg.voxelSize (g + e.1) e s) ∨
        Moved A cfg L v s.layer.cfg.voxelSize (g + e.1) e s es s' es') := by
  unfold openNeighbor
  rw [getVoxel_ok G.wf G.power (neighbor_range (G.range g hg) (table_offset he))]
  simp only [Outcome.bind_ok]
  cases hc : content s.layer (g + e.1) with
  | none => exact ⟨s, es, rfl, G, Frame.refl s, Or.inl ⟨rfl, rfl, fun n p d h => by rw [hc] at h; cases h⟩⟩
  | some n =>
    simp only
    have hk : g + e.1 ∈ S := (G.dom _).1 (by rw [hc]; rfl)
    by_cases h1 : (!n.observed || n.fixed) = true
    · rw [if_pos h1]
      refine ⟨s, es, rfl, G, Frame.refl s, Or.inl ⟨rfl, rfl, fun m p d h h2 h3 => ?_⟩⟩
      rw [hc] at h
      injection h with h
      rw [h, h2, h3] at h1
      cases h1
    rw [if_neg h1]
    have ho : n.observed = true := by cases h : n.observed <;> simp [h] at h1 ⊢
    have hf : n.fixed = false := by cases h : n.fixed <;> simp [h] at h1 ⊢
    cases hs : stepTo A cfg s.layer.cfg.voxelSize v.parent e.1 e.2 with
    | none => exact ⟨s, es, rfl, G, Frame.refl s, Or.inl ⟨rfl, rfl, fun m p d _ _ _ h => by rw [hs] at h; cases h⟩⟩
    | some pd =>
      obtain ⟨p, d⟩ := pd
      simp only
      cases hr : relaxDistance A cfg v.distance n.distance d with
      | none =>
        refine ⟨s, es, rfl, G, Frame.refl s, Or.inl ⟨rfl, rfl, fun m p' d' h _ _ h' => ?_⟩⟩
        rw [hc] at h
        injection h with h
        rw [hs] at h'
        injection h' with h'
        injection h' with h1' h2'
        rw [← h, ← h2']
        exact hr
      | some x =>
        simp only
        obtain ⟨d1, d2⟩ := stepTo_ok F.R G.wf.size_pos.le (table_pos he) hs
        obtain ⟨r1, r2⟩ := relaxDistance_lower F.R F.minDiff hv.1 d1 d2 hr
        have hn := G.vals _ _ hc
        have hx : |x| ≤ L.B := by
          rcases r2 with h | h
          · exact h.le.trans hn.2
          · exact h.le.trans hv.2
        unfold updateNeighbor
        by_cases hq : (cfg.multiQueue || !n.inQueue) = true
        · rw [if_pos hq]
          obtain ⟨q', p1, p2⟩ := push_ok G.queue (g + e.1) (F.bucket hx)
          rw [p1]
          simp only [Outcome.bind_ok]
          obtain ⟨l', w1, w2, w3⟩ := G.write hk ⟨x, n.observed, n.hallucinated, true, n.fixed, p⟩ ⟨r1, hx⟩
          obtain ⟨w4, w5⟩ := w3 s.raise q' _ p2 (by
            intro e' he'
            rcases mem_insertStable.1 he' with h | h
            · rw [h]; exact hk
            · exact G.queued _ h)
          rw [w1]
          refine ⟨_, _, rfl, w4, w5, Or.inr ⟨n, x, p, d, hc, ho, hf, hs, hr, ?_, Or.inr rfl, rfl⟩⟩
          rw [ho, hf] at w2
          exact w2
        · rw [if_neg hq]
          have hi : n.inQueue = true := by cases h : n.inQueue <;> simp [h] at hq ⊢
          obtain ⟨l', w1, w2, w3⟩ := G.write hk ⟨x, n.observed, n.hallucinated, n.inQueue, n.fixed, p⟩ ⟨r1, hx⟩
          obtain ⟨w4, w5⟩ := w3 s.raise s.open_ _ G.queue G.queued
          rw [w1]
          refine ⟨_, _, rfl, w4, w5, Or.inr ⟨n, x, p, d, hc, ho, hf, hs, hr, ?_, Or.inl ⟨rfl, hi⟩, rfl⟩⟩
          rw [ho, hf, hi] at w2
          exact w2

theorem foldlM_inv {σ α : Type} {f : σ → α → Outcome σ} {P : σ → Prop} (l : List α)
    (h : ∀ s a, a ∈ l → P s → ∃ s', f s a = .ok s' ∧ P s') : ∀ s, P s → ∃ s', l.foldlM f s = .ok s' ∧ P s' := by
  induction l with
  | nil => intro s hs; exact ⟨s, rfl, hs⟩
  | cons a l ih =>
    intro s hs
    obtain ⟨s1, h1, h2⟩ := h s a (by simp) hs
    rw [List.foldlM_cons, h1]
    exact ih (fun s b hb => h s b (by simp [hb])) s1 h2

/-- Voxels that the loop does not propagate. -/
def Skipped (cfg : Config) (v : EVoxel) : Prop :=
  v.observed = false ∨ cfg.maxDistance ≤ v.distance ∨ v.distance ≤ -cfg.maxDistance

/-- One iteration of the open-set loop keeps every property `P` of layer content, open queue and raise queue that
survives removing the front entry and the effect of a neighbour. -/
theorem openStep_ok {A : Flt} {cfg : Config} {L : Limits} (F : Fits A cfg L) {S : Finset Idx} {b : ℕ} {g : Idx}
    {es : List (ℕ × Idx)} {s : State} (G : Good A L S ((b, g) :: es) s) {v : EVoxel} (hv : content s.layer g = some v)
    (P : State → List (ℕ × Idx) → Prop)
    (hpop : ∀ s1, Frame s s1 → s1.raise = s.raise → (∀ g', content s1.layer g' =
      if g' = g then some ⟨v.distance, v.observed, v.hallucinated, false, v.fixed, v.parent⟩ else content s.layer g') → P s1 es)
    (hmove : ∀ s1 es1 s2 es2 e, e ∈ neighborTable → Frame s s1 → Good A L S es1 s1 → P s1 es1 → ¬ Skipped cfg v →
      Moved A cfg L ⟨v.distance, v.observed, v.hallucinated, false, v.fixed, v.parent⟩ s.layer.cfg.voxelSize (g + e.1) e s1 es1 s2 es2 →
      P s2 es2) :
    ∃ s' es', openStep A cfg s = .ok s' ∧ Good A L S es' s' ∧ Frame s s' ∧ P s' es' := by
  have hg : g ∈ S := (G.dom g).1 (by rw [hv]; rfl)
  obtain ⟨q1, q2, e1, e2, e3⟩ := front_pop_ok G.queue
  unfold openStep
  rw [e1]
  simp only [Outcome.bind_ok]
  rw [e2]
  simp only [Outcome.bind_ok]
  rw [getVoxel_ok G.wf G.power (inner_range (G.range g hg)), hv]
  simp only [Outcome.bind_ok]
  have hvv := G.vals g v hv
  obtain ⟨l', w1, w2, w3⟩ := G.write hg ⟨v.distance, v.observed, v.hallucinated, false, v.fixed, v.parent⟩ hvv
  obtain ⟨w4, w5⟩ := w3 s.raise q2 es e3 (fun e he => G.queued e (by simp [he]))
  rw [w1]
  simp only [Outcome.bind_ok]
  have p0 := hpop ⟨l', q2, s.raise, s.updated⟩ w5 rfl w2
  split_ifs with hskip
  · exact ⟨_, es, rfl, w4, w5, p0⟩
  · have hns : ¬ Skipped cfg v := by
      simp only [Bool.or_eq_true, Bool.not_eq_true', decide_eq_true_eq, not_or] at hskip
      rintro (h | h | h)
      · exact hskip.1.1 h
      · exact hskip.1.2 h
      · exact hskip.2 h
    obtain ⟨s', h1, es', h2, h3, h4⟩ := foldlM_inv (P := fun s' => ∃ es', Good A L S es' s' ∧ Frame s s' ∧ P s' es')
      neighborTable (f := openNeighbor A cfg g ⟨v.distance, v.observed, v.hallucinated, false, v.fixed, v.parent⟩) (by
      rintro s1 e he ⟨es1, g1, f1, p1⟩
      obtain ⟨s2, es2, a1, a2, a3, a4⟩ := openNeighbor_ok F g1 hg
        (v := ⟨v.distance, v.observed, v.hallucinated, false, v.fixed, v.parent⟩) hvv he
      refine ⟨s2, a1, es2, a2, f1.trans a3, ?_⟩
      rcases a4 with ⟨rfl, rfl, -⟩ | a4
      · exact p1
      · rw [f1.cfg] at a4
        exact hmove s1 es1 s2 es2 e he f1 g1 p1 hns a4) _ ⟨es, w4, w5, p0⟩
    exact ⟨s', es', h1, h2, h3, h4⟩

/-- The counts of a state. -/
def counts (L : Limits) (S : Finset Idx) (es : List (ℕ × Idx)) (s : State) (t : ℕ) : ℕ :=
  cnt S (heights L.u (content s.layer)) (es.map (·.2)) t

theorem counts_bound {A : Flt} {cfg : Config} {L : Limits} (F : Fits A cfg L) {S : Finset Idx} {es : List (ℕ × Idx)} {s : State}
    (G : Good A L S es s) {t : ℕ} (ht' : ht L.u L.B < t) : counts L S es s t = 0 := by
  have key : ∀ g, heights L.u (content s.layer) g ≠ t := by
    intro g e
    unfold heights at e
    cases hc : content s.layer g with
    | none => rw [hc] at e; simp at e; omega
    | some v =>
      rw [hc] at e
      have := G.vals g v hc
      have := ht_le F.R this.2
      simp only at e
      omega
  unfold counts cnt
  simp only [key, Finset.filter_false, Finset.card_empty, zero_add]
  simp

/-- The iteration makes the counts smaller. -/
theorem openStep_below {A : Flt} {cfg : Config} {L : Limits} (F : Fits A cfg L) {S : Finset Idx} {b : ℕ} {g : Idx}
    {es : List (ℕ × Idx)} {s : State} (G : Good A L S ((b, g) :: es) s)
    (P : State → List (ℕ × Idx) → Prop)
    (hpop : ∀ s1 v, content s.layer g = some v → Frame s s1 → s1.raise = s.raise → (∀ g', content s1.layer g' =
      if g' = g then some ⟨v.distance, v.observed, v.hallucinated, false, v.fixed, v.parent⟩ else content s.layer g') → P s1 es)
    (hmove : ∀ s1 es1 s2 es2 e v, content s.layer g = some v → e ∈ neighborTable → Frame s s1 → Good A L S es1 s1 → P s1 es1 →
      ¬ Skipped cfg v →
      Moved A cfg L ⟨v.distance, v.observed, v.hallucinated, false, v.fixed, v.parent⟩ s.layer.cfg.voxelSize (g + e.1) e s1 es1 s2 es2 →
      P s2 es2) :
    ∃ s' es', openStep A cfg s = .ok s' ∧ Good A L S es' s' ∧ Frame s s' ∧ P s' es' ∧
      CountLt (ht L.u L.B) (fun i => counts L S es' s' i) (fun i => counts L S ((b, g) :: es) s i) := by
  have hg : g ∈ S := G.queued (b, g) (by simp)
  obtain ⟨v, hv⟩ := Option.isSome_iff_exists.1 ((G.dom g).2 hg)
  have hvh : heights L.u (content s.layer) g = ht L.u v.distance := by
    unfold heights; rw [hv]
  obtain ⟨s', es', h1, h2, h3, h4, h5⟩ := openStep_ok F G hv
    (P := fun s1 es1 => P s1 es1 ∧ Below (ht L.u v.distance) (counts L S ((b, g) :: es) s) (counts L S es1 s1))
    (by
      intro s1 f1 r1 c1
      refine ⟨hpop s1 v hv f1 r1 c1, ?_⟩
      have : heights L.u (content s1.layer) = heights L.u (content s.layer) := by
        rw [heights_update c1]
        simp only [← hvh, Function.update_eq_self]
      unfold counts
      rw [this, List.map_cons, ← hvh]
      exact below_pop S _ _ g)
    (by
      intro s1 es1 s2 es2 e he f1 g1 p1 hns hm
      refine ⟨hmove s1 es1 s2 es2 e v hv he f1 g1 p1.1 hns hm, ?_⟩
      obtain ⟨n, x, p, d, m1, m2, m3, m4, m5, m6, m7, m8⟩ := hm
      obtain ⟨d1, d2⟩ := stepTo_ok F.R (f1.cfg ▸ G.wf.size_pos.le) (table_pos he) m4
      obtain ⟨r1, r2⟩ := relaxDistance_lower F.R F.minDiff (G.vals g v hv).1 d1 d2 m5
      have hk : g + e.1 ∈ S := (g1.dom _).1 (by rw [m1]; rfl)
      have hh : ht L.u x < heights L.u (content s1.layer) (g + e.1) ∨ ht L.u x < ht L.u v.distance := by
        rcases r2 with h | h
        · left
          have : heights L.u (content s1.layer) (g + e.1) = ht L.u n.distance := by
            unfold heights; rw [m1]
          rw [this]
          exact ht_lt F.R r1 (g1.vals _ _ m1).1 h
        · exact Or.inr (ht_lt F.R r1 (G.vals g v hv).1 h)
      have hu := heights_update (u := L.u) m6
      rcases m7 with ⟨m7, -⟩ | m7
      · rw [m7]
        unfold counts at *
        rw [hu]
        exact below_update hk p1.2 hh
      · rw [m7]
        unfold counts at *
        rw [hu]
        refine (below_push hk p1.2 hh).congr fun t => ?_
        exact cnt_perm (insertStable_perm _ _ _) t)
  exact ⟨s', es', h1, h2, h3, h4, below_countLt (fun t ht' => counts_bound F G ht') h5⟩

/-- The open-set loop ends, with an empty queue, and keeps every property that survives its steps. -/
theorem processOpen_ok {A : Flt} {cfg : Config} {L : Limits} (F : Fits A cfg L) {S : Finset Idx}
    (P : State → List (ℕ × Idx) → Prop)
    (hpop : ∀ s b g es s1 v, Good A L S ((b, g) :: es) s → P s ((b, g) :: es) → content s.layer g = some v → Frame s s1 →
      s1.raise = s.raise → (∀ g', content s1.layer g' =
      if g' = g then some ⟨v.distance, v.observed, v.hallucinated, false, v.fixed, v.parent⟩ else content s.layer g') → P s1 es)
    (hmove : ∀ s g s1 es1 s2 es2 e v, content s.layer g = some v → e ∈ neighborTable → Frame s s1 → Good A L S es1 s1 → P s1 es1 →
      ¬ Skipped cfg v →
      Moved A cfg L ⟨v.distance, v.observed, v.hallucinated, false, v.fixed, v.parent⟩ s.layer.cfg.voxelSize (g + e.1) e s1 es1 s2 es2 →
      P s2 es2) :
    ∀ es s, Good A L S es s → P s es →
      ∃ N s', (∀ fuel, N ≤ fuel → processOpen A cfg fuel s = .ok (some s')) ∧ Good A L S [] s' ∧ Frame s s' ∧ P s' [] := by
  have key : ∀ c : Fin (ht L.u L.B + 1) → ℕ, ∀ es s, (fun i : Fin (ht L.u L.B + 1) => counts L S es s i) = c → Good A L S es s → P s es →
      ∃ N s', (∀ fuel, N ≤ fuel → processOpen A cfg fuel s = .ok (some s')) ∧ Good A L S [] s' ∧ Frame s s' ∧ P s' [] := by
    intro c
    induction c using (countLt_wf (ht L.u L.B)).induction with
    | _ c ih =>
      intro es s hc G p
      cases es with
      | nil =>
        refine ⟨1, s, ?_, G, Frame.refl s, p⟩
        intro fuel hf
        obtain ⟨m, rfl⟩ : ∃ m, fuel = m + 1 := ⟨fuel - 1, by omega⟩
        unfold processOpen
        rw [empty_ok G.queue]
        rfl
      | cons e es =>
        obtain ⟨b, g⟩ := e
        obtain ⟨s1, es1, h1, h2, h3, h4, h5⟩ := openStep_below F G P
          (fun s1 v hv f r c => hpop s b g es s1 v G p hv f r c)
          (fun s1 es1 s2 es2 e v hv he f g1 p1 hs hm => hmove s g s1 es1 s2 es2 e v hv he f g1 p1 hs hm)
        rw [hc] at h5
        obtain ⟨N, s', k1, k2, k3, k4⟩ := ih _ h5 es1 s1 rfl h2 h4
        refine ⟨N + 1, s', ?_, k2, h3.trans k3, k4⟩
        intro fuel hf
        obtain ⟨m, rfl⟩ : ∃ m, fuel = m + 1 := ⟨fuel - 1, by omega⟩
        unfold processOpen
        rw [empty_ok G.queue]
        simp only [Outcome.bind_ok, List.isEmpty_cons, Bool.false_eq_true, if_false, h1]
        exact k1 m (by omega)
  intro es s G p
  exact key _ es s rfl G p

end Vox.Esdf
