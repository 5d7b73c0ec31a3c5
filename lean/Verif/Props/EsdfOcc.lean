/-
C42 and C43 for the occupancy ESDF integrator.
-/
import Verif.Lemmas.EsdfOcc
import Verif.Props.Esdf

namespace Vox.EsdfOcc

open Layer Grid Spec Esdf

variable {A : Flt} {cfg : Config} {u B : ℚ}

/-- **C43 (occupancy).** From every consistent state, whatever is queued, the open-set loop ends. -/
theorem C43_occ_open (F : Fits A cfg u B) {S : Finset Idx} {es : List (ℕ × (Idx × Idx))} {s : State} (G : Good A cfg B S es s) :
    ∃ N s', (∀ fuel, N ≤ fuel → processOpen A cfg fuel s = .ok (some s')) ∧ Good A cfg B S [] s' := by
  obtain ⟨N, s', h1, h2, -⟩ := processOpen_ok F s.layer.cfg.vps s.layer.cfg.voxelSize (fun _ _ => True) (fun _ _ _ _ _ => True)
    (by simp) (by simp) (by simp) (by simp) (by simp) es s rfl rfl G trivial
  exact ⟨N, s', h1, h2⟩

/-- **C43 (occupancy).** Every update from a list of allocated blocks of an occupancy layer with the same side ends, without
abort or undefined behaviour, and leaves a state from which the next update can run. -/
theorem C43_occ_update (F : Fits A cfg u B) {S : Finset Idx} {es : List (ℕ × (Idx × Idx))} {s : State} (G : Good A cfg B S es s)
    {occ : VLayer (OccVoxel ℚ)} (wf : WellFormed occ) (hside : occ.cfg.vps = s.layer.cfg.vps) (blocks : List Idx)
    (hi : ∀ i ∈ blocks, Spec.Allocated occ i) :
    ∃ N s' S', (∀ fuel, N ≤ fuel → updateFromOccBlocks A cfg fuel occ blocks s = .ok (some s')) ∧ Good A cfg B S' [] s' := by
  obtain ⟨s1, es1, h1, h2⟩ := occBlocks_ok F wf hside G blocks hi
  obtain ⟨S1, G1⟩ := h2.good
  obtain ⟨N, s', h3, h4⟩ := C43_occ_open F G1
  refine ⟨N, s', S1, fun fuel hf => ?_, h4⟩
  unfold updateFromOccBlocks
  rw [h1]
  simp only [Outcome.bind_ok]
  exact h3 fuel hf

/-! ### C42 -/

/-- Content and queue between two iterations. -/
structure Inv (A : Flt) (cfg : Config) (vps : ℕ) (size : ℚ) (occ : VLayer (OccVoxel ℚ)) (c : Idx → Option EVoxel)
    (es : List (ℕ × (Idx × Idx))) : Prop where
  occupied : ∀ g, OccOccupied occ g → ∃ q, c g = some ⟨0, true, false, q, true, 0⟩
  free : ∀ g, OccObserved occ g → ¬ OccOccupied occ g → ∃ d q p, c g = some ⟨d, true, false, q, false, p⟩ ∧ d ≤ cfg.defaultDistance ∧
    (d = cfg.defaultDistance ∨ PathLength A.rnd size cfg.maxDistance occ g d)
  unknown : ∀ g, ¬ OccObserved occ g → c g = (content occ g).map fun _ => Sphere.esdfDefault
  flag : ∀ g v, c g = some v → v.inQueue = true → ∃ e ∈ es, gk vps e.2 = g
  relaxed : ∀ g v, c g = some v → v.observed = true → v.distance < cfg.maxDistance → (∀ e ∈ es, gk vps e.2 ≠ g) →
    ∀ o n, IsNeighborOffset o → c (g + o) = some n → n.observed = true → n.fixed = false →
      n.distance ≤ A.rnd (v.distance + A.rnd (unitLength o * size))
  order : ∃ e1 e2, es = e1 ++ e2 ∧ (∀ e ∈ e1, e.1 = 0 ∧ OccOccupied occ (gk vps e.2)) ∧ ∀ e ∈ e2, ¬ OccOccupied occ (gk vps e.2)

/-- Content and queue while the neighbours of `g` are visited. -/
structure Visit (A : Flt) (cfg : Config) (vps : ℕ) (size : ℚ) (occ : VLayer (OccVoxel ℚ)) (g : Idx) (v : EVoxel)
    (done : List (Idx × DistSq)) (c : Idx → Option EVoxel) (es : List (ℕ × (Idx × Idx))) : Prop where
  self : c g = some v
  observed : v.observed = true
  near : v.distance < cfg.maxDistance
  occupied : ∀ g, OccOccupied occ g → ∃ q, c g = some ⟨0, true, false, q, true, 0⟩
  free : ∀ g, OccObserved occ g → ¬ OccOccupied occ g → ∃ d q p, c g = some ⟨d, true, false, q, false, p⟩ ∧ d ≤ cfg.defaultDistance ∧
    (d = cfg.defaultDistance ∨ PathLength A.rnd size cfg.maxDistance occ g d)
  unknown : ∀ g, ¬ OccObserved occ g → c g = (content occ g).map fun _ => Sphere.esdfDefault
  flag : ∀ g' w, g' ≠ g → c g' = some w → w.inQueue = true → ∃ e ∈ es, gk vps e.2 = g'
  relaxed : ∀ g' w, g' ≠ g → c g' = some w → w.observed = true → w.distance < cfg.maxDistance → (∀ e ∈ es, gk vps e.2 ≠ g') →
    ∀ o n, IsNeighborOffset o → c (g' + o) = some n → n.observed = true → n.fixed = false →
      n.distance ≤ A.rnd (w.distance + A.rnd (unitLength o * size))
  visited : ∀ e ∈ done, ∀ n, c (g + e.1) = some n → n.observed = true → n.fixed = false →
      n.distance ≤ A.rnd (v.distance + A.rnd (unitLength e.1 * size))
  order : ∃ e1 e2, es = e1 ++ e2 ∧ (∀ e ∈ e1, e.1 = 0 ∧ OccOccupied occ (gk vps e.2)) ∧ ∀ e ∈ e2, ¬ OccOccupied occ (gk vps e.2)
  first : ¬ OccOccupied occ g → ∀ e ∈ es, ¬ OccOccupied occ (gk vps e.2)

theorem mem_occDirections {o : Idx} (h : IsNeighborOffset o) : ∃ e ∈ occDirections, e.1 = o := by
  obtain ⟨⟨x, y, z⟩, h0⟩ := h
  have key : ∀ x ∈ ([-1, 0, 1] : List ℤ), ∀ y ∈ ([-1, 0, 1] : List ℤ), ∀ z ∈ ([-1, 0, 1] : List ℤ), (⟨x, y, z⟩ : Idx) ≠ ⟨0, 0, 0⟩ →
      ∃ e ∈ occDirections, e.1 = ⟨x, y, z⟩ := by decide +kernel
  have m : ∀ c : ℤ, -1 ≤ c ∧ c ≤ 1 → c ∈ ([-1, 0, 1] : List ℤ) := by
    intro c hc
    have : c = -1 ∨ c = 0 ∨ c = 1 := by omega
    simpa using this
  exact key o.x (m _ x) o.y (m _ y) o.z (m _ z) h0

theorem offset_of_mem {e : Idx × DistSq} (h : e ∈ occDirections) : IsNeighborOffset e.1 :=
  ⟨(occDirections_small e h).1, (occDirections_small e h).2.1⟩

theorem add_ne {g o : Idx} (ho : IsNeighborOffset o) : g + o ≠ g := by
  intro e0
  apply ho.2
  have hx := congrArg Vec3.x e0
  have hy := congrArg Vec3.y e0
  have hz := congrArg Vec3.z e0
  simp only [Vec3.add_x, Vec3.add_y, Vec3.add_z] at hx hy hz
  ext
  · show o.x = 0; omega
  · show o.y = 0; omega
  · show o.z = 0; omega

theorem neg_offset {o : Idx} (ho : IsNeighborOffset o) : IsNeighborOffset (-o) ∧ unitLength (-o) = unitLength o := by
  obtain ⟨⟨x, y, z⟩, h0⟩ := ho
  refine ⟨⟨⟨?_, ?_, ?_⟩, ?_⟩, ?_⟩
  · show -1 ≤ -o.x ∧ -o.x ≤ 1; omega
  · show -1 ≤ -o.y ∧ -o.y ≤ 1; omega
  · show -1 ≤ -o.z ∧ -o.z ≤ 1; omega
  · intro e
    apply h0
    have hx : -o.x = 0 := congrArg Vec3.x e
    have hy : -o.y = 0 := congrArg Vec3.y e
    have hz : -o.z = 0 := congrArg Vec3.z e
    ext
    · show o.x = 0; omega
    · show o.y = 0; omega
    · show o.z = 0; omega
  · have : sqLen (-o) = sqLen o := by
      show -o.x * -o.x + -o.y * -o.y + -o.z * -o.z = o.x * o.x + o.y * o.y + o.z * o.z
      ring
    unfold unitLength
    rw [this]

theorem add_neg_offset (g o : Idx) : g + o + -o = g := by
  ext
  · show g.x + o.x + -o.x = g.x; omega
  · show g.y + o.y + -o.y = g.y; omega
  · show g.z + o.z + -o.z = g.z; omega

theorem length_nonneg (F : Fits A cfg u B) {size : ℚ} (hs : 0 < size) (o : Idx) : 0 ≤ A.rnd (unitLength o * size) := by
  refine F.R.ge_of_ge ?_ F.R.zero
  have : 0 ≤ unitLength o := by unfold unitLength; split_ifs <;> norm_num
  positivity

section
variable {vps : ℕ} {size : ℚ} {occ : VLayer (OccVoxel ℚ)}

theorem inv_skip {c c' : Idx → Option EVoxel} {b : ℕ} {k : Idx × Idx} {es : List (ℕ × (Idx × Idx))} {v : EVoxel}
    (h : Inv A cfg vps size occ c ((b, k) :: es)) (hv : c (gk vps k) = some v) (hs : Skipped cfg v)
    (hc' : ∀ g, c' g = if g = gk vps k then some ⟨v.distance, v.observed, v.hallucinated, false, v.fixed, v.parent⟩ else c g) :
    Inv A cfg vps size occ c' es := by
  have hfield : ∀ g w', c' g = some w' → ∃ w, c g = some w ∧ w'.distance = w.distance ∧ w'.observed = w.observed ∧ w'.fixed = w.fixed ∧
      (w'.inQueue = true → w.inQueue = true ∧ g ≠ gk vps k) := by
    intro g w' hw
    rw [hc'] at hw
    split_ifs at hw with e
    · injection hw with hw
      exact ⟨v, by rw [e]; exact hv, by rw [← hw], by rw [← hw], by rw [← hw], fun hq => by rw [← hw] at hq; cases hq⟩
    · exact ⟨w', hw, rfl, rfl, rfl, fun hq => ⟨hq, e⟩⟩
  refine ⟨?_, ?_, ?_, ?_, ?_, ?_⟩
  · intro g hg
    obtain ⟨q, hq⟩ := h.occupied g hg
    rw [hc']
    split_ifs with e
    · rw [e, hv] at hq
      injection hq with hq
      exact ⟨false, by rw [hq]⟩
    · exact ⟨q, hq⟩
  · intro g hg hn
    obtain ⟨d, q, p, h1, h2, h3⟩ := h.free g hg hn
    rw [hc']
    split_ifs with e
    · rw [e, hv] at h1
      injection h1 with h1
      exact ⟨d, false, p, by rw [h1], h2, h3⟩
    · exact ⟨d, q, p, h1, h2, h3⟩
  · intro g hg
    have := h.unknown g hg
    rw [hc']
    split_ifs with e
    · rw [e, hv] at this
      rw [e]
      cases ho : content occ (gk vps k) with
      | none => rw [ho] at this; cases this
      | some o =>
        rw [ho] at this
        injection this with this
        rw [this]
        rfl
    · exact this
  · intro g w' hw hq
    obtain ⟨w, h1, -, -, -, h5⟩ := hfield g w' hw
    obtain ⟨h6, h7⟩ := h5 hq
    obtain ⟨e, he, he'⟩ := h.flag g w h1 h6
    rcases List.mem_cons.1 he with rfl | he
    · exact absurd he'.symm h7
    · exact ⟨e, he, he'⟩
  · intro g w' hw ho hd hes o n' hoff hn' hno hnf
    obtain ⟨w, h1, h2, h3, h4, -⟩ := hfield g w' hw
    obtain ⟨n, m1, m2, m3, m4, -⟩ := hfield _ n' hn'
    rw [m2, h2]
    refine h.relaxed g w h1 (by rw [← h3]; exact ho) (by rw [← h2]; exact hd) ?_ o n hoff m1 (by rw [← m3]; exact hno) (by rw [← m4]; exact hnf)
    intro e he
    rcases List.mem_cons.1 he with rfl | he
    · intro e0
      simp only at e0
      rw [← e0, hv] at h1
      injection h1 with h1
      rcases hs with hs | hs
      · rw [h3, ← h1, hs] at ho; cases ho
      · rw [h2, ← h1] at hd; linarith
    · exact hes e he
  · obtain ⟨e1, e2, h1, h2, h3⟩ := h.order
    cases e1 with
    | nil =>
      rw [List.nil_append] at h1
      exact ⟨[], es, rfl, by simp, fun e he => h3 e (by rw [← h1]; simp [he])⟩
    | cons a e1 =>
      rw [List.cons_append] at h1
      injection h1 with _ h1
      exact ⟨e1, e2, h1, fun e he => h2 e (by simp [he]), h3⟩

theorem visit_start {c : Idx → Option EVoxel} {b : ℕ} {k : Idx × Idx} {es : List (ℕ × (Idx × Idx))} {v : EVoxel}
    (h : Inv A cfg vps size occ c ((b, k) :: es)) (hv : c (gk vps k) = some v) (hs : ¬ Skipped cfg v) :
    Visit A cfg vps size occ (gk vps k) v [] c es := by
  unfold Skipped at hs
  push Not at hs
  obtain ⟨s1, s2⟩ := hs
  refine ⟨hv, by simpa using s1, s2, h.occupied, h.free, h.unknown, ?_, ?_, by simp, ?_, ?_⟩
  · intro g' w hne hw hq
    obtain ⟨e, he, he'⟩ := h.flag g' w hw hq
    rcases List.mem_cons.1 he with rfl | he
    · exact absurd he'.symm hne
    · exact ⟨e, he, he'⟩
  · intro g' w hne hw ho hd hes
    refine h.relaxed g' w hw ho hd ?_
    intro e he
    rcases List.mem_cons.1 he with rfl | he
    · exact fun h => hne h.symm
    · exact hes e he
  · obtain ⟨e1, e2, h1, h2, h3⟩ := h.order
    cases e1 with
    | nil =>
      rw [List.nil_append] at h1
      exact ⟨[], es, rfl, by simp, fun e he => h3 e (by rw [← h1]; simp [he])⟩
    | cons a e1 =>
      rw [List.cons_append] at h1
      injection h1 with _ h1
      exact ⟨e1, e2, h1, fun e he => h2 e (by simp [he]), h3⟩
  · intro hn e he
    obtain ⟨e1, e2, h1, h2, h3⟩ := h.order
    cases e1 with
    | nil =>
      rw [List.nil_append] at h1
      exact h3 e (by rw [← h1]; simp [he])
    | cons a e1 =>
      rw [List.cons_append] at h1
      injection h1 with h0 _
      exact absurd (h2 a (by simp)).2 (by rw [← h0]; exact hn)

theorem visit_end {g : Idx} {v : EVoxel} {done : List (Idx × DistSq)} {c c' : Idx → Option EVoxel} {es : List (ℕ × (Idx × Idx))}
    (h : Visit A cfg vps size occ g v done c es) (hall : ∀ e ∈ occDirections, e ∈ done)
    (hc' : ∀ g', c' g' = if g' = g then some ⟨v.distance, v.observed, v.hallucinated, false, v.fixed, v.parent⟩ else c g') :
    Inv A cfg vps size occ c' es := by
  have hv := h.self
  have hfield : ∀ g' w', c' g' = some w' → ∃ w, c g' = some w ∧ w'.distance = w.distance ∧ w'.observed = w.observed ∧ w'.fixed = w.fixed ∧
      (w'.inQueue = true → w.inQueue = true ∧ g' ≠ g) := by
    intro g' w' hw
    rw [hc'] at hw
    split_ifs at hw with e
    · injection hw with hw
      exact ⟨v, by rw [e]; exact hv, by rw [← hw], by rw [← hw], by rw [← hw], fun hq => by rw [← hw] at hq; cases hq⟩
    · exact ⟨w', hw, rfl, rfl, rfl, fun hq => ⟨hq, e⟩⟩
  refine ⟨?_, ?_, ?_, ?_, ?_, h.order⟩
  · intro g' hg
    obtain ⟨q, hq⟩ := h.occupied g' hg
    rw [hc']
    split_ifs with e
    · rw [e, hv] at hq
      injection hq with hq
      exact ⟨false, by rw [hq]⟩
    · exact ⟨q, hq⟩
  · intro g' hg hn
    obtain ⟨d, q, p, h1, h2, h3⟩ := h.free g' hg hn
    rw [hc']
    split_ifs with e
    · rw [e, hv] at h1
      injection h1 with h1
      exact ⟨d, false, p, by rw [h1], h2, h3⟩
    · exact ⟨d, q, p, h1, h2, h3⟩
  · intro g' hg
    have := h.unknown g' hg
    rw [hc']
    split_ifs with e
    · rw [e, hv] at this
      rw [e]
      cases ho : content occ g with
      | none => rw [ho] at this; cases this
      | some o =>
        rw [ho] at this
        injection this with this
        rw [this]
        rfl
    · exact this
  · intro g' w' hw hq
    obtain ⟨w, h1, -, -, -, h5⟩ := hfield g' w' hw
    obtain ⟨h6, h7⟩ := h5 hq
    exact h.flag g' w h7 h1 h6
  · intro g' w' hw ho hd hes o n' hoff hn' hno hnf
    obtain ⟨w, h1, h2, h3, h4, -⟩ := hfield g' w' hw
    obtain ⟨n, m1, m2, m3, m4, -⟩ := hfield _ n' hn'
    rw [m2, h2]
    rw [h3] at ho
    rw [h2] at hd
    rw [m3] at hno
    rw [m4] at hnf
    by_cases e : g' = g
    · rw [e, hv] at h1
      injection h1 with h1
      rw [← h1]
      obtain ⟨e', he', heo⟩ := mem_occDirections hoff
      rw [← heo]
      rw [e, ← heo] at m1
      exact h.visited e' (hall e' he') n m1 hno hnf
    · exact h.relaxed g' w e h1 ho hd hes o n hoff m1 hno hnf

theorem visit_stay {g : Idx} {v : EVoxel} {done : List (Idx × DistSq)} {c : Idx → Option EVoxel} {es : List (ℕ × (Idx × Idx))}
    {e : Idx × DistSq} (h : Visit A cfg vps size occ g v done c es)
    (hn : ∀ n, c (g + e.1) = some n → n.observed = true → Settled A v.distance (A.rnd (unitLength e.1 * size)) n) :
    Visit A cfg vps size occ g v (e :: done) c es := by
  refine ⟨h.self, h.observed, h.near, h.occupied, h.free, h.unknown, h.flag, h.relaxed, ?_, h.order, h.first⟩
  intro e' he' n hc ho hf
  rcases List.mem_cons.1 he' with rfl | he'
  · exact (hn n hc ho).1 hf
  · exact h.visited e' he' n hc ho hf

theorem insert_order {k : Idx × Idx} {b : ℕ} {e1 e2 : List (ℕ × (Idx × Idx))} (h1 : ∀ e ∈ e1, e.1 = 0) :
    insertStable b k (e1 ++ e2) = e1 ++ insertStable b k e2 :=
  BQueue.insertStable_append fun e he => by rw [h1 e he]; omega

theorem visit_move (F : Fits A cfg u B) (hsize : 0 < size) {g : Idx} {v : EVoxel} {done : List (Idx × DistSq)} {c c' : Idx → Option EVoxel}
    {es es' : List (ℕ × (Idx × Idx))} {e : Idx × DistSq} (he : e ∈ occDirections) (h : Visit A cfg vps size occ g v done c es)
    (hm : Moved A cfg vps v.distance (A.rnd (unitLength e.1 * size)) g e.1 c es c' es') :
    Visit A cfg vps size occ g v (e :: done) c' es' := by
  obtain ⟨n, y, k, k1, k2, n1, n2, ch, rfl, hc'⟩ := hm
  have hoff := offset_of_mem he
  have hne := add_ne (g := g) hoff
  set δ := A.rnd (unitLength e.1 * size) with hδ
  have hδ0 : 0 ≤ δ := length_nonneg F hsize _
  -- what the two voxels are
  have hnk : (OccOccupied occ (g + e.1) ∧ n.fixed = true ∧ n.distance = 0) ∨
      (OccObserved occ (g + e.1) ∧ ¬ OccOccupied occ (g + e.1) ∧ n.fixed = false) := by
    by_cases o1 : OccOccupied occ (g + e.1)
    · obtain ⟨q, hq⟩ := h.occupied _ o1
      rw [n1] at hq
      injection hq with hq
      exact Or.inl ⟨o1, by rw [hq], by rw [hq]⟩
    · by_cases o2 : OccObserved occ (g + e.1)
      · obtain ⟨d, q, p, hq, -⟩ := h.free _ o2 o1
        rw [n1] at hq
        injection hq with hq
        exact Or.inr ⟨o2, o1, by rw [hq]⟩
      · have := h.unknown _ o2
        rw [n1] at this
        cases ho : content occ (g + e.1) with
        | none => rw [ho] at this; cases this
        | some o =>
          rw [ho] at this
          injection this with this
          rw [this] at n2
          cases n2
  have hgo : OccObserved occ g := by
    by_contra o2
    have := h.unknown _ o2
    rw [h.self] at this
    cases ho : content occ g with
    | none => rw [ho] at this; cases this
    | some o =>
      rw [ho] at this
      injection this with this
      have := h.observed
      rw [‹v = _›] at this
      cases this
  have hpath : v.distance = cfg.defaultDistance ∨ PathLength A.rnd size cfg.maxDistance occ g v.distance := by
    by_cases o1 : OccOccupied occ g
    · obtain ⟨q, hq⟩ := h.occupied _ o1
      rw [h.self] at hq
      injection hq with hq
      rw [hq]
      exact Or.inr (.start o1)
    · obtain ⟨d, q, p, hq, -, hp⟩ := h.free _ hgo o1
      rw [h.self] at hq
      injection hq with hq
      rw [hq]
      exact hp
  rcases ch with ⟨f1, f2, f3⟩ | ⟨f1, f2, f3⟩
  · -- the neighbour is lowered
    obtain ⟨p1, p2, -⟩ : OccObserved occ (g + e.1) ∧ ¬ OccOccupied occ (g + e.1) ∧ n.fixed = false := by
      rcases hnk with h | h
      · rw [f1] at h; cases h.2.1
      · exact h
    obtain ⟨d, q, p, hq, hd1, hd2⟩ := h.free _ p1 p2
    rw [n1] at hq
    injection hq with hq
    have hy : y = ⟨A.rnd (v.distance + δ), true, false, n.inQueue || decide (A.rnd (v.distance + δ) < cfg.maxDistance), false, -e.1⟩ := by
      rw [f3, n2]
      congr 1
      rw [hq]
    have hdn : n.distance = d := by rw [hq]
    have hlow : ∀ g' w', c' g' = some w' → w'.observed = true → w'.fixed = false →
        ∃ w, c g' = some w ∧ w'.distance ≤ w.distance ∧ w.observed = true ∧ w.fixed = false := by
      intro g' w' hw ho hf
      rw [hc'] at hw
      split_ifs at hw with e0
      · injection hw with hw
        refine ⟨n, by rw [e0]; exact n1, ?_, n2, f1⟩
        rw [← hw, hy]
        exact f2.le
      · exact ⟨w', hw, le_rfl, ho, hf⟩
    have hmem : ∀ e' ∈ es, e' ∈ queueAfter cfg k n y es := by
      intro e' he'
      unfold queueAfter
      split_ifs
      · exact mem_insertStable.2 (Or.inr he')
      · exact he'
    have hself : c' g = some v := by rw [hc', if_neg hne.symm]; exact h.self
    refine ⟨hself, h.observed, h.near, ?_, ?_, ?_, ?_, ?_, ?_, ?_, ?_⟩
    · intro g' hg
      rw [hc', if_neg (by rintro rfl; exact p2 hg)]
      exact h.occupied g' hg
    · intro g' ho hn
      rw [hc']
      split_ifs with e0
      · refine ⟨A.rnd (v.distance + δ), _, -e.1, by rw [hy], ?_, ?_⟩
        · rw [hdn] at f2
          exact f2.le.trans hd1
        · rcases hpath with hp | hp
          · exfalso
            have : v.distance ≤ A.rnd (v.distance + δ) := by
              rw [hp]
              exact F.R.ge_of_ge (by linarith) F.default_rep
            rw [hdn] at f2
            rw [hp] at this f2
            linarith
          · rw [e0]
            exact Or.inr (.step hp h.near hoff p1 p2)
      · exact h.free g' ho hn
    · intro g' hg
      rw [hc', if_neg (by rintro rfl; exact hg p1)]
      exact h.unknown g' hg
    · intro g' w hg hw hq'
      rw [hc'] at hw
      split_ifs at hw with e0
      · injection hw with hw
        rw [← hw] at hq'
        cases hnq : n.inQueue with
        | true =>
          obtain ⟨e', h1, h2⟩ := h.flag (g + e.1) n hne n1 hnq
          exact ⟨e', hmem e' h1, by rw [h2, e0]⟩
        | false =>
          refine ⟨(bucketOf cfg.numBuckets cfg.maxDistance y.distance, k), ?_, by rw [e0]; exact k2⟩
          unfold queueAfter
          rw [if_pos (by simp [hq', hnq])]
          exact mem_insertStable.2 (Or.inl rfl)
      · obtain ⟨e', h1, h2⟩ := h.flag g' w hg hw hq'
        exact ⟨e', hmem e' h1, h2⟩
    · intro g' w hg hw ho hd hes o m hoff' hm hmo hmf
      obtain ⟨m', m1, m2, m3, m4⟩ := hlow _ m hm hmo hmf
      rw [hc'] at hw
      split_ifs at hw with e0
      · -- the lowered voxel itself is queued if it is near
        exfalso
        injection hw with hw
        rw [← hw, hy] at hd
        simp only at hd
        have hin : ∃ e' ∈ queueAfter cfg k n y es, gk vps e'.2 = g' := by
          cases hnq : n.inQueue with
          | true =>
            obtain ⟨e', h1, h2⟩ := h.flag (g + e.1) n hne n1 hnq
            exact ⟨e', hmem e' h1, by rw [h2, e0]⟩
          | false =>
            refine ⟨(bucketOf cfg.numBuckets cfg.maxDistance y.distance, k), ?_, by rw [e0]; exact k2⟩
            unfold queueAfter
            rw [if_pos (by rw [hy]; simp [hnq, hd])]
            exact mem_insertStable.2 (Or.inl rfl)
        obtain ⟨e', h1, h2⟩ := hin
        exact hes e' h1 h2
      · exact m2.trans (h.relaxed g' w hg hw ho hd (fun e' he' => hes e' (hmem e' he')) o m' hoff' m1 m3 m4)
    · intro e' he' m hm hmo hmf
      rcases List.mem_cons.1 he' with rfl | he'
      · rw [hc', if_pos rfl] at hm
        injection hm with hm
        rw [← hm, hy]
      · obtain ⟨m', m1, m2, m3, m4⟩ := hlow _ m hm hmo hmf
        exact m2.trans (h.visited e' he' m' m1 m3 m4)
    · obtain ⟨e1, e2, h1, h2, h3⟩ := h.order
      unfold queueAfter
      split_ifs
      · refine ⟨e1, insertStable (bucketOf cfg.numBuckets cfg.maxDistance y.distance) k e2, ?_, h2, ?_⟩
        · rw [h1, insert_order fun e he => (h2 e he).1]
        · intro e' he'
          rcases mem_insertStable.1 he' with h | h
          · rw [h]
            show ¬ OccOccupied occ (gk vps k)
            rw [k2]; exact p2
          · exact h3 e' h
      · exact ⟨e1, e2, h1, h2, h3⟩
    · intro hg e' he'
      unfold queueAfter at he'
      split_ifs at he'
      · rcases mem_insertStable.1 he' with h | h'
        · rw [h]
          show ¬ OccOccupied occ (gk vps k)
          rw [k2]; exact p2
        · exact h.first hg e' h'
      · exact h.first hg e' he'
  · -- an occupied voxel is never raised
    exfalso
    obtain ⟨p1, -, p3⟩ : OccOccupied occ (g + e.1) ∧ n.fixed = true ∧ n.distance = 0 := by
      rcases hnk with h | h
      · exact h
      · rw [f1] at h; cases h.2.2
    rw [p3] at f2
    have hle : v.distance ≤ δ := by
      by_cases o1 : OccOccupied occ g
      · obtain ⟨q, hq⟩ := h.occupied _ o1
        rw [h.self] at hq
        injection hq with hq
        rw [hq]
        exact hδ0
      · obtain ⟨d, q, p, hq, -, -⟩ := h.free _ hgo o1
        rw [h.self] at hq
        injection hq with hq
        obtain ⟨h1, h2⟩ := neg_offset hoff
        have := h.relaxed (g + e.1) n hne n1 n2 (by rw [p3]; exact F.max_pos) (fun e' he' h0 => h.first o1 e' he' (by rw [h0]; exact p1))
          (-e.1) v h1 (by rw [add_neg_offset]; exact h.self) h.observed (by rw [hq])
        rw [h2, p3, zero_add, F.R.idem] at this
        exact this
    have : A.rnd (v.distance - δ) ≤ 0 := F.R.le_of_le (by linarith) F.R.zero
    linarith

theorem path_least (F : Fits A cfg u B) {c : Idx → Option EVoxel} (h : Inv A cfg vps size occ c []) {g : Idx} {x : ℚ}
    (p : PathLength A.rnd size cfg.maxDistance occ g x) :
    OccObserved occ g ∧ ∃ v, c g = some v ∧ v.observed = true ∧ v.distance ≤ x := by
  induction p with
  | start ho =>
    obtain ⟨q, hq⟩ := h.occupied _ ho
    obtain ⟨o, h1, h2, -⟩ := ho
    exact ⟨⟨o, h1, h2⟩, _, hq, rfl, le_rfl⟩
  | step _ hx hoff ho hn ih =>
    obtain ⟨-, v, h1, h2, h3⟩ := ih
    obtain ⟨d, q, p, m1, -, -⟩ := h.free _ ho hn
    refine ⟨ho, _, m1, rfl, ?_⟩
    refine (h.relaxed _ v h1 h2 (by linarith) (by simp) _ _ hoff m1 rfl rfl).trans ?_
    exact F.R.mono _ _ (by linarith)

end

/-- The ESDF `l` holds the quasi-Euclidean distances of the occupancy map `occ`. -/
structure Exact (A : Flt) (cfg : Config) (occ : VLayer (OccVoxel ℚ)) (size : ℚ) (l : VLayer EVoxel) : Prop where
  /-- Occupied voxels hold zero. -/
  occupied : ∀ g, OccOccupied occ g → ∃ v, content l g = some v ∧ v.distance = 0 ∧ v.observed = true ∧ v.fixed = true
  /-- Every other observed voxel holds the length of a shortest path, or the default distance where no path is shorter. -/
  free : ∀ g, OccObserved occ g → ¬ OccOccupied occ g → ∃ v, content l g = some v ∧ v.observed = true ∧ v.fixed = false ∧
    IsLeast ({cfg.defaultDistance} ∪ {x | PathLength A.rnd size cfg.maxDistance occ g x}) v.distance
  /-- Unobserved voxels are left at their initial value. -/
  unknown : ∀ g, ¬ OccObserved occ g → content l g = (content occ g).map fun _ => Sphere.esdfDefault
  /-- No voxel remains marked as queued. -/
  idle : ∀ g v, content l g = some v → v.inQueue = false

/-- **C42.** For every occupancy layer with the same side, every configuration, and whatever the ESDF layer held before,
the batch update ends and the ESDF holds the lengths of shortest 26-connected paths through observed voxels to an occupied
voxel, where paths are extended only from voxels nearer than the maximum distance. -/
theorem C42_batch (F : Fits A cfg u B) {S : Finset Idx} {s : State} (G : Good A cfg B S [] s) {occ : VLayer (OccVoxel ℚ)}
    (wf : WellFormed occ) (hside : occ.cfg.vps = s.layer.cfg.vps) :
    ∃ N s', (∀ fuel, N ≤ fuel → updateBatch A cfg fuel occ s = .ok (some s')) ∧
      Exact A cfg occ s.layer.cfg.voxelSize s'.layer ∧ s'.open_.empty = .ok true := by
  set s0 : State := ⟨⟨s.layer.cfg, []⟩, s.open_⟩ with hs0
  have c0 : ∀ g, content s0.layer g = none := fun g => by simp [hs0, content]
  have G0 : Good A cfg B ∅ [] s0 := by
    refine ⟨⟨G.wf.size_pos, G.wf.side_pos, G.wf.side_le, fun i b hb => by simp [hs0] at hb⟩, ?_, ?_, G.queue, by simp⟩
    · intro g; rw [c0]; simp
    · intro g v hv; rw [c0] at hv; cases hv
  have hall : ∀ i ∈ occ.blocks.map (·.1), Spec.Allocated occ i := by
    intro i hi
    exact allocated_iff_mem.2 hi
  obtain ⟨s1, es1, h1, ⟨S1, G1⟩, hg, hseen, hrest, hq⟩ := occBlocks_ok F wf (s0 := s0) hside G0 _ hall
  have hvps : s1.layer.cfg.vps = s.layer.cfg.vps := by rw [hg]
  have hsz : s1.layer.cfg.voxelSize = s.layer.cfg.voxelSize := by rw [hg]
  have hcon : ∀ g, content s1.layer g = (content occ g).map fun o => seeded cfg o Sphere.esdfDefault := by
    intro g
    cases ho : content occ g with
    | none =>
      have : blockOf s0.layer.cfg.vps g ∉ occ.blocks.map (·.1) := by
        intro hm
        have h2 := (hall _ hm)
        have h3 := (allocated_iff_content wf (localOf_inBlock wf.side_pos g) (i := blockOf s0.layer.cfg.vps g)).1 h2
        rw [show s0.layer.cfg.vps = occ.cfg.vps from hside.symm] at h3
        rw [globalIndex_split, ho] at h3
        cases h3
      rw [hrest g this, c0]
      rfl
    | some o =>
      have : blockOf s0.layer.cfg.vps g ∈ occ.blocks.map (·.1) := by
        have h3 := (allocated_iff_content wf (localOf_inBlock wf.side_pos g) (i := blockOf occ.cfg.vps g)).2 (by
          rw [globalIndex_split, ho]; rfl)
        rw [show s0.layer.cfg.vps = occ.cfg.vps from hside.symm]
        exact allocated_iff_mem.1 h3
      rw [hseen g o this ho, c0]
      rfl
  have hqueued : ∀ g, OccOccupied occ g → ∃ e ∈ es1, gk s.layer.cfg.vps e.2 = g := by
    intro g hg'
    have hm : blockOf s0.layer.cfg.vps g ∈ occ.blocks.map (·.1) := by
      by_contra hm
      have := hrest g hm
      obtain ⟨o, ho, -⟩ := hg'
      rw [c0, hcon, ho] at this
      cases this
    refine ⟨(0, (blockOf s.layer.cfg.vps g, localOf s.layer.cfg.vps g)), (hq _).2 (Or.inr ⟨rfl, localOf_inBlock G.wf.side_pos g, ?_, ?_⟩),
      globalIndex_split g⟩
    · show OccOccupied occ (globalIndex _ _ _)
      rw [show s0.layer.cfg.vps = s.layer.cfg.vps from rfl, globalIndex_split]
      exact hg'
    · show blockOf _ (globalIndex _ _ _) ∈ _
      rw [show s0.layer.cfg.vps = s.layer.cfg.vps from rfl, globalIndex_split]
      exact hm
  have I1 : Inv A cfg s.layer.cfg.vps s.layer.cfg.voxelSize occ (content s1.layer) es1 := by
    have hfree : ∀ g, OccObserved occ g → ¬ OccOccupied occ g → content s1.layer g = some ⟨cfg.defaultDistance, true, false, false, false, 0⟩ := by
      rintro g ⟨o, o1, o2⟩ hn
      rw [hcon, o1]
      show some (seeded cfg o _) = _
      congr 1
      exact (if_neg (by simp [o2])).trans (if_neg fun h => hn ⟨o, o1, o2, h⟩)
    have hocc : ∀ g, OccOccupied occ g → content s1.layer g = some ⟨0, true, false, true, true, 0⟩ := by
      rintro g ⟨o, o1, o2, o3⟩
      rw [hcon, o1]
      show some (seeded cfg o _) = _
      congr 1
      exact (if_neg (by simp [o2])).trans (if_pos o3)
    have hunk : ∀ g, ¬ OccObserved occ g → content s1.layer g = (content occ g).map fun _ => Sphere.esdfDefault := by
      intro g hg
      rw [hcon]
      cases ho : content occ g with
      | none => rfl
      | some o =>
        show some _ = some _
        congr 1
        refine if_pos ?_
        cases h : o.observed with
        | false => rfl
        | true => exact absurd ⟨o, ho, h⟩ hg
    have hobs : ∀ g v, content s1.layer g = some v → v.observed = true → OccObserved occ g := by
      intro g v hv hobs
      by_contra hno
      rw [hunk g hno] at hv
      cases ho : content occ g with
      | none => rw [ho] at hv; cases hv
      | some o =>
        rw [ho] at hv
        injection hv with hv
        rw [← hv] at hobs
        cases hobs
    refine ⟨fun g h => ⟨true, hocc g h⟩, fun g h h' => ⟨_, _, _, hfree g h h', le_rfl, Or.inl rfl⟩, hunk, ?_, ?_, ?_⟩
    · intro g v hv hvq
      by_cases o1 : OccOccupied occ g
      · exact hqueued g o1
      · by_cases o2 : OccObserved occ g
        · rw [hfree g o2 o1] at hv
          injection hv with hv
          rw [← hv] at hvq
          cases hvq
        · rw [hunk g o2] at hv
          cases ho : content occ g with
          | none => rw [ho] at hv; cases hv
          | some o =>
            rw [ho] at hv
            injection hv with hv
            rw [← hv] at hvq
            cases hvq
    · intro g v hv ho hd hes o n hoff hn hno hnf
      have o1 : ¬ OccOccupied occ g := fun h => by
        obtain ⟨e, he, he'⟩ := hqueued g h
        exact hes e he he'
      rw [hfree g (hobs g v hv ho) o1] at hv
      injection hv with hv
      have o2 : ¬ OccOccupied occ (g + o) := fun h => by
        rw [hocc _ h] at hn
        injection hn with hn
        rw [← hn] at hnf
        cases hnf
      rw [hfree _ (hobs _ n hn hno) o2] at hn
      injection hn with hn
      rw [← hv, ← hn]
      have := length_nonneg F G.wf.size_pos o
      exact F.R.ge_of_ge (by simp only; linarith) F.default_rep
    · refine ⟨es1, [], by simp, ?_, by simp⟩
      intro e he
      rcases (hq e).1 he with h | ⟨h1, -, h3, -⟩
      · simp at h
      · exact ⟨h1, h3⟩
  obtain ⟨N, s', r1, r2, r3, r4⟩ := processOpen_ok F s.layer.cfg.vps s.layer.cfg.voxelSize
    (Inv A cfg s.layer.cfg.vps s.layer.cfg.voxelSize occ) (Visit A cfg s.layer.cfg.vps s.layer.cfg.voxelSize occ)
    (fun c b k es v c' h _ hv hs hc => inv_skip h hv hs hc)
    (fun c b k es v h _ hv hs => visit_start h hv hs)
    (fun g v done c es e _ h hn => visit_stay h hn)
    (fun g v done c es c' es' e he h hm => visit_move F G.wf.size_pos he h hm)
    (fun g v done c es c' hall h _ hc => visit_end h hall hc) es1 s1 hvps hsz G1 I1
  refine ⟨N, s', ?_, ⟨?_, ?_, r4.unknown, ?_⟩, by rw [empty_ok r2.queue]; rfl⟩
  · intro fuel hf
    unfold updateBatch updateFromOccBlocks
    have h1' : (occ.blocks.map (·.1)).foldlM (occBlock cfg occ) { s with layer := { s.layer with blocks := [] } } = .ok s1 := h1
    rw [h1']
    simp only [Outcome.bind_ok]
    exact r1 fuel hf
  · intro g hg
    obtain ⟨q, hq⟩ := r4.occupied g hg
    exact ⟨_, hq, rfl, rfl, rfl⟩
  · intro g ho hn
    obtain ⟨d, q, p, p1, p2, p3⟩ := r4.free g ho hn
    refine ⟨_, p1, rfl, rfl, p3, ?_⟩
    rintro x (hx | hx)
    · rw [Set.mem_singleton_iff.1 hx]; exact p2
    · obtain ⟨-, v, h1, -, h2⟩ := path_least F r4 hx
      rw [p1] at h1
      injection h1 with h1
      rw [← h1] at h2
      exact h2
  · intro g v hv
    cases hi : v.inQueue with
    | false => rfl
    | true =>
      obtain ⟨e, he, -⟩ := r4.flag g v hv hi
      simp at he

/-! ### Examples -/

/-- Propagation up to distance 4, default distance 6, three buckets. -/
def sampleOccCfg : Config := ⟨4, 6, 3⟩

theorem sampleOcc_fits : Fits fixedPoint sampleOccCfg (1 / 1024) 8 where
  R := fixedPoint_rounding
  default_rep := by unfold Rep; decide +kernel
  default_nonneg := by norm_num [sampleOccCfg]
  default_le := by norm_num [sampleOccCfg]
  max_pos := by norm_num [sampleOccCfg]
  n_pos := by norm_num [sampleOccCfg]
  n_lt := by norm_num [sampleOccCfg]

/-- A freshly constructed integrator on an empty layer is consistent. -/
theorem good_init (F : Fits A cfg u B) {c : Cfg} (hs : 0 < c.voxelSize) (h0 : 0 < c.vps) (h1 : c.vps ≤ 1290) :
    Good A cfg B ∅ [] (init cfg ⟨c, []⟩) := by
  refine ⟨⟨hs, h0, h1, ?_⟩, ?_, ?_, BQueue.rel_init F.n_pos F.n_lt F.max_pos, by simp⟩
  · intro i b hb; simp [init] at hb
  · intro g; simp [init, content]
  · intro g v hv; simp [init, content] at hv

/-- An occupancy block of one voxel. -/
def occCell (i : Idx) (p : ℚ) (o : Bool) : Idx × Block ℚ (OccVoxel ℚ) :=
  (i, ⟨1, 1, originPoint i 1, false, Flags.setAll, [⟨p, o⟩]⟩)

/-- An occupied voxel, a free neighbour, a free voxel at the diagonal behind it, one not observed. -/
def sampleOcc : VLayer (OccVoxel ℚ) :=
  ⟨unitCfg, [occCell ⟨0, 0, 0⟩ 1 true, occCell ⟨1, 0, 0⟩ (-1) true, occCell ⟨2, 1, 0⟩ (-1) true, occCell ⟨3, 1, 0⟩ 1 false]⟩

theorem sampleOcc_wf : WellFormed sampleOcc := by
  have hb : ∀ e ∈ sampleOcc.blocks, e.2.vps = 1 ∧ e.2.voxelSize = 1 ∧ e.2.origin = ⟨e.1.x * (1 * 1), e.1.y * (1 * 1), e.1.z * (1 * 1)⟩ ∧
      e.2.voxels.length = 1 := by decide +kernel
  refine ⟨by norm_num [sampleOcc, unitCfg], by norm_num [sampleOcc, unitCfg], by norm_num [sampleOcc, unitCfg], ?_⟩
  intro i b h
  have hm : (i, b) ∈ sampleOcc.blocks := by
    obtain ⟨l1, l2, h1, -⟩ := List.lookup_eq_some_iff.1 h
    rw [h1]; simp
  obtain ⟨h1, h2, h3, h4⟩ := hb _ hm
  refine ⟨h1, h2, ?_, h4⟩
  rw [h3]
  simp [sampleOcc, unitCfg]

example : Fits fixedPoint sampleOccCfg (1 / 1024) 8 ∧ Good fixedPoint sampleOccCfg 8 ∅ [] (init sampleOccCfg ⟨unitCfg, []⟩) ∧ WellFormed sampleOcc ∧
    sampleOcc.cfg.vps = (init sampleOccCfg ⟨unitCfg, []⟩).layer.cfg.vps ∧ OccOccupied sampleOcc ⟨0, 0, 0⟩ ∧
    (∀ i ∈ sampleOcc.blocks.map (·.1), Spec.Allocated sampleOcc i) :=
  ⟨sampleOcc_fits, good_init sampleOcc_fits (by norm_num [unitCfg]) (by norm_num [unitCfg]) (by norm_num [unitCfg]), sampleOcc_wf, rfl,
    ⟨⟨1, true⟩, by decide +kernel, rfl, by norm_num⟩, fun _ hi => allocated_iff_mem.2 hi⟩

/-- In the sample the update leaves 0, 1, 1 + √2 (rounded) in the observed voxels. -/
example : (match updateBatch fixedPoint sampleOccCfg 10 sampleOcc (init sampleOccCfg ⟨unitCfg, []⟩) with
    | .ok (some s) => decide (s.layer.blocks.map (fun e => e.2.voxels.map (·.distance)) =
        [[0], [1], [1 + fixedPoint.rnd (11863283 / 8388608)], [0]] ∨
      s.layer.blocks.reverse.map (fun e => e.2.voxels.map (·.distance)) =
        [[0], [1], [1 + fixedPoint.rnd (11863283 / 8388608)], [0]])
    | _ => false) = true := by decide +kernel

end Vox.EsdfOcc
