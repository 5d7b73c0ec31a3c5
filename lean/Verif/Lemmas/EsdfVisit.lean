/-
The open-set loop with an invariant that follows the visits of the neighbours.
-/
import Verif.Lemmas.EsdfOpen

namespace Vox.Esdf

open Layer Grid Spec

/-- `v` after its flag was cleared. -/
def popped (v : EVoxel) : EVoxel := ⟨v.distance, v.observed, v.hallucinated, false, v.fixed, v.parent⟩

theorem foldlM_done {σ α : Type} {f : σ → α → Outcome σ} {P : List α → σ → Prop} (l : List α)
    (h : ∀ done s a, a ∈ l → P done s → ∃ s', f s a = .ok s' ∧ P (a :: done) s') :
    ∀ done s, P done s → ∃ s', l.foldlM f s = .ok s' ∧ P (l.reverse ++ done) s' := by
  induction l with
  | nil => intro done s hs; exact ⟨s, rfl, hs⟩
  | cons a l ih =>
    intro done s hs
    obtain ⟨s1, h1, h2⟩ := h done s a (by simp) hs
    rw [List.foldlM_cons, h1]
    obtain ⟨s2, h3, h4⟩ := ih (fun done s b hb => h done s b (by simp [hb])) (a :: done) s1 h2
    exact ⟨s2, h3, by simpa using h4⟩

/-- One iteration; `Q done` holds after the neighbours `done` were visited. -/
theorem openStep_visit {A : Flt} {cfg : Config} {L : Limits} (F : Fits A cfg L) {S : Finset Idx} {b : ℕ} {g : Idx}
    {es : List (ℕ × Idx)} {s : State} (G : Good A L S ((b, g) :: es) s) {v : EVoxel} (hv : content s.layer g = some v)
    (Q : List (Idx × ℚ) → State → List (ℕ × Idx) → Prop)
    (hpop : ∀ s1, Frame s s1 → (∀ g', content s1.layer g' = if g' = g then some (popped v) else content s.layer g') → Q [] s1 es)
    (hstay : ∀ done s1 es1 e, e ∈ neighborTable → Frame s s1 → Good A L S es1 s1 → Q done s1 es1 → ¬ Skipped cfg v →
      Stays A cfg (popped v) s.layer.cfg.voxelSize (g + e.1) e s1 → Q (e :: done) s1 es1)
    (hmove : ∀ done s1 es1 s2 es2 e, e ∈ neighborTable → Frame s s1 → Good A L S es1 s1 → Q done s1 es1 → ¬ Skipped cfg v →
      Moved A cfg L (popped v) s.layer.cfg.voxelSize (g + e.1) e s1 es1 s2 es2 → Q (e :: done) s2 es2) :
    ∃ s' es', openStep A cfg s = .ok s' ∧ Good A L S es' s' ∧ Frame s s' ∧
      ((Skipped cfg v ∧ Q [] s' es') ∨ (¬ Skipped cfg v ∧ Q neighborTable.reverse s' es')) := by
  have hg : g ∈ S := (G.dom g).1 (by rw [hv]; rfl)
  obtain ⟨q1, q2, e1, e2, e3⟩ := front_pop_ok G.queue
  unfold openStep
  rw [e1]
  simp only [Outcome.bind_ok]
  rw [e2]
  simp only [Outcome.bind_ok]
  rw [getVoxel_ok G.wf G.power (inner_range (G.range g hg)), hv]
  simp only [Outcome.bind_ok]
  have hvv := G.vals g v hv
  obtain ⟨l', w1, w2, w3⟩ := G.write hg (popped v) hvv
  obtain ⟨w4, w5⟩ := w3 s.raise q2 es e3 (fun e he => G.queued e (by simp [he]))
  have w1' : setVoxel s.layer g ⟨v.distance, v.observed, v.hallucinated, false, v.fixed, v.parent⟩ = .ok l' := w1
  rw [w1']
  simp only [Outcome.bind_ok]
  have p0 := hpop ⟨l', q2, s.raise, s.updated⟩ w5 w2
  split_ifs with hskip
  · refine ⟨_, es, rfl, w4, w5, Or.inl ⟨?_, p0⟩⟩
    simp only [Bool.or_eq_true, Bool.not_eq_true', decide_eq_true_eq] at hskip
    unfold Skipped
    tauto
  · have hns : ¬ Skipped cfg v := by
      simp only [Bool.or_eq_true, Bool.not_eq_true', decide_eq_true_eq, not_or] at hskip
      rintro (h | h | h)
      · exact hskip.1.1 h
      · exact hskip.1.2 h
      · exact hskip.2 h
    obtain ⟨s', h1, es', h2, h3, h4⟩ := foldlM_done (P := fun done s' => ∃ es', Good A L S es' s' ∧ Frame s s' ∧ Q done s' es')
      neighborTable (f := openNeighbor A cfg g (popped v)) (by
      rintro done s1 e he ⟨es1, g1, f1, p1⟩
      obtain ⟨s2, es2, a1, a2, a3, a4⟩ := openNeighbor_ok F g1 hg (v := popped v) hvv he
      refine ⟨s2, a1, es2, a2, f1.trans a3, ?_⟩
      rw [f1.cfg] at a4
      rcases a4 with ⟨rfl, rfl, a4⟩ | a4
      · exact hstay done _ _ e he f1 g1 p1 hns a4
      · exact hmove done s1 es1 s2 es2 e he f1 g1 p1 hns a4) [] _ ⟨es, w4, w5, p0⟩
    refine ⟨s', es', h1, h2, h3, Or.inr ⟨hns, ?_⟩⟩
    rwa [List.append_nil] at h4

/-- The loop ends, with an empty queue, and keeps `P` if `Q` connects `P` before and after each iteration. -/
theorem processOpen_visit {A : Flt} {cfg : Config} {L : Limits} (F : Fits A cfg L) {S : Finset Idx} (size : ℚ)
    (P : (Idx → Option EVoxel) → List (ℕ × Idx) → Prop)
    (Q : Idx → EVoxel → List (Idx × ℚ) → (Idx → Option EVoxel) → List (ℕ × Idx) → Prop)
    (hpop : ∀ c b g es v c', P c ((b, g) :: es) → c g = some v → (∀ g', c' g' = if g' = g then some (popped v) else c g') →
      Q g v [] c' es)
    (hskip : ∀ g v c es, Q g v [] c es → Skipped cfg v → P c es)
    (hstay : ∀ g v done s es e, e ∈ neighborTable → Good A L S es s → Q g v done (content s.layer) es → ¬ Skipped cfg v →
      Stays A cfg (popped v) size (g + e.1) e s → Q g v (e :: done) (content s.layer) es)
    (hmove : ∀ g v done s es s' es' e, e ∈ neighborTable → Good A L S es s → Q g v done (content s.layer) es → ¬ Skipped cfg v →
      Moved A cfg L (popped v) size (g + e.1) e s es s' es' → Q g v (e :: done) (content s'.layer) es')
    (hend : ∀ g v c es, Q g v neighborTable.reverse c es → P c es) :
    ∀ es s, s.layer.cfg.voxelSize = size → Good A L S es s → P (content s.layer) es →
      ∃ N s', (∀ fuel, N ≤ fuel → processOpen A cfg fuel s = .ok (some s')) ∧ Good A L S [] s' ∧ Frame s s' ∧ P (content s'.layer) [] := by
  have key : ∀ c : Fin (ht L.u L.B + 1) → ℕ, ∀ es s, (fun i : Fin (ht L.u L.B + 1) => counts L S es s i) = c →
      s.layer.cfg.voxelSize = size → Good A L S es s → P (content s.layer) es →
      ∃ N s', (∀ fuel, N ≤ fuel → processOpen A cfg fuel s = .ok (some s')) ∧ Good A L S [] s' ∧ Frame s s' ∧ P (content s'.layer) [] := by
    intro c
    induction c using (countLt_wf (ht L.u L.B)).induction with
    | _ c ih =>
      intro es s hc hsize G p
      cases es with
      | nil =>
        refine ⟨1, s, ?_, G, Frame.refl s, p⟩
        intro fuel hf
        obtain ⟨m, rfl⟩ : ∃ m, fuel = m + 1 := ⟨fuel - 1, by omega⟩
        unfold processOpen
        rw [empty_ok G.queue]
        rfl
      | cons e es =>
        obtain ⟨b, g⟩ := e
        subst hsize
        have hg : g ∈ S := G.queued (b, g) (by simp)
        obtain ⟨v, hv⟩ := Option.isSome_iff_exists.1 ((G.dom g).2 hg)
        have hvh : heights L.u (content s.layer) g = ht L.u v.distance := by
          unfold heights; rw [hv]
        obtain ⟨s1, es1, h1, h2, h3, h4⟩ := openStep_visit F G hv
          (Q := fun done s1 es1 => Q g v done (content s1.layer) es1 ∧
            Below (ht L.u v.distance) (counts L S ((b, g) :: es) s) (counts L S es1 s1))
          (by
            intro s1 f1 c1
            refine ⟨hpop _ b g es v _ p hv c1, ?_⟩
            have : heights L.u (content s1.layer) = heights L.u (content s.layer) := by
              rw [heights_update c1]
              show Function.update (heights L.u (content s.layer)) g (ht L.u v.distance) = _
              simp only [← hvh, Function.update_eq_self]
            unfold counts
            rw [this, List.map_cons, ← hvh]
            exact below_pop S _ _ g)
          (by
            intro done s1 es1 e he f1 g1 p1 hns hm
            exact ⟨hstay g v done s1 es1 e he g1 p1.1 hns hm, p1.2⟩)
          (by
            intro done s1 es1 s2 es2 e he f1 g1 p1 hns hm
            refine ⟨hmove g v done s1 es1 s2 es2 e he g1 p1.1 hns hm, ?_⟩
            obtain ⟨n, x, p, d, m1, m2, m3, m4, m5, m6, m7, m8⟩ := hm
            obtain ⟨d1, d2⟩ := stepTo_ok F.R (f1.cfg ▸ G.wf.size_pos.le) (table_pos he) m4
            obtain ⟨r1, r2⟩ := relaxDistance_lower F.R F.minDiff (G.vals g v hv).1 d1 d2 m5
            have hk : g + e.1 ∈ S := (g1.dom _).1 (by rw [m1]; rfl)
            have hh : ht L.u x < heights L.u (content s1.layer) (g + e.1) ∨ ht L.u x < ht L.u v.distance := by
              rcases r2 with h | h
              · left
                have : heights L.u (content s1.layer) (g + e.1) = ht L.u n.distance := by
                  unfold heights; rw [m1]
                rw [this]
                exact ht_lt F.R r1 (g1.vals _ _ m1).1 h
              · exact Or.inr (ht_lt F.R r1 (G.vals g v hv).1 h)
            have hu := heights_update (u := L.u) m6
            rcases m7 with ⟨m7, -⟩ | m7
            · rw [m7]
              have := p1.2
              unfold counts at *
              rw [hu]
              exact below_update hk this hh
            · rw [m7]
              have := p1.2
              unfold counts at *
              rw [hu]
              refine (below_push hk this hh).congr fun t => ?_
              exact cnt_perm (insertStable_perm _ _ _) t)
        have h5 : P (content s1.layer) es1 ∧ Below (ht L.u v.distance) (counts L S ((b, g) :: es) s) (counts L S es1 s1) := by
          rcases h4 with ⟨k, q, r⟩ | ⟨k, q, r⟩
          · exact ⟨hskip _ _ _ _ q k, r⟩
          · exact ⟨hend _ _ _ _ q, r⟩
        have h6 := below_countLt (fun t ht' => counts_bound F G ht') h5.2
        rw [hc] at h6
        obtain ⟨N, s', k1, k2, k3, k4⟩ := ih _ h6 es1 s1 rfl (by rw [h3.cfg]) h2 h5.1
        refine ⟨N + 1, s', ?_, k2, h3.trans k3, k4⟩
        intro fuel hf
        obtain ⟨m, rfl⟩ : ∃ m, fuel = m + 1 := ⟨fuel - 1, by omega⟩
        unfold processOpen
        rw [empty_ok G.queue]
        simp only [Outcome.bind_ok, List.isEmpty_cons, Bool.false_eq_true, if_false, h1]
        exact k1 m (by omega)
  intro es s hs G p
  exact key _ es s rfl hs G p

end Vox.Esdf
