/-
The raise loop, and what both loops preserve.
-/
import Verif.Lemmas.EsdfOpen

namespace Vox.Esdf

open Layer Grid Spec

theorem roundedDirection_zero : roundedDirection 0 = 0 := by decide

theorem isParent_ne {cfg : Config} {parent off : Idx} (ho : off ∈ kOffsets) (h : isParent cfg parent off = true) : parent ≠ 0 := by
  have h0 := (offset_small off ho).2
  have hneg : -off ≠ 0 := by
    intro e
    apply h0
    have hx := congrArg Vec3.x e
    have hy := congrArg Vec3.y e
    have hz := congrArg Vec3.z e
    change -off.x = 0 at hx
    change -off.y = 0 at hy
    change -off.z = 0 at hz
    ext
    · show off.x = 0; omega
    · show off.y = 0; omega
    · show off.z = 0; omega
  intro e
  unfold isParent at h
  rw [e, roundedDirection_zero] at h
  split_ifs at h <;> exact hneg (of_decide_eq_true h).symm

/-- How many voxels have a parent. -/
def parents (S : Finset Idx) (c : Idx → Option EVoxel) : ℕ := (S.filter fun g => ∃ v, c g = some v ∧ v.parent ≠ 0).card

theorem parents_reset {S : Finset Idx} {c c' : Idx → Option EVoxel} {g : Idx} {n x : EVoxel} (hg : g ∈ S) (hn : c g = some n)
    (hp : n.parent ≠ 0) (hx : x.parent = 0) (h : ∀ g', c' g' = if g' = g then some x else c g') : parents S c' < parents S c := by
  unfold parents
  refine Finset.card_lt_card ⟨?_, ?_⟩
  · intro g' hg'
    rw [Finset.mem_filter] at hg' ⊢
    obtain ⟨h1, v, h2, h3⟩ := hg'
    refine ⟨h1, v, ?_, h3⟩
    rw [h] at h2
    split_ifs at h2 with e
    · injection h2 with h2
      rw [← h2, hx] at h3
      exact absurd rfl h3
    · exact h2
  · intro hs
    have := hs (Finset.mem_filter.2 ⟨hg, n, hn, hp⟩)
    rw [Finset.mem_filter] at this
    obtain ⟨-, v, h2, h3⟩ := this
    rw [h, if_pos rfl] at h2
    injection h2 with h2
    rw [← h2, hx] at h3
    exact h3 rfl

theorem parents_keep {S : Finset Idx} {c c' : Idx → Option EVoxel} {g : Idx} {n x : EVoxel} (hn : c g = some n)
    (hx : x.parent = n.parent) (h : ∀ g', c' g' = if g' = g then some x else c g') : parents S c' = parents S c := by
  unfold parents
  congr 1
  refine Finset.filter_congr fun g' _ => ?_
  rw [h]
  split_ifs with e
  · rw [e, hn]
    simp [hx]
  · rfl

/-- The effect of one neighbour of the raise loop. -/
def RaiseMoved (cfg : Config) (L : Limits) (k off : Idx) (s : State) (es : List (ℕ × Idx)) (s' : State) (es' : List (ℕ × Idx)) : Prop :=
  ∃ n, content s.layer k = some n ∧ n.observed = true ∧ n.fixed = false ∧
    ((isParent cfg n.parent off = true ∧ es' = es ∧ s'.raise = s.raise ++ [k] ∧ (∀ g, content s'.layer g = if g = k then
        some ⟨withSign n.distance cfg.defaultDistance, true, n.hallucinated, n.inQueue, false, 0⟩ else content s.layer g)) ∨
     (isParent cfg n.parent off = false ∧ n.inQueue = false ∧ es' = insertStable (bucketOf L.n L.mx n.distance) k es ∧ s'.raise = s.raise ∧
        (∀ g, content s'.layer g = if g = k then some ⟨n.distance, true, n.hallucinated, true, false, n.parent⟩ else content s.layer g)))

theorem raiseNeighbor_ok {A : Flt} {cfg : Config} {L : Limits} (F : Fits A cfg L) {S : Finset Idx} {es : List (ℕ × Idx)} {s : State}
    (G : Good A L S es s) {g : Idx} (hg : g ∈ S) {off : Idx} (ho : off ∈ kOffsets) :
    ∃ s' es', raiseNeighbor cfg g s off = .ok s' ∧ Good A L S es' s' ∧ Frame s s' ∧
      ((s' = s ∧ es' = es) ∨ (g + off ∈ S ∧ RaiseMoved cfg L (g + off) off s es s' es')) := by
  unfold raiseNeighbor
  rw [getVoxel_ok G.wf G.power (neighbor_range (G.range g hg) ho)]
  simp only [Outcome.bind_ok]
  cases hc : content s.layer (g + off) with
  | none => exact ⟨s, es, rfl, G, Frame.refl s, Or.inl ⟨rfl, rfl⟩⟩
  | some n =>
    simp only
    have hk : g + off ∈ S := (G.dom _).1 (by rw [hc]; rfl)
    have hn := G.vals _ _ hc
    by_cases h1 : (!n.observed || n.fixed) = true
    · rw [if_pos h1]
      exact ⟨s, es, rfl, G, Frame.refl s, Or.inl ⟨rfl, rfl⟩⟩
    rw [if_neg h1]
    have ho : n.observed = true := by cases h : n.observed <;> simp [h] at h1 ⊢
    have hf : n.fixed = false := by cases h : n.fixed <;> simp [h] at h1 ⊢
    by_cases h2 : isParent cfg n.parent off = true
    · rw [if_pos h2]
      obtain ⟨l', w1, w2, w3⟩ := G.write hk
        ⟨withSign n.distance cfg.defaultDistance, n.observed, n.hallucinated, n.inQueue, n.fixed, 0⟩
        ⟨rep_withSign F.R _ F.default_rep, (abs_withSign_le _ F.default_nonneg).trans F.default_le⟩
      obtain ⟨w4, w5⟩ := w3 (s.raise ++ [g + off]) s.open_ es G.queue G.queued
      rw [w1]
      rw [ho, hf] at w2
      exact ⟨_, es, rfl, w4, w5, Or.inr ⟨hk, n, hc, ho, hf, Or.inl ⟨h2, rfl, rfl, w2⟩⟩⟩
    · rw [if_neg h2]
      by_cases h3 : n.inQueue = true
      · rw [if_pos h3]
        exact ⟨s, es, rfl, G, Frame.refl s, Or.inl ⟨rfl, rfl⟩⟩
      · rw [if_neg h3]
        obtain ⟨q', p1, p2⟩ := push_ok G.queue (g + off) (F.bucket hn.2)
        rw [p1]
        simp only [Outcome.bind_ok]
        obtain ⟨l', w1, w2, w3⟩ := G.write hk ⟨n.distance, n.observed, n.hallucinated, true, n.fixed, n.parent⟩ hn
        obtain ⟨w4, w5⟩ := w3 s.raise q' _ p2 (by
          intro e' he'
          rcases mem_insertStable.1 he' with h | h
          · rw [h]; exact hk
          · exact G.queued _ h)
        rw [w1]
        rw [ho, hf] at w2
        exact ⟨_, _, rfl, w4, w5, Or.inr ⟨hk, n, hc, ho, hf,
          Or.inr ⟨by simpa using h2, by simpa using h3, rfl, rfl, w2⟩⟩⟩

/-- The raise loop ends with an empty raise queue and keeps every property that survives its steps. -/
theorem processRaise_ok {A : Flt} {cfg : Config} {L : Limits} (F : Fits A cfg L) {S : Finset Idx}
    (P : State → List (ℕ × Idx) → Prop)
    (hpop : ∀ s es g rest, s.raise = g :: rest → P s es → P ⟨s.layer, s.open_, rest, s.updated⟩ es)
    (hmove : ∀ s es s' es' k off, Good A L S es s → off ∈ kOffsets → k ∈ S → P s es → RaiseMoved cfg L k off s es s' es' → P s' es') :
    ∀ es s, Good A L S es s → (∀ g ∈ s.raise, g ∈ S) → P s es →
      ∃ N s' es', (∀ fuel, N ≤ fuel → processRaise cfg fuel s = .ok (some s')) ∧ Good A L S es' s' ∧ Frame s s' ∧ s'.raise = [] ∧
        P s' es' := by
  have key : ∀ m es s, s.raise.length + parents S (content s.layer) = m → Good A L S es s → (∀ g ∈ s.raise, g ∈ S) → P s es →
      ∃ N s' es', (∀ fuel, N ≤ fuel → processRaise cfg fuel s = .ok (some s')) ∧ Good A L S es' s' ∧ Frame s s' ∧ s'.raise = [] ∧
        P s' es' := by
    intro m
    induction m using Nat.strong_induction_on with
    | _ m ih =>
      intro es s hm G hr p
      cases hrs : s.raise with
      | nil =>
        refine ⟨1, s, es, ?_, G, Frame.refl s, hrs, p⟩
        intro fuel hf
        obtain ⟨k, rfl⟩ : ∃ k, fuel = k + 1 := ⟨fuel - 1, by omega⟩
        unfold processRaise
        rw [hrs]
      | cons g rest =>
        have hg : g ∈ S := hr g (by rw [hrs]; simp)
        have G0 : Good A L S es ⟨s.layer, s.open_, rest, s.updated⟩ := ⟨G.wf, G.power, G.dom, G.range, G.vals, G.queue, G.queued⟩
        obtain ⟨v, hv⟩ := Option.isSome_iff_exists.1 ((G.dom g).2 hg)
        obtain ⟨s1, h1, es1, h2, h3, h4, h5, h6⟩ := foldlM_inv
          (P := fun s1 => ∃ es1, Good A L S es1 s1 ∧ Frame s s1 ∧ P s1 es1 ∧ (∀ k ∈ s1.raise, k ∈ S) ∧
            s1.raise.length + parents S (content s1.layer) ≤ rest.length + parents S (content s.layer))
          kOffsets (f := raiseNeighbor cfg g) (by
          rintro s1 off ho ⟨es1, g1, f1, p1, r1, l1⟩
          obtain ⟨s2, es2, a1, a2, a3, a4⟩ := raiseNeighbor_ok F g1 hg ho
          refine ⟨s2, a1, es2, a2, f1.trans a3, ?_⟩
          rcases a4 with ⟨rfl, rfl⟩ | ⟨hk, a4⟩
          · exact ⟨p1, r1, l1⟩
          · refine ⟨hmove s1 es1 s2 es2 _ off g1 ho hk p1 a4, ?_⟩
            obtain ⟨n, m1, m2, m3, m4⟩ := a4
            rcases m4 with ⟨m4, m5, m6, m7⟩ | ⟨m4, -, m5, m6, m7⟩
            · refine ⟨?_, ?_⟩
              · intro k hk'
                rw [m6, List.mem_append, List.mem_singleton] at hk'
                rcases hk' with h | h
                · exact r1 k h
                · rw [h]; exact hk
              · have := parents_reset hk m1 (isParent_ne ho m4) rfl m7
                rw [m6, List.length_append, List.length_singleton]
                omega
            · refine ⟨by rw [m6]; exact r1, ?_⟩
              have := parents_keep (S := S) (x := ⟨n.distance, true, n.hallucinated, true, false, n.parent⟩) m1 rfl m7
              rw [m6, this]
              exact l1) ⟨s.layer, s.open_, rest, s.updated⟩
          ⟨es, G0, ⟨rfl, fun _ => rfl, rfl, rfl⟩, hpop s es g rest hrs p, fun k hk => hr k (by rw [hrs]; simp [hk]), le_refl _⟩
        obtain ⟨N, s', es', k1, k2, k3, k4, k5⟩ := ih _ (by rw [← hm, hrs, List.length_cons]; omega) es1 s1 rfl h2 h5 h4
        refine ⟨N + 1, s', es', ?_, k2, h3.trans k3, k4, k5⟩
        intro fuel hf
        obtain ⟨k, rfl⟩ : ∃ k, fuel = k + 1 := ⟨fuel - 1, by omega⟩
        unfold processRaise
        rw [hrs]
        simp only [raiseStep, getVoxel_ok G.wf G.power (inner_range (G.range g hg)), hv, Outcome.bind_ok, h1]
        exact k1 k (by omega)
  intro es s G hr p
  exact key _ es s rfl G hr p

/-! ### What propagation keeps -/

/-- A voxel keeps its observed, hallucinated and fixed state and its side of the surface; if fixed, also distance and
parent. -/
structure KeptVoxel (a b : EVoxel) : Prop where
  observed : b.observed = a.observed
  hallucinated : b.hallucinated = a.hallucinated
  fixed : b.fixed = a.fixed
  value : a.fixed = true → b.distance = a.distance ∧ b.parent = a.parent
  outside : 0 ≤ a.distance → 0 ≤ b.distance
  inside : a.distance ≤ 0 → b.distance ≤ 0

/-- The same voxels, each kept. -/
def Kept (c c' : Idx → Option EVoxel) : Prop :=
  ∀ g, (c g = none ∧ c' g = none) ∨ ∃ a b, c g = some a ∧ c' g = some b ∧ KeptVoxel a b

theorem KeptVoxel.refl (a : EVoxel) : KeptVoxel a a := ⟨rfl, rfl, rfl, fun _ => ⟨rfl, rfl⟩, id, id⟩

theorem KeptVoxel.trans {a b c : EVoxel} (h : KeptVoxel a b) (k : KeptVoxel b c) : KeptVoxel a c :=
  ⟨k.observed.trans h.observed, k.hallucinated.trans h.hallucinated, k.fixed.trans h.fixed,
    fun f => ⟨(k.value (h.fixed.trans f)).1.trans (h.value f).1, (k.value (h.fixed.trans f)).2.trans (h.value f).2⟩,
    fun p => k.outside (h.outside p), fun p => k.inside (h.inside p)⟩

theorem Kept.refl (c : Idx → Option EVoxel) : Kept c c := by
  intro g
  cases h : c g with
  | none => exact Or.inl ⟨rfl, rfl⟩
  | some a => exact Or.inr ⟨a, a, rfl, rfl, KeptVoxel.refl a⟩

theorem Kept.update {c c1 c2 : Idx → Option EVoxel} (h : Kept c c1) {k : Idx} {n x : EVoxel} (hn : c1 k = some n)
    (e : ∀ g, c2 g = if g = k then some x else c1 g) (hx : KeptVoxel n x) : Kept c c2 := by
  intro g
  rw [e]
  by_cases hg : g = k
  · rw [if_pos hg]
    rcases h g with ⟨h1, h2⟩ | ⟨a, b, h1, h2, h3⟩
    · rw [hg, hn] at h2; cases h2
    · rw [hg, hn] at h2
      injection h2 with h2
      exact Or.inr ⟨a, x, h1, rfl, h3.trans (h2 ▸ hx)⟩
  · rw [if_neg hg]
    exact h g

theorem relaxDistance_sign {A : Flt} {u : ℚ} (R : Rounding A u) {cfg : Config} (hm : 0 ≤ cfg.minDiff) {v n d x : ℚ} (hd0 : 0 ≤ d)
    (h : relaxDistance A cfg v n d = some x) : (0 ≤ n → 0 ≤ x) ∧ (n ≤ 0 → x ≤ 0) := by
  unfold relaxDistance at h
  by_cases c1 : 0 < v ∧ 0 < n
  · rw [if_pos c1] at h
    split_ifs at h with c2
    have e : A.rnd (v + d) = x := by simpa using h
    have : 0 ≤ x := e ▸ R.ge_of_ge (by linarith) R.zero
    exact ⟨fun _ => this, fun hn => by linarith⟩
  rw [if_neg c1] at h
  by_cases c3 : v ≤ 0 ∧ n ≤ 0
  · rw [if_pos c3] at h
    split_ifs at h with c2
    have e : A.rnd (v - d) = x := by simpa using h
    have hx : x ≤ 0 := e ▸ R.le_of_le (by linarith) R.zero
    refine ⟨fun hn => ?_, fun _ => hx⟩
    have : A.rnd (x - cfg.minDiff) ≤ x := R.le_of_le (by linarith) (e ▸ R.rep _)
    rw [e] at c2
    linarith
  rw [if_neg c3] at h
  simp only at h
  split_ifs at h with c4 c5
  · have e : A.rnd (v - withSign v d) = x := by simpa using h
    rw [e] at c5
    rcases signum_cases x with ⟨h6, e6⟩ | ⟨h6, e6⟩ | ⟨h6, e6⟩ <;> rw [e6] at c5 <;> push_cast at c5 <;>
      exact ⟨fun _ => by linarith, fun _ => by linarith⟩
  · have e : withSign n d = x := by simpa using h
    rw [← e]
    unfold withSign
    rcases signum_cases n with ⟨h6, e6⟩ | ⟨h6, e6⟩ | ⟨h6, e6⟩ <;> rw [e6] <;> push_cast <;>
      exact ⟨fun _ => by linarith, fun _ => by linarith⟩

theorem withSign_sign (x : ℚ) {c : ℚ} (hc : 0 ≤ c) : (0 ≤ x → 0 ≤ withSign x c) ∧ (x ≤ 0 → withSign x c ≤ 0) := by
  unfold withSign
  rcases signum_cases x with ⟨h6, e6⟩ | ⟨h6, e6⟩ | ⟨h6, e6⟩ <;> rw [e6] <;> push_cast <;>
    exact ⟨fun _ => by linarith, fun _ => by linarith⟩

end Vox.Esdf
