/-
Copying TSDF voxels into the ESDF, and the whole update.
-/
import Verif.Lemmas.EsdfRaise
import Verif.Props.Index
import Mathlib.Data.Finset.Prod

namespace Vox.Esdf

open Layer Grid Spec

variable {A : Flt} {cfg : Config} {L : Limits}

/-! ### Both loops keep the fixed voxels -/

theorem kept_moved (F : Fits A cfg L) {c0 : Idx → Option EVoxel} {v : EVoxel} {size : ℚ} (hs : 0 ≤ size) {k : Idx} {e : Idx × ℚ}
    (he : e ∈ neighborTable) {s s' : State} {es es' : List (ℕ × Idx)} (hk : Kept c0 (content s.layer))
    (h : Moved A cfg L v size k e s es s' es') : Kept c0 (content s'.layer) := by
  obtain ⟨n, x, p, d, h1, h2, h3, h4, h5, h6, -, -⟩ := h
  obtain ⟨d1, d2⟩ := stepTo_ok F.R hs (table_pos he) h4
  obtain ⟨x1, x2⟩ := relaxDistance_sign F.R F.minDiff d2 h5
  refine hk.update h1 h6 ⟨h2.symm, rfl, h3.symm, fun f => ?_, x1, x2⟩
  rw [h3] at f
  cases f

theorem kept_raiseMoved (F : Fits A cfg L) {c0 : Idx → Option EVoxel} {k off : Idx} {s s' : State} {es es' : List (ℕ × Idx)}
    (hk : Kept c0 (content s.layer)) (h : RaiseMoved cfg L k off s es s' es') : Kept c0 (content s'.layer) := by
  obtain ⟨n, h1, h2, h3, h4⟩ := h
  have hf : ∀ {P : Prop}, n.fixed = true → P := fun f => by rw [h3] at f; cases f
  rcases h4 with ⟨-, -, -, h4⟩ | ⟨-, -, -, -, h4⟩
  · obtain ⟨x1, x2⟩ := withSign_sign n.distance F.default_nonneg
    exact hk.update h1 h4 ⟨h2.symm, rfl, h3.symm, fun f => hf f, x1, x2⟩
  · exact hk.update h1 h4 ⟨h2.symm, rfl, h3.symm, fun f => hf f, id, id⟩

/-! ### A state whose queues only hold allocated voxels -/

/-- A consistent state: the queues hold allocated voxels only. -/
def Ready (A : Flt) (L : Limits) (es : List (ℕ × Idx)) (s : State) : Prop :=
  ∃ S, Good A L S es s ∧ ∀ g ∈ s.raise, g ∈ S

/-- The two loops one after the other. -/
theorem propagate_ok (F : Fits A cfg L) {es : List (ℕ × Idx)} {s : State} (h : Ready A L es s) :
    ∃ N s', (∀ fuel, N ≤ fuel → (do
        let s? ← processRaise cfg fuel s
        match s? with
        | none => pure none
        | some s => processOpen A cfg fuel s) = .ok (some s')) ∧
      Ready A L [] s' ∧ Frame s s' ∧ s'.raise = [] ∧ Kept (content s.layer) (content s'.layer) := by
  obtain ⟨S, G, hr⟩ := h
  obtain ⟨N1, s1, es1, a1, a2, a3, a4, a5⟩ := processRaise_ok F (S := S) (fun s1 _ => Kept (content s.layer) (content s1.layer))
    (fun _ _ _ _ _ p => p) (fun _ _ _ _ _ _ _ _ _ p m => kept_raiseMoved F p m) es s G hr (Kept.refl _)
  obtain ⟨N2, s2, b1, b2, b3, b4, b5⟩ := processOpen_ok F (S := S)
    (fun s2 _ => Kept (content s.layer) (content s2.layer) ∧ s2.raise = [])
    (fun s b g es s1 v _ p hv _ r e => ⟨p.1.update hv e ⟨rfl, rfl, rfl, fun _ => ⟨rfl, rfl⟩, id, id⟩, r.trans p.2⟩)
    (fun s g s1 es1 s2 es2 e v hv he f G1 p _ m => by
      have hs : 0 ≤ s.layer.cfg.voxelSize := by rw [← f.cfg]; exact G1.wf.size_pos.le
      refine ⟨kept_moved F hs he p.1 m, ?_⟩
      obtain ⟨n, x, pp, d, -, -, -, -, -, -, -, m8⟩ := m
      exact m8.trans p.2) es1 s1 a2 ⟨a5, a4⟩
  refine ⟨max N1 N2, s2, ?_, ⟨S, b2, by rw [b5]; simp⟩, a3.trans b3, b5, b4⟩
  intro fuel hf
  rw [a1 fuel (by omega)]
  simp only [Outcome.bind_ok]
  exact b1 fuel (by omega)

/-! ### A voxel initialised from its neighbours -/

/-- Bounds for the copy from the TSDF: a distance taken from a neighbour (with an unscaled step) is within the limit. -/
structure CopyFits (A : Flt) (cfg : Config) (L : Limits) : Prop extends Fits A cfg L where
  near : A.rnd (cfg.maxDistance + 14529495 / 8388608) ≤ L.B

theorem table_le {e : Idx × ℚ} (he : e ∈ neighborTable) : e.2 ≤ 14529495 / 8388608 := by
  have : ∀ e ∈ neighborTable, e.2 ≤ 14529495 / 8388608 := by decide +kernel
  exact this e he

theorem fromNeighbor_ok (F : CopyFits A cfg L) {v n w : EVoxel} {e : Idx × ℚ} (he : e ∈ neighborTable)
    (h : fromNeighbor A cfg v n e = some w) :
    (Rep A w.distance ∧ |w.distance| ≤ L.B) ∧ w.fixed = v.fixed ∧ (0 ≤ v.distance → 0 ≤ w.distance) ∧
      (v.distance ≤ 0 → w.distance ≤ 0) := by
  unfold fromNeighbor at h
  split_ifs at h with h1 h2 h3
  have ew : (⟨A.rnd (n.distance + withSign v.distance e.2), v.observed, v.hallucinated, v.inQueue, v.fixed, -e.1⟩ : EVoxel) = w := by
    simpa using h
  subst ew
  simp only [Bool.or_eq_true, decide_eq_true_eq, not_or, not_le] at h1
  have k0 := (table_pos he).le
  have k1 := table_le he
  have hb := abs_withSign_le v.distance k0
  have hs := withSign_sign v.distance k0
  have hn : |n.distance + withSign v.distance e.2| ≤ cfg.maxDistance + 14529495 / 8388608 := by
    rw [abs_le] at hb ⊢
    constructor <;> linarith [hb.1, hb.2, h1.1.2, h1.2]
  refine ⟨⟨F.R.rep _, ?_⟩, rfl, ?_, ?_⟩
  · refine le_trans ?_ F.near
    rw [abs_le] at hn ⊢
    refine ⟨?_, F.R.mono _ _ hn.2⟩
    rw [← F.R.odd]
    exact F.R.mono _ _ hn.1
  · intro hv
    refine F.R.ge_of_ge ?_ F.R.zero
    have := hs.1 hv
    have hn0 : 0 ≤ n.distance := by
      rcases signum_cases n.distance with ⟨a, b⟩ | ⟨a, b⟩ | ⟨a, b⟩
      · rcases signum_cases v.distance with ⟨c, d⟩ | ⟨c, d⟩ | ⟨c, d⟩
        · linarith
        · rw [b, d] at h2; cases h2
        · rw [b, d] at h2; cases h2
      · exact a.ge
      · exact a.le
    linarith
  · intro hv
    refine F.R.le_of_le ?_ F.R.zero
    have := hs.2 hv
    have hn0 : n.distance ≤ 0 := by
      rcases signum_cases n.distance with ⟨a, b⟩ | ⟨a, b⟩ | ⟨a, b⟩
      · exact a.le
      · exact a.le
      · rcases signum_cases v.distance with ⟨c, d⟩ | ⟨c, d⟩ | ⟨c, d⟩
        · rw [b, d] at h2; cases h2
        · rw [b, d] at h2; cases h2
        · linarith
    linarith

theorem fromNeighbors_ok (F : CopyFits A cfg L) {S : Finset Idx} {es : List (ℕ × Idx)} {s : State} (G : Good A L S es s) {g : Idx}
    (hg : g ∈ S) (v : EVoxel) : ∀ tbl : List (Idx × ℚ), (∀ e ∈ tbl, e ∈ neighborTable) →
    ∃ r, fromNeighbors A cfg s.layer g v tbl = .ok r ∧ ∀ w, r = some w →
      (Rep A w.distance ∧ |w.distance| ≤ L.B) ∧ w.fixed = v.fixed ∧ (0 ≤ v.distance → 0 ≤ w.distance) ∧
      (v.distance ≤ 0 → w.distance ≤ 0)
  | [], _ => ⟨none, rfl, by simp⟩
  | e :: rest, h => by
    unfold fromNeighbors
    rw [getVoxel_ok G.wf G.power (neighbor_range (G.range g hg) (table_offset (h e (by simp))))]
    simp only [Outcome.bind_ok]
    cases hc : (content s.layer (g + e.1)).bind fun n => fromNeighbor A cfg v n e with
    | none => exact fromNeighbors_ok F G hg v rest fun e' he' => h e' (by simp [he'])
    | some w =>
      refine ⟨some w, rfl, fun w' hw' => ?_⟩
      injection hw' with hw'
      subst hw'
      obtain ⟨n, -, hn⟩ := Option.bind_eq_some_iff.1 hc
      exact fromNeighbor_ok F (h e (by simp)) hn

/-! ### One voxel -/

/-- What copying an observed TSDF distance `t` does to a voxel `x`. -/
structure Copied (A : Flt) (cfg : Config) (incremental : Bool) (t : ℚ) (x y : EVoxel) : Prop where
  observed : y.observed = true
  hallucinated : y.hallucinated = false
  plain : (seed A cfg incremental t x).neighbors = false →
    y.distance = (seed A cfg incremental t x).voxel.distance ∧ y.fixed = (seed A cfg incremental t x).voxel.fixed
  near : (seed A cfg incremental t x).neighbors = true → y.fixed = false ∧ (0 ≤ t → 0 ≤ y.distance) ∧ (t ≤ 0 → y.distance ≤ 0)

theorem seed_rep (F : CopyFits A cfg L) (incremental : Bool) {t : ℚ} (ht : isFixed cfg t = true → Rep A t ∧ |t| ≤ L.B) {x : EVoxel}
    (hx : Rep A x.distance ∧ |x.distance| ≤ L.B) :
    Rep A (seed A cfg incremental t x).voxel.distance ∧ |(seed A cfg incremental t x).voxel.distance| ≤ L.B := by
  have hd : Rep A (withSign t cfg.defaultDistance) ∧ |withSign t cfg.defaultDistance| ≤ L.B :=
    ⟨rep_withSign F.R _ F.default_rep, (abs_withSign_le _ F.default_nonneg).trans F.default_le⟩
  unfold seed seedNew seedOld
  split_ifs with h1 h2 h3 h4 h5 h6 h7 h8
  · exact ht h2
  · exact hd
  · exact hd
  · exact ht (by simpa using h4)
  · exact ht (by simpa using h4)
  · exact hx
  · exact hd
  · exact hd
  · exact hx

theorem seed_near {incremental : Bool} {t : ℚ} {x : EVoxel} (h : (seed A cfg incremental t x).neighbors = true) :
    incremental = true ∧ (seed A cfg incremental t x).voxel.fixed = false ∧
      (seed A cfg incremental t x).voxel.distance = withSign t cfg.defaultDistance := by
  unfold seed seedNew seedOld at h ⊢
  split_ifs at h ⊢
  exact ⟨h, rfl, rfl⟩

theorem seedNeighbors_ok (F : CopyFits A cfg L) {S : Finset Idx} {es : List (ℕ × Idx)} {s : State} (G : Good A L S es s) {g : Idx}
    (hg : g ∈ S) {incremental : Bool} {t : ℚ} (ht : isFixed cfg t = true → Rep A t ∧ |t| ≤ L.B) {x : EVoxel}
    (hx : Rep A x.distance ∧ |x.distance| ≤ L.B) :
    ∃ y, seedNeighbors A cfg s.layer g (seed A cfg incremental t x) = .ok y ∧ (Rep A y.1.distance ∧ |y.1.distance| ≤ L.B) ∧
      ∀ z, z.distance = y.1.distance → z.fixed = y.1.fixed → z.observed = true → z.hallucinated = false →
        Copied A cfg incremental t x z := by
  have hr := seed_rep F incremental ht hx
  unfold seedNeighbors
  split_ifs with h1
  · obtain ⟨-, n2, n3⟩ := seed_near h1
    have hs := withSign_sign t F.default_nonneg
    rw [← n3] at hs
    obtain ⟨v, hv⟩ := Option.isSome_iff_exists.1 ((G.dom g).2 hg)
    unfold updateFromNeighbors
    rw [getVoxel_ok G.wf G.power (inner_range (G.range g hg)), hv]
    obtain ⟨r, r1, r2⟩ := fromNeighbors_ok F G hg (seed A cfg incremental t x).voxel neighborTable fun _ => id
    simp only [Outcome.bind_ok, r1]
    cases r with
    | none =>
      refine ⟨_, rfl, hr, fun z z1 z2 z3 z4 => ⟨z3, z4, fun h => ?_, fun _ => ⟨?_, ?_, ?_⟩⟩⟩
      · rw [h1] at h; cases h
      · rw [z2]; exact n2
      · rw [z1]; exact hs.1
      · rw [z1]; exact hs.2
    | some w =>
      obtain ⟨w1, w2, w3, w4⟩ := r2 w rfl
      refine ⟨_, rfl, w1, fun z z1 z2 z3 z4 => ⟨z3, z4, fun h => ?_, fun _ => ⟨?_, ?_, ?_⟩⟩⟩
      · rw [h1] at h; cases h
      · rw [z2]; exact w2.trans n2
      · rw [z1]; exact fun h => w3 (hs.1 h)
      · rw [z1]; exact fun h => w4 (hs.2 h)
  · refine ⟨_, rfl, hr, fun z z1 z2 z3 z4 => ⟨z3, z4, fun _ => ⟨z1, z2⟩, fun h => absurd h h1⟩⟩

theorem Good.writeBlock {S : Finset Idx} {es : List (ℕ × Idx)} {s : State} (G : Good A L S es s) {i v : Idx} (hi : Allocated s.layer i)
    (hv : InBlock s.layer.cfg.vps v) (y : EVoxel) (hy : Rep A y.distance ∧ |y.distance| ≤ L.B) :
    globalIndex s.layer.cfg.vps i v ∈ S ∧ ∃ l', writeVoxel s.layer i v y = .ok l' ∧
      (∀ g, content l' g = if g = globalIndex s.layer.cfg.vps i v then some y else content s.layer g) ∧
      ∀ r q es' u, BQueue.Rel q ⟨L.n, L.mx, es'⟩ → (∀ e ∈ es', e.2 ∈ S) →
        Good A L S es' ⟨l', q, r, u⟩ ∧ (u = s.updated → Frame s ⟨l', q, r, u⟩) ∧ l'.cfg = s.layer.cfg ∧
          (∀ j, status l' j = status s.layer j) := by
  have hg : globalIndex s.layer.cfg.vps i v ∈ S := (G.dom _).1 ((allocated_iff_content G.wf hv).1 hi)
  obtain ⟨l', w1, w2, w3, w4, w5, w6⟩ := writeVoxel_ok G.wf hv hi y
  refine ⟨hg, l', w1, w4, fun r q es' u hq he => ⟨⟨w3, ?_, ?_, G.range, ?_, hq, he⟩, fun h => ⟨w2, w5, w6, h⟩, w2, w5⟩⟩
  · obtain ⟨k, hk, e⟩ := G.power
    exact ⟨k, hk, by rw [w2]; exact e⟩
  · intro g
    show (content l' g).isSome = true ↔ _
    rw [w4]
    split_ifs with h
    · rw [h]; simp [hg]
    · exact G.dom g
  · intro g z hz
    change content l' g = some z at hz
    rw [w4] at hz
    split_ifs at hz
    · injection hz with hz
      exact hz ▸ hy
    · exact G.vals g z hz

theorem copyVoxel_ok (F : CopyFits A cfg L) {es : List (ℕ × Idx)} {s : State} (h : Ready A L es s) {i v : Idx}
    (hi : Allocated s.layer i) (hv : InBlock s.layer.cfg.vps v) (incremental : Bool) {t : ℚ}
    (ht : isFixed cfg t = true → Rep A t ∧ |t| ≤ L.B) :
    ∃ s' es' x y, copyVoxel A cfg incremental i v t s = .ok s' ∧ Ready A L es' s' ∧ Frame s s' ∧
      content s.layer (globalIndex s.layer.cfg.vps i v) = some x ∧ Copied A cfg incremental t x y ∧
      ∀ g, content s'.layer g = if g = globalIndex s.layer.cfg.vps i v then some y else content s.layer g := by
  obtain ⟨S, G, hr⟩ := h
  obtain ⟨x, x1, x2⟩ := readVoxel_ok G.wf hv hi
  have hg : globalIndex s.layer.cfg.vps i v ∈ S := (G.dom _).1 (by rw [x2]; rfl)
  obtain ⟨y, y1, y2, y3⟩ := seedNeighbors_ok F G hg (incremental := incremental) ht (G.vals _ _ x2)
  have hq : ∃ q es', pushIf s.open_ y.2 (globalIndex s.layer.cfg.vps i v) y.1.distance = .ok q ∧ BQueue.Rel q ⟨L.n, L.mx, es'⟩ ∧
      ∀ e ∈ es', e.2 ∈ S := by
    unfold pushIf
    split_ifs
    · obtain ⟨q', p1, p2⟩ := push_ok G.queue (globalIndex s.layer.cfg.vps i v) (F.toFits.bucket y2.2)
      refine ⟨q', _, p1, p2, ?_⟩
      intro e' he'
      rcases mem_insertStable.1 he' with h | h
      · rw [h]; exact hg
      · exact G.queued _ h
    · exact ⟨_, es, rfl, G.queue, G.queued⟩
  obtain ⟨q, es', q1, q2, q3⟩ := hq
  obtain ⟨-, l', w1, w2, w3⟩ := G.writeBlock hi hv
    ⟨y.1.distance, true, false, y.1.inQueue, y.1.fixed, y.1.parent⟩ y2
  obtain ⟨g1, g2, -⟩ := w3 (if (seed A cfg incremental t x).raise then s.raise ++ [globalIndex s.layer.cfg.vps i v] else s.raise) q es'
    s.updated q2 q3
  refine ⟨_, es', x, ⟨y.1.distance, true, false, y.1.inQueue, y.1.fixed, y.1.parent⟩, ?_, ⟨S, g1, ?_⟩, g2 rfl, x2, y3 _ rfl rfl rfl rfl, w2⟩
  · unfold copyVoxel
    simp only [x1, y1, q1, w1, Outcome.bind_ok]
    rfl
  · intro g hg'
    simp only at hg'
    split_ifs at hg'
    · rcases List.mem_append.1 hg' with h | h
      · exact hr g h
      · rw [List.mem_singleton.1 h]; exact hg
    · exact hr g hg'

/-! ### Blocks -/

/-- The TSDF layer an ESDF with side `n` is updated from: voxels in range, distances in the fixed band representable. -/
structure TsdfFits (A : Flt) (cfg : Config) (L : Limits) (n : ℕ) (tsdf : VLayer (TsdfVoxel ℚ)) : Prop where
  wf : WellFormed tsdf
  vps : tsdf.cfg.vps = n
  range : ∀ g, (content tsdf g).isSome = true → Inner g
  vals : ∀ g t, content tsdf g = some t → isFixed cfg t.distance = true → Rep A t.distance ∧ |t.distance| ≤ L.B

/-- What processing a TSDF voxel `t` does to the ESDF voxel `x`. -/
def VoxelCopied (A : Flt) (cfg : Config) (incremental : Bool) (t : TsdfVoxel ℚ) (x y : EVoxel) : Prop :=
  if t.weight < cfg.minWeight then
    y = if !incremental && cfg.addOccupiedCrust then
      ⟨-cfg.defaultDistance, true, true, x.inQueue, false, x.parent⟩ else x
  else Copied A cfg incremental t.distance x y

theorem crustVoxel_ok (F : CopyFits A cfg L) {es : List (ℕ × Idx)} {s : State} (h : Ready A L es s) {i v : Idx}
    (hi : Allocated s.layer i) (hv : InBlock s.layer.cfg.vps v) (incremental : Bool) :
    ∃ s' x, crustVoxel cfg incremental i v s = .ok s' ∧ Ready A L es s' ∧ Frame s s' ∧
      content s.layer (globalIndex s.layer.cfg.vps i v) = some x ∧
      ∀ g, content s'.layer g = if g = globalIndex s.layer.cfg.vps i v then some (if !incremental && cfg.addOccupiedCrust then
        ⟨-cfg.defaultDistance, true, true, x.inQueue, false, x.parent⟩ else x) else content s.layer g := by
  obtain ⟨S, G, hr⟩ := h
  obtain ⟨x, x1, x2⟩ := readVoxel_ok G.wf hv hi
  unfold crustVoxel
  split_ifs with h1
  · obtain ⟨-, l', w1, w2, w3⟩ := G.writeBlock hi hv ⟨-cfg.defaultDistance, true, true, x.inQueue, false, x.parent⟩
      ⟨F.R.rep_neg F.default_rep, by
        simp only [abs_neg, abs_of_nonneg F.default_nonneg]
        exact F.default_le⟩
    obtain ⟨g1, g2, -⟩ := w3 s.raise s.open_ es s.updated G.queue G.queued
    refine ⟨_, x, ?_, ⟨S, g1, hr⟩, g2 rfl, x2, w2⟩
    simp only [x1, w1, Outcome.bind_ok]
    rfl
  · refine ⟨s, x, rfl, ⟨S, G, hr⟩, Frame.refl s, x2, ?_⟩
    intro g
    split_ifs with h2
    · rw [h2, x2]
    · rfl

/-- A TSDF voxel by its linear index. -/
theorem tsdf_linear {V : Type} {tsdf : VLayer V} (wf : WellFormed tsdf) {i : Idx} {b : Block ℚ V}
    (hb : block? tsdf i = some b) {lin : ℕ} (hl : lin < b.voxels.length) :
    ∃ t v, voxelAt b lin = .ok t ∧ voxelIndexFromLinear b.vps lin = .ok v ∧ InBlock tsdf.cfg.vps v ∧
      linearIndex tsdf.cfg.vps v = lin ∧ content tsdf (globalIndex tsdf.cfg.vps i v) = some t := by
  obtain ⟨h1, -, -, h4⟩ := wf.block _ _ hb
  have hn : numVoxels tsdf.cfg.vps ≤ 2 ^ 31 := by
    unfold numVoxels
    have := wf.side_le
    calc tsdf.cfg.vps * tsdf.cfg.vps * tsdf.cfg.vps ≤ 1290 * 1290 * 1290 := Nat.mul_le_mul (Nat.mul_le_mul this this) this
      _ ≤ 2 ^ 31 := by norm_num
  obtain ⟨v, v1, v2, v3⟩ := Props.C01_linear_to_voxel_to_linear (vps := tsdf.cfg.vps) hn (l := lin) (by
    unfold isValidLinearIndex numVoxels
    rw [h4] at hl
    simp [hl])
  refine ⟨b.voxels[lin], v, ?_, by rw [h1]; exact v1, v2, v3, ?_⟩
  · unfold voxelAt
    rw [List.getElem?_eq_getElem hl]
  · rw [content_eq wf, blockOf_globalIndex v2, localOf_globalIndex v2, hb, v3]
    simp [List.getElem?_eq_getElem hl]

/-- Linear position of a voxel in its block. -/
def linOf (n : ℕ) (g : Idx) : ℕ := linearIndex n (localOf n g)

theorem tsdfVoxel_ok (F : CopyFits A cfg L) {es : List (ℕ × Idx)} {s : State} (h : Ready A L es s) {tsdf : VLayer (TsdfVoxel ℚ)}
    (T : TsdfFits A cfg L s.layer.cfg.vps tsdf) {i : Idx} {b : Block ℚ (TsdfVoxel ℚ)} (hb : block? tsdf i = some b)
    (hi : Allocated s.layer i) (incremental : Bool) {lin : ℕ} (hl : lin < b.voxels.length) :
    ∃ s' es' g t x y, tsdfVoxel A cfg incremental i b s lin = .ok s' ∧ Ready A L es' s' ∧ Frame s s' ∧
      blockOf s.layer.cfg.vps g = i ∧ linOf s.layer.cfg.vps g = lin ∧ content tsdf g = some t ∧ content s.layer g = some x ∧
      VoxelCopied A cfg incremental t x y ∧ ∀ g', content s'.layer g' = if g' = g then some y else content s.layer g' := by
  obtain ⟨t, v, t1, t2, t3, t4, t5⟩ := tsdf_linear T.wf hb hl
  rw [T.vps] at t3 t4 t5
  unfold tsdfVoxel
  simp only [t1, t2, Outcome.bind_ok]
  by_cases hw : t.weight < cfg.minWeight
  · rw [if_pos hw]
    obtain ⟨s', x, a1, a2, a3, a4, a5⟩ := crustVoxel_ok F h hi t3 incremental
    refine ⟨s', es, _, t, x, _, a1, a2, a3, blockOf_globalIndex t3, ?_, t5, a4, ?_, a5⟩
    · unfold linOf; rw [localOf_globalIndex t3, t4]
    · unfold VoxelCopied; rw [if_pos hw]
  · rw [if_neg hw]
    obtain ⟨s', es', x, y, a1, a2, a3, a4, a5, a6⟩ := copyVoxel_ok F h hi t3 incremental (T.vals _ _ t5)
    refine ⟨s', es', _, t, x, y, a1, a2, a3, blockOf_globalIndex t3, ?_, t5, a4, ?_, a6⟩
    · unfold linOf; rw [localOf_globalIndex t3, t4]
    · unfold VoxelCopied; rw [if_neg hw]; exact a5

theorem foldlM_range {α : Type} {f : α → ℕ → Outcome α} {P : ℕ → α → Prop} (n : ℕ)
    (h : ∀ k a, k < n → P k a → ∃ a', f a k = .ok a' ∧ P (k + 1) a') (a : α) (h0 : P 0 a) :
    ∃ a', (List.range n).foldlM f a = .ok a' ∧ P n a' := by
  induction n with
  | zero => exact ⟨a, rfl, h0⟩
  | succ n ih =>
    obtain ⟨a1, h1, h2⟩ := ih fun k a hk p => h k a (by omega) p
    obtain ⟨a2, h3, h4⟩ := h n a1 (by omega) h2
    refine ⟨a2, ?_, h4⟩
    rw [List.range_succ, List.foldlM_append, h1]
    simp only [Outcome.bind_ok, List.foldlM_cons, List.foldlM_nil, h3]
    rfl

/-- The voxels of a block. -/
def blockSet (n : ℕ) (i : Idx) : Finset Idx :=
  (Finset.range n ×ˢ Finset.range n ×ˢ Finset.range n).image fun p => globalIndex n i ⟨(p.1 : ℤ), (p.2.1 : ℤ), (p.2.2 : ℤ)⟩

theorem mem_blockSet {n : ℕ} (hn : 0 < n) {i g : Idx} : g ∈ blockSet n i ↔ blockOf n g = i := by
  unfold blockSet
  rw [Finset.mem_image]
  constructor
  · rintro ⟨⟨x, y, z⟩, hp, rfl⟩
    simp only [Finset.mem_product, Finset.mem_range] at hp
    refine blockOf_globalIndex ⟨⟨?_, ?_⟩, ⟨?_, ?_⟩, ⟨?_, ?_⟩⟩ <;> simp only <;> omega
  · intro h
    obtain ⟨⟨x0, x1⟩, ⟨y0, y1⟩, ⟨z0, z1⟩⟩ := localOf_inBlock hn g
    refine ⟨((localOf n g).x.toNat, (localOf n g).y.toNat, (localOf n g).z.toNat), ?_, ?_⟩
    · simp only [Finset.mem_product, Finset.mem_range]
      omega
    · have e : (⟨((localOf n g).x.toNat : ℤ), ((localOf n g).y.toNat : ℤ), ((localOf n g).z.toNat : ℤ)⟩ : Idx) = localOf n g := by
        ext
        · exact Int.toNat_of_nonneg x0
        · exact Int.toNat_of_nonneg y0
        · exact Int.toNat_of_nonneg z0
      simp only [e]
      rw [← h]
      exact globalIndex_split g

theorem markUpdated_wf {V : Type} {l : VLayer V} (wf : WellFormed l) (i : Idx) (u : Flags) : WellFormed (markUpdated l i u) :=
  modifyBlock_wf wf _ _ fun _ => ⟨rfl, rfl, rfl, rfl⟩

theorem markUpdated_content {V : Type} {l : VLayer V} (wf : WellFormed l) (i : Idx) (u : Flags) (g : Idx) :
    content (markUpdated l i u) g = content l g := by
  rw [content_eq (markUpdated_wf wf i u), content_eq wf]
  unfold markUpdated
  rw [modifyBlock_cfg, modifyBlock_block?]
  split_ifs with h
  · cases block? l (blockOf l.cfg.vps g) <;> rfl
  · rfl

theorem markUpdated_status {V : Type} (l : VLayer V) (i : Idx) (u : Flags) (j : Idx) :
    status (markUpdated l i u) j = if j = i then (status l j).map fun e => (e.1, u) else status l j := by
  have e : ∀ l : VLayer V, status l j = (block? l j).map fun b => (b.hasData, b.updated) := fun _ => rfl
  rw [e, e]
  unfold markUpdated
  rw [modifyBlock_block?]
  split_ifs with hj
  · cases block? l j <;> rfl
  · rfl

/-- Allocating a block and setting its status keep the state consistent. -/
theorem Ready.allocate (F : CopyFits A cfg L) {es : List (ℕ × Idx)} {s : State} (h : Ready A L es s) {i : Idx}
    (hr : ∀ g, blockOf s.layer.cfg.vps g = i → Inner g) {l' : VLayer EVoxel} (hc : l'.cfg = s.layer.cfg) (hwf : WellFormed l')
    (hcon : ∀ g, content l' g = if blockOf s.layer.cfg.vps g = i then some ((content s.layer g).getD Sphere.esdfDefault)
      else content s.layer g) : Ready A L es ⟨l', s.open_, s.raise, s.updated⟩ := by
  obtain ⟨S, G, hraise⟩ := h
  have hn := G.wf.side_pos
  refine ⟨S ∪ blockSet s.layer.cfg.vps i, ⟨hwf, ?_, ?_, ?_, ?_, G.queue, ?_⟩, ?_⟩
  · obtain ⟨k, hk, e⟩ := G.power
    exact ⟨k, hk, by rw [hc]; exact e⟩
  · intro g
    show (content l' g).isSome = true ↔ _
    rw [hcon, Finset.mem_union, mem_blockSet hn, ← G.dom]
    split_ifs with h
    · simp [h]
    · simp [h]
  · intro g hg
    rcases Finset.mem_union.1 hg with h | h
    · exact G.range g h
    · exact hr g ((mem_blockSet hn).1 h)
  · intro g v hv
    change content l' g = some v at hv
    rw [hcon] at hv
    split_ifs at hv
    · injection hv with hv
      cases hcg : content s.layer g with
      | none =>
        rw [hcg] at hv
        rw [← hv]
        refine ⟨F.R.zero, ?_⟩
        show |(0 : ℚ)| ≤ _
        rw [abs_zero]
        exact F.default_nonneg.trans F.default_le
      | some w =>
        rw [hcg] at hv
        rw [← hv]
        exact G.vals g w hcg
    · exact G.vals g v hv
  · exact fun e he => Finset.mem_union_left _ (G.queued e he)
  · exact fun g hg => Finset.mem_union_left _ (hraise g hg)

instance {V : Type} (l : VLayer V) (i : Idx) : Decidable (Allocated l i) := inferInstanceAs (Decidable (_ = true))

/-- What processing the blocks leaves alone. -/
structure BlockFrame (s s' : State) : Prop where
  cfg : s'.layer.cfg = s.layer.cfg
  updated : s'.updated = s.updated

/-- One block: allocated and marked, all its voxels processed, the others untouched. -/
theorem tsdfBlock_ok (F : CopyFits A cfg L) {es : List (ℕ × Idx)} {s : State} (h : Ready A L es s) {tsdf : VLayer (TsdfVoxel ℚ)}
    (T : TsdfFits A cfg L s.layer.cfg.vps tsdf) (incremental : Bool) (i : Idx) :
    ∃ s' es', tsdfBlock A cfg incremental tsdf s i = .ok s' ∧ Ready A L es' s' ∧ BlockFrame s s' ∧
      (∀ j, status s'.layer j = if j = i ∧ Allocated tsdf i then
        some (((status s.layer j).getD (false, Flags.ofBool false)).1, Flags.ofBool true) else status s.layer j) ∧
      (∀ g, ¬ (blockOf s.layer.cfg.vps g = i ∧ Allocated tsdf i) → content s'.layer g = content s.layer g) ∧
      (∀ g, blockOf s.layer.cfg.vps g = i → Allocated tsdf i → ∃ t y, content tsdf g = some t ∧ content s'.layer g = some y ∧
        VoxelCopied A cfg incremental t ((content s.layer g).getD Sphere.esdfDefault) y) := by
  unfold tsdfBlock
  cases hb : block? tsdf i with
  | none =>
    have hna : ¬ Allocated tsdf i := by
      unfold Allocated
      rw [show tsdf.blocks.lookup i = none from hb]
      simp
    refine ⟨s, es, rfl, h, ⟨rfl, rfl⟩, ?_, fun _ _ => rfl, fun g _ ha => absurd ha hna⟩
    intro j
    rw [if_neg fun hj => hna hj.2]
  | some b =>
    have ha : Allocated tsdf i := by
      unfold Allocated
      rw [show tsdf.blocks.lookup i = some b from hb]
      rfl
    have wf : WellFormed s.layer := h.choose_spec.1.wf
    have wf1 := allocateBlock_wf wf Sphere.esdfDefault i
    have hlen := (T.wf.block _ _ hb).2.2.2
    simp only
    generalize hl : markUpdated (allocateBlock Sphere.esdfDefault s.layer i) i (Flags.ofBool true) = l
    have lcfg : l.cfg = s.layer.cfg := by rw [← hl]; exact allocateBlock_cfg _ _ _
    have lcon : ∀ g, content l g = if blockOf s.layer.cfg.vps g = i then some ((content s.layer g).getD Sphere.esdfDefault)
        else content s.layer g := by
      intro g
      rw [← hl, markUpdated_content wf1, allocateBlock_content wf]
    have lst : ∀ j, status l j = if j = i then
        some (((status s.layer j).getD (false, Flags.ofBool false)).1, Flags.ofBool true) else status s.layer j := by
      intro j
      rw [← hl, markUpdated_status, allocateBlock_status]
      split_ifs <;> rfl
    have lall : Allocated l i := by rw [allocated_iff_status, lst, if_pos rfl]; rfl
    have hR : Ready A L es ⟨l, s.open_, s.raise, s.updated⟩ := by
      refine h.allocate F (i := i) ?_ lcfg (hl ▸ markUpdated_wf wf1 _ _) lcon
      intro g hg
      refine T.range g ?_
      rw [content_isSome T.wf, T.vps, hg, hb]
      rfl
    obtain ⟨s', a1, es', a2, a3, a4, a5⟩ := foldlM_range (f := tsdfVoxel A cfg incremental i b)
      (P := fun k s1 => ∃ es1, Ready A L es1 s1 ∧ Frame ⟨l, s.open_, s.raise, s.updated⟩ s1 ∧
        (∀ g, (blockOf s.layer.cfg.vps g = i → k ≤ linOf s.layer.cfg.vps g) → content s1.layer g = content l g) ∧
        (∀ g, blockOf s.layer.cfg.vps g = i → linOf s.layer.cfg.vps g < k → ∃ t y, content tsdf g = some t ∧
          content s1.layer g = some y ∧ VoxelCopied A cfg incremental t ((content s.layer g).getD Sphere.esdfDefault) y))
      b.voxels.length (by
        rintro k s1 hk ⟨es1, r1, f1, u1, d1⟩
        have c1 : s1.layer.cfg.vps = s.layer.cfg.vps := by rw [f1.cfg, lcfg]
        obtain ⟨s2, es2, g, t, x, y, b1, b2, b3, b4, b5, b6, b7, b8, b9⟩ := tsdfVoxel_ok F r1 (tsdf := tsdf) (by rw [c1]; exact T) hb
          (by rw [allocated_iff_status, f1.status, ← allocated_iff_status]; exact lall) incremental hk
        rw [c1] at b4 b5
        have ex : x = (content s.layer g).getD Sphere.esdfDefault := by
          rw [u1 g (by intro; omega), lcon, if_pos b4] at b7
          injection b7 with b7
          exact b7.symm
        refine ⟨s2, b1, es2, b2, f1.trans b3, ?_, ?_⟩
        · intro g' hg'
          have : g' ≠ g := by
            rintro rfl
            have := hg' b4
            omega
          rw [b9, if_neg this]
          exact u1 g' fun h => by have := hg' h; omega
        · intro g' hg' hlin
          by_cases he : g' = g
          · subst he
            exact ⟨t, y, b6, by rw [b9, if_pos rfl], ex ▸ b8⟩
          · have hne : linOf s.layer.cfg.vps g' ≠ k := by
              intro e
              apply he
              rw [← globalIndex_split (n := s.layer.cfg.vps) g, ← globalIndex_split (n := s.layer.cfg.vps) g', hg', b4]
              congr 1
              exact linearIndex_inj wf.side_le (localOf_inBlock wf.side_pos _) (localOf_inBlock wf.side_pos _) (e.trans b5.symm)
            obtain ⟨t', y', e1, e2, e3⟩ := d1 g' hg' (by omega)
            exact ⟨t', y', e1, by rw [b9, if_neg he]; exact e2, e3⟩)
      ⟨l, s.open_, s.raise, s.updated⟩ ⟨es, hR, Frame.refl _, fun _ _ => rfl, fun _ _ h => by omega⟩
    refine ⟨s', es', a1, a2, ⟨a3.cfg.trans lcfg, a3.updated⟩, ?_, ?_, ?_⟩
    · intro j
      rw [a3.status, lst]
      simp [ha]
    · intro g hg
      have hg' : ¬ blockOf s.layer.cfg.vps g = i := fun e => hg ⟨e, ha⟩
      rw [a4 g fun e => absurd e hg', lcon, if_neg hg']
    · intro g hg _
      refine a5 g hg ?_
      rw [hlen, T.vps]
      exact (linearIndex_eq wf.side_le (localOf_inBlock wf.side_pos g)).2

/-- All listed blocks that exist in the TSDF are processed; `R` relates a voxel before and after. -/
theorem tsdfBlocks_ok (F : CopyFits A cfg L) {tsdf : VLayer (TsdfVoxel ℚ)} (incremental : Bool)
    (R : TsdfVoxel ℚ → EVoxel → EVoxel → Prop) (h1 : ∀ t x y, VoxelCopied A cfg incremental t x y → R t x y)
    (h2 : ∀ t x y z, VoxelCopied A cfg incremental t x y → R t y z → R t x z) (blocks : List Idx) :
    ∀ (es : List (ℕ × Idx)) (s : State), Ready A L es s → TsdfFits A cfg L s.layer.cfg.vps tsdf →
    ∃ s' es', blocks.foldlM (tsdfBlock A cfg incremental tsdf) s = .ok s' ∧ Ready A L es' s' ∧ BlockFrame s s' ∧
      (∀ j, status s'.layer j = if j ∈ blocks ∧ Allocated tsdf j then
        some (((status s.layer j).getD (false, Flags.ofBool false)).1, Flags.ofBool true) else status s.layer j) ∧
      (∀ g, ¬ (blockOf s.layer.cfg.vps g ∈ blocks ∧ Allocated tsdf (blockOf s.layer.cfg.vps g)) →
        content s'.layer g = content s.layer g) ∧
      (∀ g, blockOf s.layer.cfg.vps g ∈ blocks → Allocated tsdf (blockOf s.layer.cfg.vps g) →
        ∃ t y, content tsdf g = some t ∧ content s'.layer g = some y ∧ R t ((content s.layer g).getD Sphere.esdfDefault) y) := by
  induction blocks with
  | nil =>
    intro es s h T
    exact ⟨s, es, rfl, h, ⟨rfl, rfl⟩, by simp, by simp, by simp⟩
  | cons i is ih =>
    intro es s h T
    obtain ⟨s1, es1, a1, a2, a3, a4, a5, a6⟩ := tsdfBlock_ok F h T incremental i
    have c1 : s1.layer.cfg.vps = s.layer.cfg.vps := by rw [a3.cfg]
    obtain ⟨s2, es2, b1, b2, b3, b4, b5, b6⟩ := ih es1 s1 a2 (by rw [c1]; exact T)
    rw [c1] at b5 b6
    refine ⟨s2, es2, ?_, b2, ⟨b3.cfg.trans a3.cfg, b3.updated.trans a3.updated⟩, ?_, ?_, ?_⟩
    · rw [List.foldlM_cons, a1]
      exact b1
    · intro j
      rw [b4, a4]
      by_cases hj : Allocated tsdf j
      · by_cases e1 : j = i
        · subst e1
          by_cases e2 : j ∈ is <;> simp [hj, e2]
        · by_cases e2 : j ∈ is <;> simp [hj, e1, e2]
      · by_cases e1 : j = i
        · subst e1; simp [hj]
        · simp [hj, e1]
    · intro g hg
      rw [b5 g (fun h => hg ⟨List.mem_cons_of_mem _ h.1, h.2⟩), a5 g]
      rintro ⟨e1, e2⟩
      exact hg ⟨by rw [e1]; simp, by rw [e1]; exact e2⟩
    · intro g hg hal
      by_cases e1 : blockOf s.layer.cfg.vps g = i
      · obtain ⟨t, y, t1, t2, t3⟩ := a6 g e1 (e1 ▸ hal)
        by_cases e2 : blockOf s.layer.cfg.vps g ∈ is
        · obtain ⟨t', z, z1, z2, z3⟩ := b6 g e2 hal
          rw [t1] at z1
          injection z1 with z1
          subst z1
          rw [t2] at z3
          exact ⟨t, z, t1, z2, h2 _ _ _ _ t3 z3⟩
        · exact ⟨t, y, t1, by rw [b5 g fun h => e2 h.1]; exact t2, h1 _ _ _ t3⟩
      · have e2 : blockOf s.layer.cfg.vps g ∈ is := by
          rcases List.mem_cons.1 hg with h | h
          · exact absurd h e1
          · exact h
        obtain ⟨t', z, z1, z2, z3⟩ := b6 g e2 hal
        rw [a5 g fun h => e1 h.1] at z3
        exact ⟨t', z, z1, z2, z3⟩

/-- The whole update. `c` is the content after the copy. -/
theorem updateFromTsdfBlocks_ok (F : CopyFits A cfg L) {tsdf : VLayer (TsdfVoxel ℚ)} (incremental : Bool)
    (R : TsdfVoxel ℚ → EVoxel → EVoxel → Prop) (h1 : ∀ t x y, VoxelCopied A cfg incremental t x y → R t x y)
    (h2 : ∀ t x y z, VoxelCopied A cfg incremental t x y → R t y z → R t x z) (blocks : List Idx)
    {es : List (ℕ × Idx)} {s : State} (h : Ready A L es s) (T : TsdfFits A cfg L s.layer.cfg.vps tsdf) :
    ∃ N s' c, (∀ fuel, N ≤ fuel → updateFromTsdfBlocks A cfg fuel tsdf blocks incremental s = .ok (some s')) ∧
      Ready A L [] s' ∧ s'.raise = [] ∧ BlockFrame s s' ∧ Kept c (content s'.layer) ∧
      (∀ j, status s'.layer j = if j ∈ blocks ∧ Allocated tsdf j then
        some (((status s.layer j).getD (false, Flags.ofBool false)).1, Flags.ofBool true) else status s.layer j) ∧
      (∀ g, ¬ (blockOf s.layer.cfg.vps g ∈ blocks ∧ Allocated tsdf (blockOf s.layer.cfg.vps g)) → c g = content s.layer g) ∧
      (∀ g, blockOf s.layer.cfg.vps g ∈ blocks → Allocated tsdf (blockOf s.layer.cfg.vps g) →
        ∃ t y, content tsdf g = some t ∧ c g = some y ∧ R t ((content s.layer g).getD Sphere.esdfDefault) y) := by
  obtain ⟨s1, es1, a1, a2, a3, a4, a5, a6⟩ := tsdfBlocks_ok F incremental R h1 h2 blocks es s h T
  obtain ⟨N, s2, b1, b2, b3, b4, b5⟩ := propagate_ok F.toFits a2
  refine ⟨N, s2, content s1.layer, ?_, b2, b4, ⟨b3.cfg.trans a3.cfg, b3.updated.trans a3.updated⟩, b5,
    fun j => (b3.status j).trans (a4 j), a5, a6⟩
  intro fuel hf
  unfold updateFromTsdfBlocks
  rw [show Outcome.check (decide (tsdf.cfg.vps = s.layer.cfg.vps)) = .ok () by simp [Outcome.check, T.vps]]
  simp only [Outcome.bind_ok, a1]
  exact b1 fuel hf

end Vox.Esdf
