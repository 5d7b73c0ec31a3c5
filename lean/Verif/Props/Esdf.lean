/-
Properties C43 - C46 and C70: the ESDF integrator.
-/
import Verif.Lemmas.EsdfRobot

namespace Vox.Esdf

open Layer Grid Spec Sphere

variable {A : Flt} {cfg : Config} {L : Limits}

/-! ### A concrete arithmetic for the examples -/

/-- Truncation to multiples of 1/1024. -/
def fixedPoint : Flt := ⟨fun x => (if x < 0 then -1 else 1) * ⌊|x| * 1024⌋ / 1024, fun i => |(i.x : ℚ)| + |(i.y : ℚ)| + |(i.z : ℚ)|⟩

theorem fixedPoint_eq (x : ℚ) : fixedPoint.rnd x = (if x < 0 then -1 else 1) * ⌊|x| * 1024⌋ / 1024 := rfl

theorem fixedPoint_nonneg {x : ℚ} (h : 0 ≤ x) : fixedPoint.rnd x = ⌊x * 1024⌋ / 1024 := by
  rw [fixedPoint_eq, if_neg (not_lt.2 h), abs_of_nonneg h, one_mul]

theorem fixedPoint_odd (x : ℚ) : fixedPoint.rnd (-x) = -fixedPoint.rnd x := by
  rw [fixedPoint_eq, fixedPoint_eq, abs_neg]
  rcases lt_trichotomy x 0 with h | h | h
  · rw [if_neg (by linarith), if_pos h]; ring
  · subst h; simp
  · rw [if_pos (by linarith), if_neg (by linarith)]; ring

/-- The assumptions on the arithmetic can be met. -/
theorem fixedPoint_rounding : Rounding fixedPoint (1 / 1024) := by
  have hpos : ∀ x, 0 ≤ x → 0 ≤ fixedPoint.rnd x := by
    intro x h
    rw [fixedPoint_nonneg h]
    have : (0 : ℤ) ≤ ⌊x * 1024⌋ := Int.floor_nonneg.2 (by positivity)
    positivity
  have hmono : ∀ x y, 0 ≤ x → x ≤ y → fixedPoint.rnd x ≤ fixedPoint.rnd y := by
    intro x y hx h
    rw [fixedPoint_nonneg hx, fixedPoint_nonneg (hx.trans h)]
    have : ⌊x * 1024⌋ ≤ ⌊y * 1024⌋ := Int.floor_le_floor (by linarith)
    have : ((⌊x * 1024⌋ : ℤ) : ℚ) ≤ ⌊y * 1024⌋ := by exact_mod_cast this
    linarith
  have hneg : ∀ x, fixedPoint.rnd x = -fixedPoint.rnd (-x) := fun x => by rw [fixedPoint_odd, neg_neg]
  refine ⟨?_, fixedPoint_odd, ?_, by norm_num, ?_⟩
  · intro x y h
    rcases le_total 0 x with hx | hx
    · exact hmono x y hx h
    · rcases le_total 0 y with hy | hy
      · have := hpos (-x) (by linarith)
        have := hpos y hy
        rw [hneg x]
        linarith
      · rw [hneg x, hneg y]
        have := hmono (-y) (-x) (by linarith) (by linarith)
        linarith
  · have key : ∀ x, 0 ≤ x → fixedPoint.rnd (fixedPoint.rnd x) = fixedPoint.rnd x := by
      intro x hx
      rw [fixedPoint_nonneg (hpos x hx), fixedPoint_nonneg hx, div_mul_cancel₀ _ (by norm_num), Int.floor_intCast]
    intro x
    rcases le_total 0 x with hx | hx
    · exact key x hx
    · rw [hneg x, fixedPoint_odd, key (-x) (by linarith)]
  · intro x
    refine ⟨(if x < 0 then -1 else 1) * ⌊|x| * 1024⌋, ?_⟩
    rw [fixedPoint_eq]
    split_ifs <;> push_cast <;> ring

/-- Voxels of side 1, propagation up to distance 4, fixed band 1, three buckets. -/
def sampleCfg : Config := ⟨false, 4, 1, 4, 1 / 1024, 1 / 8, 3, false, false, 1, 2⟩

/-- Limits of the sample configuration. -/
def sampleLimits : Limits := ⟨1 / 1024, 8, 3, 4⟩

theorem sample_fits : CopyFits fixedPoint sampleCfg sampleLimits where
  R := fixedPoint_rounding
  minDiff := by norm_num [sampleCfg]
  default_rep := by unfold Rep; decide +kernel
  default_nonneg := by norm_num [sampleCfg]
  default_le := by norm_num [sampleCfg, sampleLimits]
  mx_pos := by norm_num [sampleLimits]
  n_pos := by norm_num [sampleLimits]
  buckets := by norm_num [sampleLimits]
  near := by decide +kernel

/-! ### C43: the loops end -/

/-- **C43.** From every state whose queues hold allocated voxels, for every configuration and either way of treating
queued voxels, the processing of the open set ends after finitely many iterations, with an empty queue and without
abort or undefined behaviour. -/
theorem C43_open (F : Fits A cfg L) {es : List (ℕ × Idx)} {s : State} (h : Ready A L es s) :
    ∃ N s', (∀ fuel, N ≤ fuel → processOpen A cfg fuel s = .ok (some s')) ∧ s'.open_.empty = .ok true := by
  obtain ⟨S, G, -⟩ := h
  obtain ⟨N, s', h1, h2, -, -⟩ := processOpen_ok F (S := S) (fun _ _ => True) (by intros; trivial) (by intros; trivial) es s G trivial
  exact ⟨N, s', h1, by rw [empty_ok h2.queue]; rfl⟩

/-- **C43 (raising).** The processing of the raise set ends with an empty raise queue. -/
theorem C43_raise (F : Fits A cfg L) {es : List (ℕ × Idx)} {s : State} (h : Ready A L es s) :
    ∃ N s', (∀ fuel, N ≤ fuel → processRaise cfg fuel s = .ok (some s')) ∧ s'.raise = [] := by
  obtain ⟨S, G, hr⟩ := h
  obtain ⟨N, s', es', h1, h2, -, h3, -⟩ := processRaise_ok F (S := S) (fun _ _ => True) (by intros; trivial) (by intros; trivial)
    es s G hr trivial
  exact ⟨N, s', h1, h3⟩

/-- **C43 (updates).** An update from a list of TSDF blocks, incremental or not, ends and leaves both queues empty. -/
theorem C43_update (F : CopyFits A cfg L) {es : List (ℕ × Idx)} {s : State} (h : Ready A L es s)
    {tsdf : VLayer (TsdfVoxel ℚ)} (T : TsdfFits A cfg L s.layer.cfg.vps tsdf) (blocks : List Idx) (incremental : Bool) :
    ∃ N s', (∀ fuel, N ≤ fuel → updateFromTsdfBlocks A cfg fuel tsdf blocks incremental s = .ok (some s')) ∧
      s'.raise = [] ∧ s'.open_.empty = .ok true := by
  obtain ⟨N, s', c, h1, ⟨S, G, -⟩, h3, -⟩ := updateFromTsdfBlocks_ok F incremental (fun _ _ _ => True) (fun _ _ _ _ => trivial)
    (fun _ _ _ _ _ _ => trivial) blocks h T
  exact ⟨N, s', h1, h3, by rw [empty_ok G.queue]; rfl⟩

theorem rel_start {n : ℕ} {mx : ℚ} (hn : 0 < n) (hn2 : n < 2 ^ 31) (hm : 0 < mx) :
    BQueue.Rel (BQueue.mkDefault.setNumBuckets n mx : BQueue Idx) ⟨n, mx, []⟩ := BQueue.rel_init hn hn2 hm

/-- A freshly constructed integrator on an empty layer is consistent. -/
theorem ready_init {c : Cfg} (hs : 0 < c.voxelSize) (hp : ∃ k, k ≤ 10 ∧ c.vps = 2 ^ k) (hn : cfg.numBuckets = L.n)
    (hm : cfg.maxDistance = L.mx) (h0 : 0 < L.n) (h1 : L.n < 2 ^ 31) (h2 : 0 < L.mx) :
    Ready A L [] (init cfg ⟨c, []⟩) := by
  obtain ⟨k, hk, e⟩ := hp
  have hle : (2 : ℕ) ^ k ≤ 2 ^ 10 := Nat.pow_le_pow_right (by norm_num) hk
  refine ⟨∅, ⟨⟨hs, ?_, ?_, ?_⟩, ⟨k, by omega, e⟩, ?_, ?_, ?_, ?_, ?_⟩, ?_⟩
  · show 0 < c.vps
    rw [e]; positivity
  · show c.vps ≤ 1290
    rw [e]; omega
  · intro i b hb; simp [init] at hb
  · intro g; simp [init, content]
  · intro g hg; simp at hg
  · intro g v hv; simp [init, content] at hv
  · unfold init
    rw [hn, hm]
    exact rel_start h0 h1 h2
  · simp
  · simp [init]

/-- One voxel per block of side 1. -/
def unitCfg : Cfg := ⟨1, 1⟩

example : Ready fixedPoint sampleLimits [] (init sampleCfg ⟨unitCfg, []⟩) :=
  ready_init (by norm_num [unitCfg]) ⟨0, by norm_num, rfl⟩ rfl rfl (by norm_num [sampleLimits]) (by norm_num [sampleLimits])
    (by norm_num [sampleLimits])

/-- A TSDF block of one voxel. -/
def tsdfCell (i : Idx) (d w : ℚ) (u : Flags) : Idx × Block ℚ (TsdfVoxel ℚ) :=
  (i, ⟨1, 1, originPoint i 1, false, u, [⟨d, w, ⟨0, 0, 0, 0⟩⟩]⟩)

/-- An ESDF block of one voxel. -/
def esdfCell (i : Idx) (x : EVoxel) (u : Flags) : Idx × Block ℚ EVoxel :=
  (i, ⟨1, 1, originPoint i 1, false, u, [x]⟩)

/-! ### C44: the fixed band -/

/-- The ESDF voxel `y` after a batch update from the TSDF voxel `t`. -/
structure BatchVoxel (cfg : Config) (t : TsdfVoxel ℚ) (y : EVoxel) : Prop where
  /-- Not observed in the TSDF: observed (and hallucinated) only as the occupied crust. -/
  unobserved : t.weight < cfg.minWeight → y.observed = cfg.addOccupiedCrust ∧ y.hallucinated = cfg.addOccupiedCrust ∧ y.fixed = false
  /-- Observed in the TSDF: observed, not hallucinated, fixed exactly in the band. -/
  observed : cfg.minWeight ≤ t.weight → y.observed = true ∧ y.hallucinated = false ∧ (y.fixed = true ↔ |t.distance| < cfg.minDistance)
  /-- In the band: exactly the TSDF distance. -/
  band : cfg.minWeight ≤ t.weight → |t.distance| < cfg.minDistance → y.distance = t.distance
  /-- The side of the surface is that of the TSDF. -/
  outside : cfg.minWeight ≤ t.weight → 0 ≤ t.distance → 0 ≤ y.distance
  inside : cfg.minWeight ≤ t.weight → t.distance ≤ 0 → y.distance ≤ 0

/-- The voxel between copying and propagation. -/
structure CopiedVoxel (cfg : Config) (t : TsdfVoxel ℚ) (y : EVoxel) : Prop where
  unobserved : t.weight < cfg.minWeight → y.observed = cfg.addOccupiedCrust ∧ y.hallucinated = cfg.addOccupiedCrust ∧ y.fixed = false
  observed : cfg.minWeight ≤ t.weight → y.observed = true ∧ y.hallucinated = false ∧ y.fixed = isFixed cfg t.distance ∧
    y.distance = if isFixed cfg t.distance then t.distance else withSign t.distance cfg.defaultDistance

theorem isFixed_iff {d : ℚ} : isFixed cfg d = true ↔ |d| < cfg.minDistance := by simp [isFixed]

theorem copied_kept (F : CopyFits A cfg L) {t : TsdfVoxel ℚ} {x y : EVoxel} (h : CopiedVoxel cfg t x) (k : KeptVoxel x y) :
    BatchVoxel cfg t y := by
  have hs := withSign_sign t.distance F.default_nonneg
  refine ⟨?_, ?_, ?_, ?_, ?_⟩
  · intro hw
    obtain ⟨h1, h2, h3⟩ := h.unobserved hw
    exact ⟨k.observed.trans h1, k.hallucinated.trans h2, k.fixed.trans h3⟩
  · intro hw
    obtain ⟨h1, h2, h3, -⟩ := h.observed hw
    refine ⟨k.observed.trans h1, k.hallucinated.trans h2, ?_⟩
    rw [k.fixed, h3, isFixed_iff]
  · intro hw hb
    obtain ⟨-, -, h3, h4⟩ := h.observed hw
    rw [if_pos (isFixed_iff.2 hb)] at h4
    rw [(k.value (by rw [h3]; exact isFixed_iff.2 hb)).1, h4]
  · intro hw ht
    obtain ⟨-, -, -, h4⟩ := h.observed hw
    refine k.outside ?_
    rw [h4]
    split_ifs
    · exact ht
    · exact hs.1 ht
  · intro hw ht
    obtain ⟨-, -, -, h4⟩ := h.observed hw
    refine k.inside ?_
    rw [h4]
    split_ifs
    · exact ht
    · exact hs.2 ht

theorem copied_of (F : CopyFits A cfg L) {t : TsdfVoxel ℚ} (ht : isFixed cfg t.distance = true → Rep A t.distance) {x y : EVoxel}
    (hx : x = esdfDefault ∨ CopiedVoxel cfg t x) (h : VoxelCopied A cfg false t x y) : CopiedVoxel cfg t y := by
  unfold VoxelCopied at h
  split_ifs at h with hw hc
  · refine ⟨fun _ => ?_, fun hw' => absurd hw (not_lt.2 hw')⟩
    have hc' : cfg.addOccupiedCrust = true := by simpa using hc
    rw [h, hc']
    exact ⟨rfl, rfl, rfl⟩
  · have hc' : cfg.addOccupiedCrust = false := by simpa using hc
    refine ⟨fun _ => ?_, fun hw' => absurd hw (not_lt.2 hw')⟩
    rw [h]
    rcases hx with rfl | hx
    · rw [hc']; exact ⟨rfl, rfl, rfl⟩
    · exact hx.unobserved hw
  · refine ⟨fun hw' => absurd hw' hw, fun hw' => ?_⟩
    have hnear : (seed A cfg false t.distance x).neighbors = false := by
      cases hb : (seed A cfg false t.distance x).neighbors with
      | false => rfl
      | true => cases (seed_near hb).1
    obtain ⟨p1, p2⟩ := h.plain hnear
    refine ⟨h.observed, h.hallucinated, ?_⟩
    rw [p1, p2]
    rcases hx with rfl | hx
    · simp only [seed, esdfDefault, seedNew]
      cases isFixed cfg t.distance <;> exact ⟨rfl, rfl⟩
    · obtain ⟨o1, o2, o3, o4⟩ := hx.observed hw'
      have hup : t.distance ≤ A.rnd (t.distance + cfg.minDiff) ∨ isFixed cfg t.distance = false := by
        cases hf : isFixed cfg t.distance with
        | false => exact Or.inr rfl
        | true => exact Or.inl (F.R.ge_of_ge (by linarith [F.minDiff]) (ht hf))
      have hdn : A.rnd (t.distance - cfg.minDiff) ≤ t.distance ∨ isFixed cfg t.distance = false := by
        cases hf : isFixed cfg t.distance with
        | false => exact Or.inr rfl
        | true => exact Or.inl (F.R.le_of_le (by linarith [F.minDiff]) (ht hf))
      simp only [seed, o1, o2, seedOld, o3]
      cases hf : isFixed cfg t.distance with
      | false =>
        rw [hf] at o3 o4
        simp only [Bool.not_true, Bool.or_self, Bool.false_eq_true, if_false]
        split_ifs <;> first | exact ⟨rfl, rfl⟩ | exact ⟨o3, o4⟩
      | true =>
        rw [hf] at o3 o4
        simp only [if_true] at o4
        simp only [Bool.not_true, Bool.or_self, Bool.false_eq_true, if_false, if_true]
        split_ifs
        · exact ⟨rfl, rfl⟩
        · exact ⟨rfl, rfl⟩
        · exact ⟨o3, o4⟩

/-- **C44.** A batch update with empty queues ends, and its result contains exactly the voxels of the TSDF layer. Every
voxel observed in the TSDF is observed; in the fixed band it holds exactly the TSDF distance and is fixed, outside it
is not fixed and on the side of the surface given by the TSDF. Voxels not observed in the TSDF are not observed, unless
an occupied crust is configured, and then they are hallucinated. -/
theorem C44_batch (F : CopyFits A cfg L) {s : State} (h : Ready A L [] s) (hr : s.raise = []) {tsdf : VLayer (TsdfVoxel ℚ)}
    (T : TsdfFits A cfg L s.layer.cfg.vps tsdf) (set : List Idx → List Idx) :
    ∃ N s', (∀ fuel, N ≤ fuel → updateBatch A cfg fuel set tsdf s = .ok (some s')) ∧
      ∀ g, (content tsdf g = none → content s'.layer g = none) ∧
        ∀ t, content tsdf g = some t → ∃ y, content s'.layer g = some y ∧ BatchVoxel cfg t y := by
  have h' : Ready A L [] ⟨⟨s.layer.cfg, []⟩, s.open_, s.raise, []⟩ := by
    obtain ⟨S, G, -⟩ := h
    refine ⟨∅, ⟨⟨G.wf.size_pos, G.wf.side_pos, G.wf.side_le, by simp⟩, G.power, ?_, by simp, ?_, G.queue, by simp⟩, by simp [hr]⟩
    · intro g; simp [content]
    · intro g v hv; simp [content] at hv
  obtain ⟨N, s', c, a1, a2, a3, a4, a5, a6, a7, a8⟩ := updateFromTsdfBlocks_ok F (tsdf := tsdf) false
    (fun t x y => (isFixed cfg t.distance = true → Rep A t.distance) → (x = esdfDefault ∨ CopiedVoxel cfg t x) → CopiedVoxel cfg t y)
    (fun t x y hxy ht hx => copied_of F ht hx hxy)
    (fun t x y z hxy hyz ht hx => hyz ht (Or.inr (copied_of F ht hx hxy)))
    (tsdf.blocks.map (·.1) ++ set s.updated) h' T
  refine ⟨N, s', a1, ?_⟩
  have hempty : ∀ g, content (⟨s.layer.cfg, []⟩ : VLayer EVoxel) g = none := fun g => by simp [content]
  intro g
  have hblock : (content tsdf g).isSome = true ↔ Allocated tsdf (blockOf s.layer.cfg.vps g) := by
    rw [content_isSome T.wf, T.vps]; rfl
  constructor
  · intro hg
    have hna : ¬ Allocated tsdf (blockOf s.layer.cfg.vps g) := by
      rw [← hblock, hg]; simp
    have hc := a7 g fun h => hna h.2
    rw [hempty] at hc
    rcases a5 g with ⟨-, k⟩ | ⟨a, b, k, -⟩
    · exact k
    · rw [hc] at k; cases k
  · intro t ht
    have hal : Allocated tsdf (blockOf s.layer.cfg.vps g) := by rw [← hblock, ht]; rfl
    have hmem : blockOf s.layer.cfg.vps g ∈ tsdf.blocks.map (·.1) ++ set s.updated := by
      refine List.mem_append_left _ ?_
      have := List.lookup_isSome_iff.1 hal
      simpa using this
    obtain ⟨t', y, b1, b2, b3⟩ := a8 g hmem hal
    rw [ht] at b1
    injection b1 with b1
    subst b1
    rw [hempty] at b3
    have hy := b3 (fun hf => (T.vals g t ht hf).1) (Or.inl rfl)
    rcases a5 g with ⟨k, -⟩ | ⟨a, b, k1, k2, k3⟩
    · rw [b2] at k; cases k
    · rw [b2] at k1
      injection k1 with k1
      subst k1
      exact ⟨b, k2, copied_kept F hy k3⟩

/-- Two TSDF voxels, one in the band and one outside, and one not observed. -/
def sampleTsdf : VLayer (TsdfVoxel ℚ) :=
  ⟨unitCfg, [tsdfCell ⟨0, 0, 0⟩ (1 / 2) 1 Flags.setAll, tsdfCell ⟨1, 0, 0⟩ 2 1 Flags.setAll, tsdfCell ⟨2, 0, 0⟩ 2 0 Flags.setAll]⟩

theorem sampleTsdf_fits : TsdfFits fixedPoint sampleCfg sampleLimits unitCfg.vps sampleTsdf := by
  have hb : ∀ e ∈ sampleTsdf.blocks, e.2.vps = 1 ∧ e.2.voxelSize = 1 ∧ e.2.origin = ⟨e.1.x * (1 * 1), e.1.y * (1 * 1), e.1.z * (1 * 1)⟩ ∧
      e.2.voxels.length = 1 := by decide +kernel
  have hv : ∀ e ∈ sampleTsdf.blocks, ∀ t ∈ e.2.voxels, fixedPoint.rnd t.distance = t.distance ∧ |t.distance| ≤ sampleLimits.B := by
    decide +kernel
  have hk : ∀ e ∈ sampleTsdf.blocks, Inner e.1 := by unfold Inner; decide +kernel
  have hmem : ∀ i b, sampleTsdf.blocks.lookup i = some b → (i, b) ∈ sampleTsdf.blocks := by
    intro i b h
    obtain ⟨l1, l2, h1, -⟩ := List.lookup_eq_some_iff.1 h
    rw [h1]; simp
  have hone : ∀ g : Idx, g.map (· / ((1 : ℕ) : ℤ)) = g := by intro g; ext <;> simp
  refine ⟨⟨by norm_num [sampleTsdf, unitCfg], by norm_num [sampleTsdf, unitCfg], by norm_num [sampleTsdf, unitCfg], ?_⟩, rfl, ?_, ?_⟩
  · intro i b h
    obtain ⟨h1, h2, h3, h4⟩ := hb _ (hmem i b h)
    refine ⟨h1, h2, ?_, h4⟩
    rw [h3]
    simp [sampleTsdf, unitCfg]
  · intro g h
    unfold content at h
    rw [show sampleTsdf.cfg.vps = 1 from rfl, hone] at h
    cases hl : sampleTsdf.blocks.lookup g with
    | none => rw [hl] at h; simp at h
    | some b => exact hk _ (hmem g b hl)
  · intro g t h _
    unfold content at h
    obtain ⟨b, h1, h2⟩ := Option.bind_eq_some_iff.1 h
    exact hv _ (hmem _ b h1) t (List.mem_of_getElem? h2)

example : TsdfFits fixedPoint sampleCfg sampleLimits (init sampleCfg ⟨unitCfg, []⟩).layer.cfg.vps sampleTsdf ∧
    content sampleTsdf ⟨0, 0, 0⟩ = some ⟨1 / 2, 1, ⟨0, 0, 0, 0⟩⟩ := ⟨sampleTsdf_fits, by decide +kernel⟩

theorem Ready.reset {es : List (ℕ × Idx)} {s : State} (h : Ready A L es s) (u : List Idx) :
    Ready A L es ⟨s.layer, s.open_, s.raise, u⟩ := by
  obtain ⟨S, G, hr⟩ := h
  exact ⟨S, ⟨G.wf, G.power, G.dom, G.range, G.vals, G.queue, G.queued⟩, hr⟩

/-- **C44 (incremental updates, partial).** After an incremental update, every voxel observed in a TSDF block with the
ESDF flag is observed and not hallucinated; outside the band it is not fixed. In the band it is fixed with the TSDF
distance up to `min_diff_m`, provided that it was fixed, hallucinated or not observed before. What is missing: a voxel
that was observed outside the band (`C44_incremental_counterexample`). -/
theorem C44_incremental_partial (F : CopyFits A cfg L) {es : List (ℕ × Idx)} {s : State} (h : Ready A L es s)
    {tsdf : VLayer (TsdfVoxel ℚ)} (T : TsdfFits A cfg L s.layer.cfg.vps tsdf) (set : List Idx → List Idx) (clear : Bool) :
    ∃ N s' tsdf', (∀ fuel, N ≤ fuel → updateIncremental A cfg fuel set clear tsdf s = .ok (some (s', tsdf'))) ∧
      ∀ g t f, content tsdf g = some t → status tsdf (blockOf s.layer.cfg.vps g) = some f → f.2.get .esdf = true →
        cfg.minWeight ≤ t.weight →
        ∃ y, content s'.layer g = some y ∧ y.observed = true ∧ y.hallucinated = false ∧
          (cfg.minDistance ≤ |t.distance| → y.fixed = false) ∧
          (|t.distance| < cfg.minDistance →
            (∀ x, content s.layer g = some x → x.observed = false ∨ x.hallucinated = true ∨ x.fixed = true) →
            y.fixed = true ∧ A.rnd (t.distance - cfg.minDiff) ≤ y.distance ∧ y.distance ≤ A.rnd (t.distance + cfg.minDiff)) := by
  have hstep : ∀ t x y, VoxelCopied A cfg true t x y → cfg.minWeight ≤ t.weight → (isFixed cfg t.distance = true → Rep A t.distance) →
      y.observed = true ∧ y.hallucinated = false ∧ (isFixed cfg t.distance = false → y.fixed = false) ∧
        (isFixed cfg t.distance = true → x.observed = false ∨ x.hallucinated = true ∨ x.fixed = true →
          y.fixed = true ∧ A.rnd (t.distance - cfg.minDiff) ≤ y.distance ∧ y.distance ≤ A.rnd (t.distance + cfg.minDiff)) := by
    intro t x y hxy hw hrep
    unfold VoxelCopied at hxy
    rw [if_neg (not_lt.2 hw)] at hxy
    refine ⟨hxy.observed, hxy.hallucinated, ?_, ?_⟩
    · intro hf
      cases hn : (seed A cfg true t.distance x).neighbors with
      | true => exact (hxy.near hn).1
      | false =>
        rw [(hxy.plain hn).2]
        unfold seed seedNew seedOld
        rw [hf]
        cases hx : x.fixed <;> simp only [Bool.or_self, Bool.or_true, Bool.false_eq_true, if_false, if_true, Bool.not_false]
        · split_ifs <;> first | rfl | exact hx
        · split_ifs <;> rfl
    · intro hf hx
      have hnear : A.rnd (t.distance - cfg.minDiff) ≤ t.distance ∧ t.distance ≤ A.rnd (t.distance + cfg.minDiff) :=
        ⟨F.R.le_of_le (by linarith [F.minDiff]) (hrep hf), F.R.ge_of_ge (by linarith [F.minDiff]) (hrep hf)⟩
      have hn : (seed A cfg true t.distance x).neighbors = false := by
        unfold seed seedNew seedOld
        rw [hf]
        simp only [Bool.true_or, if_true]
        split_ifs <;> rfl
      obtain ⟨p1, p2⟩ := hxy.plain hn
      rw [p1, p2]
      unfold seed seedNew seedOld
      rw [hf]
      simp only [Bool.true_or, if_true, Bool.not_true, Bool.false_eq_true, if_false]
      by_cases c0 : (!x.observed || x.hallucinated) = true
      · simp only [c0, if_true]
        exact ⟨trivial, hnear⟩
      · have hfx : x.fixed = true := by
          rcases hx with h | h | h
          · rw [h] at c0; simp at c0
          · rw [h] at c0; simp at c0
          · exact h
        simp only [c0, Bool.false_eq_true, if_false]
        split_ifs with c1 c2
        · exact ⟨rfl, hnear⟩
        · exact ⟨rfl, hnear⟩
        · refine ⟨hfx, ?_⟩
          rcases lt_or_ge 0 x.distance with hp | hp
          · simp only [hp, not_le.2 hp, true_and, false_and, or_false, not_lt] at c1 c2
            exact ⟨c2, c1⟩
          · simp only [not_lt.2 hp, hp, true_and, false_and, false_or, not_lt] at c1 c2
            exact ⟨c1, c2⟩
  obtain ⟨N, s', c, a1, a2, a3, a4, a5, a6, a7, a8⟩ := updateFromTsdfBlocks_ok F (tsdf := tsdf) true
    (fun t x y => cfg.minWeight ≤ t.weight → (isFixed cfg t.distance = true → Rep A t.distance) →
      y.observed = true ∧ y.hallucinated = false ∧ (isFixed cfg t.distance = false → y.fixed = false) ∧
        (isFixed cfg t.distance = true → x.observed = false ∨ x.hallucinated = true ∨ x.fixed = true →
          y.fixed = true ∧ A.rnd (t.distance - cfg.minDiff) ≤ y.distance ∧ y.distance ≤ A.rnd (t.distance + cfg.minDiff)))
    hstep (by
      intro t x y z hxy hyz hw hrep
      obtain ⟨y1, y2, y3, y4⟩ := hstep t x y hxy hw hrep
      obtain ⟨z1, z2, z3, z4⟩ := hyz hw hrep
      exact ⟨z1, z2, z3, fun hf hx => z4 hf (Or.inr (Or.inr (y4 hf hx).1))⟩)
    (esdfUpdated tsdf ++ set s.updated) (s := ⟨s.layer, s.open_, s.raise, []⟩) (h.reset []) T
  refine ⟨N, s', if clear then (esdfUpdated tsdf ++ set s.updated).foldl resetEsdf tsdf else tsdf, ?_, ?_⟩
  · intro fuel hf
    unfold updateIncremental
    simp only [a1 fuel hf, Outcome.bind_ok]
    rfl
  · intro g t f hg hst hflag hw
    have hal : Allocated tsdf (blockOf s.layer.cfg.vps g) := by rw [allocated_iff_status, hst]; rfl
    have hmem : blockOf s.layer.cfg.vps g ∈ esdfUpdated tsdf ++ set s.updated := by
      refine List.mem_append_left _ ?_
      unfold esdfUpdated
      obtain ⟨b, hb⟩ := Option.isSome_iff_exists.1 hal
      unfold status at hst
      rw [hb] at hst
      simp only [Option.map_some, Option.some.injEq] at hst
      obtain ⟨l1, l2, h1, -⟩ := List.lookup_eq_some_iff.1 hb
      rw [List.mem_map]
      refine ⟨(blockOf s.layer.cfg.vps g, b), List.mem_filter.2 ⟨by rw [h1]; simp, ?_⟩, rfl⟩
      rw [← hst] at hflag
      exact hflag
    obtain ⟨t', y, b1, b2, b3⟩ := a8 g hmem hal
    rw [hg] at b1
    injection b1 with b1
    subst b1
    obtain ⟨y1, y2, y3, y4⟩ := b3 hw fun hf => (T.vals g t hg hf).1
    rcases a5 g with ⟨k, -⟩ | ⟨a, b, k1, k2, k3⟩
    · rw [b2] at k; cases k
    rw [b2] at k1
    injection k1 with k1
    subst k1
    refine ⟨b, k2, k3.observed.trans y1, k3.hallucinated.trans y2, ?_, ?_⟩
    · intro hd
      rw [k3.fixed]
      exact y3 (by simpa [isFixed] using hd)
    · intro hd hx
      obtain ⟨z1, z2⟩ := y4 (isFixed_iff.2 hd) (by
        cases hc : content s.layer g with
        | none => exact Or.inl rfl
        | some x => exact hx x hc)
      rw [k3.fixed, (k3.value z1).1]
      exact ⟨z1, z2⟩

/-- Voxels of side 1/2. -/
def halfCfg : Cfg := ⟨1 / 2, 1⟩

/-- Two adjacent voxels with TSDF distances 1/4 and `d`. -/
def halfTsdf (d : ℚ) : VLayer (TsdfVoxel ℚ) :=
  ⟨halfCfg, [(⟨0, 0, 0⟩, ⟨1, 1 / 2, 0, false, Flags.setAll, [⟨1 / 4, 1, ⟨0, 0, 0, 0⟩⟩]⟩),
    (⟨1, 0, 0⟩, ⟨1, 1 / 2, ⟨1 / 2, 0, 0⟩, false, Flags.setAll, [⟨d, 1, ⟨0, 0, 0, 0⟩⟩]⟩)]⟩

/-- An incremental update from `halfTsdf 2` followed by one from `halfTsdf (3 / 4)`. -/
def twoUpdates : Outcome (Option (State × VLayer (TsdfVoxel ℚ))) := do
  let r ← updateIncremental fixedPoint sampleCfg 20 id true (halfTsdf 2) (init sampleCfg ⟨halfCfg, []⟩)
  match r with
  | none => pure none
  | some (s, _) => updateIncremental fixedPoint sampleCfg 20 id true (halfTsdf (3 / 4)) s

/-- **C44 fails for incremental updates**: a voxel that moves into the band with the distance it already had by
propagation is not marked fixed, although its TSDF distance 3/4 is inside the band of width 1. -/
theorem C44_incremental_counterexample :
    (∃ s t, twoUpdates = .ok (some (s, t)) ∧ content s.layer ⟨1, 0, 0⟩ = some ⟨3 / 4, true, false, false, false, ⟨-1, 0, 0⟩⟩) ∧
    content (halfTsdf (3 / 4)) ⟨1, 0, 0⟩ = some ⟨3 / 4, 1, ⟨0, 0, 0, 0⟩⟩ ∧ |(3 / 4 : ℚ)| < sampleCfg.minDistance ∧
    sampleCfg.minWeight ≤ 1 := by
  refine ⟨?_, by decide +kernel, by decide +kernel, by decide +kernel⟩
  have h : (match twoUpdates with
    | .ok (some (s, _)) => content s.layer ⟨1, 0, 0⟩
    | _ => none) = some ⟨3 / 4, true, false, false, false, ⟨-1, 0, 0⟩⟩ := by decide +kernel
  split at h
  · rename_i s t e
    exact ⟨s, t, e, h⟩
  · cases h

end Vox.Esdf
