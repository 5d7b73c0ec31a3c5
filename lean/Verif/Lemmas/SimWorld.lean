/-
Ground-truth maps of a simulated world.
-/
import Verif.Spec.SimWorld
import Verif.Lemmas.Transform

namespace Vox.Sim

open Layer Grid Spec Merge

variable {V : Type}

theorem stepsFrom_mem {step last : ℚ} (hs : 0 < step) : ∀ (n : ℕ) (x : ℚ), (⌊(last - x) / step⌋ + 1).toNat < n →
    ∀ y, y ∈ stepsFrom n x last step ↔ ∃ k : ℕ, y = x + k * step ∧ y ≤ last := by
  intro n
  induction n with
  | zero => intro x h; omega
  | succ n ih =>
    intro x h y
    unfold stepsFrom
    split_ifs with hx
    · have e : ⌊(last - (x + step)) / step⌋ = ⌊(last - x) / step⌋ - 1 := by
        rw [show (last - (x + step)) / step = (last - x) / step - (1 : ℤ) by push_cast; field_simp; ring, Int.floor_sub_intCast]
      have h0 : 0 ≤ ⌊(last - x) / step⌋ := Int.floor_nonneg.2 (div_nonneg (by linarith) hs.le)
      rw [List.mem_cons, ih _ (by omega)]
      constructor
      · rintro (rfl | ⟨k, rfl, hk⟩)
        · exact ⟨0, by simp, hx⟩
        · exact ⟨k + 1, by push_cast; ring, hk⟩
      · rintro ⟨k, rfl, hk⟩
        cases k with
        | zero => left; simp
        | succ k => right; exact ⟨k, by push_cast; ring, hk⟩
    · constructor
      · intro h; cases h
      · rintro ⟨k, rfl, hk⟩
        have : 0 ≤ (k : ℚ) * step := by positivity
        linarith

theorem mem_steps {first last step : ℚ} (hs : 0 < step) (y : ℚ) :
    y ∈ steps first last step ↔ ∃ k : ℕ, y = first + k * step ∧ y ≤ last :=
  stepsFrom_mem hs _ _ (Nat.lt_succ_self _) y

theorem mem_sdfPoints {B : ℚ} (hB : 0 < B) (lo hi p : Pt) : p ∈ sdfPoints B lo hi ↔
    (∃ k : ℕ, p.x = lo.x - B / 2 + k * B ∧ p.x ≤ hi.x + B / 2) ∧ (∃ k : ℕ, p.y = lo.y - B / 2 + k * B ∧ p.y ≤ hi.y + B / 2) ∧
      ∃ k : ℕ, p.z = lo.z - B / 2 + k * B ∧ p.z ≤ hi.z + B / 2 := by
  unfold sdfPoints
  simp only [List.mem_flatMap, List.mem_map, mem_steps hB]
  constructor
  · rintro ⟨x, hx, y, hy, z, hz, rfl⟩
    exact ⟨hx, hy, hz⟩
  · rintro ⟨hx, hy, hz⟩
    exact ⟨p.x, hx, p.y, hy, p.z, hz, rfl⟩

theorem inBounds_iff (lo hi p : Pt) : inBounds lo hi p = true ↔ InBox lo hi p := by
  simp only [inBounds, InBox, Bool.and_eq_true, decide_eq_true_eq, and_assoc]

theorem leastDistance_append (w w' : List Thing) (M : ℚ) (p : Pt) : leastDistance (w ++ w') M p =
    w'.foldl (fun acc o => let d := o.dist p; if d < acc.1 then (d, o.color) else acc) (leastDistance w M p) := by
  unfold leastDistance; rw [List.foldl_append]

theorem leastDistance_spec (w : List Thing) (M : ℚ) (p : Pt) :
    (leastDistance w M p = (M, Color.default) ∧ ∀ o ∈ w, M ≤ o.dist p) ∨
    ∃ before o after, w = before ++ o :: after ∧ leastDistance w M p = (o.dist p, o.color) ∧ o.dist p < M ∧
      (∀ q ∈ before, o.dist p < q.dist p) ∧ ∀ q ∈ after, o.dist p ≤ q.dist p := by
  induction w using List.reverseRecOn with
  | nil => left; exact ⟨rfl, by simp⟩
  | append_singleton w x ih =>
    rw [leastDistance_append]
    simp only [List.foldl_cons, List.foldl_nil]
    rcases ih with ⟨e, h⟩ | ⟨before, o, after, ew, e, h1, h2, h3⟩
    · rw [e]
      split_ifs with hx
      · right
        refine ⟨w, x, [], rfl, rfl, hx, fun q hq => hx.trans_le (h q hq), by simp⟩
      · left
        refine ⟨rfl, ?_⟩
        intro o ho
        rcases List.mem_append.1 ho with ho | ho
        · exact h o ho
        · rw [List.mem_singleton.1 ho]; exact not_lt.1 hx
    · rw [e]
      right
      split_ifs with hx
      · refine ⟨w, x, [], rfl, rfl, hx.trans h1, ?_, by simp⟩
        intro q hq
        rw [ew] at hq
        rcases List.mem_append.1 hq with hq | hq
        · exact hx.trans (h2 q hq)
        · rcases List.mem_cons.1 hq with rfl | hq
          · exact hx
          · exact hx.trans_le (h3 q hq)
      · refine ⟨before, o, after ++ [x], by rw [ew]; simp, rfl, h1, h2, ?_⟩
        intro q hq
        rcases List.mem_append.1 hq with hq | hq
        · exact h3 q hq
        · rw [List.mem_singleton.1 hq]; exact not_lt.1 hx

/-- One block: its voxels are updated by `sdfVoxel`, the rest of the layer is left. -/
theorem sdfStep_ok (dflt : V) (set : ℚ → Color → V → V) (w : List Thing) (lo hi : Pt) (M : ℚ) {l : VLayer V} (wf : WellFormed l) (i : Idx) :
    ∃ l', sdfStep dflt set w lo hi M l i = .ok l' ∧ l'.cfg = l.cfg ∧ WellFormed l' ∧
      (∀ g, content l' g = if blockOf l.cfg.vps g = i then
        some (sdfVoxel set w lo hi M (voxelCenter l.cfg.voxelSize g) ((content l g).getD dflt)) else content l g) ∧
      ∀ j, status l' j = if j = i then some ((status l j).getD (false, Flags.ofBool false)) else status l j := by
  have wa := allocateBlock_wf wf dflt i
  have ca := fun g => allocateBlock_content wf dflt i g
  have sa := fun j => allocateBlock_status dflt l i j
  have ea := allocateBlock_cfg dflt l i
  obtain ⟨b, hb⟩ : ∃ b, block? (allocateBlock dflt l i) i = some b := by
    rw [allocateBlock_block?, if_pos rfl]
    exact ⟨_, rfl⟩
  unfold sdfStep
  set d := allocateBlock dflt l i with hd
  simp only [hb]
  obtain ⟨b1, b2, b3, b4⟩ := wa.block _ _ hb
  rw [ea] at b1 b2 b3 b4
  have hal : Allocated d i := by
    show (block? d i).isSome = true
    rw [hb]; rfl
  have hst : status d i = some (b.hasData, b.updated) := by
    show (block? d i).map _ = _
    rw [hb]; rfl
  obtain ⟨r, r1, r2, r3⟩ := mapM_range (f := fun k => do
      let x ← voxelAt b k
      let v ← voxelIndexFromLinear b.vps k
      pure (sdfVoxel set w lo hi M (centerOf b v) x))
    (P := fun k y => ∃ v, InBlock l.cfg.vps v ∧ linearIndex l.cfg.vps v = k ∧ y = sdfVoxel set w lo hi M
      (voxelCenter l.cfg.voxelSize (globalIndex l.cfg.vps i v)) ((content l (globalIndex l.cfg.vps i v)).getD dflt)) b.voxels.length (by
      intro k hk
      obtain ⟨x, hx, hx'⟩ := voxelAt_ok hk
      rw [b4] at hk
      obtain ⟨v, v1, v2, v3, v4, v5⟩ := linear_global wf.side_le i hk
      refine ⟨_, ?_, v, v2, v3, rfl⟩
      rw [hx, b1, v1]
      simp only [Outcome.bind_ok]
      rw [centerOf_eq wa hb, ea]
      have hc := ca (globalIndex l.cfg.vps i v)
      rw [if_pos v4, content_eq wa, ea, v4, v5, hb, v3] at hc
      simp only [Option.bind_some] at hc
      rw [hx'] at hc
      have hc := Option.some.inj hc
      rw [hc]
      rfl)
  rw [show sdfBlock set w lo hi M b = .ok r from r1]
  simp only [Outcome.bind_ok, Outcome.pure_eq]
  have hgeo : b.vps = d.cfg.vps ∧ b.voxelSize = d.cfg.voxelSize ∧ b.origin = ⟨i.x * (d.cfg.voxelSize * d.cfg.vps),
      i.y * (d.cfg.voxelSize * d.cfg.vps), i.z * (d.cfg.voxelSize * d.cfg.vps)⟩ ∧
      r.length = d.cfg.vps * d.cfg.vps * d.cfg.vps := by
    rw [ea, r2]; exact ⟨b1, b2, b3, b4⟩
  refine ⟨_, rfl, ea, replace_wf wa hgeo, ?_, ?_⟩
  · intro g
    rw [replace_content wa hgeo hal, ea]
    split_ifs with hg
    · have hlt := (linearIndex_eq wf.side_le (localOf_inBlock wf.side_pos g)).2
      obtain ⟨z, z1, v, z2, z3, rfl⟩ := r3 _ (show linearIndex l.cfg.vps (localOf l.cfg.vps g) < b.voxels.length by rw [b4]; exact hlt)
      have hv := linearIndex_inj wf.side_le z2 (localOf_inBlock wf.side_pos g) z3
      have : globalIndex l.cfg.vps i v = g := by rw [hv, ← hg, globalIndex_split]
      rw [this] at z1
      exact z1
    · rw [ca, if_neg hg]
  · intro j
    rw [replace_status hal]
    split_ifs with hj
    · rw [← hst, sa, if_pos rfl, hj]
    · rw [sa, if_neg hj]

/-- The loop over the blocks. -/
theorem sdfSteps_ok (dflt : V) (set : ℚ → Color → V → V) (hset : ∀ d c x, set d c (set d c x) = set d c x) (w : List Thing) (lo hi : Pt) (M : ℚ)
    (is : List Idx) : ∀ {l : VLayer V}, WellFormed l →
    ∃ l', is.foldlM (sdfStep dflt set w lo hi M) l = .ok l' ∧ l'.cfg = l.cfg ∧ WellFormed l' ∧
      (∀ g, content l' g = if blockOf l.cfg.vps g ∈ is then
        some (sdfVoxel set w lo hi M (voxelCenter l.cfg.voxelSize g) ((content l g).getD dflt)) else content l g) ∧
      ∀ j, status l' j = if j ∈ is then some ((status l j).getD (false, Flags.ofBool false)) else status l j := by
  have idem : ∀ p x, sdfVoxel set w lo hi M p (sdfVoxel set w lo hi M p x) = sdfVoxel set w lo hi M p x := by
    intro p x
    unfold sdfVoxel
    split_ifs
    · exact hset _ _ _
    · rfl
  induction is with
  | nil => intro l wf; exact ⟨l, rfl, rfl, wf, by simp, by simp⟩
  | cons i is ih =>
    intro l wf
    obtain ⟨l1, e1, c1, wf1, h1, s1⟩ := sdfStep_ok dflt set w lo hi M wf i
    obtain ⟨l2, e2, c2, wf2, h2, s2⟩ := ih wf1
    refine ⟨l2, ?_, c2.trans c1, wf2, ?_, ?_⟩
    · rw [List.foldlM_cons, e1]; exact e2
    · intro g
      rw [h2, c1, h1]
      by_cases a : blockOf l.cfg.vps g = i <;> by_cases b : blockOf l.cfg.vps g ∈ is <;> simp [a, b, idem]
    · intro j
      rw [s2, s1]
      by_cases a : j = i <;> by_cases b : j ∈ is <;> simp [a, b]

theorem mapM_ok {α β : Type} {f : α → Outcome β} (g : α → β) (xs : List α) (h : ∀ x ∈ xs, f x = .ok (g x)) : xs.mapM f = .ok (xs.map g) := by
  induction xs with
  | nil => rfl
  | cons x xs ih =>
    rw [List.mapM_cons, h x (List.mem_cons_self ..), ih fun y hy => h y (List.mem_cons_of_mem _ hy)]
    rfl

/-- The blocks that are visited. -/
theorem sdf_blocks {l : VLayer V} (wf : WellFormed l) {lo hi : Pt}
    (hlo : lo.All fun c => -2 ^ 29 * l.cfg.voxelSize ≤ c ∧ c ≤ 2 ^ 29 * l.cfg.voxelSize)
    (hhi : hi.All fun c => -2 ^ 29 * l.cfg.voxelSize ≤ c ∧ c ≤ 2 ^ 29 * l.cfg.voxelSize) :
    ∃ is, (sdfPoints l.cfg.blockSize lo hi).mapM (blockIndexOf l) = .ok is ∧
      ∀ i, i ∈ is ↔ Sampled (l.cfg.voxelSize * l.cfg.vps) lo hi i := by
  have hs := wf.size_pos
  have hn1 : (1 : ℚ) ≤ l.cfg.vps := by exact_mod_cast wf.side_pos
  have hn2 : (l.cfg.vps : ℚ) ≤ 1290 := by exact_mod_cast wf.side_le
  set B := l.cfg.voxelSize * l.cfg.vps with hBdef
  have hB : 0 < B := by positivity
  have hB2 : B ≤ l.cfg.voxelSize * 1290 := mul_le_mul_of_nonneg_left hn2 hs.le
  have eB : l.cfg.blockSize = B := rfl
  have addr : ∀ p ∈ sdfPoints B lo hi, Addressable l p := by
    intro p hp
    obtain ⟨⟨k, h1, h2⟩, ⟨k', h3, h4⟩, ⟨k'', h5, h6⟩⟩ := (mem_sdfPoints hB lo hi p).1 hp
    have q : ∀ k : ℕ, 0 ≤ (k : ℚ) * B := fun k => by positivity
    have q1 := q k; have q2 := q k'; have q3 := q k''
    obtain ⟨⟨a1, -⟩, ⟨a2, -⟩, ⟨a3, -⟩⟩ := hlo
    obtain ⟨⟨-, b1⟩, ⟨-, b2⟩, ⟨-, b3⟩⟩ := hhi
    refine ⟨⟨?_, ?_⟩, ⟨?_, ?_⟩, ⟨?_, ?_⟩⟩ <;> linarith
  rw [eB]
  refine ⟨_, mapM_ok (bIdx l) _ fun p hp => blockIndexOf_ok wf (addr p hp), ?_⟩
  have key : ∀ c : ℚ, bAx l.cfg.vps l.cfg.voxelSize c = ⌊c / B + kEpsilon⌋ := fun c => by
    unfold bAx; rw [mul_one_div]
  have fl : ∀ (q : ℚ) (i : ℤ), ⌊q⌋ = i ↔ (i : ℚ) ≤ q ∧ q < i + 1 := fun q i => Int.floor_eq_iff
  intro i
  rw [List.mem_map]
  constructor
  · rintro ⟨p, hp, rfl⟩
    obtain ⟨⟨k, h1, h2⟩, ⟨k', h3, h4⟩, ⟨k'', h5, h6⟩⟩ := (mem_sdfPoints hB lo hi p).1 hp
    refine ⟨⟨k, h1 ▸ h2, ?_⟩, ⟨k', h3 ▸ h4, ?_⟩, ⟨k'', h5 ▸ h6, ?_⟩⟩
    · rw [← fl, ← key, ← h1]; rfl
    · rw [← fl, ← key, ← h3]; rfl
    · rw [← fl, ← key, ← h5]; rfl
  · rintro ⟨⟨k, h1, h2⟩, ⟨k', h3, h4⟩, ⟨k'', h5, h6⟩⟩
    rw [← fl, ← key] at h2 h4 h6
    exact ⟨⟨_, _, _⟩, (mem_sdfPoints hB lo hi _).2 ⟨⟨k, rfl, h1⟩, ⟨k', rfl, h3⟩, ⟨k'', rfl, h5⟩⟩, Vec3.ext h2 h4 h6⟩

/-- Along an axis every block from the first sample to a position reached by a sample is visited. -/
theorem sampled_axis {B lo hi p : ℚ} (hB : 0 < B) {i : ℤ} (hi1 : (i : ℚ) * B ≤ p) (hi2 : p < (i + 1) * B) (hl : lo ≤ p)
    (h : p ≤ hi - B / 2 ∨ p ≤ hi ∧ ∃ n : ℕ, hi - lo = n * B) : SampledAxis B lo hi i := by
  have he : kEpsilon = 1 / 1000000 := rfl
  have x0 : (lo - B / 2) / B + kEpsilon < i + 1 := by
    have : (lo - B / 2) / B < i + 1 / 2 := by rw [div_lt_iff₀ hB]; linarith
    rw [he]; linarith
  obtain ⟨m, hm⟩ : ∃ m : ℤ, m = ⌊(lo - B / 2) / B + kEpsilon⌋ := ⟨_, rfl⟩
  obtain ⟨m1, m2⟩ := Int.floor_eq_iff.1 hm.symm
  have hmi : m ≤ i := by
    have : (m : ℚ) < ((i + 1 : ℤ) : ℚ) := by push_cast; linarith
    exact Int.lt_add_one_iff.1 (by exact_mod_cast this)
  obtain ⟨k, hk⟩ := Int.eq_ofNat_of_zero_le (sub_nonneg.2 hmi)
  have hk' : (k : ℚ) = i - m := by exact_mod_cast hk.symm
  have e : (lo - B / 2 + k * B) / B = (lo - B / 2) / B + k := by field_simp
  refine ⟨k, ?_, ?_, ?_⟩
  · -- the sample lies at most half a block beyond the upper bound
    have hx : (lo - B / 2 + k * B) / B < i + 1 := by
      rw [e, hk']
      have : (0 : ℚ) < kEpsilon := by rw [he]; norm_num
      linarith
    rw [div_lt_iff₀ hB] at hx
    rcases h with h | ⟨h, n, hn⟩
    · linarith
    · have : (k : ℚ) < n + 2 := lt_of_mul_lt_mul_right (show (k : ℚ) * B < (n + 2) * B by linarith) hB.le
      have : k ≤ n + 1 := by
        have : k < n + 2 := by exact_mod_cast this
        omega
      have : (k : ℚ) ≤ n + 1 := by exact_mod_cast this
      have := mul_le_mul_of_nonneg_right this hB.le
      linarith
  · rw [e, hk']; linarith
  · rw [e, hk']; linarith

end Vox.Sim
