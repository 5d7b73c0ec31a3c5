/-
C56: spheres of voxels. C57: map bounds.
-/
import Verif.Lemmas.Sphere

namespace Vox.Sphere

open Layer Grid Spec

variable {V : Type}

/-! ### C56: which voxels -/

/-- **C56 (voxels of a sphere).** Full statement: the reported voxels are those whose offset from the centre voxel is
within the radius. The code samples the sphere at points moved by `⌈r⌉ - r` (`r` the radius in voxels), so for
other radii a shifted sphere is reported (`C56_asymmetric`). What holds for every centre and radius (in range):
the query succeeds, every block is listed once, and a voxel is listed exactly once if its offset lies in the
shifted sphere and never otherwise. -/
theorem C56_sphere_partial {cfg : Cfg} {center : Pt} {radius : ℚ} (h : SphereInRange cfg center radius) :
    ∃ m, getSphere cfg center radius [] = .ok m ∧ (m.map (·.1)).Nodup ∧ ∀ i v, (listed m i).count v =
      if InBlock cfg.vps v ∧ InSphere (radius / cfg.voxelSize) (globalIndex cfg.vps i v - gridIndex center (1 / cfg.voxelSize))
        then 1 else 0 := by
  have hn : 0 < cfg.vps := by
    obtain ⟨k, -, e⟩ := h.power
    rw [e]; positivity
  obtain ⟨h1, h2, -⟩ := pushAll (sphereList cfg center radius) [] (by simp)
  refine ⟨_, getSphere_ok h [], h1, ?_⟩
  intro i v
  rw [h2]
  simp only [listed, List.lookup_nil, Option.getD_none, List.nil_append]
  have hnd : (((sphereList cfg center radius).filter fun e => decide (e.1 = i)).map (·.2)).Nodup := by
    refine List.Nodup.map_on ?_ ((sphereList_nodup cfg center radius).filter _)
    rintro ⟨a, b⟩ ha ⟨c, d⟩ hc hbd
    simp only [List.mem_filter, decide_eq_true_eq] at ha hc hbd
    rw [ha.2, hc.2, hbd]
  have hmem : v ∈ ((sphereList cfg center radius).filter fun e => decide (e.1 = i)).map (·.2) ↔
      (i, v) ∈ sphereList cfg center radius := by
    simp
  rw [hnd.count]
  simp only [hmem, mem_sphereList hn]

example : SphereInRange ⟨1 / 10, 8⟩ ⟨-3, 1 / 20, 7⟩ (1 / 2) :=
  ⟨by norm_num, ⟨3, by norm_num, rfl⟩, by norm_num, by unfold Vec3.All; norm_num⟩

/-- **C56 (radius a multiple of the voxel size).** Then the voxels are exactly those within the radius. -/
theorem C56_exact (n : ℕ) (o : Idx) : InSphere n o ↔ sqLen o ≤ (n : ℤ) ^ 2 := by
  have hs : sphereShift (n : ℚ) = 0 := by
    unfold sphereShift
    rw [Int.ceil_natCast]
    push_cast
    ring
  unfold InSphere sqLen
  rw [hs]
  constructor
  · rintro ⟨-, h⟩
    have : ((o.x * o.x + o.y * o.y + o.z * o.z : ℤ) : ℚ) ≤ (((n : ℤ) ^ 2 : ℤ) : ℚ) := by push_cast; linarith
    exact_mod_cast this
  · intro h
    refine ⟨by positivity, ?_⟩
    have : ((o.x * o.x + o.y * o.y + o.z * o.z : ℤ) : ℚ) ≤ (((n : ℤ) ^ 2 : ℤ) : ℚ) := by exact_mod_cast h
    push_cast at this
    linarith

/-- **C56 (violated for other radii).** With a radius of one and a half voxels the neighbour below the centre is in the
sphere and the one above, at the same distance of one voxel, is not. -/
theorem C56_asymmetric : InSphere (3 / 2) ⟨-1, 0, 0⟩ ∧ ¬ InSphere (3 / 2) ⟨1, 0, 0⟩ := by decide +kernel

/-- No reported offset is longer than the radius by more than the diagonal of a voxel, per axis by more than one
voxel. -/
theorem C56_within {r : ℚ} {o : Idx} (h : InSphere r o) : o.All fun (c : ℤ) => |(c : ℚ)| < r + 1 := by
  have sx := sq_nonneg ((o.x : ℚ) + sphereShift r)
  have sy := sq_nonneg ((o.y : ℚ) + sphereShift r)
  have sz := sq_nonneg ((o.z : ℚ) + sphereShift r)
  have h0 : 0 ≤ sphereShift r ∧ sphereShift r < 1 := by
    unfold sphereShift
    have := Int.le_ceil r
    have := Int.ceil_lt_add_one r
    constructor <;> linarith
  have key : ∀ c : ℤ, ((c : ℚ) + sphereShift r) ^ 2 ≤ r ^ 2 → |(c : ℚ)| < r + 1 := by
    intro c hc
    have ha := abs_le.1 (abs_le_of_sq_le_sq hc h.1)
    rw [abs_lt]
    constructor <;> linarith
  have h2 := h.2
  exact ⟨key _ (by linarith), key _ (by linarith), key _ (by linarith)⟩

/-! ### C56: filling and clearing -/

/-- The voxel `g` belongs to the sphere. -/
def Covered (cfg : Cfg) (center : Pt) (radius : ℚ) (g : Idx) : Prop :=
  InSphere (radius / cfg.voxelSize) (g - gridIndex center (1 / cfg.voxelSize))

instance (cfg : Cfg) (center : Pt) (radius : ℚ) (g : Idx) : Decidable (Covered cfg center radius g) :=
  inferInstanceAs (Decidable (InSphere _ _))

/-- What writing a sphere does to a layer: voxels of the sphere are overwritten with `value` of their centre when they
were not observed or the value is better; other voxels keep their content (voxels of newly allocated blocks are
default voxels); blocks with a changed voxel have data and all update flags, other blocks keep their status. -/
structure Written (value : Pt → ℚ) (better : ℚ → ℚ → Bool) (center : Pt) (radius : ℚ) (l l' : VLayer (EsdfVoxel ℚ)) : Prop where
  cfg : l'.cfg = l.cfg
  wf : WellFormed l'
  inside : ∀ g, Covered l.cfg center radius g → content l' g =
    some (overwritten better (value (voxelCenter l.cfg.voxelSize g)) ((content l g).getD esdfDefault))
  outside : ∀ g, ¬ Covered l.cfg center radius g → content l' g = content l g ∨
    (content l g = none ∧ content l' g = some esdfDefault ∧
      ∃ g', Covered l.cfg center radius g' ∧ blockOf l.cfg.vps g' = blockOf l.cfg.vps g)
  marked : ∀ g, Covered l.cfg center radius g →
    Improves better (value (voxelCenter l.cfg.voxelSize g)) ((content l g).getD esdfDefault) →
    status l' (blockOf l.cfg.vps g) = some (true, Flags.setAll)
  unmarked : ∀ j, (∀ g, Covered l.cfg center radius g → blockOf l.cfg.vps g = j →
    ¬ Improves better (value (voxelCenter l.cfg.voxelSize g)) ((content l g).getD esdfDefault)) → status l' j = status l j

theorem sphere_written {l : VLayer (EsdfVoxel ℚ)} (wf : WellFormed l) {center : Pt} {radius : ℚ}
    (h : SphereInRange l.cfg center radius) (order : VoxelMap → VoxelMap) (ho : ∀ m, (order m).Perm m)
    (value : Pt → ℚ) (better : ℚ → ℚ → Bool) :
    ∃ r l', getAndAllocateSphere esdfDefault center radius l [] = .ok r ∧
      sphereLoop value better (order r.2) r.1 = .ok l' ∧ Written value better center radius l l' := by
  have hn := wf.side_pos
  obtain ⟨h1, h2, h3⟩ := pushAll (sphereList l.cfg center radius) [] (by simp)
  set m := (sphereList l.cfg center radius).foldl pushVoxel [] with hm
  obtain ⟨a1, a2, a3, a4⟩ := allocateAll wf esdfDefault (m.map (·.1))
  set l1 := (m.map (·.1)).foldl (allocateBlock esdfDefault) l with hl1
  have hlist : ∀ i v, v ∈ listed m i ↔ (i, v) ∈ sphereList l.cfg center radius := by
    intro i v
    rw [h2]
    simp only [listed, List.lookup_nil, Option.getD_none, List.nil_append]
    simp
  have hlnd : ∀ i, (listed m i).Nodup := by
    intro i
    rw [h2]
    simp only [listed, List.lookup_nil, Option.getD_none, List.nil_append]
    refine List.Nodup.map_on ?_ ((sphereList_nodup l.cfg center radius).filter _)
    rintro ⟨a, b⟩ ha ⟨c, d⟩ hc hbd
    simp only [List.mem_filter, decide_eq_true_eq] at ha hc hbd
    rw [ha.2, hc.2, hbd]
  have hperm : (pairs (order m)).Perm (pairs m) := (ho m).flatMap_right _
  have hpm : ∀ i v, (i, v) ∈ pairs (order m) ↔ InBlock l.cfg.vps v ∧ Covered l.cfg center radius (globalIndex l.cfg.vps i v) := by
    intro i v
    rw [hperm.mem_iff, mem_pairs h1, hlist, mem_sphereList hn]
    rfl
  have hkey : ∀ i, i ∈ m.map (·.1) ↔ ∃ g, Covered l.cfg center radius g ∧ blockOf l.cfg.vps g = i := by
    intro i
    rw [h3]
    simp only [List.map_nil, List.not_mem_nil, false_or, List.mem_map, Prod.exists, exists_and_right, exists_eq_right]
    constructor
    · rintro ⟨v, hv⟩
      obtain ⟨b1, b2⟩ := (mem_sphereList hn).1 hv
      exact ⟨_, b2, blockOf_globalIndex b1⟩
    · rintro ⟨g, hg, rfl⟩
      refine ⟨localOf l.cfg.vps g, (mem_sphereList hn).2 ⟨localOf_inBlock hn g, ?_⟩⟩
      rw [globalIndex_split]
      exact hg
  obtain ⟨l', f1, f2, f3, f4, f5⟩ := sphereWrites_ok value better (pairs (order m)) l1 a2
    (hperm.nodup_iff.2 (pairs_nodup h1 hlnd)) (by
      rintro ⟨i, v⟩ he
      rw [a1]
      obtain ⟨b1, b2⟩ := (hpm i v).1 he
      refine ⟨b1, ?_⟩
      rw [allocated_iff_status, a4, if_pos ((hkey i).2 ⟨_, b2, blockOf_globalIndex b1⟩)]
      rfl)
  rw [a1] at f4 f5
  have hcov : ∀ g, (blockOf l.cfg.vps g, localOf l.cfg.vps g) ∈ pairs (order m) ↔ Covered l.cfg center radius g := by
    intro g
    rw [hpm, globalIndex_split]
    exact ⟨fun h => h.2, fun h => ⟨localOf_inBlock hn g, h⟩⟩
  have hc1 : ∀ g, Covered l.cfg center radius g → content l1 g = some ((content l g).getD esdfDefault) := by
    intro g hg
    rw [a3, if_pos ((hkey _).2 ⟨g, hg, rfl⟩)]
  refine ⟨(l1, m), l', ?_, ?_, f2.trans a1, f3, ?_, ?_, ?_, ?_⟩
  · unfold getAndAllocateSphere
    rw [getSphere_ok h []]
    rfl
  · unfold sphereLoop
    rw [foldlM_pairs (sphereWrite value better)]
    exact f1
  · intro g hg
    rw [f4, if_pos ((hcov g).2 hg), hc1 g hg]
    rfl
  · intro g hg
    rw [f4, if_neg (fun h => hg ((hcov g).1 h)), a3]
    split_ifs with hb
    · cases hc : content l g with
      | some x => exact Or.inl rfl
      | none => exact Or.inr ⟨rfl, rfl, (hkey _).1 hb⟩
    · exact Or.inl rfl
  · intro g hg himp
    rw [f5, if_pos]
    refine ⟨localOf l.cfg.vps g, (content l g).getD esdfDefault, (hcov g).2 hg, ?_, ?_⟩
    · rw [globalIndex_split]; exact hc1 g hg
    · rw [globalIndex_split]; exact himp
  · intro j hno
    rw [f5, if_neg, a4]
    · split_ifs with hj
      · obtain ⟨g, hg, hgj⟩ := (hkey j).1 hj
        have hobs := hno g hg hgj
        cases hc : content l g with
        | none =>
          rw [hc] at hobs
          exact absurd (Or.inl rfl) hobs
        | some x =>
          have hal : Allocated l j := by
            have := content_isSome wf g
            rw [hc, hgj] at this
            exact this.symm
          obtain ⟨st, hst⟩ := Option.isSome_iff_exists.1 (allocated_iff_status.1 hal)
          rw [hst]; rfl
      · rfl
    · rintro ⟨v, x, hv, hx, himp⟩
      obtain ⟨b1, b2⟩ := (hpm j v).1 hv
      refine hno _ b2 (blockOf_globalIndex b1) ?_
      rw [hc1 _ b2] at hx
      rw [Option.some.inj hx]
      exact himp

/-- **C56 (filling).** Filling a sphere succeeds for every content of the layer and every iteration order of the hash
map. It writes `max(|centre - c| - radius, -max)` to the voxels of the sphere that were not observed or had a larger
distance, and changes no other voxel. -/
theorem C56_fill {l : VLayer (EsdfVoxel ℚ)} (wf : WellFormed l) {center : Pt} {radius : ℚ} (h : SphereInRange l.cfg center radius)
    (order : VoxelMap → VoxelMap) (ho : ∀ m, (order m).Perm m) (sq : ℚ → ℚ) (maxDist : ℚ) :
    ∃ l', fillSphere order sq center radius maxDist l = .ok l' ∧
      Written (fun p => max (sq ((p.x - center.x) ^ 2 + (p.y - center.y) ^ 2 + (p.z - center.z) ^ 2) - radius) (-maxDist))
        (fun d old => decide (d < old)) center radius l l' := by
  have hval : fillValue sq center radius maxDist =
      fun p => max (sq ((p.x - center.x) ^ 2 + (p.y - center.y) ^ 2 + (p.z - center.z) ^ 2) - radius) (-maxDist) := by
    funext p
    simp only [fillValue, length, Vec3.sub_x, Vec3.sub_y, Vec3.sub_z, pow_two]
  obtain ⟨r, l', h1, h2, h3⟩ := sphere_written wf h order ho (fillValue sq center radius maxDist) (fun d old => decide (d < old))
  refine ⟨l', ?_, hval ▸ h3⟩
  unfold fillSphere
  rw [h1]
  exact h2

/-- **C56 (clearing).** Clearing writes `min(radius - |centre - c|, max)` to the voxels of the sphere that were not
observed or had a smaller distance, and changes no other voxel. -/
theorem C56_clear {l : VLayer (EsdfVoxel ℚ)} (wf : WellFormed l) {center : Pt} {radius : ℚ} (h : SphereInRange l.cfg center radius)
    (order : VoxelMap → VoxelMap) (ho : ∀ m, (order m).Perm m) (sq : ℚ → ℚ) (maxDist : ℚ) :
    ∃ l', clearSphere order sq center radius maxDist l = .ok l' ∧
      Written (fun p => min (radius - sq ((p.x - center.x) ^ 2 + (p.y - center.y) ^ 2 + (p.z - center.z) ^ 2)) maxDist)
        (fun d old => decide (old < d)) center radius l l' := by
  have hval : clearValue sq center radius maxDist =
      fun p => min (radius - sq ((p.x - center.x) ^ 2 + (p.y - center.y) ^ 2 + (p.z - center.z) ^ 2)) maxDist := by
    funext p
    simp only [clearValue, length, Vec3.sub_x, Vec3.sub_y, Vec3.sub_z, pow_two]
  obtain ⟨r, l', h1, h2, h3⟩ := sphere_written wf h order ho (clearValue sq center radius maxDist) (fun d old => decide (old < d))
  refine ⟨l', ?_, hval ▸ h3⟩
  unfold clearSphere
  rw [h1]
  exact h2

/-- Filling a sphere of one voxel in an empty layer with blocks of side 2. -/
example : (fillSphere id (fun q => q) ⟨1 / 2, 1 / 2, 1 / 2⟩ 1 5 ⟨⟨1, 2⟩, []⟩ >>= fun l =>
    .ok ((content l ⟨0, 0, 0⟩).map (·.distance), (content l ⟨1, 0, 0⟩).map (·.distance), content l ⟨1, 1, 0⟩,
      (content l ⟨2, 0, 0⟩))) =
    .ok (some (-1), some 0, some esdfDefault, none) := by decide +kernel

example : WellFormed (V := EsdfVoxel ℚ) ⟨⟨1, 2⟩, []⟩ ∧ SphereInRange ⟨1, 2⟩ ⟨1 / 2, 1 / 2, 1 / 2⟩ 1 :=
  ⟨⟨by norm_num, by norm_num, by norm_num, by intro i b h; simp at h⟩,
   ⟨by norm_num, ⟨1, by norm_num, rfl⟩, by norm_num, by unfold Vec3.All; norm_num⟩⟩

/-! ### C57 -/

/-- The bounds `lo`, `hi` of block indices: reached on every axis and exceeded on none. -/
def TightBounds (is : List Idx) (lo hi : Idx) : Prop :=
  (∀ i ∈ is, (lo.x ≤ i.x ∧ i.x ≤ hi.x) ∧ (lo.y ≤ i.y ∧ i.y ≤ hi.y) ∧ (lo.z ≤ i.z ∧ i.z ≤ hi.z)) ∧
  (∃ i ∈ is, i.x = lo.x) ∧ (∃ i ∈ is, i.x = hi.x) ∧ (∃ i ∈ is, i.y = lo.y) ∧ (∃ i ∈ is, i.y = hi.y) ∧
  (∃ i ∈ is, i.z = lo.z) ∧ (∃ i ∈ is, i.z = hi.z)

theorem bounds_fold (is : List Idx) : ∀ (js : List Idx) (lo hi : Idx), TightBounds js lo hi →
    ∃ lo' hi', is.foldl boundsStep (some (lo, hi)) = some (lo', hi') ∧ TightBounds (js ++ is) lo' hi' := by
  induction is with
  | nil => intro js lo hi h; exact ⟨lo, hi, rfl, by simpa using h⟩
  | cons i is ih =>
    intro js lo hi h
    have h' : TightBounds (js ++ [i]) (Vec3.map₂ min lo i) (Vec3.map₂ max hi i) := by
      obtain ⟨hall, a, b, c, d, e, f⟩ := h
      refine ⟨?_, ?_, ?_, ?_, ?_, ?_, ?_⟩
      · intro j hj
        simp only [Vec3.map₂_x, Vec3.map₂_y, Vec3.map₂_z]
        rcases List.mem_append.1 hj with hj | hj
        · have := hall j hj
          omega
        · rw [List.mem_singleton.1 hj]
          omega
      all_goals simp only [Vec3.map₂_x, Vec3.map₂_y, Vec3.map₂_z]
      · obtain ⟨j, hj, e⟩ := a
        rcases le_total lo.x i.x with h | h
        · exact ⟨j, List.mem_append_left _ hj, by rw [e, min_eq_left h]⟩
        · exact ⟨i, by simp, by rw [min_eq_right h]⟩
      · obtain ⟨j, hj, e⟩ := b
        rcases le_total hi.x i.x with h | h
        · exact ⟨i, by simp, by rw [max_eq_right h]⟩
        · exact ⟨j, List.mem_append_left _ hj, by rw [e, max_eq_left h]⟩
      · obtain ⟨j, hj, e⟩ := c
        rcases le_total lo.y i.y with h | h
        · exact ⟨j, List.mem_append_left _ hj, by rw [e, min_eq_left h]⟩
        · exact ⟨i, by simp, by rw [min_eq_right h]⟩
      · obtain ⟨j, hj, e⟩ := d
        rcases le_total hi.y i.y with h | h
        · exact ⟨i, by simp, by rw [max_eq_right h]⟩
        · exact ⟨j, List.mem_append_left _ hj, by rw [e, max_eq_left h]⟩
      · obtain ⟨j, hj, e⟩ := e
        rcases le_total lo.z i.z with h | h
        · exact ⟨j, List.mem_append_left _ hj, by rw [e, min_eq_left h]⟩
        · exact ⟨i, by simp, by rw [min_eq_right h]⟩
      · obtain ⟨j, hj, e⟩ := f
        rcases le_total hi.z i.z with h | h
        · exact ⟨i, by simp, by rw [max_eq_right h]⟩
        · exact ⟨j, List.mem_append_left _ hj, by rw [e, max_eq_left h]⟩
    obtain ⟨lo', hi', e1, e2⟩ := ih _ _ _ h'
    refine ⟨lo', hi', e1, ?_⟩
    rw [List.append_assoc] at e2
    exact e2

/-- **C57 (map bounds).** Full statement: the query is defined for every layer and returns the tight bounding box of
the allocated blocks. For a layer with at least one block it does: every point of every block lies in the box, and
each face of the box touches a block. Without blocks uninitialised variables are read (`C57_empty`). -/
theorem C57_bounds_partial (l : VLayer V) (hb : l.blocks ≠ []) (hs : 0 < l.cfg.blockSize) :
    ∃ lower upper, mapBounds l = .ok (lower, upper) ∧
      (∀ i ∈ l.blocks.map (·.1), ∀ p : Pt, Vec3.All₂ (fun (c : ℤ) (q : ℚ) => (c : ℚ) * l.cfg.blockSize ≤ q ∧
          q ≤ ((c : ℚ) + 1) * l.cfg.blockSize) i p →
        (lower.x ≤ p.x ∧ p.x ≤ upper.x) ∧ (lower.y ≤ p.y ∧ p.y ≤ upper.y) ∧ (lower.z ≤ p.z ∧ p.z ≤ upper.z)) ∧
      (∃ i ∈ l.blocks.map (·.1), (i.x : ℚ) * l.cfg.blockSize = lower.x) ∧
      (∃ i ∈ l.blocks.map (·.1), ((i.x : ℚ) + 1) * l.cfg.blockSize = upper.x) ∧
      (∃ i ∈ l.blocks.map (·.1), (i.y : ℚ) * l.cfg.blockSize = lower.y) ∧
      (∃ i ∈ l.blocks.map (·.1), ((i.y : ℚ) + 1) * l.cfg.blockSize = upper.y) ∧
      (∃ i ∈ l.blocks.map (·.1), (i.z : ℚ) * l.cfg.blockSize = lower.z) ∧
      (∃ i ∈ l.blocks.map (·.1), ((i.z : ℚ) + 1) * l.cfg.blockSize = upper.z) := by
  have hne : l.blocks.map (·.1) ≠ [] := by simpa using hb
  unfold mapBounds
  generalize l.blocks.map (·.1) = is at *
  cases is with
  | nil => exact absurd rfl hne
  | cons i is =>
    obtain ⟨lo, hi, e1, e2⟩ := bounds_fold is [i] i i (by
      refine ⟨?_, ⟨i, by simp⟩, ⟨i, by simp⟩, ⟨i, by simp⟩, ⟨i, by simp⟩, ⟨i, by simp⟩, ⟨i, by simp⟩⟩
      intro j hj
      rw [List.mem_singleton.1 hj]
      omega)
    have e1' : (i :: is).foldl boundsStep none = some (lo, hi) := e1
    rw [e1']
    rw [List.singleton_append] at e2
    obtain ⟨hall, a, b, c, d, e, f⟩ := e2
    have mono : ∀ (x y : ℤ), x ≤ y → (x : ℚ) * l.cfg.blockSize ≤ y * l.cfg.blockSize := by
      intro x y h
      exact mul_le_mul_of_nonneg_right (by exact_mod_cast h) hs.le
    refine ⟨_, _, rfl, ?_, ?_, ?_, ?_, ?_, ?_, ?_⟩
    · rintro j hj p ⟨px, py, pz⟩
      obtain ⟨hx, hy, hz⟩ := hall j hj
      have m1 := mono _ _ hx.1
      have m2 := mono _ _ hx.2
      have m3 := mono _ _ hy.1
      have m4 := mono _ _ hy.2
      have m5 := mono _ _ hz.1
      have m6 := mono _ _ hz.2
      simp only [originPoint, Vec3.map_x, Vec3.map_y, Vec3.map_z]
      refine ⟨⟨?_, ?_⟩, ⟨?_, ?_⟩, ⟨?_, ?_⟩⟩ <;> linarith
    all_goals simp only [originPoint, Vec3.map_x, Vec3.map_y, Vec3.map_z]
    · obtain ⟨j, hj, e⟩ := a; exact ⟨j, hj, by rw [e]⟩
    · obtain ⟨j, hj, e⟩ := b; exact ⟨j, hj, by rw [e]; ring⟩
    · obtain ⟨j, hj, e⟩ := c; exact ⟨j, hj, by rw [e]⟩
    · obtain ⟨j, hj, e⟩ := d; exact ⟨j, hj, by rw [e]; ring⟩
    · obtain ⟨j, hj, e⟩ := e; exact ⟨j, hj, by rw [e]⟩
    · obtain ⟨j, hj, e⟩ := f; exact ⟨j, hj, by rw [e]; ring⟩

example : (⟨⟨1, 2⟩, [(⟨0, -3, 0⟩, Block.new true 2 1 0), (⟨4, 0, 1⟩, Block.new true 2 1 0)]⟩ : VLayer Bool).blocks ≠ [] ∧
    mapBounds (⟨⟨1, 2⟩, [(⟨0, -3, 0⟩, Block.new true 2 1 0), (⟨4, 0, 1⟩, Block.new true 2 1 0)]⟩ : VLayer Bool) =
      .ok (⟨0, -6, 0⟩, ⟨10, 2, 4⟩) := by decide +kernel

/-- **C57 (violated for an empty layer).** -/
theorem C57_empty (cfg : Cfg) : mapBounds (⟨cfg, []⟩ : VLayer V) = .ub := rfl

end Vox.Sphere
