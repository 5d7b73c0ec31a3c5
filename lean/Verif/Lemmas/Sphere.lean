/-
Lemmas on spheres of voxels.
-/
import Verif.Model.Sphere
import Verif.Spec.Sphere
import Verif.Lemmas.GridWrite

namespace Vox.Sphere

open Layer Grid Spec

variable {V : Type}

theorem loopValues_eq : ∀ (n : ℕ) (x r : ℚ), (⌊r - x⌋ + 1).toNat < n →
    loopValues n x r = (List.range (⌊r - x⌋ + 1).toNat).map fun (j : ℕ) => x + j := by
  intro n
  induction n with
  | zero => intro x r h; omega
  | succ n ih =>
    intro x r h
    unfold loopValues
    split_ifs with hx
    · have h0 : 0 ≤ ⌊r - x⌋ := Int.floor_nonneg.2 (by linarith)
      have e : ⌊r - (x + 1)⌋ = ⌊r - x⌋ - 1 := by
        rw [show r - (x + 1) = r - x - (1 : ℤ) by push_cast; ring, Int.floor_sub_intCast]
      have e2 : (⌊r - x⌋ + 1).toNat = (⌊r - (x + 1)⌋ + 1).toNat + 1 := by omega
      rw [ih _ _ (by omega), e2, List.range_succ_eq_map, List.map_cons, List.map_map]
      congr 1
      · simp
      · refine List.map_congr_left fun j _ => ?_
        simp only [Function.comp_apply, Nat.succ_eq_add_one]
        push_cast
        ring
    · have : ⌊r - x⌋ < 0 := Int.floor_lt.2 (by push_cast; linarith)
      have : (⌊r - x⌋ + 1).toNat = 0 := by omega
      rw [this]
      rfl

theorem axisValues_eq (r : ℚ) : axisValues r = (List.range (⌊2 * r⌋ + 1).toNat).map fun (j : ℕ) => -r + j := by
  unfold axisValues
  have e : r - -r = 2 * r := by ring
  have := Int.floor_le_ceil (2 * r)
  rw [loopValues_eq _ _ _ (by rw [e]; omega), e]

theorem mem_axisValues {r y : ℚ} : y ∈ axisValues r ↔ ∃ j : ℕ, y = -r + j ∧ y ≤ r := by
  rw [axisValues_eq, List.mem_map]
  constructor
  · rintro ⟨j, hj, rfl⟩
    refine ⟨j, rfl, ?_⟩
    rw [List.mem_range] at hj
    have : (j : ℤ) ≤ ⌊2 * r⌋ := by omega
    have := Int.le_floor.1 this
    push_cast at this
    linarith
  · rintro ⟨j, rfl, h⟩
    refine ⟨j, ?_, rfl⟩
    rw [List.mem_range]
    have : (j : ℤ) ≤ ⌊2 * r⌋ := Int.le_floor.2 (by push_cast; linarith)
    omega

theorem axisValues_nodup (r : ℚ) : (axisValues r).Nodup := by
  rw [axisValues_eq]
  refine List.Nodup.map ?_ List.nodup_range
  intro a b h
  simp only [add_right_inj, Nat.cast_inj] at h
  exact h

theorem floor_axis (r : ℚ) (j : ℕ) : ⌊-r + j⌋ = j - ⌈r⌉ := by
  rw [Int.floor_add_natCast, Int.floor_neg]; ring

/-- The offsets of the sphere in visiting order. -/
def offsets (r : ℚ) : List Idx := (spherePoints r).map fun p => p.map (⌊·⌋)

theorem mem_spherePoints {r : ℚ} {p : Pt} : p ∈ spherePoints r ↔
    p.x ∈ axisValues r ∧ p.y ∈ axisValues r ∧ p.z ∈ axisValues r ∧ p.x * p.x + p.y * p.y + p.z * p.z ≤ r * r := by
  unfold spherePoints
  simp only [List.mem_flatMap, List.mem_filter, List.mem_map, decide_eq_true_eq]
  constructor
  · rintro ⟨x, hx, y, hy, ⟨z, hz, rfl⟩, h⟩
    exact ⟨hx, hy, hz, h⟩
  · rintro ⟨hx, hy, hz, h⟩
    exact ⟨p.x, hx, p.y, hy, ⟨p.z, hz, rfl⟩, h⟩

theorem axis_point {r y : ℚ} (h : y ∈ axisValues r) : y = (⌊y⌋ : ℚ) + sphereShift r := by
  obtain ⟨j, rfl, -⟩ := mem_axisValues.1 h
  rw [floor_axis]
  unfold sphereShift
  push_cast
  ring

theorem mem_axis_of {r : ℚ} (hr : 0 ≤ r) {c : ℤ} (h : (c + sphereShift r) ^ 2 ≤ r ^ 2) :
    (c : ℚ) + sphereShift r ∈ axisValues r := by
  have ha := abs_le.1 (abs_le_of_sq_le_sq h hr)
  rw [mem_axisValues]
  have h0 : 0 ≤ c + ⌈r⌉ := by
    have h1 := ha.1
    unfold sphereShift at h1
    have : (0 : ℚ) ≤ ((c + ⌈r⌉ : ℤ) : ℚ) := by push_cast; linarith
    exact_mod_cast this
  refine ⟨(c + ⌈r⌉).toNat, ?_, ha.2⟩
  have : (((c + ⌈r⌉).toNat : ℕ) : ℚ) = ((c + ⌈r⌉ : ℤ) : ℚ) := by
    have := Int.toNat_of_nonneg h0
    exact_mod_cast congrArg (Int.cast : ℤ → ℚ) this
  rw [this]
  unfold sphereShift
  push_cast
  ring

theorem mem_offsets {r : ℚ} {o : Idx} : o ∈ offsets r ↔ InSphere r o := by
  unfold offsets
  rw [List.mem_map]
  constructor
  · rintro ⟨p, hp, rfl⟩
    obtain ⟨hx, hy, hz, h⟩ := mem_spherePoints.1 hp
    have hr : 0 ≤ r := by
      obtain ⟨j, e, hj⟩ := mem_axisValues.1 hx
      have : (0 : ℚ) ≤ j := Nat.cast_nonneg j
      linarith
    refine ⟨hr, ?_⟩
    simp only [Vec3.map_x, Vec3.map_y, Vec3.map_z]
    rw [← axis_point hx, ← axis_point hy, ← axis_point hz]
    nlinarith
  · rintro ⟨hr, h⟩
    have sx := sq_nonneg ((o.x : ℚ) + sphereShift r)
    have sy := sq_nonneg ((o.y : ℚ) + sphereShift r)
    have sz := sq_nonneg ((o.z : ℚ) + sphereShift r)
    have hx := mem_axis_of hr (c := o.x) (by linarith)
    have hy := mem_axis_of hr (c := o.y) (by linarith)
    have hz := mem_axis_of hr (c := o.z) (by linarith)
    refine ⟨⟨o.x + sphereShift r, o.y + sphereShift r, o.z + sphereShift r⟩, mem_spherePoints.2 ⟨hx, hy, hz, by nlinarith⟩, ?_⟩
    have fl : ∀ c : ℤ, ⌊(c : ℚ) + sphereShift r⌋ = c := by
      intro c
      unfold sphereShift
      rw [show (c : ℚ) + ((⌈r⌉ : ℚ) - r) = -r + ((c + ⌈r⌉ : ℤ) : ℚ) by push_cast; ring, Int.floor_add_intCast, Int.floor_neg]
      ring
    ext <;> simp only [Vec3.map_x, Vec3.map_y, Vec3.map_z, fl]

theorem spherePoints_nodup (r : ℚ) : (spherePoints r).Nodup := by
  unfold spherePoints
  rw [List.nodup_flatMap]
  constructor
  · intro x _
    rw [List.nodup_flatMap]
    constructor
    · intro y _
      refine List.Nodup.filter _ (List.Nodup.map ?_ (axisValues_nodup r))
      intro a b h
      exact (Vec3.mk.inj h).2.2
    · refine (axisValues_nodup r).imp fun {y y'} hne => ?_
      simp only [Function.onFun, List.disjoint_left, List.mem_filter, List.mem_map]
      rintro p ⟨⟨z, -, rfl⟩, -⟩ ⟨⟨z', -, h⟩, -⟩
      exact hne (Vec3.mk.inj h).2.1.symm
  · refine (axisValues_nodup r).imp fun {x x'} hne => ?_
    simp only [Function.onFun, List.disjoint_left, List.mem_flatMap, List.mem_filter, List.mem_map]
    rintro p ⟨y, -, ⟨z, -, rfl⟩, -⟩ ⟨y', -, ⟨z', -, h⟩, -⟩
    exact hne (Vec3.mk.inj h).1.symm

theorem offsets_nodup (r : ℚ) : (offsets r).Nodup := by
  unfold offsets
  refine List.Nodup.map_on ?_ (spherePoints_nodup r)
  intro p hp q hq h
  obtain ⟨px, py, pz, -⟩ := mem_spherePoints.1 hp
  obtain ⟨qx, qy, qz, -⟩ := mem_spherePoints.1 hq
  have hx := congrArg Vec3.x h
  have hy := congrArg Vec3.y h
  have hz := congrArg Vec3.z h
  simp only [Vec3.map_x, Vec3.map_y, Vec3.map_z] at hx hy hz
  ext
  · rw [axis_point px, axis_point qx, hx]
  · rw [axis_point py, axis_point qy, hy]
  · rw [axis_point pz, axis_point qz, hz]

/-! ### The map -/

theorem pushVoxel_listed (m : VoxelMap) (e : Idx × Idx) (i : Idx) :
    listed (pushVoxel m e) i = if i = e.1 then listed m i ++ [e.2] else listed m i := by
  unfold listed pushVoxel
  cases h : m.lookup e.1 with
  | some vs =>
    simp only
    rw [lookup_map_if m e.1 (fun vs => vs ++ [e.2]) i]
    split_ifs with hi
    · rw [hi, h]; rfl
    · rfl
  | none =>
    simp only
    rw [List.lookup_append]
    by_cases hi : i = e.1
    · rw [hi, h]; simp
    · have : (i == e.1) = false := by simpa using hi
      simp [hi, List.lookup_cons, this]

theorem pushVoxel_keys (m : VoxelMap) (e : Idx × Idx) :
    (pushVoxel m e).map (·.1) = if e.1 ∈ m.map (·.1) then m.map (·.1) else m.map (·.1) ++ [e.1] := by
  unfold pushVoxel
  have hk : e.1 ∈ m.map (·.1) ↔ (m.lookup e.1).isSome = true := by
    rw [List.lookup_isSome_iff]
    simp
  cases h : m.lookup e.1 with
  | some vs =>
    rw [if_pos (hk.2 (by rw [h]; rfl))]
    simp only [List.map_map]
    refine List.map_congr_left fun kv _ => ?_
    simp only [Function.comp_apply]
    split_ifs <;> rfl
  | none =>
    rw [if_neg (by rw [hk, h]; simp)]
    simp

theorem pushAll (es : List (Idx × Idx)) : ∀ m : VoxelMap, (m.map (·.1)).Nodup →
    ((es.foldl pushVoxel m).map (·.1)).Nodup ∧
    (∀ i, listed (es.foldl pushVoxel m) i = listed m i ++ (es.filter fun e => decide (e.1 = i)).map (·.2)) ∧
    (∀ i, i ∈ (es.foldl pushVoxel m).map (·.1) ↔ i ∈ m.map (·.1) ∨ i ∈ es.map (·.1)) := by
  induction es with
  | nil => intro m h; exact ⟨h, by simp, by simp⟩
  | cons e es ih =>
    intro m h
    have h' : ((pushVoxel m e).map (·.1)).Nodup := by
      rw [pushVoxel_keys]
      split_ifs with hm
      · exact h
      · rw [List.nodup_append]
        refine ⟨h, by simp, ?_⟩
        intro a ha b hb hab
        simp only [List.mem_singleton] at hb
        exact hm (hb ▸ hab ▸ ha)
    obtain ⟨h1, h2, h3⟩ := ih _ h'
    rw [List.foldl_cons]
    refine ⟨h1, ?_, ?_⟩
    · intro i
      rw [h2, pushVoxel_listed]
      by_cases hi : i = e.1
      · subst hi; simp
      · have : ¬ e.1 = i := fun h => hi h.symm
        simp [hi, this]
    · intro i
      rw [h3, pushVoxel_keys]
      split_ifs with hm
      · simp only [List.map_cons, List.mem_cons]
        constructor
        · rintro (h | h)
          · exact Or.inl h
          · exact Or.inr (Or.inr h)
        · rintro (h | h | h)
          · exact Or.inl h
          · exact Or.inl (h ▸ hm)
          · exact Or.inr h
      · simp only [List.map_cons, List.mem_cons, List.mem_append, List.not_mem_nil, or_false]
        tauto

/-- Sizes for which all index computations of a sphere are exact. -/
structure SphereInRange (cfg : Cfg) (center : Pt) (radius : ℚ) : Prop where
  size_pos : 0 < cfg.voxelSize
  power : ∃ k, k < 31 ∧ cfg.vps = 2 ^ k
  radius : radius ≤ 2 ^ 22 * cfg.voxelSize
  center : center.All fun c => -2 ^ 22 * cfg.voxelSize ≤ c ∧ c ≤ 2 ^ 22 * cfg.voxelSize

theorem sphere_index_range {s c : ℚ} (hs : 0 < s) (hc : -2 ^ 22 * s ≤ c ∧ c ≤ 2 ^ 22 * s) :
    |⌊c * (1 / s) + kEpsilon⌋| ≤ 2 ^ 22 + 1 := by
  have e1 : c * (1 / s) ≤ 2 ^ 22 := by
    rw [mul_one_div, div_le_iff₀ hs]; exact hc.2
  have e2 : -2 ^ 22 ≤ c * (1 / s) := by
    rw [mul_one_div, le_div_iff₀ hs]; exact hc.1
  have h1 : (-2 ^ 22 - 1 : ℤ) ≤ ⌊c * (1 / s) + kEpsilon⌋ := Int.le_floor.2 (by push_cast; unfold kEpsilon; linarith)
  have h2 : ⌊c * (1 / s) + kEpsilon⌋ < (2 ^ 22 + 2 : ℤ) := Int.floor_lt.2 (by push_cast; unfold kEpsilon; linarith)
  rw [abs_le]
  constructor <;> omega

theorem inSphere_range {r : ℚ} {o : Idx} (h : InSphere r o) (hr : r ≤ 2 ^ 22) : o.All fun c => |c| ≤ 2 ^ 22 + 1 := by
  have sx := sq_nonneg ((o.x : ℚ) + sphereShift r)
  have sy := sq_nonneg ((o.y : ℚ) + sphereShift r)
  have sz := sq_nonneg ((o.z : ℚ) + sphereShift r)
  have h0 : 0 ≤ sphereShift r ∧ sphereShift r < 1 := by
    unfold sphereShift
    have := Int.le_ceil r
    have := Int.ceil_lt_add_one r
    constructor <;> linarith
  have key : ∀ c : ℤ, ((c : ℚ) + sphereShift r) ^ 2 ≤ r ^ 2 → |c| ≤ 2 ^ 22 + 1 := by
    intro c hc
    have ha := abs_le.1 (abs_le_of_sq_le_sq hc h.1)
    rw [abs_le]
    constructor
    · have : ((-(2 ^ 22 + 1) : ℤ) : ℚ) ≤ c := by push_cast; linarith
      exact_mod_cast this
    · have : (c : ℚ) ≤ ((2 ^ 22 + 1 : ℤ) : ℚ) := by push_cast; linarith
      exact_mod_cast this
  have h2 := h.2
  exact ⟨key _ (by linarith), key _ (by linarith), key _ (by linarith)⟩

/-- The voxels of the sphere in visiting order. -/
def sphereList (cfg : Cfg) (center : Pt) (radius : ℚ) : List (Idx × Idx) :=
  (offsets (radius / cfg.voxelSize)).map fun o =>
    (blockOf cfg.vps (o + gridIndex center (1 / cfg.voxelSize)), localOf cfg.vps (o + gridIndex center (1 / cfg.voxelSize)))

theorem getSphere_ok {cfg : Cfg} {center : Pt} {radius : ℚ} (h : SphereInRange cfg center radius) (m : VoxelMap) :
    getSphere cfg center radius m = .ok ((sphereList cfg center radius).foldl pushVoxel m) := by
  obtain ⟨k, hk, hn⟩ := h.power
  have hr : radius / cfg.voxelSize ≤ 2 ^ 22 := by rw [div_le_iff₀ h.size_pos]; exact h.radius
  obtain ⟨cx, cy, cz⟩ := h.center
  have gx := sphere_index_range h.size_pos cx
  have gy := sphere_index_range h.size_pos cy
  have gz := sphere_index_range h.size_pos cz
  unfold getSphere sphereList offsets
  have hmem : ∀ p ∈ spherePoints (radius / cfg.voxelSize), InSphere (radius / cfg.voxelSize) (p.map (⌊·⌋)) := by
    intro p hp
    exact mem_offsets.1 (List.mem_map_of_mem hp)
  generalize spherePoints (radius / cfg.voxelSize) = ps at hmem
  induction ps generalizing m with
  | nil => rfl
  | cons p ps ih =>
    rw [List.foldlM_cons, List.map_cons, List.map_cons, List.foldl_cons]
    have hp := inSphere_range (hmem p List.mem_cons_self) hr
    have step : sphereStep cfg.vps (gridIndex center (1 / cfg.voxelSize)) m p =
        .ok (pushVoxel m (blockOf cfg.vps (p.map (⌊·⌋) + gridIndex center (1 / cfg.voxelSize)),
          localOf cfg.vps (p.map (⌊·⌋) + gridIndex center (1 / cfg.voxelSize)))) := by
      unfold sphereStep
      rw [hn, splitGlobal_ok hk]
      · rfl
      · obtain ⟨hx, hy, hz⟩ := hp
        rw [abs_le] at hx hy hz gx gy gz
        refine ⟨?_, ?_, ?_⟩ <;> simp only [Vec3.add_x, Vec3.add_y, Vec3.add_z, gridIndex, Vec3.map_x, Vec3.map_y, Vec3.map_z] at * <;>
          rw [abs_le] <;> omega
    rw [step, Outcome.bind_ok]
    exact ih _ fun q hq => hmem q (List.mem_cons_of_mem _ hq)

theorem sphereList_nodup (cfg : Cfg) (center : Pt) (radius : ℚ) : (sphereList cfg center radius).Nodup := by
  unfold sphereList
  refine List.Nodup.map ?_ (offsets_nodup _)
  intro a b h
  have h1 := congrArg Prod.fst h
  have h2 := congrArg Prod.snd h
  simp only at h1 h2
  have := globalIndex_split (n := cfg.vps) (a + gridIndex center (1 / cfg.voxelSize))
  rw [h1, h2, globalIndex_split] at this
  have hx := congrArg Vec3.x this
  have hy := congrArg Vec3.y this
  have hz := congrArg Vec3.z this
  simp only [Vec3.add_x, Vec3.add_y, Vec3.add_z, add_left_inj] at hx hy hz
  ext
  · exact hx.symm
  · exact hy.symm
  · exact hz.symm

theorem mem_sphereList {cfg : Cfg} (hn : 0 < cfg.vps) {center : Pt} {radius : ℚ} {i v : Idx} :
    (i, v) ∈ sphereList cfg center radius ↔ InBlock cfg.vps v ∧
      InSphere (radius / cfg.voxelSize) (globalIndex cfg.vps i v - gridIndex center (1 / cfg.voxelSize)) := by
  unfold sphereList
  rw [List.mem_map]
  constructor
  · rintro ⟨o, ho, h⟩
    obtain ⟨h1, h2⟩ := Prod.mk.inj h
    rw [← h1, ← h2, globalIndex_split]
    refine ⟨localOf_inBlock hn _, ?_⟩
    have e : o + gridIndex center (1 / cfg.voxelSize) - gridIndex center (1 / cfg.voxelSize) = o := by ext <;> simp
    rw [e]
    exact mem_offsets.1 ho
  · rintro ⟨hv, h⟩
    refine ⟨_, mem_offsets.2 h, ?_⟩
    have e : globalIndex cfg.vps i v - gridIndex center (1 / cfg.voxelSize) + gridIndex center (1 / cfg.voxelSize) =
        globalIndex cfg.vps i v := by ext <;> simp
    simp only [e]
    rw [blockOf_globalIndex hv, localOf_globalIndex hv]

/-! ### Writing -/

/-- All voxels of a map as pairs. -/
def pairs (m : VoxelMap) : List (Idx × Idx) := m.flatMap fun kv => kv.2.map fun v => (kv.1, v)

theorem lookup_of_mem_nodup {m : VoxelMap} (h : (m.map (·.1)).Nodup) {i : Idx} {vs : List Idx} (hm : (i, vs) ∈ m) :
    m.lookup i = some vs := by
  induction m with
  | nil => simp at hm
  | cons kv m ih =>
    obtain ⟨a, b⟩ := kv
    rw [List.map_cons, List.nodup_cons] at h
    rcases List.mem_cons.1 hm with heq | hm'
    · obtain ⟨rfl, rfl⟩ := Prod.mk.inj heq
      simp
    · have : i ≠ a := by
        rintro rfl
        exact h.1 (List.mem_map.2 ⟨(i, vs), hm', rfl⟩)
      have hb : (i == a) = false := by simpa using this
      rw [List.lookup_cons, hb]
      exact ih h.2 hm'

theorem mem_of_lookup {m : VoxelMap} {i : Idx} {vs : List Idx} (h : m.lookup i = some vs) : (i, vs) ∈ m := by
  induction m with
  | nil => simp at h
  | cons kv m ih =>
    obtain ⟨a, b⟩ := kv
    rw [List.lookup_cons] at h
    by_cases hi : i = a
    · subst hi
      simp at h
      subst h
      exact List.mem_cons_self
    · have hb : (i == a) = false := by simpa using hi
      rw [hb] at h
      exact List.mem_cons_of_mem _ (ih h)

theorem mem_pairs {m : VoxelMap} (h : (m.map (·.1)).Nodup) {i v : Idx} : (i, v) ∈ pairs m ↔ v ∈ listed m i := by
  unfold pairs listed
  simp only [List.mem_flatMap, List.mem_map, Prod.mk.injEq]
  constructor
  · rintro ⟨⟨a, vs⟩, hm, w, hw, rfl, rfl⟩
    rw [lookup_of_mem_nodup h hm]
    exact hw
  · intro hv
    cases hl : m.lookup i with
    | none => rw [hl] at hv; simp at hv
    | some vs =>
      rw [hl] at hv
      exact ⟨(i, vs), mem_of_lookup hl, v, hv, rfl, rfl⟩

theorem pairs_nodup {m : VoxelMap} (h : (m.map (·.1)).Nodup) (hv : ∀ i, (listed m i).Nodup) : (pairs m).Nodup := by
  unfold pairs
  rw [List.nodup_flatMap]
  constructor
  · rintro ⟨a, vs⟩ hm
    refine List.Nodup.map ?_ ?_
    · intro x y hxy; exact (Prod.mk.inj hxy).2
    · have := hv a
      unfold listed at this
      rw [lookup_of_mem_nodup h hm] at this
      exact this
  · rw [List.Nodup, List.pairwise_map] at h
    refine h.imp fun {x y} hne => ?_
    simp only [Function.onFun, List.disjoint_left, List.mem_map]
    rintro p ⟨v, -, rfl⟩ ⟨w, -, hw⟩
    exact hne (Prod.mk.inj hw).1.symm

theorem foldlM_pairs {σ : Type} (f : σ → Idx × Idx → Outcome σ) (m : VoxelMap) (s : σ) :
    m.foldlM (fun s kv => kv.2.foldlM (fun s v => f s (kv.1, v)) s) s = (pairs m).foldlM f s := by
  induction m generalizing s with
  | nil => rfl
  | cons kv m ih =>
    have e : pairs (kv :: m) = (kv.2.map fun v => (kv.1, v)) ++ pairs m := rfl
    rw [List.foldlM_cons, e, List.foldlM_append]
    have : ∀ (vs : List Idx) (s : σ), (vs.map fun v => (kv.1, v)).foldlM f s = vs.foldlM (fun s v => f s (kv.1, v)) s := by
      intro vs
      induction vs with
      | nil => intro s; rfl
      | cons v vs ih' => intro s; simp only [List.map_cons, List.foldlM_cons, ih']
    rw [this]
    congr 1
    funext s'
    exact ih s'

theorem sphereWrite_ok {l : VLayer (EsdfVoxel ℚ)} (wf : WellFormed l) (value : Pt → ℚ) (better : ℚ → ℚ → Bool) {i v : Idx}
    (hv : InBlock l.cfg.vps v) (hi : Allocated l i) :
    ∃ l' x, sphereWrite value better l (i, v) = .ok l' ∧ l'.cfg = l.cfg ∧ WellFormed l' ∧
      content l (globalIndex l.cfg.vps i v) = some x ∧
      (∀ g, content l' g = if g = globalIndex l.cfg.vps i v then
        some (overwritten better (value (voxelCenter l.cfg.voxelSize g)) x) else content l g) ∧
      (∀ j, status l' j = if j = i ∧ Improves better (value (voxelCenter l.cfg.voxelSize (globalIndex l.cfg.vps i v))) x then
        some (true, Flags.setAll) else status l j) := by
  obtain ⟨b, hb⟩ := Option.isSome_iff_exists.1 hi
  have hb' : block? l i = some b := hb
  obtain ⟨x, h1, h2⟩ := voxelByIndex_content wf hb' hv
  have hc := centerOf_eq wf hb' (v := v)
  unfold sphereWrite
  simp only [hb', h1, Outcome.bind_ok, hc]
  by_cases himp : Improves better (value (voxelCenter l.cfg.voxelSize (globalIndex l.cfg.vps i v))) x
  · have hcond : (!x.observed || better (value (voxelCenter l.cfg.voxelSize (globalIndex l.cfg.vps i v))) x.distance) = true := by
      rcases himp with h | h <;> simp [h]
    rw [if_pos hcond]
    obtain ⟨l1, e1, e2, e3, e4, e5, -⟩ := writeVoxel_ok wf hv hi
      (hallucinate (value (voxelCenter l.cfg.voxelSize (globalIndex l.cfg.vps i v))) x)
    refine ⟨setStatus l1 i true Flags.setAll, x, by rw [e1]; rfl, e2, setStatus_wf e3 _ _ _, h2, ?_, ?_⟩
    · intro g
      rw [setStatus_content e3, e4]
      split_ifs with hg
      · rw [hg]
        unfold overwritten hallucinate
        rw [if_pos himp]
      · rfl
    · intro j
      rw [setStatus_status, e5]
      by_cases hj : j = i
      · have := allocated_iff_status.1 hi
        obtain ⟨st, hst⟩ := Option.isSome_iff_exists.1 this
        simp [hj, himp, hst]
      · simp [hj]
  · have hcond : (!x.observed || better (value (voxelCenter l.cfg.voxelSize (globalIndex l.cfg.vps i v))) x.distance) = false := by
      unfold Improves at himp
      rw [not_or] at himp
      obtain ⟨h1, h2⟩ := himp
      simp only [Bool.not_eq_false, Bool.not_eq_true] at h1 h2
      simp [h1, h2]
    rw [hcond]
    refine ⟨l, x, rfl, rfl, wf, h2, ?_, ?_⟩
    · intro g
      split_ifs with hg
      · rw [hg, h2]
        unfold overwritten
        rw [if_neg himp]
      · rfl
    · intro j
      rw [if_neg (fun h => himp h.2)]

open Classical in
theorem sphereWrites_ok (value : Pt → ℚ) (better : ℚ → ℚ → Bool) (ps : List (Idx × Idx)) :
    ∀ l : VLayer (EsdfVoxel ℚ), WellFormed l → ps.Nodup → (∀ e ∈ ps, InBlock l.cfg.vps e.2 ∧ Allocated l e.1) →
    ∃ l', ps.foldlM (sphereWrite value better) l = .ok l' ∧ l'.cfg = l.cfg ∧ WellFormed l' ∧
      (∀ g, content l' g = if (blockOf l.cfg.vps g, localOf l.cfg.vps g) ∈ ps then
        (content l g).map (overwritten better (value (voxelCenter l.cfg.voxelSize g))) else content l g) ∧
      (∀ j, status l' j = if ∃ v x, (j, v) ∈ ps ∧ content l (globalIndex l.cfg.vps j v) = some x ∧
          Improves better (value (voxelCenter l.cfg.voxelSize (globalIndex l.cfg.vps j v))) x then
        some (true, Flags.setAll) else status l j) := by
  induction ps with
  | nil => intro l wf _ _; exact ⟨l, rfl, rfl, wf, by simp, by simp⟩
  | cons e ps ih =>
    intro l wf hn hp
    obtain ⟨i, v⟩ := e
    obtain ⟨hv, hi⟩ := hp (i, v) List.mem_cons_self
    rw [List.nodup_cons] at hn
    obtain ⟨l1, x, e1, e2, e3, hx, e4, e5⟩ := sphereWrite_ok wf value better hv hi
    obtain ⟨l2, f1, f2, f3, f4, f5⟩ := ih l1 e3 hn.2 (by
      intro p hp'
      obtain ⟨a, b⟩ := hp p (List.mem_cons_of_mem _ hp')
      refine ⟨by rw [e2]; exact a, ?_⟩
      rw [allocated_iff_status, e5]
      split_ifs
      · rfl
      · exact allocated_iff_status.1 b)
    have hmem : ∀ g, (blockOf l.cfg.vps g, localOf l.cfg.vps g) ∈ ps → g ≠ globalIndex l.cfg.vps i v := by
      rintro g hg rfl
      rw [blockOf_globalIndex hv, localOf_globalIndex hv] at hg
      exact hn.1 hg
    have hiff : ∀ g, (blockOf l.cfg.vps g, localOf l.cfg.vps g) = (i, v) ↔ g = globalIndex l.cfg.vps i v := by
      intro g
      constructor
      · intro h
        obtain ⟨h1, h2⟩ := Prod.mk.inj h
        rw [← h1, ← h2, globalIndex_split]
      · rintro rfl
        rw [blockOf_globalIndex hv, localOf_globalIndex hv]
    refine ⟨l2, by rw [List.foldlM_cons, e1]; exact f1, f2.trans e2, f3, ?_, ?_⟩
    · intro g
      rw [f4, e2, e4]
      by_cases hg : g = globalIndex l.cfg.vps i v
      · have : (blockOf l.cfg.vps g, localOf l.cfg.vps g) ∉ ps := fun h => hmem g h hg
        rw [if_neg this, if_pos hg, if_pos (by rw [(hiff g).2 hg]; exact List.mem_cons_self), hg, hx]
        rfl
      · have : (blockOf l.cfg.vps g, localOf l.cfg.vps g) ≠ (i, v) := fun h => hg ((hiff g).1 h)
        simp [hg, this]
    · intro j
      rw [f5, e2, e5]
      have hc : ∀ w, (j, w) ∈ ps → content l1 (globalIndex l.cfg.vps j w) = content l (globalIndex l.cfg.vps j w) := by
        intro w hw
        rw [e4, if_neg]
        intro h
        have hwv := (hp (j, w) (List.mem_cons_of_mem _ hw)).1
        have hb := congrArg (blockOf l.cfg.vps) h
        have hl := congrArg (localOf l.cfg.vps) h
        rw [blockOf_globalIndex hwv, blockOf_globalIndex hv] at hb
        rw [localOf_globalIndex hwv, localOf_globalIndex hv] at hl
        subst hb hl
        exact hn.1 hw
      have hequiv : (∃ w y, (j, w) ∈ (i, v) :: ps ∧ content l (globalIndex l.cfg.vps j w) = some y ∧
            Improves better (value (voxelCenter l.cfg.voxelSize (globalIndex l.cfg.vps j w))) y) ↔
          ((∃ w y, (j, w) ∈ ps ∧ content l1 (globalIndex l.cfg.vps j w) = some y ∧
            Improves better (value (voxelCenter l.cfg.voxelSize (globalIndex l.cfg.vps j w))) y) ∨
          (j = i ∧ Improves better (value (voxelCenter l.cfg.voxelSize (globalIndex l.cfg.vps i v))) x)) := by
        constructor
        · rintro ⟨w, y, hw, hy, himp⟩
          rcases List.mem_cons.1 hw with h | h
          · obtain ⟨rfl, rfl⟩ := Prod.mk.inj h
            rw [hx] at hy
            cases hy
            exact Or.inr ⟨rfl, himp⟩
          · exact Or.inl ⟨w, y, h, (hc w h).trans hy, himp⟩
        · rintro (⟨w, y, hw, hy, himp⟩ | ⟨rfl, himp⟩)
          · exact ⟨w, y, List.mem_cons_of_mem _ hw, (hc w hw).symm.trans hy, himp⟩
          · exact ⟨v, x, List.mem_cons_self, hx, himp⟩
      by_cases hA : ∃ w y, (j, w) ∈ ps ∧ content l1 (globalIndex l.cfg.vps j w) = some y ∧
            Improves better (value (voxelCenter l.cfg.voxelSize (globalIndex l.cfg.vps j w))) y
      · rw [if_pos hA, if_pos (hequiv.2 (Or.inl hA))]
      · rw [if_neg hA]
        by_cases hB : j = i ∧ Improves better (value (voxelCenter l.cfg.voxelSize (globalIndex l.cfg.vps i v))) x
        · rw [if_pos hB, if_pos (hequiv.2 (Or.inr hB))]
        · rw [if_neg hB, if_neg]
          intro h
          rcases hequiv.1 h with h | h
          · exact hA h
          · exact hB h

end Vox.Sphere
