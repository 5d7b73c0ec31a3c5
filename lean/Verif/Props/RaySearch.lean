/-
Property C68: searching the TSDF along a ray.
-/
import Verif.Lemmas.RaySearch
import Verif.Lemmas.Layer

namespace Vox.RaySearch

open Layer Grid Spec

/-! ## A small map -/

/-- Two blocks of 2 x 2 x 2 voxels of size 1 along the x axis: distances 5/2, 3/2, 1/2, -1/2. -/
def exMap : VLayer (TsdfVoxel ℚ) where
  cfg := ⟨1, 2⟩
  blocks := [(⟨0, 0, 0⟩, ⟨2, 1, ⟨0, 0, 0⟩, false, Flags.ofBool false,
      [⟨5 / 2, 1, Color.default⟩, ⟨3 / 2, 1, Color.default⟩, ⟨5 / 2, 1, Color.default⟩, ⟨3 / 2, 1, Color.default⟩,
       ⟨5 / 2, 1, Color.default⟩, ⟨3 / 2, 1, Color.default⟩, ⟨5 / 2, 1, Color.default⟩, ⟨3 / 2, 1, Color.default⟩]⟩),
    (⟨1, 0, 0⟩, ⟨2, 1, ⟨2, 0, 0⟩, false, Flags.ofBool false,
      [⟨1 / 2, 1, Color.default⟩, ⟨-1 / 2, 1, Color.default⟩, ⟨1 / 2, 1, Color.default⟩, ⟨-1 / 2, 1, Color.default⟩,
       ⟨1 / 2, 1, Color.default⟩, ⟨-1 / 2, 1, Color.default⟩, ⟨1 / 2, 1, Color.default⟩, ⟨-1 / 2, 1, Color.default⟩]⟩)]

theorem exMap_wf : WellFormed exMap := by
  refine ⟨by norm_num [exMap], by decide, by decide, ?_⟩
  intro i b h
  unfold exMap at h
  rw [Layer.lookup_cons_ite] at h
  split_ifs at h with h1
  · subst h1
    cases h
    exact ⟨rfl, rfl, by decide +kernel, rfl⟩
  · rw [Layer.lookup_cons_ite] at h
    split_ifs at h with h2
    · subst h2
      cases h
      exact ⟨rfl, rfl, by decide +kernel, rfl⟩
    · cases h

/-- The ray used in the examples. -/
theorem exRay (t : ℚ) : position id ⟨1 / 2, 1 / 2, 1 / 2⟩ ⟨1, 0, 0⟩ t = ⟨1 / 2 + t, 1 / 2, 1 / 2⟩ := by
  unfold position
  simp

theorem exRay_addressable (t : ℚ) (h0 : 0 ≤ t) (h1 : t < 100) : Addressable exMap (position id ⟨1 / 2, 1 / 2, 1 / 2⟩ ⟨1, 0, 0⟩ t) := by
  rw [exRay]
  unfold Addressable Vec3.All exMap
  norm_num
  constructor <;> linarith

/-! ## Results -/

theorem walk_nonneg' {l : VLayer (TsdfVoxel ℚ)} (hs : 0 ≤ l.cfg.voxelSize) {rnd : ℚ → ℚ} (hpos : ∀ q, 0 ≤ q → 0 ≤ rnd q) {pos : ℚ → Pt} {max t : ℚ}
    (h : Walk l rnd pos max t) : 0 ≤ t := by
  induction h with
  | start => exact le_rfl
  | step _ _ hd ih => exact hpos _ (by have := freeStep_ge hd; linarith)

/-- **C68**, result, for any rounding: the search visits the map by justified steps. It reports a surface only for a sample before the maximum
distance whose voxel is observed with a distance below the voxel size, namely that sample advanced by the distance if that is positive; it
reports none only after the steps have reached the maximum distance. No undefined behaviour, as long as the ray stays addressable. -/
theorem C68_result {rnd : ℚ → ℚ} (hpos : ∀ q, 0 ≤ q → 0 ≤ rnd q) (unit : Pt → Pt) {l : VLayer (TsdfVoxel ℚ)} (wf : WellFormed l) (origin bearing : Pt)
    (max : ℚ) (hp : ∀ t, 0 ≤ t → t < max → Addressable l (position rnd origin (unit bearing) t)) (fuel : ℕ) :
    ∃ r, surfaceAlongRay rnd unit l origin bearing max fuel = .ok r ∧
      (r = some none → ∃ t, Walk l rnd (position rnd origin (unit bearing)) max t ∧ max ≤ t) ∧
      ∀ p, r = some (some p) → ∃ t d, Walk l rnd (position rnd origin (unit bearing)) max t ∧ t < max ∧
        SurfaceAt l (position rnd origin (unit bearing) t) d ∧ p = position rnd origin (unit bearing) (if d < 0 then t else rnd (t + d)) := by
  obtain ⟨r, hr, he⟩ := loop_spec rnd wf origin (unit bearing) max (fun t ht hm => hp t (walk_nonneg' wf.size_pos.le hpos ht) hm) fuel 0 Walk.start
  unfold surfaceAlongRay
  simp only [hr, Outcome.bind_ok]
  cases r with
  | hit T =>
    obtain ⟨t, d, h1, h2, h3, h4⟩ := he
    exact ⟨_, rfl, nofun, fun p h => ⟨t, d, h1, h2, h3, by rw [← h4]; cases h; rfl⟩⟩
  | miss => exact ⟨_, rfl, fun _ => he, nofun⟩
  | running t => exact ⟨_, rfl, nofun, nofun⟩

example : (∀ q : ℚ, 0 ≤ q → 0 ≤ id q) ∧ WellFormed exMap ∧
    (∀ t, 0 ≤ t → t < 100 → Addressable exMap (position id ⟨1 / 2, 1 / 2, 1 / 2⟩ (id ⟨1, 0, 0⟩) t)) ∧
    surfaceAlongRay id id exMap ⟨1 / 2, 1 / 2, 1 / 2⟩ ⟨1, 0, 0⟩ 100 200 = .ok (some (some ⟨3, 1 / 2, 1 / 2⟩)) :=
  ⟨fun _ h => h, exMap_wf, exRay_addressable, by decide +kernel⟩

/-- **C68**, termination: if the rounding leaves of every step at least `δ`, the search returns after at most `max / δ` passes. -/
theorem C68_terminates {rnd : ℚ → ℚ} (unit : Pt → Pt) {l : VLayer (TsdfVoxel ℚ)} (wf : WellFormed l) (origin bearing : Pt) (max : ℚ)
    (hpos : ∀ q, 0 ≤ q → 0 ≤ rnd q) (hp : ∀ t, 0 ≤ t → t < max → Addressable l (position rnd origin (unit bearing) t)) {δ : ℚ} (hδ : 0 < δ)
    (hr : ∀ t d, 0 ≤ t → t < max → l.cfg.voxelSize ≤ d → t + δ ≤ rnd (t + d)) {fuel : ℕ} (hf : max / δ ≤ fuel) :
    ∃ r, surfaceAlongRay rnd unit l origin bearing max (fuel + 1) = .ok (some r) := by
  have hp' := fun t (ht : Walk l rnd (position rnd origin (unit bearing)) max t) hm => hp t (walk_nonneg' wf.size_pos.le hpos ht) hm
  obtain ⟨r, hr', -⟩ := loop_spec rnd wf origin (unit bearing) max hp' (fuel + 1) 0 Walk.start
  have hne := loop_ends rnd wf origin (unit bearing) max hp' hδ.le hr fuel 0 Walk.start le_rfl (by rw [div_le_iff₀ hδ] at hf; linarith)
  unfold surfaceAlongRay
  simp only [hr', Outcome.bind_ok]
  cases r with
  | hit T => exact ⟨_, rfl⟩
  | miss => exact ⟨_, rfl⟩
  | running t => exact absurd hr' (hne t)

/-- **C68**, termination in exact arithmetic: at most one pass per voxel size. -/
theorem C68_terminates_exact (unit : Pt → Pt) {l : VLayer (TsdfVoxel ℚ)} (wf : WellFormed l) (origin bearing : Pt) (max : ℚ)
    (hp : ∀ t, 0 ≤ t → t < max → Addressable l (position id origin (unit bearing) t)) {fuel : ℕ} (hf : max / l.cfg.voxelSize ≤ fuel) :
    ∃ r, surfaceAlongRay id unit l origin bearing max (fuel + 1) = .ok (some r) :=
  C68_terminates unit wf origin bearing max (fun _ h => h) hp wf.size_pos (fun t d _ _ h => show t + _ ≤ t + d by linarith) hf

example : (100 : ℚ) / exMap.cfg.voxelSize ≤ (100 : ℕ) := by norm_num [exMap]

/-- **C68**, termination with rounding of relative error `u` (2^-24 for `float`): if the maximum distance is below about `1 / (2 u)` voxels,
at most two passes per voxel size. -/
theorem C68_terminates_rounded {rnd : ℚ → ℚ} {u : ℚ} (hu0 : 0 ≤ u) (hu1 : u ≤ 1) (hu : ∀ q, 0 ≤ q → |rnd q - q| ≤ u * q) (unit : Pt → Pt)
    {l : VLayer (TsdfVoxel ℚ)} (wf : WellFormed l) (origin bearing : Pt) (max : ℚ) (hmax : u * (max + l.cfg.voxelSize) ≤ l.cfg.voxelSize / 2)
    (hp : ∀ t, 0 ≤ t → t < max → Addressable l (position rnd origin (unit bearing) t)) {fuel : ℕ} (hf : max / (l.cfg.voxelSize / 2) ≤ fuel) :
    ∃ r, surfaceAlongRay rnd unit l origin bearing max (fuel + 1) = .ok (some r) := by
  have hs := wf.size_pos
  refine C68_terminates unit wf origin bearing max ?_ hp (δ := l.cfg.voxelSize / 2) (by linarith) ?_ hf
  · intro q hq
    have h1 := (abs_le.1 (hu q hq)).1
    have h2 : u * q ≤ 1 * q := mul_le_mul_of_nonneg_right hu1 hq
    linarith
  · intro t d h0 hm hd
    have h1 := (abs_le.1 (hu (t + d) (by linarith))).1
    have h2 : u * t ≤ u * max := mul_le_mul_of_nonneg_left hm.le hu0
    have h3 : (1 - u) * l.cfg.voxelSize ≤ (1 - u) * d := mul_le_mul_of_nonneg_left hd (by linarith)
    linarith

example : (0 : ℚ) ≤ 1 / 2 ^ 24 ∧ (1 / 2 ^ 24 : ℚ) ≤ 1 ∧ (∀ q : ℚ, 0 ≤ q → |q * (1 - 1 / 2 ^ 25) - q| ≤ 1 / 2 ^ 24 * q) ∧
    (1 / 2 ^ 24 : ℚ) * (100 + exMap.cfg.voxelSize) ≤ exMap.cfg.voxelSize / 2 := by
  refine ⟨by norm_num, by norm_num, fun q hq => ?_, by norm_num [exMap]⟩
  rw [abs_le]
  constructor <;> linarith

/-- **C68**, the point: with rounding of relative error `u` (zero in exact arithmetic) a reported point is the point `origin + t * direction` of the ray up
to rounding, for some `t` that is not negative and exceeds the maximum distance by less than a voxel size (up to rounding). -/
theorem C68_on_ray {rnd : ℚ → ℚ} {u : ℚ} (hu0 : 0 ≤ u) (hu1 : u ≤ 1) (hu : ∀ q, |rnd q - q| ≤ u * |q|) (unit : Pt → Pt) {l : VLayer (TsdfVoxel ℚ)}
    (wf : WellFormed l) (origin bearing : Pt) (max : ℚ) (hp : ∀ t, 0 ≤ t → t < max → Addressable l (position rnd origin (unit bearing) t)) {fuel : ℕ} {p : Pt}
    (hr : surfaceAlongRay rnd unit l origin bearing max fuel = .ok (some (some p))) :
    ∃ t, 0 ≤ t ∧ t < (1 + u) * (max + l.cfg.voxelSize) ∧
      |p.x - (origin.x + t * (unit bearing).x)| ≤ u * |origin.x| + (2 * u + u ^ 2) * |t * (unit bearing).x| ∧
      |p.y - (origin.y + t * (unit bearing).y)| ≤ u * |origin.y| + (2 * u + u ^ 2) * |t * (unit bearing).y| ∧
      |p.z - (origin.z + t * (unit bearing).z)| ≤ u * |origin.z| + (2 * u + u ^ 2) * |t * (unit bearing).z| := by
  have hpos : ∀ q, 0 ≤ q → 0 ≤ rnd q := by
    intro q hq
    have h1 := hu q
    rw [abs_of_nonneg hq] at h1
    have h2 := (abs_le.1 h1).1
    have h3 : u * q ≤ 1 * q := mul_le_mul_of_nonneg_right hu1 hq
    linarith
  have near : ∀ o m : ℚ, |rnd (o + rnd m) - (o + m)| ≤ u * |o| + (2 * u + u ^ 2) * |m| := by
    intro o m
    have h1 := hu m
    have h2 := hu (o + rnd m)
    have h3 : |o + rnd m| ≤ |o| + (1 + u) * |m| := by
      have e : o + rnd m = o + (m + (rnd m - m)) := by ring
      rw [e]
      have a := abs_add_le o (m + (rnd m - m))
      have b := abs_add_le m (rnd m - m)
      linarith
    have h4 := mul_le_mul_of_nonneg_left h3 hu0
    have e : rnd (o + rnd m) - (o + m) = (rnd (o + rnd m) - (o + rnd m)) + (rnd m - m) := by ring
    rw [e]
    have a := abs_add_le (rnd (o + rnd m) - (o + rnd m)) (rnd m - m)
    nlinarith
  obtain ⟨r', hr', -, h2⟩ := C68_result hpos unit wf origin bearing max hp fuel
  rw [hr] at hr'
  obtain rfl := Outcome.ok.inj hr'
  obtain ⟨t, d, ht, hm, hs, rfl⟩ := h2 p rfl
  have h0 := walk_nonneg' wf.size_pos.le hpos ht
  have hsz := wf.size_pos
  have hd : d < l.cfg.voxelSize := by
    obtain ⟨_, _, _, _, _, hlt, rfl⟩ := hs
    exact hlt
  have hB : t < (1 + u) * (max + l.cfg.voxelSize) := by nlinarith
  have at_ : ∀ T, position rnd origin (unit bearing) T = ⟨rnd (origin.x + rnd (T * (unit bearing).x)), rnd (origin.y + rnd (T * (unit bearing).y)),
      rnd (origin.z + rnd (T * (unit bearing).z))⟩ := by
    intro T
    simp only [position]
  rw [at_]
  refine ⟨if d < 0 then t else rnd (t + d), ?_, ?_, near _ _, near _ _, near _ _⟩
  · split_ifs with h
    · exact h0
    · exact hpos _ (by linarith)
  · split_ifs with h
    · exact hB
    · have h1 := hu (t + d)
      rw [abs_of_nonneg (by linarith : 0 ≤ t + d)] at h1
      have h2 := (abs_le.1 h1).2
      have h3 : (1 + u) * (t + d) < (1 + u) * (max + l.cfg.voxelSize) := mul_lt_mul_of_pos_left (by linarith) (by linarith)
      linarith

/-- An oblique ray through `exMap`. -/
theorem exOblique_addressable (t : ℚ) (h0 : 0 ≤ t) (h1 : t < 100) :
    Addressable exMap (position id ⟨1 / 2, 1 / 4, 1 / 8⟩ (id ⟨2 / 3, 1 / 3, 2 / 3⟩) t) := by
  unfold Addressable Vec3.All exMap position
  norm_num
  refine ⟨⟨?_, ?_⟩, ⟨?_, ?_⟩, ?_, ?_⟩ <;> linarith

example : (∀ q : ℚ, |id q - q| ≤ 0 * |q|) ∧ WellFormed exMap ∧
    (∀ t, 0 ≤ t → t < 100 → Addressable exMap (position id ⟨1 / 2, 1 / 4, 1 / 8⟩ (id ⟨2 / 3, 1 / 3, 2 / 3⟩) t)) ∧
    surfaceAlongRay id id exMap ⟨1 / 2, 1 / 4, 1 / 8⟩ ⟨2 / 3, 1 / 3, 2 / 3⟩ 100 200 = .ok (some (some ⟨5 / 2, 5 / 4, 17 / 8⟩)) :=
  ⟨fun q => by simp, exMap_wf, exOblique_addressable, by decide +kernel⟩

/-- **C68**, nothing is passed over: if no surface is reported, every point of the ray up to the maximum distance is covered by a step that the
map justifies; if one is reported, every point before the sample that found it. -/
theorem C68_covered {rnd : ℚ → ℚ} (hpos : ∀ q, 0 ≤ q → 0 ≤ rnd q) (unit : Pt → Pt) {l : VLayer (TsdfVoxel ℚ)} (wf : WellFormed l) (origin bearing : Pt)
    (max : ℚ) (hp : ∀ t, 0 ≤ t → t < max → Addressable l (position rnd origin (unit bearing) t)) {fuel : ℕ} {r : Option Pt}
    (hr : surfaceAlongRay rnd unit l origin bearing max fuel = .ok (some r)) :
    ∃ t, (r = none → max ≤ t) ∧ (∀ p, r = some p → ∃ d, SurfaceAt l (position rnd origin (unit bearing) t) d ∧
        p = position rnd origin (unit bearing) (if d < 0 then t else rnd (t + d))) ∧
      ∀ τ, 0 ≤ τ → τ < t → ∃ t0 d, 0 ≤ t0 ∧ t0 ≤ τ ∧ t0 < max ∧ FreeStep l (position rnd origin (unit bearing) t0) d ∧ τ < rnd (t0 + d) := by
  obtain ⟨r', hr', h1, h2⟩ := C68_result hpos unit wf origin bearing max hp fuel
  rw [hr] at hr'
  cases hr'
  have cov : ∀ {t}, Walk l rnd (position rnd origin (unit bearing)) max t → ∀ τ, 0 ≤ τ → τ < t → ∃ t0 d, 0 ≤ t0 ∧ t0 ≤ τ ∧ t0 < max ∧
      FreeStep l (position rnd origin (unit bearing) t0) d ∧ τ < rnd (t0 + d) := by
    intro t ht τ h0 hlt
    obtain ⟨t0, d, a, b, c, e, f⟩ := walk_covers ht τ h0 hlt
    exact ⟨t0, d, walk_nonneg' wf.size_pos.le hpos a, c, b, e, f⟩
  cases r with
  | none =>
    obtain ⟨t, ht, hm⟩ := h1 rfl
    exact ⟨t, fun _ => hm, nofun, cov ht⟩
  | some p =>
    obtain ⟨t, d, ht, hm, hs, hp⟩ := h2 p rfl
    refine ⟨t, nofun, fun p' h => ⟨d, hs, ?_⟩, cov ht⟩
    cases h
    exact hp

example : surfaceAlongRay id id exMap ⟨1 / 2, 1 / 2, 1 / 2⟩ ⟨1, 0, 0⟩ 2 9 = .ok (some none) ∧
    surfaceAlongRay id id exMap ⟨1 / 2, 1 / 2, 1 / 2⟩ ⟨0, 1, 0⟩ 9 9 = .ok (some none) := ⟨by decide +kernel, by decide +kernel⟩

/-- **C68**, accuracy: if along the ray the map knows of a surface at `τ` up to an error `e`, the search finds it up to the same error
(exact arithmetic). -/
theorem C68_accurate (unit : Pt → Pt) {l : VLayer (TsdfVoxel ℚ)} (wf : WellFormed l) (origin bearing : Pt) (max : ℚ)
    (hp : ∀ t, 0 ≤ t → t < max → Addressable l (position id origin (unit bearing) t)) {τ e : ℚ} (h0 : 0 ≤ τ + e) (hm : τ + e < max)
    (hk : KnowsSurface l (position id origin (unit bearing)) max τ e) {fuel : ℕ} (hf : max / l.cfg.voxelSize ≤ fuel) :
    ∃ T, surfaceAlongRay id unit l origin bearing max (fuel + 1) = .ok (some (some (position id origin (unit bearing) T))) ∧ |T - τ| ≤ e := by
  obtain ⟨r, hr⟩ := C68_terminates_exact unit wf origin bearing max hp hf
  obtain ⟨r', hr', h1, h2⟩ := C68_result (rnd := id) (fun _ h => h) unit wf origin bearing max hp (fuel + 1)
  rw [hr] at hr'
  cases hr'
  cases r with
  | none =>
    obtain ⟨t, ht, hm'⟩ := h1 rfl
    have := walk_before wf.size_pos.le hk h0 ht
    linarith
  | some p =>
    obtain ⟨t, d, ht, hm', ⟨g, v, hg, hv, hsn, hlt, rfl⟩, hp'⟩ := h2 p rfl
    refine ⟨_, by rw [hr, hp'], ?_⟩
    obtain ⟨k1, k2⟩ := (hk t (walk_nonneg wf.size_pos.le ht) hm' g hg).1 v hv hsn
    have k3 := walk_before wf.size_pos.le hk h0 ht
    have k4 := k2 hlt
    rw [abs_le]
    split_ifs with hd
    · constructor <;> linarith
    · simp only [id]
      constructor <;> linarith

theorem exMap_content (g : Idx) (hy : g.y = 0) (hz : g.z = 0) (h0 : 0 ≤ g.x) (h3 : g.x ≤ 3) : content exMap g = some ⟨5 / 2 - g.x, 1, Color.default⟩ := by
  obtain ⟨x, y, z⟩ := g
  simp only at hy hz h0 h3
  subst hy hz
  have : x = 0 ∨ x = 1 ∨ x = 2 ∨ x = 3 := by omega
  rcases this with rfl | rfl | rfl | rfl <;> decide +kernel

theorem exMap_knows : KnowsSurface exMap (position id ⟨1 / 2, 1 / 2, 1 / 2⟩ (id ⟨1, 0, 0⟩)) (7 / 2 - 1 / 100000) (5 / 2) (51 / 100) := by
  intro t h0 hm g hg
  simp only [id_eq, exRay] at hg
  obtain ⟨⟨x1, x2⟩, ⟨y1, y2⟩, ⟨z1, z2⟩⟩ := hg
  simp only [exMap, mul_one, Nat.cast_ofNat] at x1 x2 y1 y2 z1 z2
  have hy : g.y = 0 := by
    have a : (g.y : ℚ) < 1 := by linarith
    have b : (-1 : ℚ) < g.y := by linarith
    have a' : g.y < 1 := by exact_mod_cast a
    have b' : -1 < g.y := by exact_mod_cast b
    omega
  have hz : g.z = 0 := by
    have a : (g.z : ℚ) < 1 := by linarith
    have b : (-1 : ℚ) < g.z := by linarith
    have a' : g.z < 1 := by exact_mod_cast a
    have b' : -1 < g.z := by exact_mod_cast b
    omega
  have hx0 : 0 ≤ g.x := by
    have b : (-1 : ℚ) < g.x := by linarith
    have b' : -1 < g.x := by exact_mod_cast b
    omega
  have hx3 : g.x ≤ 3 := by
    have a : (g.x : ℚ) < 4 := by linarith
    have a' : g.x < 4 := by exact_mod_cast a
    omega
  have hc := exMap_content g hy hz hx0 hx3
  refine ⟨fun v hv _ => ?_, fun h => absurd (show Seen _ by unfold Seen; norm_num) (h _ hc)⟩
  rw [hc] at hv
  cases hv
  constructor
  · simp only; linarith
  · intro _
    simp only
    linarith

example : (0 : ℚ) ≤ 5 / 2 + 51 / 100 ∧ (5 / 2 + 51 / 100 : ℚ) < 7 / 2 - 1 / 100000 ∧
    KnowsSurface exMap (position id ⟨1 / 2, 1 / 2, 1 / 2⟩ (id ⟨1, 0, 0⟩)) (7 / 2 - 1 / 100000) (5 / 2) (51 / 100) :=
  ⟨by norm_num, by norm_num, exMap_knows⟩

/-! ## Limits -/

/-- The reported point may lie beyond the maximum distance, although all voxels up to there have positive distances: only the sample is
compared with the maximum. -/
theorem C68_beyond_max : ∃ (l : VLayer (TsdfVoxel ℚ)) (max T : ℚ), WellFormed l ∧ max < T ∧
    surfaceAlongRay id id l ⟨5 / 4, 1 / 2, 1 / 2⟩ ⟨1, 0, 0⟩ max 99 = .ok (some (some (position id ⟨5 / 4, 1 / 2, 1 / 2⟩ ⟨1, 0, 0⟩ T))) ∧
    ∀ t, 0 ≤ t → t < max → ∀ g, VoxelAt l g (position id ⟨5 / 4, 1 / 2, 1 / 2⟩ ⟨1, 0, 0⟩ t) → ∃ v, content l g = some v ∧ 0 < v.distance := by
  refine ⟨exMap, 13 / 8, 2, exMap_wf, by norm_num, by decide +kernel, ?_⟩
  intro t h0 hm g hg
  have e : position id ⟨5 / 4, 1 / 2, 1 / 2⟩ ⟨1, 0, 0⟩ t = ⟨5 / 4 + t, 1 / 2, 1 / 2⟩ := by
    unfold position
    simp
  rw [e] at hg
  obtain ⟨⟨x1, x2⟩, ⟨y1, y2⟩, ⟨z1, z2⟩⟩ := hg
  simp only [exMap, mul_one, Nat.cast_ofNat] at x1 x2 y1 y2 z1 z2
  have key : ∀ (k : ℤ) (a b : ℤ), (a : ℚ) - 1 < k → (k : ℚ) < b + 1 → a ≤ k ∧ k ≤ b := by
    intro k a b h1 h2
    have h1' : a - 1 < k := by exact_mod_cast h1
    have h2' : k < b + 1 := by exact_mod_cast h2
    omega
  have hx := key g.x 1 2 (by push_cast; linarith) (by push_cast; linarith)
  have hy := key g.y 0 0 (by push_cast; linarith) (by push_cast; linarith)
  have hz := key g.z 0 0 (by push_cast; linarith) (by push_cast; linarith)
  refine ⟨_, exMap_content g (by omega) (by omega) (by omega) (by omega), ?_⟩
  have : (g.x : ℚ) ≤ 2 := by exact_mod_cast hx.2
  simp only
  linarith

/-- A ray that starts behind the surface reports its origin, though it crosses no surface. -/
theorem C68_starts_inside : ∃ l : VLayer (TsdfVoxel ℚ), WellFormed l ∧
    surfaceAlongRay id id l ⟨7 / 2, 1 / 2, 1 / 2⟩ ⟨1, 0, 0⟩ 100 99 = .ok (some (some ⟨7 / 2, 1 / 2, 1 / 2⟩)) :=
  ⟨exMap, exMap_wf, by decide +kernel⟩

/-- The reported point may lie where the map has no voxel at all: a surface less than a voxel away in any direction counts as ahead. -/
theorem C68_outside_map : ∃ (l : VLayer (TsdfVoxel ℚ)) (p : Pt), WellFormed l ∧
    surfaceAlongRay id id l ⟨5 / 2, 7 / 4, 1 / 2⟩ ⟨0, 1, 0⟩ 100 99 = .ok (some (some p)) ∧ blockAtCoords l p = .ok none :=
  ⟨exMap, ⟨5 / 2, 9 / 4, 1 / 2⟩, exMap_wf, by decide +kernel, by decide +kernel⟩

/-- A rounding to multiples of 4: monotone and within 4, but a step of one voxel may vanish. `float` does the same from 2^24 voxels on. -/
def coarse (q : ℚ) : ℚ := 4 * ⌊q / 4⌋

/-- Where a step is lost in the rounding the search never returns. -/
theorem C68_stuck : ∃ l : VLayer (TsdfVoxel ℚ), WellFormed l ∧ ∀ fuel, surfaceAlongRay coarse id l ⟨0, 0, 0⟩ ⟨1, 0, 0⟩ 100 fuel = .ok none := by
  let l : VLayer (TsdfVoxel ℚ) := ⟨⟨1, 2⟩, []⟩
  have h : ∀ fuel, loop coarse l ⟨0, 0, 0⟩ ⟨1, 0, 0⟩ 100 fuel 0 = .ok (.running 0) := by
    intro fuel
    induction fuel with
    | zero => rfl
    | succ n ih =>
      have e : pass coarse l ⟨0, 0, 0⟩ ⟨1, 0, 0⟩ 0 = .ok (.on 0) := by decide +kernel
      unfold loop
      rw [if_pos (by norm_num)]
      simp only [e, Outcome.bind_ok]
      exact ih
  refine ⟨l, ⟨by norm_num [l], by decide, by decide, nofun⟩, fun fuel => ?_⟩
  unfold surfaceAlongRay
  simp only [id_eq, h fuel, Outcome.bind_ok]
  rfl

end Vox.RaySearch
