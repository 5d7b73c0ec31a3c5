/-
Property C88: the correspondences between a point cloud and a TSDF layer, and the information they carry. (Exact arithmetic.)
-/
import Verif.Lemmas.IcpMatch

namespace Vox.Icp

open Geo Layer Grid Spec Interp

/-! ### Example data: two blocks of side 4 along x, voxel size 1/2, holding the distance to the wall 3/5 x + 4/5 y = 7/4 -/

/-- The field. -/
def wallField (g : Idx) : ℚ := affine ⟨3 / 5, 4 / 5, 0⟩ (-7 / 4) (voxelCenter (1 / 2) g)

/-- The voxel array of block `i`. -/
def wallVoxels (i : Idx) : List (TsdfVoxel ℚ) :=
  (List.range 64).map fun (n : ℕ) =>
    ⟨wallField ⟨i.x * 4 + (n % 4 : ℕ), i.y * 4 + (n / 4 % 4 : ℕ), i.z * 4 + (n / 16 : ℕ)⟩, 1, ⟨0#8, 0#8, 0#8, 0#8⟩⟩

/-- The layer. -/
def wall : VLayer (TsdfVoxel ℚ) :=
  { cfg := ⟨1 / 2, 4⟩
    blocks := [(⟨0, 0, 0⟩, { vps := 4, voxelSize := 1 / 2, origin := ⟨0, 0, 0⟩, hasData := true,
                              updated := Flags.setAll, voxels := wallVoxels ⟨0, 0, 0⟩ }),
               (⟨1, 0, 0⟩, { vps := 4, voxelSize := 1 / 2, origin := ⟨2, 0, 0⟩, hasData := true,
                              updated := Flags.setAll, voxels := wallVoxels ⟨1, 0, 0⟩ })] }

theorem wall_wf : WellFormed wall where
  size_pos := by decide +kernel
  side_pos := by decide
  side_le := by decide
  block := by
    intro i b h
    unfold wall at h
    simp only [List.lookup_cons, List.lookup_nil] at h
    by_cases h0 : i = ⟨0, 0, 0⟩
    · subst h0
      simp only [BEq.rfl, Option.some.injEq] at h
      subst h
      decide +kernel
    · by_cases h1 : i = ⟨1, 0, 0⟩
      · subst h1
        have e : ((⟨1, 0, 0⟩ : Idx) == ⟨0, 0, 0⟩) = false := by decide
        rw [e] at h
        simp only [BEq.rfl, Option.some.injEq] at h
        subst h
        decide +kernel
      · have e0 : (i == (⟨0, 0, 0⟩ : Idx)) = false := by simpa using h0
        have e1 : (i == (⟨1, 0, 0⟩ : Idx)) = false := by simpa using h1
        rw [e0, e1] at h
        cases h

theorem wall_affine : AffineField wall obsTsdf (·.distance) ⟨3 / 5, 4 / 5, 0⟩ (-7 / 4) := by
  intro g x hx _
  have hmod : ∀ a : ℤ, 0 ≤ a % (4 : ℤ) ∧ a % (4 : ℤ) < 4 := fun a => ⟨Int.emod_nonneg _ (by norm_num), Int.emod_lt_of_pos _ (by norm_num)⟩
  have hdm : ∀ a : ℤ, 4 * (a / 4) + a % 4 = a := fun a => Int.mul_ediv_add_emod a 4
  unfold content at hx
  obtain ⟨b, hb, hv⟩ := Option.bind_eq_some_iff.1 hx
  have hcfg : (wall.cfg.vps : ℤ) = 4 := rfl
  rw [hcfg] at hb hv
  have hgen : ∀ i : Idx, (g.map (· / (4 : ℤ))) = i →
      (wallVoxels i)[((g.x % (4 : ℤ)) + 4 * ((g.y % (4 : ℤ)) + 4 * (g.z % (4 : ℤ)))).toNat]? = some x →
      x.distance = wallField g := by
    intro i hi hvx
    have hX := hmod g.x
    have hY := hmod g.y
    have hZ := hmod g.z
    unfold wallVoxels at hvx
    rw [List.getElem?_map] at hvx
    obtain ⟨n, hn, rfl⟩ := Option.map_eq_some_iff.1 hvx
    have hn' := List.getElem?_eq_some_iff.1 hn
    obtain ⟨hlt, hn''⟩ := hn'
    rw [List.getElem_range] at hn''
    subst hn''
    subst hi
    simp only [Vec3.map_x, Vec3.map_y, Vec3.map_z]
    congr 1
    have := hdm g.x
    have := hdm g.y
    have := hdm g.z
    ext <;> simp only <;> omega
  unfold wall at hb
  simp only [List.lookup_cons, List.lookup_nil] at hb
  by_cases h0 : (g.map (· / (4 : ℤ))) = ⟨0, 0, 0⟩
  · rw [h0] at hb
    simp only [BEq.rfl, Option.some.injEq] at hb
    subst hb
    exact hgen _ h0 hv
  · have e0 : ((g.map (· / (4 : ℤ))) == (⟨0, 0, 0⟩ : Idx)) = false := by simpa using h0
    rw [e0] at hb
    by_cases h1 : (g.map (· / (4 : ℤ))) = ⟨1, 0, 0⟩
    · rw [h1] at hb
      simp only [BEq.rfl, Option.some.injEq] at hb
      subst hb
      exact hgen _ h1 hv
    · have e1 : ((g.map (· / (4 : ℤ))) == (⟨1, 0, 0⟩ : Idx)) = false := by simpa using h1
      rw [e1] at hb
      cases hb

/-- A sensor turned by a quarter about the vertical axis. -/
def exSensor : Pose ℚ := ⟨⟨0, -1, 0⟩, ⟨1, 0, 0⟩, ⟨0, 0, 1⟩, ⟨1, 1, 0⟩⟩

/-- A point as the sensor sees it; in the layer it is at (9/10, 7/5, 4/5). -/
def exPoint : Pt := ⟨2 / 5, 1 / 10, 4 / 5⟩

/-- The voxel exists and is observed. -/
def Known (l : VLayer (TsdfVoxel ℚ)) (g : Idx) : Prop := ∃ x, content l g = some x ∧ obsTsdf x = true

/-- The voxel and its six neighbours. -/
def around (g : Idx) : List Idx :=
  [g, g + ⟨-1, 0, 0⟩, g + ⟨1, 0, 0⟩, g + ⟨0, -1, 0⟩, g + ⟨0, 1, 0⟩, g + ⟨0, 0, -1⟩, g + ⟨0, 0, 1⟩]

theorem known_iff (l : VLayer (TsdfVoxel ℚ)) (g : Idx) : Known l g ↔ ∃ d, seenDistance l g = some d := by
  unfold Known seenDistance
  constructor
  · rintro ⟨x, hx, ho⟩
    exact ⟨x.distance, by rw [hx]; simp [ho]⟩
  · rintro ⟨d, hd⟩
    obtain ⟨x, hx, -⟩ := Option.map_eq_some_iff.1 hd
    obtain ⟨h1, h2⟩ := Option.filter_eq_some_iff.1 hx
    exact ⟨x, h1, h2⟩

theorem slope_iff (l : VLayer (TsdfVoxel ℚ)) (g : Idx) :
    (∀ o ∈ around g, Known l o) ↔ ∃ d a, seenDistance l g = some d ∧ slope l g = some a := by
  have u : ∀ i : Fin 3, ∀ k, unitIdx i k = match i with | 0 => ⟨k, 0, 0⟩ | 1 => ⟨0, k, 0⟩ | 2 => ⟨0, 0, k⟩ := fun i k => rfl
  simp only [around, List.mem_cons, List.not_mem_nil, or_false, forall_eq_or_imp, forall_eq, known_iff]
  constructor
  · rintro ⟨⟨d, hd⟩, ⟨a, ha⟩, ⟨b, hb⟩, ⟨c, hc⟩, ⟨e, he⟩, ⟨f, hf⟩, ⟨h, hh⟩⟩
    refine ⟨d, ⟨(b - a) / (2 * l.cfg.voxelSize), (e - c) / (2 * l.cfg.voxelSize), (h - f) / (2 * l.cfg.voxelSize)⟩, hd, ?_⟩
    simp only [slope, quotient, u, ha, hb, hc, he, hf, hh]
  · rintro ⟨d, a, hd, ha⟩
    refine ⟨⟨d, hd⟩, ?_⟩
    simp only [slope, quotient, u] at ha
    cases h1 : seenDistance l (g + ⟨-1, 0, 0⟩) <;> cases h2 : seenDistance l (g + ⟨1, 0, 0⟩) <;>
      cases h3 : seenDistance l (g + ⟨0, -1, 0⟩) <;> cases h4 : seenDistance l (g + ⟨0, 1, 0⟩) <;>
      cases h5 : seenDistance l (g + ⟨0, 0, -1⟩) <;> cases h6 : seenDistance l (g + ⟨0, 0, 1⟩) <;>
      simp [h1, h2, h3, h4, h5, h6] at ha ⊢

theorem slope_affine {l : VLayer (TsdfVoxel ℚ)} (hs : 0 < l.cfg.voxelSize) {a : Pt} {k : ℚ} (hf : AffineField l obsTsdf (·.distance) a k)
    {g : Idx} {v : Pt} (h : slope l g = some v) : v = a := by
  have sd : ∀ o d, seenDistance l o = some d → d = affine a k (voxelCenter l.cfg.voxelSize o) := by
    intro o d hd
    obtain ⟨x, hx, rfl⟩ := Option.map_eq_some_iff.1 hd
    obtain ⟨h1, h2⟩ := Option.filter_eq_some_iff.1 hx
    exact hf o x h1 h2
  have q : ∀ i r, quotient l g i = some r → r = comp3 a i := by
    intro i r hr
    unfold quotient at hr
    split at hr
    · rename_i n p hn hp
      cases hr
      rw [sd _ _ hn, sd _ _ hp]
      fin_cases i <;> simp only [unitIdx, affine, comp3, voxelCenter, Vec3.add_x, Vec3.add_y, Vec3.add_z] <;>
        push_cast <;> field_simp <;> ring
    · cases hr
  unfold slope at h
  split at h
  · rename_i x y z hx hy hz
    cases h
    rw [q 0 _ hx, q 1 _ hy, q 2 _ hz]
    rfl
  · cases h

/-! ## C88 correspondences -/

/-- **C88 (partial).** Where the layer holds the distance to a plane, a point that is matched is matched with the nearest point of the plane,
and the normal used is that of the plane. (Points in the slivers at the upper faces of the voxels are excluded, see
`C88_border_violated`.) -/
theorem C88_nearest_on_plane_partial (sqrt : ℚ → ℚ) (h1 : sqrt 1 = 1) {l : VLayer (TsdfVoxel ℚ)} (wf : WellFormed l) {a : Pt} {k : ℚ}
    (hf : AffineField l obsTsdf (·.distance) a k) (ha : a.x ^ 2 + a.y ^ 2 + a.z ^ 2 = 1) {T : Pose ℚ} {p : Pt}
    (hq : Interior l (moved T p)) {g : Idx} (hg : ClearInVoxel l g (moved T p)) :
    ∃ r, matchPoint sqrt l T p = .ok r ∧ ∀ m, r = some m → m.src = moved T p ∧ m.normal = a ∧ affine a k m.tgt = 0 ∧
      ∀ x, affine a k x = 0 → distSq (moved T p) m.tgt ≤ distSq (moved T p) x := by
  refine ⟨_, matchPoint_spec sqrt wf hq hg, ?_⟩
  intro m hm
  split at hm
  · rename_i d v hd hv
    have ev := slope_affine wf.size_pos hf hv
    subst ev
    obtain ⟨x, hx, rfl⟩ := Option.map_eq_some_iff.1 hd
    obtain ⟨c1, c2⟩ := Option.filter_eq_some_iff.1 hx
    have ed := hf g x c1 c2
    simp only at ed
    have n1 : Geo.sqNorm v = 1 := by simp only [Geo.sqNorm, Geo.dot]; linarith
    have nv : Sim.normalized sqrt v = v := by
      unfold Sim.normalized
      dsimp only
      rw [n1, if_pos one_pos, h1]
      ext <;> simp
    split_ifs at hm
    have em : m = matchOf sqrt l.cfg.voxelSize g (T.apply p) x.distance v := (Option.some.inj hm).symm
    have q : T.apply p = moved T p := rfl
    rw [q] at em
    set y := moved T p with ey
    have tg : m.tgt = y - smul (affine v k y) v := by
      rw [em]
      unfold matchOf
      dsimp only
      rw [nv, ed]
      congr 2
      simp only [affine, Geo.dot, voxelCenter, centerPoint, Vec3.map_x, Vec3.map_y, Vec3.map_z, Vec3.sub_x, Vec3.sub_y, Vec3.sub_z]
      ring
    refine ⟨by rw [em]; rfl, by rw [em]; exact nv, ?_, ?_⟩
    · rw [tg]
      simp only [affine, smul, Vec3.sub_x, Vec3.sub_y, Vec3.sub_z]
      linear_combination (-(v.x * y.x + v.y * y.y + v.z * y.z + k)) * ha
    · intro x hx
      rw [tg]
      have e1 : distSq y (y - smul (affine v k y) v) = affine v k y ^ 2 := by
        simp only [distSq, smul, Vec3.sub_x, Vec3.sub_y, Vec3.sub_z]
        linear_combination (affine v k y) ^ 2 * ha
      have e2 : affine v k y = v.x * (y.x - x.x) + v.y * (y.y - x.y) + v.z * (y.z - x.z) := by
        unfold affine at hx ⊢
        linear_combination hx
      rw [e1, e2]
      unfold distSq
      have cs : ∀ p q r s t u : ℚ, (p * s + q * t + r * u) ^ 2 ≤ (p ^ 2 + q ^ 2 + r ^ 2) * (s ^ 2 + t ^ 2 + u ^ 2) := by
        intro p q r s t u
        nlinarith [sq_nonneg (p * t - q * s), sq_nonneg (p * u - r * s), sq_nonneg (q * u - r * t)]
      have := cs v.x v.y v.z (y.x - x.x) (y.y - x.y) (y.z - x.z)
      rw [ha, one_mul] at this
      exact this
  · cases hm

example : Interior wall (moved exSensor exPoint) ∧ ClearInVoxel wall ⟨1, 2, 1⟩ (moved exSensor exPoint) ∧
    matchPoint id wall exSensor exPoint =
      .ok (some ⟨⟨9 / 10, 7 / 5, 4 / 5⟩, ⟨9 / 10 + 27 / 500, 7 / 5 + 9 / 125, 4 / 5⟩, ⟨3 / 5, 4 / 5, 0⟩⟩) := by
  refine ⟨?_, ?_, by decide +kernel⟩
  · unfold Interior Vec3.All moved wall exSensor exPoint; norm_num
  · unfold ClearInVoxel Vec3.All₂ moved wall exSensor exPoint; norm_num

/-- **C88.** There, a point is matched exactly if the voxel it lies in and the six voxels next to it are observed. -/
theorem C88_matched_iff (sqrt : ℚ → ℚ) {l : VLayer (TsdfVoxel ℚ)} (wf : WellFormed l) {a : Pt} {k : ℚ}
    (hf : AffineField l obsTsdf (·.distance) a k) (ha : a.x ^ 2 + a.y ^ 2 + a.z ^ 2 = 1) {T : Pose ℚ} {p : Pt}
    (hq : Interior l (moved T p)) {g : Idx} (hg : ClearInVoxel l g (moved T p)) :
    (∃ m, matchPoint sqrt l T p = .ok (some m)) ↔ ∀ o ∈ around g, Known l o := by
  rw [slope_iff, matchPoint_spec sqrt wf hq hg]
  cases hd : seenDistance l g with
  | none => simp
  | some d =>
    cases hv : slope l g with
    | none => simp
    | some v =>
      have ev := slope_affine wf.size_pos hf hv
      subst ev
      have n1 : Geo.sqNorm v = 1 := by simp only [Geo.sqNorm, Geo.dot]; linarith
      have : kMinGradMag < Geo.sqNorm v := by rw [n1]; norm_num [kMinGradMag]
      simp [this]

example : ∀ o ∈ around ⟨1, 2, 1⟩, Known wall o := by
  have : ∀ o ∈ around ⟨1, 2, 1⟩, ((content wall o).filter obsTsdf).isSome = true := by decide +kernel
  intro o ho
  obtain ⟨x, hx⟩ := Option.isSome_iff_exists.1 (this o ho)
  obtain ⟨h1, h2⟩ := Option.filter_eq_some_iff.1 hx
  exact ⟨x, h1, h2⟩

/-- **C88.** In any layer, a point in an unobserved voxel or next to one is not matched. -/
theorem C88_unknown (sqrt : ℚ → ℚ) {l : VLayer (TsdfVoxel ℚ)} (wf : WellFormed l) {T : Pose ℚ} {p : Pt}
    (hq : Interior l (moved T p)) {g : Idx} (hg : ClearInVoxel l g (moved T p)) {o : Idx} (ho : o ∈ around g) (hu : ¬ Known l o) :
    matchPoint sqrt l T p = .ok none := by
  rw [matchPoint_spec sqrt wf hq hg]
  have : ¬ ∃ d a, seenDistance l g = some d ∧ slope l g = some a := by
    rw [← slope_iff]
    exact fun h => hu (h o ho)
  cases hd : seenDistance l g with
  | none => rfl
  | some d =>
    cases hv : slope l g with
    | none => rfl
    | some v => exact (this ⟨d, v, hd, hv⟩).elim

example : ∃ o ∈ around ⟨1, 2, 3⟩, content wall o = none := ⟨⟨1, 2, 4⟩, by decide, by decide +kernel⟩

/-- **C88.** Where the distance does not change from voxel to voxel there is no direction to align along, and no match. -/
theorem C88_flat (sqrt : ℚ → ℚ) {l : VLayer (TsdfVoxel ℚ)} (wf : WellFormed l) {T : Pose ℚ} {p : Pt}
    (hq : Interior l (moved T p)) {g : Idx} (hg : ClearInVoxel l g (moved T p)) (c : ℚ)
    (hc : ∀ o x, content l o = some x → x.distance = c) :
    matchPoint sqrt l T p = .ok none := by
  have hf : AffineField l obsTsdf (·.distance) 0 c := by
    intro o x hx _
    show x.distance = _
    rw [hc o x hx]
    simp [affine]
  rw [matchPoint_spec sqrt wf hq hg]
  cases hd : seenDistance l g with
  | none => rfl
  | some d =>
    cases hv : slope l g with
    | none => rfl
    | some v =>
      have ev := slope_affine wf.size_pos hf hv
      subst ev
      have : ¬ kMinGradMag < Geo.sqNorm (0 : Pt) := by
        have : Geo.sqNorm (0 : Pt) = 0 := by simp [Geo.sqNorm, Geo.dot]
        rw [this]; norm_num [kMinGradMag]
      simp [this]

/-- A block in which the distance is 1 everywhere. -/
def flatLayer : VLayer (TsdfVoxel ℚ) :=
  { cfg := ⟨1 / 2, 4⟩
    blocks := [(⟨0, 0, 0⟩, { vps := 4, voxelSize := 1 / 2, origin := ⟨0, 0, 0⟩, hasData := true,
                              updated := Flags.setAll, voxels := List.replicate 64 ⟨1, 1, ⟨0#8, 0#8, 0#8, 0#8⟩⟩ })] }

example : (∀ o x, content flatLayer o = some x → x.distance = 1) ∧ ∃ x, content flatLayer ⟨1, 2, 1⟩ = some x := by
  refine ⟨?_, ⟨⟨1, 1, ⟨0#8, 0#8, 0#8, 0#8⟩⟩, by decide +kernel⟩⟩
  intro o x h
  unfold content at h
  obtain ⟨b, hb, hv⟩ := Option.bind_eq_some_iff.1 h
  have hv' := List.mem_of_getElem? hv
  unfold flatLayer at hb
  simp only [List.lookup_cons, List.lookup_nil] at hb
  split at hb
  · have e := Option.some.inj hb
    rw [← e] at hv'
    rw [List.eq_of_mem_replicate hv']
  · cases hb

/-- **C88 (violated in the slivers).** One micrometre below the border of two blocks the distance is read from a voxel of one block and
corrected by the centre of a voxel of the other, and the target of the match is not on the plane but 3/10 (more than half a voxel) off. -/
theorem C88_border_violated :
    ∃ m, matchPoint id wall exSensor ⟨2 / 5, -(999999 / 1000000), 4 / 5⟩ = .ok (some m) ∧ WellFormed wall ∧
      AffineField wall obsTsdf (·.distance) ⟨3 / 5, 4 / 5, 0⟩ (-7 / 4) ∧ affine ⟨3 / 5, 4 / 5, 0⟩ (-7 / 4) m.tgt = -3 / 10 :=
  ⟨matchOf id (1 / 2) ⟨3, 2, 1⟩ ⟨2 - 1 / 1000000, 7 / 5, 4 / 5⟩ (3 / 5) ⟨3 / 5, 4 / 5, 0⟩, by decide +kernel, wall_wf, wall_affine,
    by decide +kernel⟩

/-- What is true of the result of a batch: how many matches there are, where they come from, and what the information is. -/
theorem matchPoints_result {sqrt : ℚ → ℚ} {batch : ℕ} {l : VLayer (TsdfVoxel ℚ)} {points : List Pt} {start : ℕ} {T : Pose ℚ}
    {ms : List Match} {info : Vec6 ℚ} (h : matchPoints sqrt batch l points start T = .ok (ms, info)) :
    ∃ rs, ((points.drop start).take batch).mapM (matchPoint sqrt l T) = .ok rs ∧ ms = rs.filterMap id ∧
      info = ms.foldl (fun info m => addPointInfo (m.src - T.t) m.normal info) (Vec6.const kEpsilon) := by
  unfold matchPoints at h
  obtain ⟨rs, h1, h2⟩ := Outcome.bind_eq_ok.1 h
  have e := Outcome.ok.inj h2
  refine ⟨rs, h1, (congrArg Prod.fst e).symm, ?_⟩
  have e1 : rs.filterMap id = ms := congrArg Prod.fst e
  rw [← e1]
  exact (congrArg Prod.snd e).symm

theorem match_src {sqrt : ℚ → ℚ} {l : VLayer (TsdfVoxel ℚ)} {T : Pose ℚ} {p : Pt} {m : Match}
    (h : matchPoint sqrt l T p = .ok (some m)) : m.src = moved T p := by
  unfold matchPoint at h
  obtain ⟨v, -, h⟩ := Outcome.bind_eq_ok.1 h
  obtain ⟨d, -, h⟩ := Outcome.bind_eq_ok.1 h
  cases d with
  | none => cases h
  | some d =>
    obtain ⟨g, -, h⟩ := Outcome.bind_eq_ok.1 h
    cases g with
    | none => cases h
    | some g =>
      have e := Outcome.ok.inj h
      split_ifs at e
      rw [← Option.some.inj e]
      rfl

/-- **C88.** A batch uses at most as many points as configured, in their order and each at most once, and every source point is the image of
its point under the pose. -/
theorem C88_sources {sqrt : ℚ → ℚ} {batch : ℕ} {l : VLayer (TsdfVoxel ℚ)} {points : List Pt} {start : ℕ} {T : Pose ℚ}
    {ms : List Match} {info : Vec6 ℚ} (h : matchPoints sqrt batch l points start T = .ok (ms, info)) :
    ms.length ≤ batch ∧ List.Sublist (ms.map (·.src)) (((points.drop start).take batch).map (moved T)) := by
  obtain ⟨rs, h1, rfl, -⟩ := matchPoints_result h
  have key : ∀ (ps : List Pt) (rs : List (Option Match)), ps.mapM (matchPoint sqrt l T) = .ok rs →
      List.Sublist ((rs.filterMap id).map (·.src)) (ps.map (moved T)) := by
    intro ps
    induction ps with
    | nil =>
      intro rs h
      have : rs = [] := (Outcome.ok.inj h).symm
      subst this
      exact List.Sublist.refl _
    | cons p ps ih =>
      intro rs h
      rw [List.mapM_cons] at h
      obtain ⟨r, hr, h⟩ := Outcome.bind_eq_ok.1 h
      obtain ⟨rs', hrs, h⟩ := Outcome.bind_eq_ok.1 h
      have : rs = r :: rs' := (Outcome.ok.inj h).symm
      subst this
      cases r with
      | none => exact (ih rs' hrs).cons _
      | some m =>
        simp only [List.filterMap_cons, id, List.map_cons]
        rw [match_src hr]
        exact (ih rs' hrs).cons_cons _
  have k := key _ _ h1
  refine ⟨?_, k⟩
  have := k.length_le
  rw [List.length_map, List.length_map, List.length_take] at this
  omega

example : matchPoints id 2 wall [exPoint, ⟨0, 0, 100⟩, exPoint] 0 exSensor =
    .ok ([⟨⟨9 / 10, 7 / 5, 4 / 5⟩, ⟨9 / 10 + 27 / 500, 7 / 5 + 9 / 125, 4 / 5⟩, ⟨3 / 5, 4 / 5, 0⟩⟩],
      addPointInfo ⟨-1 / 10, 2 / 5, 4 / 5⟩ ⟨3 / 5, 4 / 5, 0⟩ (Vec6.const (1 / 1000000))) := by
  decide +kernel

/-- **C88.** The information of a batch is positive in every component (so that it can be divided by), grows with the matches, and its
translational components add up to twice the number of matches if the normals are unit vectors (up to the small constants). -/
theorem C88_information {sqrt : ℚ → ℚ} {batch : ℕ} {l : VLayer (TsdfVoxel ℚ)} {points : List Pt} {start : ℕ} {T : Pose ℚ}
    {ms : List Match} {info : Vec6 ℚ} (h : matchPoints sqrt batch l points start T = .ok (ms, info)) :
    Every (1 / 1000000 ≤ ·) info.t ∧ Every (1 / 1000000 ≤ ·) info.r ∧
      ((∀ m ∈ ms, m.normal.x ^ 2 + m.normal.y ^ 2 + m.normal.z ^ 2 = 1) →
        info.t.x + info.t.y + info.t.z = 3 / 1000000 + 2 * ms.length) := by
  obtain ⟨rs, -, -, e⟩ := matchPoints_result h
  have key : ∀ (ms : List Match) (i : Vec6 ℚ), Every (1 / 1000000 ≤ ·) i.t → Every (1 / 1000000 ≤ ·) i.r →
      Every (1 / 1000000 ≤ ·) (ms.foldl (fun info m => addPointInfo (m.src - T.t) m.normal info) i).t ∧
      Every (1 / 1000000 ≤ ·) (ms.foldl (fun info m => addPointInfo (m.src - T.t) m.normal info) i).r ∧
      ((∀ m ∈ ms, m.normal.x ^ 2 + m.normal.y ^ 2 + m.normal.z ^ 2 = 1) →
        (ms.foldl (fun info m => addPointInfo (m.src - T.t) m.normal info) i).t.x +
        (ms.foldl (fun info m => addPointInfo (m.src - T.t) m.normal info) i).t.y +
        (ms.foldl (fun info m => addPointInfo (m.src - T.t) m.normal info) i).t.z = i.t.x + i.t.y + i.t.z + 2 * ms.length) := by
    intro ms
    induction ms with
    | nil => intro i h1 h2; exact ⟨h1, h2, fun _ => by simp⟩
    | cons m ms ih =>
      intro i ⟨x, y, z⟩ ⟨u, v, w⟩
      rw [List.foldl_cons]
      set p := m.src - T.t
      set n := m.normal with en
      have a1 := mul_self_nonneg n.x; have a2 := mul_self_nonneg n.y; have a3 := mul_self_nonneg n.z
      have sqm : ∀ a b : ℚ, 0 ≤ a * a * b * b := fun a b => by nlinarith [mul_self_nonneg (a * b)]
      obtain ⟨k1, k2, k3⟩ := ih (addPointInfo p n i)
        ⟨by simp only [addPointInfo, Vec6.add, Vec3.add_x]; linarith, by simp only [addPointInfo, Vec6.add, Vec3.add_y]; linarith,
         by simp only [addPointInfo, Vec6.add, Vec3.add_z]; linarith⟩
        ⟨by simp only [addPointInfo, Vec6.add, Vec3.add_x]; linarith [sqm p.y n.z, sqm p.z n.y],
         by simp only [addPointInfo, Vec6.add, Vec3.add_y]; linarith [sqm p.x n.z, sqm p.z n.x],
         by simp only [addPointInfo, Vec6.add, Vec3.add_z]; linarith [sqm p.x n.y, sqm p.y n.x]⟩
      refine ⟨k1, k2, fun hn => ?_⟩
      rw [k3 fun m hm => hn m (List.mem_cons_of_mem _ hm)]
      have h1 := hn m List.mem_cons_self
      rw [← en] at h1
      simp only [addPointInfo, Vec6.add, Vec3.add_x, Vec3.add_y, Vec3.add_z, List.length_cons]
      push_cast
      linear_combination 2 * h1
  have c : Every (1 / 1000000 ≤ ·) (⟨kEpsilon, kEpsilon, kEpsilon⟩ : Pt) := ⟨le_rfl, le_rfl, le_rfl⟩
  obtain ⟨k1, k2, k3⟩ := key ms (Vec6.const kEpsilon) c c
  rw [← e] at k1 k2 k3
  refine ⟨k1, k2, fun hn => ?_⟩
  rw [k3 hn]
  simp only [Vec6.const, kEpsilon]
  ring

/-- **C88 (partial).** The rotational information of a point about an axis is at least half of the exact value, twice the square of the
component of p × n (the diagonal of the Hessian), and equal to it if p or n lies in a coordinate plane through the axis. (The mixed term is
missing in general, see `C88_rotation_information_violated`.) -/
theorem C88_rotation_information_partial (p n : Pt) (info : Vec6 ℚ) :
    let gain := (addPointInfo p n info).r - info.r
    (p.y * n.z - p.z * n.y) ^ 2 ≤ gain.x ∧ (p.z * n.x - p.x * n.z) ^ 2 ≤ gain.y ∧ (p.x * n.y - p.y * n.x) ^ 2 ≤ gain.z ∧
    (p.y * p.z * n.y * n.z = 0 → gain.x = 2 * (p.y * n.z - p.z * n.y) ^ 2) ∧
    (p.x * p.z * n.x * n.z = 0 → gain.y = 2 * (p.z * n.x - p.x * n.z) ^ 2) ∧
    (p.x * p.y * n.x * n.y = 0 → gain.z = 2 * (p.x * n.y - p.y * n.x) ^ 2) := by
  simp only [addPointInfo, Vec6.add, Vec3.add_x, Vec3.add_y, Vec3.add_z, Vec3.sub_x, Vec3.sub_y, Vec3.sub_z]
  refine ⟨?_, ?_, ?_, fun h => ?_, fun h => ?_, fun h => ?_⟩
  · nlinarith [sq_nonneg (p.y * n.z + p.z * n.y)]
  · nlinarith [sq_nonneg (p.z * n.x + p.x * n.z)]
  · nlinarith [sq_nonneg (p.x * n.y + p.y * n.x)]
  · linear_combination 4 * h
  · linear_combination 4 * h
  · linear_combination 4 * h

/-- **C88 (violated).** A point straight along its normal says nothing about rotations, but it is counted as if it did: the mixed term of the
square is left out (the source notes that the formula is to be verified). -/
theorem C88_rotation_information_violated :
    ¬ ∀ (p n : Pt) (info : Vec6 ℚ), ((addPointInfo p n info).r - info.r).z = 2 * (p.x * n.y - p.y * n.x) ^ 2 := by
  intro h
  have := h ⟨3, 4, 0⟩ ⟨3 / 5, 4 / 5, 0⟩ (Vec6.const 0)
  revert this
  decide +kernel

end Vox.Icp
