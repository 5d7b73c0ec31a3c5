/-
C99: the evaluation of a map against a ground truth cloud.
-/
import Verif.Lemmas.EvalCloud

namespace Vox.EvalCloud

open Layer Grid Interp Spec

/-! A map of one block with 4 voxels of size 1 per side: along x the distances 3, 1, -1, -3; no weight in the topmost voxels. -/

def evVoxels : List (TsdfVoxel ℚ) :=
  (List.range 64).map fun (n : ℕ) => ⟨3 - 2 * (n % 4 : ℕ), if n / 16 = 3 then 0 else 1, ⟨1#8, 2#8, 3#8, 4#8⟩⟩

def evLayer : VLayer (TsdfVoxel ℚ) :=
  { cfg := ⟨1, 4⟩
    blocks := [(⟨0, 0, 0⟩, { vps := 4, voxelSize := 1, origin := ⟨0, 0, 0⟩, hasData := true, updated := Flags.setAll, voxels := evVoxels })] }

theorem evLayer_wf : WellFormed evLayer where
  size_pos := by decide +kernel
  side_pos := by decide
  side_le := by decide
  block := by
    intro i b h
    by_cases hi : i = ⟨0, 0, 0⟩
    · subst hi
      have : b = { vps := 4, voxelSize := 1, origin := ⟨0, 0, 0⟩, hasData := true, updated := Flags.setAll, voxels := evVoxels } :=
        (Option.some.inj h).symm
      subst this
      decide +kernel
    · exfalso
      have hn : (i == (⟨0, 0, 0⟩ : Idx)) = false := by simpa using hi
      simp [evLayer, List.lookup, hn] at h

/-- In front of the surface, between voxels, behind the surface, in a voxel without weight and outside the map. -/
def evCloud : List (Pt × Option (Bool × ℚ)) :=
  [(⟨1 / 2, 3 / 2, 3 / 2⟩, some (true, 3)), (⟨2, 3 / 2, 3 / 2⟩, some (false, 0)), (⟨7 / 2, 3 / 2, 3 / 2⟩, some (false, -3)),
    (⟨3 / 2, 3 / 2, 7 / 2⟩, none), (⟨9, 9, 9⟩, none)]

def evVoxel (x : ℚ) : TsdfVoxel ℚ := ⟨x, 1, ⟨1#8, 2#8, 3#8, 4#8⟩⟩

theorem ev_between : ErrorAt evLayer ⟨2, 3 / 2, 3 / 2⟩ (some (false, 0)) := by
  have h := ErrorAt.interpolated (l := evLayer) (p := ⟨2, 3 / 2, 3 / 2⟩) ⟨2, 1, 1⟩ ⟨1, 1, 1⟩ (evVoxel (-1)) (fun c => evVoxel (1 - 2 * c.x))
    (by unfold LiesIn Vec3.All₂; decide +kernel) (by decide +kernel) (by decide +kernel) (by decide +kernel)
    (by unfold InDualCell Vec3.All₂; decide +kernel) (by
      rintro ⟨x, y, z⟩ ⟨hx, hy, hz⟩
      dsimp only at hx hy hz
      rcases hx with rfl | rfl <;> rcases hy with rfl | rfl <;> rcases hz with rfl | rfl <;> decide +kernel)
  convert h using 3
  decide +kernel

theorem evCloud_judged : Judged evLayer evCloud := by
  intro x hx
  simp only [evCloud, List.mem_cons, List.not_mem_nil, or_false] at hx
  rcases hx with rfl | rfl | rfl | rfl | rfl
  · exact ⟨by unfold Addressable Vec3.All; decide +kernel, .outside ⟨0, 1, 1⟩ (evVoxel 3) (by unfold LiesIn Vec3.All₂; decide +kernel)
      (by decide +kernel) (by decide +kernel) (by decide +kernel)⟩
  · exact ⟨by unfold Addressable Vec3.All; decide +kernel, ev_between⟩
  · refine ⟨by unfold Addressable Vec3.All; decide +kernel, .nearest ⟨3, 1, 1⟩ ⟨3, 1, 1⟩ ⟨1, 0, 0⟩ (evVoxel (-3)) (by unfold LiesIn Vec3.All₂; decide +kernel)
      (by decide +kernel) (by decide +kernel) (by decide +kernel) (by unfold InDualCell Vec3.All₂; decide +kernel) (by decide) fun x hx => ?_⟩
    have : content evLayer (⟨3, 1, 1⟩ + ⟨1, 0, 0⟩) = none := by decide +kernel
    rw [this] at hx
    cases hx
  · refine ⟨by unfold Addressable Vec3.All; decide +kernel, .unknown ⟨1, 1, 3⟩ (by unfold LiesIn Vec3.All₂; decide +kernel) fun v hv => ?_⟩
    have : content evLayer ⟨1, 1, 3⟩ = some ⟨1, 0, ⟨1#8, 2#8, 3#8, 4#8⟩⟩ := by decide +kernel
    rw [this] at hv
    cases hv
    decide +kernel
  · refine ⟨by unfold Addressable Vec3.All; decide +kernel, .unknown ⟨9, 9, 9⟩ (by unfold LiesIn Vec3.All₂; decide +kernel) fun v hv => ?_⟩
    have : content evLayer ⟨9, 9, 9⟩ = none := by decide +kernel
    rw [this] at hv
    cases hv

/-- **C99**, the statistics: every point is counted once; the mean square error is over the known points, with the band's edge for those
outside, and is NaN if there are none. Without recolouring the map is left alone. -/
theorem C99_statistics {l : VLayer (TsdfVoxel ℚ)} (wf : WellFormed l) (toV : Pt → Pt) (cloud : List Pt) (z : List (Pt × Option (Bool × ℚ)))
    (hc : cloud.map toV = z.map (·.1)) (hz : Judged l z) :
    evaluate false toV l cloud = .ok
      ({ total := cloud.length
         unknown := z.countP (fun x => x.2.isNone)
         outside := z.countP (fun x => x.2.elim false (·.1))
         mse := (z.map fun x => squared (2 * l.cfg.voxelSize) x.2).sum },
       if z.countP (fun x => x.2.isSome) = 0 then none
       else some ((z.map fun x => squared (2 * l.cfg.voxelSize) x.2).sum / (z.countP (fun x => x.2.isSome) : ℕ)), l) := by
  have hlen : cloud.length = z.length := by simpa using congrArg List.length hc
  unfold evaluate
  rw [hc, fold_plain wf z _ hz, Outcome.bind_ok, Outcome.pure_eq]
  have hk := known_add (z.map (·.2))
  unfold Stats.meanSquare
  simp only [tally, zero_add, hk]
  simp only [List.countP_map, List.map_map, List.length_map, hlen]
  rfl

example : evaluate false id evLayer (evCloud.map (·.1)) = .ok ({ total := 5, unknown := 2, outside := 1, mse := 13 }, some (13 / 3), evLayer) := by
  rw [C99_statistics evLayer_wf id _ evCloud (by simp) evCloud_judged]
  decide +kernel

/-- **C99**, NaN: without known points there is no error to report. -/
theorem C99_none_known {l : VLayer (TsdfVoxel ℚ)} (wf : WellFormed l) (toV : Pt → Pt) (cloud : List Pt)
    (h : ∀ p ∈ cloud, Addressable l (toV p) ∧ ErrorAt l (toV p) none) :
    evaluate false toV l cloud = .ok ({ total := cloud.length, unknown := cloud.length, outside := 0, mse := 0 }, none, l) := by
  have hz : Judged l (cloud.map fun p => (toV p, none)) := by
    intro x hx
    obtain ⟨p, hp, rfl⟩ := List.mem_map.1 hx
    exact h p hp
  rw [C99_statistics wf toV cloud _ (by simp) hz]
  simp [List.countP_map, Function.comp_def, squared]

example : ∀ p ∈ [(⟨9, 9, 9⟩ : Pt)], Addressable evLayer (id p) ∧ ErrorAt evLayer (id p) none := by
  intro p hp
  rw [List.mem_singleton.1 hp]
  exact evCloud_judged (⟨9, 9, 9⟩, none) (by simp [evCloud])

/-- **C99**, order: the statistics do not depend on the order of the points. -/
theorem C99_order {l : VLayer (TsdfVoxel ℚ)} {toV : Pt → Pt} {cloud cloud' : List Pt} (h : cloud.Perm cloud') {r : Stats × Option ℚ × VLayer (TsdfVoxel ℚ)}
    (hr : evaluate false toV l cloud = .ok r) : evaluate false toV l cloud' = .ok r := by
  unfold evaluate at hr ⊢
  rw [Outcome.bind_eq_ok] at hr ⊢
  obtain ⟨x, h1, h2⟩ := hr
  exact ⟨x, fold_perm (h.map toV) h1, h2⟩

example : evaluate false id evLayer (evCloud.map (·.1)).reverse = .ok ({ total := 5, unknown := 2, outside := 1, mse := 13 }, some (13 / 3), evLayer) := by
  refine C99_order (List.reverse_perm _).symm ?_
  rw [C99_statistics evLayer_wf id _ evCloud (by simp) evCloud_judged]
  decide +kernel

/-- **C99**, bound: the mean square error is at most that of the largest distance in the map, if that is outside the band. -/
theorem C99_bounded {l : VLayer (TsdfVoxel ℚ)} (wf : WellFormed l) (toV : Pt → Pt) (cloud : List Pt) (z : List (Pt × Option (Bool × ℚ)))
    (hc : cloud.map toV = z.map (·.1)) (hz : Judged l z) {m : ℚ} (hm : 2 * l.cfg.voxelSize ≤ m) (hb : ∀ g v, content l g = some v → |v.distance| ≤ m) :
    ∃ s q, evaluate false toV l cloud = .ok (s, q, l) ∧ ∀ x, q = some x → x ≤ m ^ 2 := by
  refine ⟨_, _, C99_statistics wf toV cloud z hc hz, fun x hx => ?_⟩
  split_ifs at hx with h0
  have hx := Option.some.inj hx
  have hs := sum_le (t := 2 * l.cfg.voxelSize) (m := m) (es := z.map (·.2)) (by
    intro e he
    obtain ⟨y, hy, rfl⟩ := List.mem_map.1 he
    exact squared_le wf (hz y hy).1 (hz y hy).2 hm hb)
  rw [List.countP_map, List.map_map] at hs
  have hpos : (0 : ℚ) < (z.countP (fun x => x.2.isSome) : ℕ) := by exact_mod_cast Nat.pos_of_ne_zero h0
  rw [← hx, div_le_iff₀ hpos]
  have e : ((z.countP fun x => x.2.isSome : ℕ) : ℚ) * m ^ 2 = m ^ 2 * (z.countP fun x => x.2.isSome : ℕ) := mul_comm _ _
  rw [← e]
  exact hs

example : 2 * evLayer.cfg.voxelSize ≤ 3 ∧ ∀ g v, content evLayer g = some v → |v.distance| ≤ 3 := by
  refine ⟨by decide +kernel, fun g v h => ?_⟩
  have all : ∀ v ∈ evVoxels, |v.distance| ≤ 3 := by decide +kernel
  unfold content at h
  obtain ⟨b, hb, hv⟩ := Option.bind_eq_some_iff.1 h
  have hb' : b.voxels = evVoxels := by
    by_cases hi : g.map (· / (evLayer.cfg.vps : ℤ)) = ⟨0, 0, 0⟩
    · rw [hi] at hb
      rw [← Option.some.inj hb]
    · exfalso
      have hn : (g.map (· / (evLayer.cfg.vps : ℤ)) == (⟨0, 0, 0⟩ : Idx)) = false := by simpa using hi
      rw [show evLayer.blocks.lookup (g.map (· / (evLayer.cfg.vps : ℤ))) = none by
        unfold evLayer at hn ⊢
        simp only [List.lookup, hn]] at hb
      cases hb
  rw [hb'] at hv
  exact all v (List.mem_of_getElem? hv)

/-- **C99** is violated: the error is clamped only in front of the surface, so that the root mean square exceeds the truncation
distance that stands for "as wrong as can be". -/
theorem C99_band_violated : ∃ (l : VLayer (TsdfVoxel ℚ)) (cloud : List Pt) (s : Stats) (q : ℚ), WellFormed l ∧
    evaluate false id l cloud = .ok (s, some q, l) ∧ s.outside = 0 ∧ (2 * l.cfg.voxelSize) ^ 2 < q := by
  refine ⟨evLayer, [⟨7 / 2, 3 / 2, 3 / 2⟩], { total := 1, unknown := 0, outside := 0, mse := 9 }, 9, evLayer_wf, ?_, rfl, by decide +kernel⟩
  rw [C99_statistics evLayer_wf id _ [(⟨7 / 2, 3 / 2, 3 / 2⟩, some (false, -3))] (by simp)
    fun x hx => evCloud_judged x (by rw [List.mem_singleton.1 hx]; simp [evCloud])]
  decide +kernel

/-- **C99**, recolouring: if the known distances stay below 511/510 of the truncation distance, the statistics are the same, distances
and weights stay, a voxel without known points keeps its colour, and one with such points gets the grey value of the last one. Full claim: without the bound on the distances; false, see
`C99_recolor_undefined`. -/
theorem C99_recolor_partial {l : VLayer (TsdfVoxel ℚ)} (wf : WellFormed l) (toV : Pt → Pt) (cloud : List Pt) (z : List (Pt × Option (Bool × ℚ)))
    (hc : cloud.map toV = z.map (·.1)) (hz : Judged l z) (hd : ∀ p b d, (p, some (b, d)) ∈ z → |d| < 511 / 510 * (2 * l.cfg.voxelSize)) :
    ∃ s q l', evaluate false toV l cloud = .ok (s, q, l) ∧ evaluate true toV l cloud = .ok (s, q, l') ∧ WellFormed l' ∧ SameField l l' ∧
      (∀ g, (∀ p b d, (p, some (b, d)) ∈ z → ¬ LiesIn l g p) → content l' g = content l g) ∧
      ∀ g pre p b d post, z = pre ++ (p, some (b, d)) :: post → LiesIn l g p → (∀ q b' d', (q, some (b', d')) ∈ post → ¬ LiesIn l g q) →
        ∃ v c, content l g = some v ∧ content l' g = some { v with color := c } ∧ Shade (2 * l.cfg.voxelSize) d c := by
  obtain ⟨l', h1, h2, h3, h4, h5⟩ := fold_paint z { total := 0, unknown := 0, outside := 0, mse := 0 } l (SameField.refl l) wf hz hd
  have e : ∀ (paints : Bool) (k : VLayer (TsdfVoxel ℚ)) (s : Stats),
      (z.map (·.1)).foldlM (evalPoint paints) ({ total := 0, unknown := 0, outside := 0, mse := 0 }, l) = .ok (s, k) →
      evaluate paints toV l cloud = .ok (s, s.meanSquare, k) := by
    intro paints k s hf
    unfold evaluate
    rw [hc, hf, Outcome.bind_ok]
    rfl
  exact ⟨_, _, l', e false l _ (fold_plain wf z _ hz), e true l' _ h1, h2, h3, h4, h5⟩

example : Judged evLayer [(⟨2, 3 / 2, 3 / 2⟩, some (false, 0)), (⟨9, 9, 9⟩, none)] ∧
    (∀ p b d, (p, some (b, d)) ∈ [((⟨2, 3 / 2, 3 / 2⟩ : Pt), some (false, (0 : ℚ))), (⟨9, 9, 9⟩, none)] → |d| < 511 / 510 * (2 * evLayer.cfg.voxelSize)) := by
  refine ⟨fun x hx => evCloud_judged x ?_, fun p b d h => ?_⟩
  · simp only [List.mem_cons, List.not_mem_nil, or_false] at hx
    rcases hx with rfl | rfl <;> simp [evCloud]
  · simp only [List.mem_cons, Prod.mk.injEq, Option.some.injEq, reduceCtorEq, and_false, List.not_mem_nil, or_false] at h
    rw [h.2.2]
    decide +kernel

/-- **C99** is violated: with recolouring, a known distance of 511/510 of the truncation distance or more is converted to a byte
outside its range, which is undefined; maps are built with twice that truncation distance. -/
theorem C99_recolor_undefined {l : VLayer (TsdfVoxel ℚ)} (wf : WellFormed l) (toV : Pt → Pt) (cloud : List Pt) (z : List (Pt × Option (Bool × ℚ)))
    (hc : cloud.map toV = z.map (·.1)) (hz : Judged l z) {p : Pt} {b : Bool} {d : ℚ} (hp : (p, some (b, d)) ∈ z)
    (hd : 511 / 510 * (2 * l.cfg.voxelSize) ≤ |d|) : evaluate true toV l cloud = .ub := by
  unfold evaluate
  rw [hc, fold_ub z _ l (SameField.refl l) wf hz fun h => absurd (h p b d hp) (not_lt.2 hd)]
  rfl

example : evaluate true id evLayer (evCloud.map (·.1)) = .ub :=
  C99_recolor_undefined evLayer_wf id _ evCloud (by simp) evCloud_judged (p := ⟨1 / 2, 3 / 2, 3 / 2⟩) (b := true) (d := 3) (by simp [evCloud])
    (by decide +kernel)

end Vox.EvalCloud
