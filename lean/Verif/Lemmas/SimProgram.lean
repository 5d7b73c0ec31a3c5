/-
Lemmas about the simulation program.
-/
import Verif.Model.SimProgram
import Verif.Spec.SimProgram
import Verif.Props.SimServer
import Verif.Props.SimWorld
import Verif.Props.Evaluation
import Verif.Lemmas.EvalProgram
import Verif.Lemmas.ServerClouds

namespace Vox.SimProgram

open Layer Grid Geo Sim Spec SimServer MC MeshInt Ieee PtCloud

section Room

variable {F : Type} [Field F] [LinearOrder F] [IsStrictOrderedRing F]

theorem plane_le {sqrt : F → F} (hs : IsSqrt sqrt) {c n : Vec3 F} (hn : n.x ^ 2 + n.y ^ 2 + n.z ^ 2 = 1) (p : Vec3 F) :
    distance sqrt (.plane c n) p = n.x * (p.x - c.x) + n.y * (p.y - c.y) + n.z * (p.z - c.z) := plane_eq hs hn p

theorem ball_le {sqrt : F → F} (hs : IsSqrt sqrt) {m : F} (hm : 0 ≤ m) (p : Vec3 F) :
    m ≤ distance sqrt (.sphere ⟨0, 0, 2⟩ 2) p ↔ (2 + m) ^ 2 ≤ p.x ^ 2 + p.y ^ 2 + (p.z - 2) ^ 2 := by
  have e : Geo.sqNorm ((⟨0, 0, 2⟩ : Vec3 F) - p) = p.x ^ 2 + p.y ^ 2 + (p.z - 2) ^ 2 := by
    simp only [Geo.sqNorm, dot, Vec3.sub_x, Vec3.sub_y, Vec3.sub_z]
    ring
  obtain ⟨h0, h1⟩ := hs _ (sqNorm_nonneg ((⟨0, 0, 2⟩ : Vec3 F) - p))
  rw [distance, sphereDistance, norm, ← e]
  generalize sqrt (Geo.sqNorm ((⟨0, 0, 2⟩ : Vec3 F) - p)) = t at h0 h1 ⊢
  rw [← h1, ← pow_two]
  have h2 : 0 ≤ 2 + m := by linarith
  rw [pow_le_pow_iff_left₀ h2 h0 two_ne_zero]
  constructor <;> intro h <;> linarith

theorem box_le {sqrt : F → F} (hs : IsSqrt sqrt) {m : F} (hm : 0 ≤ m) {p : Vec3 F} (h : m ≤ distance sqrt (.cube ⟨-4, 4, 2⟩ ⟨4, 4, 4⟩) p) (q : Vec3 F)
    (hx : -6 ≤ q.x ∧ q.x ≤ -2) (hy : 2 ≤ q.y ∧ q.y ≤ 6) (hz : 0 ≤ q.z ∧ q.z ≤ 4) :
    m ^ 2 ≤ (p.x - q.x) ^ 2 + (p.y - q.y) ^ 2 + (p.z - q.z) ^ 2 := by
  have h1 : m ≤ excess sqrt ⟨-4, 4, 2⟩ ⟨4, 4, 4⟩ p := by
    refine h.trans ?_
    rw [distance, cube_eq]
    split_ifs
    · exact face_le_excess hs _ _ _
    · exact le_rfl
  have h2 := pow_le_pow_left₀ hm h1 2
  rw [excess_sq hs] at h2
  have a := outside_sq_le (p := p.x) (y := q.x) (c := -4) (s := 4) (abs_le.2 ⟨by linarith [hx.1], by linarith [hx.2]⟩)
  have b := outside_sq_le (p := p.y) (y := q.y) (c := 4) (s := 4) (abs_le.2 ⟨by linarith [hy.1], by linarith [hy.2]⟩)
  have c := outside_sq_le (p := p.z) (y := q.z) (c := 2) (s := 4) (abs_le.2 ⟨by linarith [hz.1], by linarith [hz.2]⟩)
  linarith

theorem le_box {sqrt : F → F} (hs : IsSqrt sqrt) {m : F} (hm : 1 / 1000000 ≤ m) {p : Vec3 F}
    (h : ∀ q : Vec3 F, (-6 ≤ q.x ∧ q.x ≤ -2) → (2 ≤ q.y ∧ q.y ≤ 6) → (0 ≤ q.z ∧ q.z ≤ 4) → m ^ 2 ≤ (p.x - q.x) ^ 2 + (p.y - q.y) ^ 2 + (p.z - q.z) ^ 2) :
    m ≤ distance sqrt (.cube ⟨-4, 4, 2⟩ ⟨4, 4, 4⟩) p := by
  obtain ⟨x, x1, x2, -⟩ := exists_clamp (c := (-4 : F)) (s := 4) (p := p.x) (by norm_num)
  obtain ⟨y, y1, y2, -⟩ := exists_clamp (c := (4 : F)) (s := 4) (p := p.y) (by norm_num)
  obtain ⟨z, z1, z2, -⟩ := exists_clamp (c := (2 : F)) (s := 4) (p := p.z) (by norm_num)
  rw [abs_le] at x1 y1 z1
  have := h ⟨x, y, z⟩ ⟨by linarith [x1.1], by linarith [x1.2]⟩ ⟨by linarith [y1.1], by linarith [y1.2]⟩ ⟨by linarith [z1.1], by linarith [z1.2]⟩
  dsimp only at this
  rw [x2, y2, z2] at this
  have e := excess_sq hs ⟨-4, 4, 2⟩ ⟨4, 4, 4⟩ p
  dsimp only at e
  rw [← e] at this
  have hm0 : 0 ≤ m := le_trans (by norm_num) hm
  have h1 := (pow_le_pow_iff_left₀ hm0 (excess_nonneg hs _ _ _) two_ne_zero).1 this
  rw [distance, cube_eq, if_neg]
  · exact h1
  · exact not_lt.2 ((show eps ≤ m from hm).trans h1)

omit [IsStrictOrderedRing F] in
/-- Far enough from each object of the room. -/
theorem room_iff (sqrt : F → F) (m : F) (p : Vec3 F) : ¬ TooClose sqrt room m p ↔
    m ≤ distance sqrt (.sphere ⟨0, 0, 2⟩ 2) p ∧ m ≤ distance sqrt (.plane ⟨-2, -4, 2⟩ ⟨0, 1, 0⟩) p ∧ m ≤ distance sqrt (.plane ⟨4, 0, 0⟩ ⟨-1, 0, 0⟩) p ∧
    m ≤ distance sqrt (.cube ⟨-4, 4, 2⟩ ⟨4, 4, 4⟩) p ∧ m ≤ distance sqrt (.plane ⟨0, 0, 3 / 100⟩ ⟨0, 0, 1⟩) p := by
  unfold TooClose room prepareObjects addGroundLevel
  simp only [List.nil_append, List.cons_append, List.mem_cons, List.not_mem_nil, or_false, exists_eq_or_imp, exists_eq_left, not_or, not_lt]

theorem room_away {sqrt : F → F} (hs : IsSqrt sqrt) {m : F} (hm : 0 ≤ m) {p : Vec3 F} (h : ¬ TooClose sqrt room m p) : InRoom m p := by
  obtain ⟨h1, h2, h3, h4, h5⟩ := (room_iff sqrt m p).1 h
  rw [plane_le hs (by norm_num)] at h2 h3 h5
  dsimp only at h2 h3 h5
  exact ⟨by linarith, by linarith, by linarith, (ball_le hs hm p).1 h1, box_le hs hm h4⟩

theorem away_room {sqrt : F → F} (hs : IsSqrt sqrt) {m : F} (hm : 1 / 1000000 ≤ m) {p : Vec3 F} (h : InRoom m p) : ¬ TooClose sqrt room m p := by
  rw [room_iff, plane_le hs (by norm_num), plane_le hs (by norm_num), plane_le hs (by norm_num)]
  dsimp only
  have a := h.wallY
  have b := h.wallX
  have c := h.ground
  exact ⟨(ball_le hs (le_trans (by norm_num) hm) p).2 h.ball, by linarith, by linarith, le_box hs hm h.box, by linarith⟩

end Room

/-! ### The ground truth -/

theorem plane_unit {sqrt : ℚ → ℚ} (h1 : sqrt 1 = 1) {c n : Pt} (hn : n.x * n.x + n.y * n.y + n.z * n.z = 1) (p : Pt) :
    distance sqrt (.plane c n) p = n.x * (p.x - c.x) + n.y * (p.y - c.y) + n.z * (p.z - c.z) := by
  have e : norm sqrt n = 1 := by
    unfold norm Geo.sqNorm dot
    rw [hn, h1]
  simp only [distance, planeDistance, e, dot]
  ring

theorem things_room {sqrt : ℚ → ℚ} (h1 : sqrt 1 = 1) : things sqrt room = roomThings sqrt := by
  unfold things room prepareObjects addGroundLevel roomThings
  simp only [List.nil_append, List.cons_append, List.map_cons, List.map_nil]
  have a : distance sqrt (.sphere ⟨0, 0, 2⟩ 2) = fun p : Pt => sqrt (p.x ^ 2 + p.y ^ 2 + (p.z - 2) ^ 2) - 2 := by
    funext p
    simp only [distance, sphereDistance, norm, Geo.sqNorm, dot, Vec3.sub_x, Vec3.sub_y, Vec3.sub_z]
    congr 2
    ring
  have b : distance sqrt (.plane ⟨-2, -4, 2⟩ ⟨0, 1, 0⟩) = fun p : Pt => p.y + 4 := by
    funext p
    rw [plane_unit h1 (by norm_num)]
    dsimp only
    ring
  have c : distance sqrt (.plane ⟨4, 0, 0⟩ ⟨-1, 0, 0⟩) = fun p : Pt => 4 - p.x := by
    funext p
    rw [plane_unit h1 (by norm_num)]
    dsimp only
    ring
  have d : distance sqrt (.cube ⟨-4, 4, 2⟩ ⟨4, 4, 4⟩) = boxDistance sqrt := by
    funext p
    simp only [distance, cube_eq, excess, norm, Geo.sqNorm, dot, outside_eq, face_eq, boxDistance, eps]
    norm_num [pow_two]
  have e : distance sqrt (.plane ⟨0, 0, 3 / 100⟩ ⟨0, 0, 1⟩) = fun p : Pt => p.z - 3 / 100 := by
    funext p
    rw [plane_unit h1 (by norm_num)]
    dsimp only
    ring
  rw [a, b, c, d, e]
  rfl

/-! ### The numbers -/

open Classical in
theorem rmse_of (N : Eval.Num) (hN : ∀ q, N.rndD q = q) {V : Type} (S : Eval.Sdf V) {known : V → Option ℚ}
    (hk : ∀ v, known v = if S.observed v then some (S.sdf v) else none) {gt test : VLayer V} (wg : WellFormed gt) (wt : WellFormed test)
    (hv : gt.cfg.vps = test.cfg.vps) (ng : (gt.blocks.map (·.1)).Nodup) (nt : (test.blocks.map (·.1)).Nodup) {L : List Idx} (hL : Lists gt test L) :
    ∃ d, Eval.evaluateLayersRmse N S gt test .behindTest none = .ok (d, none) ∧ d.rmse = rootMeanSquare N.rnd N.sqrt (L.filterMap (errorIn known gt test)) := by
  have key : ∀ g e, errorIn known gt test g = some e ↔ Overlaps S gt test g ∧ ¬ Behind S .behindTest gt test g ∧
      ∃ a b, content gt g = some a ∧ content test g = some b ∧ e = S.sdf b - S.sdf a := by
    intro g e
    unfold errorIn Overlaps Behind
    cases ha : content gt g with
    | none => simp
    | some a =>
      cases hb : content test g with
      | none => simp
      | some b =>
        simp only [Option.bind_some, hk]
        cases oa : S.observed a <;> cases ob : S.observed b <;>
          simp only [Bool.false_eq_true, if_false, if_true, reduceCtorEq, Option.some.injEq, false_iff, not_and]
        · rintro ⟨a', b', h1, -, h3, -⟩
          rw [← h1, oa] at h3
          cases h3
        · rintro ⟨a', b', h1, -, h3, -⟩
          rw [← h1, oa] at h3
          cases h3
        · rintro ⟨a', b', -, h2, -, h4⟩
          rw [← h2, ob] at h4
          cases h4
        · by_cases h : 0 ≤ S.sdf b
          · rw [if_pos h, Option.some.injEq]
            refine ⟨fun h' => ⟨⟨a, b, rfl, rfl, oa, ob⟩, ?_, a, b, rfl, rfl, h'.symm⟩, ?_⟩
            · rintro (⟨-, b', rfl, hlt⟩ | ⟨hm, -⟩)
              · exact absurd h (not_le.2 hlt)
              · rcases hm with hm | hm <;> cases hm
            · rintro ⟨-, -, a', b', rfl, rfl, rfl⟩
              rfl
          · rw [if_neg h]
            constructor
            · intro h'
              exact absurd h' (by simp)
            · rintro ⟨-, h', -⟩
              exact absurd (Or.inl ⟨Or.inl trivial, b, rfl, not_le.1 h⟩) h'
  let f : Idx → ℚ := fun g => match errorIn known gt test g with
    | some e => N.rnd (N.rnd e * N.rnd e)
    | none => 0
  obtain ⟨d, h1, h2⟩ := Eval.C58_rmse_exact N hN S .behindTest wg wt hv ng nt hL (f := f) (by
      rintro g e ⟨o, b, a, c, h3, h4, rfl⟩
      have := (key g _).2 ⟨o, b, a, c, h3, h4, rfl⟩
      simp only [f, this]) (by
      intro g hg
      cases he : errorIn known gt test g with
      | none => simp only [f, he]
      | some e =>
        obtain ⟨o, b, a, c, h3, h4, -⟩ := (key g e).1 he
        exact absurd ⟨_, o, b, a, c, h3, h4, rfl⟩ hg)
  obtain ⟨d', h1', hn, -⟩ := Eval.C58_counts N S .behindTest wg wt hv ng nt hL
  obtain rfl := (Prod.mk.inj (Outcome.ok.inj (h1.symm.trans h1'))).1
  refine ⟨d, h1, ?_⟩
  have hlen : ∀ K : List Idx, K.countP (fun g => decide (Overlaps S gt test g ∧ ¬ Behind S .behindTest gt test g)) =
      (K.filterMap (errorIn known gt test)).length := by
    intro K
    induction K with
    | nil => rfl
    | cons g K ih =>
      rw [List.countP_cons, List.filterMap_cons, ih]
      cases he : errorIn known gt test g with
      | none =>
        have : ¬ (Overlaps S gt test g ∧ ¬ Behind S .behindTest gt test g) := by
          rintro ⟨o, b⟩
          obtain ⟨x, y, hx, hy, -⟩ := id o
          have := (key g _).2 ⟨o, b, x, y, hx, hy, rfl⟩
          rw [he] at this
          cases this
        simp [this]
      | some e =>
        obtain ⟨o, b, -⟩ := (key g e).1 he
        simp [o, b]
  have hsum : ∀ K : List Idx, (K.map f).sum = ((K.filterMap (errorIn known gt test)).map fun e => N.rnd (N.rnd e * N.rnd e)).sum := by
    intro K
    induction K with
    | nil => rfl
    | cons g K ih =>
      rw [List.map_cons, List.sum_cons, List.filterMap_cons, ih]
      cases he : errorIn known gt test g with
      | none => simp only [f, he, zero_add]
      | some e => simp only [f, he, List.map_cons, List.sum_cons]
  rw [h2, hn, hlen, hsum]
  unfold rootMeanSquare
  simp only [List.length_eq_zero_iff]

/-! ### What is shown -/

theorem tsdfCloud_ok {l : VLayer (TsdfVoxel ℚ)} (wf : WellFormed l) (nd : (l.blocks.map (·.1)).Nodup) (level : ℚ) {w : ℚ} (hw : minWeight = .fin w) :
    ∃ E, tsdfCloud level l = .ok E ∧ ShowsNear level (fun v => (heavyDistance w v).map Fl.fin) l E := by
  obtain ⟨E, h1, h2⟩ := ServerClouds.slice_near (vis := fun a p s v c => tsdfSlice a p s (floatTsdf v) c) (f := fun v => (heavyDistance w v).map Fl.fin) wf nd
    (fun a p z v c => by
      rw [tsdfSlice_eq, hw]
      congr 1
      funext on
      unfold heavyDistance floatTsdf
      dsimp only
      have : Fl.lt (.fin w) (.fin v.weight) = decide (w < v.weight) := rfl
      rw [this]
      by_cases h : w < v.weight <;> simp [h]) level
  exact ⟨E, h1, h2⟩

theorem esdfCloud_ok {l : VLayer (EsdfVoxel ℚ)} (wf : WellFormed l) (nd : (l.blocks.map (·.1)).Nodup) (level : ℚ) :
    ∃ E, esdfCloud level l = .ok E ∧ ShowsNear level (fun v => (observedEsdf v).map Fl.fin) l E := by
  obtain ⟨E, h1, h2⟩ := ServerClouds.slice_near (vis := fun a p s v c => esdfSlice a p s (floatEsdf v) c) (f := fun v => (observedEsdf v).map Fl.fin) wf nd
    (fun a p z v c => by
      rw [esdfSlice_eq]
      congr 1
      funext on
      unfold observedEsdf floatEsdf
      cases v.observed <;> simp) level
  exact ⟨E, h1, h2⟩

theorem meshMarker_shows {E : Export.Env} (hE : AnyOrder E.iter) {l : VLayer (TsdfVoxel ℚ)} (hm : MapSound l) {mk : MeshMsg.Marker} (h : meshMarker E l = .ok mk) :
    ∃ cs, EachCubeOnce l cs ∧ mk.points = (surfaceIn l (heavyDistance Visualizer.meshMinWeight) cs).map fun q => q.map .fin := by
  unfold meshMarker at h
  obtain ⟨s, h1, h2⟩ := Outcome.bind_eq_ok.1 h
  have e : EvalProgram.visualize E { colorMode := "normals" } l [] = .ok ⟨"world", mk, []⟩ := by
    unfold EvalProgram.visualize
    rw [h1, Outcome.bind_ok]
    rw [show EvalProgram.colorModeOf "normals" = .normals from rfl, h2, Outcome.bind_ok]
    rfl
  obtain ⟨-, -, cs, c1, c2⟩ := EvalProgram.visualize_shows hE hm e
  exact ⟨cs, c1, c2⟩

end Vox.SimProgram
