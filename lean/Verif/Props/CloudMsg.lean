/-
Property C83: conversion of incoming and outgoing point clouds.
-/
import Verif.Lemmas.CloudMsg
import Verif.Props.ColorMap

namespace Vox.CloudMsg

open Ieee Tsdf MeshMsg Spec

/-! ### Examples -/

/-- The arithmetic of the examples. -/
def exA : Arith := Arith.exact fun _ => .nan

def exPoint : PclPoint := ⟨⟨.fin 1, .fin (-2), .fin 3⟩, ⟨10, 20, 30, 40⟩, .fin 100⟩

def exNan : PclPoint := ⟨⟨.fin 1, .nan, .fin 3⟩, ⟨11, 21, 31, 41⟩, .fin 100⟩

def exInf : PclPoint := ⟨⟨.pinf, .fin 0, .fin 3⟩, ⟨12, 22, 32, 42⟩, .fin 100⟩

def exOther : PclPoint := ⟨⟨.fin 4, .fin 5, .fin 6⟩, ⟨13, 23, 33, 43⟩, .nan⟩

def exPoints : List PclPoint := [exNan, exPoint, exInf, exOther]

/-! ### Incoming clouds -/

/-- **C83**, the points that are integrated: a cloud is converted to exactly its points with finite coordinates, in order, and a list of equally many colours
in which each point has its own colour: that of the cloud, or else of its intensity, or else of intensity zero. -/
theorem C83_received (look : Fl → Outcome Color) (m : Msg) (pts : List (Vec3 Fl)) (cols : List Color) :
    received look m = .ok (pts, cols) ↔
      pts = (usable m.points).map (·.pos) ∧ List.Forall₂ (fun p c => ColorFor look m.fields p c) (usable m.points) cols := by
  unfold received
  rw [convert_ok]
  constructor
  · rintro ⟨cs, e, h⟩
    obtain ⟨rfl, rfl⟩ := Prod.mk.inj e
    exact ⟨by simp, by simpa [colorFor_iff] using h⟩
  · rintro ⟨rfl, h⟩
    exact ⟨cols, by simp, by simpa [colorFor_iff] using h⟩

example : received (serverLookup exA "grayscale" 200) ⟨["x", "y", "z", "rgb", "intensity"], exPoints⟩ =
      .ok ([exPoint.pos, exOther.pos], [⟨10, 20, 30, 40⟩, ⟨13, 23, 33, 43⟩]) ∧
    received (serverLookup exA "grayscale" 200) ⟨["x", "y", "z", "intensity"], exPoints⟩ =
      .ok ([exPoint.pos, exOther.pos], [⟨128, 128, 128, 255⟩, ⟨0, 0, 0, 255⟩]) ∧
    received (serverLookup exA "unknown" 200) ⟨["x", "y", "z"], exPoints⟩ =
      .ok ([exPoint.pos, exOther.pos], [⟨255, 0, 0, 255⟩, ⟨255, 0, 0, 255⟩]) := by
  refine ⟨by decide +kernel, by decide +kernel, by decide +kernel⟩

/-- **C83**, sizes: the integrators require as many colours as points, and get them. -/
theorem C83_sizes {look : Fl → Outcome Color} {m : Msg} {pts : List (Vec3 Fl)} {cols : List Color} (h : received look m = .ok (pts, cols)) :
    cols.length = pts.length ∧ pts.length ≤ m.points.length ∧ ∀ p ∈ pts, ∃ x y z : ℚ, p = ⟨.fin x, .fin y, .fin z⟩ := by
  obtain ⟨rfl, hc⟩ := (C83_received look m pts cols).1 h
  refine ⟨by rw [← hc.length_eq, List.length_map], ?_, ?_⟩
  · rw [List.length_map]
    exact List.length_filter_le _ _
  · intro p hp
    obtain ⟨q, hq, rfl⟩ := List.mem_map.1 hp
    have hu : Usable q := of_decide_eq_true (List.mem_filter.1 hq).2
    exact hu

example : received (serverLookup exA "grayscale" 200) ⟨["rgb"], exPoints⟩ = .ok ([exPoint.pos, exOther.pos], [⟨10, 20, 30, 40⟩, ⟨13, 23, 33, 43⟩]) := by
  decide +kernel

theorem lookup_defined {A : Arith} (hA : ColorMap.BlendArith A) (n : MapName) {lo hi : ℚ} (hne : rnd32 (hi - lo) ≠ 0)
    (v : Fl) : ∃ c, lookup A n lo hi v = .ok c := by
  obtain ⟨q, hq⟩ := clamp_fin lo hi v
  unfold lookup
  rw [hq]
  have cl := ColorMap.C69_clamped_defined rnd64_monotone (fun k h => rnd64_nat h) rnd32_monotone (fun k h => rnd32_nat h) hne q
  cases n with
  | grayscale => exact ⟨_, cl.1.choose_spec⟩
  | inverseGrayscale => exact ⟨_, cl.2.1.choose_spec⟩
  | rainbow => exact ⟨_, cl.2.2.1.choose_spec.1⟩
  | inverseRainbow => exact ⟨_, cl.2.2.2.choose_spec.1⟩
  | ironbow =>
    obtain ⟨k, _, _, _, c, _, _, h, _⟩ := ColorMap.C69_ironbow hA rnd32_monotone (fun k h => rnd32_nat h) (by decide +kernel) hne q
    exact ⟨c, h⟩

/-- **C83**, every cloud can be converted, whatever its numbers are, with every colour map and every maximal intensity other than zero, in `float` arithmetic. -/
theorem C83_defined_partial {A : Arith} (hA : ColorMap.BlendArith A) (name : String) {max : ℚ} (hm : rnd32 max ≠ 0) (m : Msg) :
    ∃ r, received (serverLookup A name max) m = .ok r := by
  have hl : ∀ v, ∃ c, serverLookup A name max v = .ok c := lookup_defined hA (mapNamed name) (by simpa using hm)
  have hc : ∀ p, ∃ c, convertColor (serverLookup A name max) (kind m.fields) p = .ok c := by
    intro p
    cases kind m.fields with
    | rgb => exact ⟨_, rfl⟩
    | intensity => exact hl _
    | plain => exact hl _
  have hf : ∀ ps : List PclPoint, ∃ cs, List.Forall₂ (fun p c => convertColor (serverLookup A name max) (kind m.fields) p = .ok c) ps cs := by
    intro ps
    induction ps with
    | nil => exact ⟨[], .nil⟩
    | cons p ps ih =>
      obtain ⟨cs, h⟩ := ih
      obtain ⟨c, hc⟩ := hc p
      exact ⟨c :: cs, .cons hc h⟩
  obtain ⟨cs, h⟩ := hf (usable m.points)
  exact ⟨_, (convert_ok _ _ _).2 ⟨cs, rfl, h⟩⟩

example : ColorMap.BlendArith exA ∧ ColorMap.BlendArith float32 ∧ rnd32 200 ≠ 0 ∧ mapNamed "ironbow" = .ironbow := ⟨.exact _, .inl rfl, by decide +kernel, by decide +kernel⟩

/-- **C83** fails for a maximal intensity of zero: converting any point without a colour is undefined then (the division 0 / 0 yields NaN, which is converted
to an integer). -/
theorem C83_zero_max_violated (A : Arith) (name : String) {m : Msg} (hf : "rgb" ∉ m.fields) {p : PclPoint} (hp : p ∈ m.points) (hu : Usable p) :
    ∀ r, received (serverLookup A name 0) m ≠ .ok r := by
  rintro ⟨pts, cols⟩ h
  obtain ⟨-, h⟩ := (C83_received _ m pts cols).1 h
  have hmem : p ∈ usable m.points := List.mem_filter.2 ⟨hp, decide_eq_true hu⟩
  have hl : ∀ v c, serverLookup A name 0 v ≠ .ok c := by
    intro v c
    unfold serverLookup lookup
    obtain ⟨q, hq⟩ := clamp_fin 0 0 v
    rw [hq]
    have hn : ColorMap.normalized rnd32 0 0 q = none := by
      unfold ColorMap.normalized
      have : rnd32 (0 - 0) = 0 := by decide +kernel
      dsimp only
      rw [if_pos this]
    cases mapNamed name <;>
      simp [mapOf, ColorMap.grayscale, ColorMap.inverseGrayscale, ColorMap.rainbowMap, ColorMap.inverseRainbowMap, ColorMap.ironbow, hn]
  have : ∃ c, ColorFor (serverLookup A name 0) m.fields p c := by
    have main : ∀ (us : List PclPoint) (cs : List Color), List.Forall₂ (fun p c => ColorFor (serverLookup A name 0) m.fields p c) us cs → p ∈ us →
        ∃ c, ColorFor (serverLookup A name 0) m.fields p c := by
      intro us cs h
      induction h with
      | nil => intro hmem; cases hmem
      | cons h1 h2 ih =>
        intro hmem
        rcases List.mem_cons.1 hmem with rfl | hmem
        · exact ⟨_, h1⟩
        · exact ih hmem
    exact main _ _ h hmem
  obtain ⟨c, h1, h2, h3⟩ := this
  by_cases hi : "intensity" ∈ m.fields
  · exact hl _ _ (h2 hf hi)
  · exact hl _ _ (h3 hf hi)

example : exPoint ∈ exPoints ∧ Usable exPoint ∧ "rgb" ∉ ["x", "y", "z"] := ⟨by decide, by decide, by decide⟩

/-- **C83**, intensities that are no numbers: NaN and minus infinity are shown like the minimum, infinity like the maximum. -/
theorem C83_intensity_range (A : Arith) (n : MapName) {lo hi : ℚ} (h : lo ≤ hi) : lookup A n lo hi .nan = lookup A n lo hi (.fin lo) ∧
    lookup A n lo hi .ninf = lookup A n lo hi (.fin lo) ∧ lookup A n lo hi .pinf = lookup A n lo hi (.fin hi) ∧
    (∀ v, v ≤ lo → lookup A n lo hi (.fin v) = lookup A n lo hi (.fin lo)) ∧ ∀ v, hi ≤ v → lookup A n lo hi (.fin v) = lookup A n lo hi (.fin hi) := by
  have e1 : Fl.stdMax (.fin lo) .nan = .fin lo := rfl
  have e2 : Fl.stdMax (.fin lo) .ninf = .fin lo := rfl
  have e3 : Fl.stdMax (.fin lo) .pinf = .pinf := rfl
  have e4 : ∀ v, v ≤ lo → Fl.stdMax (.fin lo) (.fin v) = .fin lo := fun v hv => by simp [Fl.stdMax, Fl.lt, not_lt.2 hv]
  have e5 : ∀ v, hi ≤ v → Fl.stdMin (.fin hi) (Fl.stdMax (.fin lo) (.fin v)) = .fin hi := by
    intro v hv
    rcases (h.trans hv).lt_or_eq with hl | hl
    · simp [Fl.stdMax, Fl.stdMin, Fl.lt, hl, not_lt.2 hv]
    · simp [Fl.stdMax, Fl.stdMin, Fl.lt, ← hl, not_lt.2 (hl ▸ hv)]
  unfold lookup
  refine ⟨?_, ?_, ?_, fun v hv => ?_, fun v hv => ?_⟩
  · rw [e1, e4 lo le_rfl]
  · rw [e2, e4 lo le_rfl]
  · rw [e3, e5 hi le_rfl]
    rfl
  · rw [e4 v hv, e4 lo le_rfl]
  · rw [e5 v hv, e5 hi le_rfl]

example : (0 : ℚ) ≤ 200 ∧ lookup exA .ironbow 0 200 .pinf = .ok ⟨255, 255, 255, 255⟩ ∧ lookup exA .ironbow 0 200 .nan = .ok ⟨0, 0, 0, 255⟩ :=
  ⟨by norm_num, by decide +kernel, by decide +kernel⟩

/-- **C83** is violated for clouds whose colours are in a field `rgba` (as clouds of `pcl::PointXYZRGBA` have them): the colours are not used. -/
theorem C83_rgba_violated : ∃ (m : Msg) (c : Color), "rgba" ∈ m.fields ∧ m.points = [exPoint] ∧ c ≠ exPoint.rgba ∧
    received (serverLookup exA "rainbow" 100) m = .ok ([exPoint.pos], [c]) :=
  ⟨⟨["x", "y", "z", "rgba"], [exPoint]⟩, ⟨255, 0, 0, 255⟩, by decide, rfl, by decide, by decide +kernel⟩

/-! ### Outgoing clouds -/

theorem toPcl_ok {points : List (Vec3 Fl)} {colors : List Color} (k : ℕ) (hl : points.length + k ≤ colors.length) :
    (points.zipIdx k).mapM (fun pi => toPclPoint colors pi.1 pi.2) =
      .ok (List.zipWith (fun (p : Vec3 Fl) (c : Color) => (⟨p, ⟨c.r, c.g, c.b, 255⟩, .fin 0⟩ : PclPoint)) points (colors.drop k)) := by
  induction points generalizing k with
  | nil => rfl
  | cons p ps ih =>
    rw [List.length_cons] at hl
    have hk : k < colors.length := by omega
    rw [List.zipIdx_cons, List.mapM_cons, ih (k + 1) (by omega), List.drop_eq_getElem_cons hk]
    unfold toPclPoint
    rw [List.getElem?_eq_getElem hk]
    rfl

/-- **C83**, clouds that are sent: a coloured cloud that is sent and received again has the same points, and the same colours but for alpha, which becomes 255. -/
theorem C83_resent (look : Fl → Outcome Color) {points : List (Vec3 Fl)} {colors : List Color} (hl : points.length = colors.length)
    (hfin : ∀ p ∈ points, ∃ x y z : ℚ, p = ⟨.fin x, .fin y, .fin z⟩) :
    ∃ ps, toPclXYZRGB points colors = .ok ps ∧
      received look ⟨["x", "y", "z", "rgb"], ps⟩ = .ok (points, colors.map fun c => ⟨c.r, c.g, c.b, 255⟩) := by
  refine ⟨_, by unfold toPclXYZRGB; exact toPcl_ok 0 (by omega), ?_⟩
  rw [C83_received, List.drop_zero]
  have main : ∀ (points : List (Vec3 Fl)) (colors : List Color), points.length = colors.length → (∀ p ∈ points, ∃ x y z : ℚ, p = ⟨.fin x, .fin y, .fin z⟩) →
      usable (List.zipWith (fun (p : Vec3 Fl) (c : Color) => (⟨p, ⟨c.r, c.g, c.b, 255⟩, .fin 0⟩ : PclPoint)) points colors) =
        List.zipWith (fun (p : Vec3 Fl) (c : Color) => (⟨p, ⟨c.r, c.g, c.b, 255⟩, .fin 0⟩ : PclPoint)) points colors ∧
      points = (List.zipWith (fun (p : Vec3 Fl) (c : Color) => (⟨p, ⟨c.r, c.g, c.b, 255⟩, .fin 0⟩ : PclPoint)) points colors).map (·.pos) ∧
      List.Forall₂ (fun p c => ColorFor look ["x", "y", "z", "rgb"] p c)
        (List.zipWith (fun (p : Vec3 Fl) (c : Color) => (⟨p, ⟨c.r, c.g, c.b, 255⟩, .fin 0⟩ : PclPoint)) points colors)
        (colors.map fun c => (⟨c.r, c.g, c.b, 255⟩ : Color)) := by
    intro points
    induction points with
    | nil =>
      intro colors h _
      cases colors with
      | nil => exact ⟨rfl, rfl, .nil⟩
      | cons => cases h
    | cons p ps ih =>
      intro colors h hf
      cases colors with
      | nil => cases h
      | cons c cs =>
        obtain ⟨i1, i2, i3⟩ := ih cs (by simpa using h) (fun q hq => hf q (List.mem_cons_of_mem _ hq))
        have hu : Usable ⟨p, ⟨c.r, c.g, c.b, 255⟩, .fin 0⟩ := hf p List.mem_cons_self
        refine ⟨?_, ?_, ?_⟩
        · unfold usable at i1 ⊢
          rw [List.zipWith_cons_cons, List.filter_cons_of_pos (by simpa using hu), i1]
        · rw [List.zipWith_cons_cons, List.map_cons, ← i2]
        · rw [List.zipWith_cons_cons, List.map_cons]
          exact .cons ⟨fun _ => rfl, fun h => absurd (by decide) h, fun h => absurd (by decide) h⟩ i3
  obtain ⟨m1, m2, m3⟩ := main points colors hl hfin
  rw [m1]
  exact ⟨m2, m3⟩

example : toPclXYZRGB [exPoint.pos, exOther.pos] [⟨1, 2, 3, 4⟩, ⟨5, 6, 7, 8⟩] =
    .ok [⟨exPoint.pos, ⟨1, 2, 3, 255⟩, .fin 0⟩, ⟨exOther.pos, ⟨5, 6, 7, 255⟩, .fin 0⟩] := by decide +kernel

/-- **C83** is violated by clouds with fewer colours than points: the colours are read beyond their end. A cloud with intensities is checked instead, and
aborts. -/
theorem C83_short_violated {points : List (Vec3 Fl)} {colors : List Color} {intensities : List Fl} (hc : colors.length < points.length)
    (hi : intensities.length ≠ points.length) : toPclXYZRGB points colors = .ub ∧ toPclXYZI points intensities = .fatal := by
  constructor
  · have main : ∀ (points : List (Vec3 Fl)) (k : ℕ), k ≤ colors.length → colors.length < points.length + k →
        (points.zipIdx k).mapM (fun pi => toPclPoint colors pi.1 pi.2) = .ub := by
      intro points
      induction points with
      | nil => intro k h1 h2; simp at h2; omega
      | cons p ps ih =>
        intro k h1 h2
        rw [List.length_cons] at h2
        rw [List.zipIdx_cons, List.mapM_cons]
        rcases h1.lt_or_eq with hk | hk
        · rw [ih (k + 1) hk (by omega)]
          unfold toPclPoint
          rw [List.getElem?_eq_getElem hk]
          rfl
        · unfold toPclPoint
          rw [List.getElem?_eq_none (by omega)]
          rfl
    exact main points 0 (by omega) (by omega)
  · unfold toPclXYZI Outcome.check
    rw [decide_eq_false (fun h => hi h.symm)]
    rfl

example : ([] : List Color).length < [exPoint.pos].length ∧ ([] : List Fl).length ≠ [exPoint.pos].length := by decide

/-- **C83**, clouds with intensities that are sent: received again, each point has the colour of its intensity. -/
theorem C83_resent_intensity {look : Fl → Outcome Color} {points : List (Vec3 Fl)} {intensities : List Fl} (hl : points.length = intensities.length)
    (hfin : ∀ p ∈ points, ∃ x y z : ℚ, p = ⟨.fin x, .fin y, .fin z⟩) {cols : List Color} (hcols : List.Forall₂ (fun i c => look i = .ok c) intensities cols) :
    ∃ ps, toPclXYZI points intensities = .ok ps ∧ received look ⟨["x", "y", "z", "intensity"], ps⟩ = .ok (points, cols) := by
  refine ⟨List.zipWith (fun p i => ⟨p, ⟨0, 0, 0, 255⟩, i⟩) points intensities, by unfold toPclXYZI Outcome.check; rw [decide_eq_true hl]; rfl, ?_⟩
  rw [C83_received]
  induction hcols generalizing points with
  | nil =>
    have : points = [] := List.length_eq_zero_iff.1 hl
    subst this
    exact ⟨rfl, .nil⟩
  | cons h1 h2 ih =>
    rename_i i c is cs
    cases points with
    | nil => cases hl
    | cons p ps =>
      obtain ⟨i1, i2⟩ := ih (points := ps) (by simpa using hl) (fun q hq => hfin q (List.mem_cons_of_mem _ hq))
      have hu : Usable ⟨p, ⟨0, 0, 0, 255⟩, i⟩ := hfin p List.mem_cons_self
      have e : usable (List.zipWith (fun p i => (⟨p, ⟨0, 0, 0, 255⟩, i⟩ : PclPoint)) (p :: ps) (i :: is)) =
          ⟨p, ⟨0, 0, 0, 255⟩, i⟩ :: usable (List.zipWith (fun p i => (⟨p, ⟨0, 0, 0, 255⟩, i⟩ : PclPoint)) ps is) := by
        unfold usable
        rw [List.zipWith_cons_cons, List.filter_cons_of_pos (by simpa using hu)]
      show _ = List.map _ (usable _) ∧ List.Forall₂ _ (usable _) _
      rw [e, List.map_cons]
      have n1 : "rgb" ∉ ["x", "y", "z", "intensity"] := by decide
      have n2 : "intensity" ∈ ["x", "y", "z", "intensity"] := by decide
      exact ⟨by rw [← i1], .cons ⟨fun h => absurd h n1, fun _ _ => h1, fun _ h => absurd n2 h⟩ i2⟩

example : List.Forall₂ (fun i c => lookup exA .grayscale 0 200 i = .ok c) [.fin 100, .nan] [⟨128, 128, 128, 255⟩, ⟨0, 0, 0, 255⟩] :=
  .cons (by decide +kernel) (.cons (by decide +kernel) .nil)

end Vox.CloudMsg
