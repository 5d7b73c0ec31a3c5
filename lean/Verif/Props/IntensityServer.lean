/-
**C123**: the intensity server: its construction, its colour scale and the meshes it sends.
-/
import Verif.Lemmas.IntensityServer
import Verif.Props.ServerMesh
import Verif.Props.IntensityVis
import Verif.Props.CloudMsg
import Verif.Lemmas.NormalColor

namespace Vox.IntensityServer

open Layer Grid Ieee MeshMsg MC MeshInt Setup Spec IntensitySpec

variable {V : Type}

/-- No parameters. -/
private def bare : Params := ⟨fun _ => none, fun _ => none, fun _ => none, fun _ => none⟩

/-- A server for intensities up to 5 (or another value). -/
private def upTo (q : ℚ) : Params := { bare with double := fun n => if n = "intensity_max_value" then some (.fin q) else none }

/-- Parts of a server for examples. -/
private def part {α : Type} (f : IntensitySetup → α) (P : Params) : Option α :=
  match intensityServer 4 P with
  | .ok s => some (f s)
  | _ => none

/-! ### Construction -/

/-- **C123**, start: the intensity server starts exactly when the TSDF server does, consists of the same TSDF server, and keeps intensities in a layer
with the voxels of the map. -/
theorem C123_starts (hw : ℕ) (P : Params) (b : TsdfSetup) :
    tsdfServer hw P = .ok b ↔ ∃ s, intensityServer hw P = .ok s ∧ s.base = b ∧ s.geometry = b.geometry := by
  constructor
  · intro h
    obtain ⟨m, tr, g, hm, htr, hg, rfl⟩ := tsdf_inv h
    obtain ⟨-, -, rfl⟩ := makeLayer_inv hg
    refine ⟨intensityMembers P (tsdfMembers P tr (geometryOf m.voxelSize m.side) (tsdfConfigOf hw P m) (meshConfig hw P)) (geometryOf m.voxelSize m.side),
      ?_, rfl, rfl⟩
    unfold intensityServer
    rw [h]
    simp only [Outcome.bind_ok]
    rw [show (⟨(tsdfMembers P tr (geometryOf m.voxelSize m.side) (tsdfConfigOf hw P m) (meshConfig hw P)).geometry.voxelSize,
      (tsdfMembers P tr (geometryOf m.voxelSize m.side) (tsdfConfigOf hw P m) (meshConfig hw P)).geometry.side⟩ : MapConfig) = m from rfl, hg]
    rfl
  · rintro ⟨s, h, rfl, -⟩
    unfold intensityServer at h
    obtain ⟨b, hb, h⟩ := Outcome.bind_eq_ok.1 h
    obtain ⟨g, hg, h⟩ := Outcome.bind_eq_ok.1 h
    obtain rfl := Outcome.ok.inj h
    exact hb

example : part (fun s => (s.geometry.voxelSize, s.geometry.side, s.base.kind)) bare = some (float32.rnd (1 / 5), 16, .merged) := by decide +kernel

/-- **C123**, parameters: each of its own parameters has the value given to it, or its default. -/
theorem C123_parameters {hw : ℕ} {P : Params} {s : IntensitySetup} (h : intensityServer hw P = .ok s) :
    ∀ e ∈ intensityParameters, intensityValue s e.1 = some (expected P e.1 e.2) := by
  unfold intensityServer at h
  obtain ⟨b, hb, h⟩ := Outcome.bind_eq_ok.1 h
  obtain ⟨g, hg, h⟩ := Outcome.bind_eq_ok.1 h
  obtain rfl := Outcome.ok.inj h
  have fl : ∀ n d q, d = float32.rnd q → some (Value.single (P.getFloat n d)) = some (expected P n (decimal q)) := by
    rintro n _ q rfl
    unfold Params.getFloat expected decimal
    cases P.double n <;> rfl
  intro e he
  simp only [intensityParameters, List.mem_cons, List.not_mem_nil, or_false] at he
  rcases he with rfl | rfl | rfl | rfl | rfl
  · show some (Value.double (P.getDouble _ _)) = _
    unfold Params.getDouble expected
    dsimp only
    cases P.double "intensity_focal_length" <;> rfl
  · show some (Value.int (P.getInt _ _)) = _
    unfold Params.getInt expected
    dsimp only
    cases P.int "subsample_factor" <;> rfl
  · exact fl _ _ _ (by decide +kernel)
  · exact fl _ _ _ (by decide +kernel)
  · exact fl _ _ _ (by decide +kernel)

example : part (fun s => (intensityValue s "intensity_max_value", intensityValue s "subsample_factor")) (upTo 5) =
    some (some (.single (.fin 5)), some (.int 12)) := by decide +kernel

/-! ### The scale -/

private theorem expected_float {P : Params} {n : String} {d q : ℚ} (h : expected P n (decimal d) = .single (.fin q)) : ∃ x, toFloat x = .fin q := by
  unfold expected decimal at h
  dsimp only at h
  cases hn : P.double n with
  | none =>
    rw [hn] at h
    exact ⟨_, (toFloat_rnd d).trans (Value.single.inj h)⟩
  | some x =>
    rw [hn] at h
    exact ⟨_, Value.single.inj h⟩

/-- The difference of two distinct `float`s does not vanish. -/
private theorem sub_ne {x y : Fl} {p q : ℚ} (hp : toFloat x = .fin p) (hq : toFloat y = .fin q) (h : p ≠ q) : rnd32 (p - q) ≠ 0 := by
  have grid : ∀ {x : Fl} {p : ℚ}, toFloat x = .fin p → ∃ k : ℤ, p = k * pow2 (-149) := by
    intro x p hx
    obtain ⟨k, e, hk, he, rfl, -⟩ := float_form hx
    obtain ⟨j, hj⟩ := Int.le.dest he
    refine ⟨k * 2 ^ j, ?_⟩
    rw [← hj, pow2_add, pow2_nat]
    push_cast
    ring
  obtain ⟨k, rfl⟩ := grid hp
  obtain ⟨l, rfl⟩ := grid hq
  have hkl : k - l ≠ 0 := fun c => h (by rw [sub_eq_zero.1 c])
  have h1 : (1 : ℚ) ≤ |((k - l : ℤ) : ℚ)| := by exact_mod_cast Int.one_le_abs hkl
  have h2 : pow2 (-149) ≤ |(k : ℚ) * pow2 (-149) - l * pow2 (-149)| := by
    rw [← sub_mul, abs_mul, abs_of_pos (pow2_pos _)]
    push_cast at h1
    nlinarith [pow2_pos (-149)]
  have h3 := _root_.Vox.MeshMsg.rnd32_large (le_refl _) h2
  intro c
  rw [c, abs_zero] at h3
  exact absurd (pow2_pos (-149)) (not_lt.2 h3)

private theorem at_one {lo hi q : ℚ} (hne : rnd32 (hi - lo) ≠ 0) (hq : min hi (max lo q) = hi) :
    ColorMap.ironbow float32 rnd32 lo hi q = .ok ⟨255, 255, 255, 255⟩ := by
  have hn : ColorMap.normalized rnd32 lo hi q = some 1 := by
    unfold ColorMap.normalized
    dsimp only
    rw [if_neg hne, hq, div_self hne]
    exact congrArg some (by decide +kernel)
  unfold ColorMap.ironbow
  rw [hn]
  decide +kernel

private theorem at_zero {lo hi q : ℚ} (hne : rnd32 (hi - lo) ≠ 0) (hq : min hi (max lo q) = lo) :
    ColorMap.ironbow float32 rnd32 lo hi q = .ok ⟨0, 0, 0, 255⟩ := by
  have hn : ColorMap.normalized rnd32 lo hi q = some 0 := by
    unfold ColorMap.normalized
    dsimp only
    rw [if_neg hne, hq, sub_self, show rnd32 0 = 0 from by decide +kernel, zero_div]
    exact congrArg some (by decide +kernel)
  unfold ColorMap.ironbow
  rw [hn]
  decide +kernel

private theorem limits {hw : ℕ} {P : Params} {s : IntensitySetup} (h : intensityServer hw P = .ok s) {lo hi : ℚ}
    (h1 : expected P "intensity_min_value" (decimal 10) = .single (.fin lo)) (h2 : expected P "intensity_max_value" (decimal 40) = .single (.fin hi)) :
    s.look = some (CloudMsg.lookup float32 .ironbow lo hi) := by
  have a := C123_parameters h ("intensity_min_value", decimal 10) (by simp [intensityParameters])
  have b := C123_parameters h ("intensity_max_value", decimal 40) (by simp [intensityParameters])
  rw [h1] at a
  rw [h2] at b
  have a : s.minValue = .fin lo := Value.single.inj (Option.some.inj a)
  have b : s.maxValue = .fin hi := Value.single.inj (Option.some.inj b)
  unfold IntensitySetup.look
  rw [a, b]

/-- **C123**, the scale: if the maximum is above the minimum, every intensity has a colour, which lies between two neighbouring colours of the palette of
C69; those up to the minimum (and NaN) are black, those from the maximum on are white. -/
theorem C123_scale {hw : ℕ} {P : Params} {s : IntensitySetup} (h : intensityServer hw P = .ok s) {lo hi : ℚ}
    (h1 : expected P "intensity_min_value" (decimal 10) = .single (.fin lo)) (h2 : expected P "intensity_max_value" (decimal 40) = .single (.fin hi))
    (hlt : lo < hi) : ∃ look, s.look = some look ∧
      (∀ v, ∃ c, look v = .ok c ∧ ∃ k < 5, ∃ c1 c2, ColorMap.palette[k]? = some c1 ∧ ColorMap.palette[k + 1]? = some c2 ∧ ColorBetween c c1 c2) ∧
      (∀ v, v ≤ lo → look (.fin v) = .ok ⟨0, 0, 0, 255⟩) ∧ look .nan = .ok ⟨0, 0, 0, 255⟩ ∧ look .ninf = .ok ⟨0, 0, 0, 255⟩ ∧
      (∀ v, hi ≤ v → look (.fin v) = .ok ⟨255, 255, 255, 255⟩) ∧ look .pinf = .ok ⟨255, 255, 255, 255⟩ := by
  obtain ⟨x, hx⟩ := expected_float h1
  obtain ⟨y, hy⟩ := expected_float h2
  have hne : rnd32 (hi - lo) ≠ 0 := sub_ne hy hx hlt.ne'
  obtain ⟨r1, r2, r3, r4, r5⟩ := CloudMsg.C83_intensity_range float32 .ironbow hlt.le
  have black : CloudMsg.lookup float32 .ironbow lo hi (.fin lo) = .ok ⟨0, 0, 0, 255⟩ := by
    unfold CloudMsg.lookup
    have e : Fl.stdMin (.fin hi) (Fl.stdMax (.fin lo) (.fin lo)) = .fin lo := by simp [Fl.stdMin, Fl.stdMax, Fl.lt, hlt]
    rw [e]
    exact at_zero hne (by rw [max_self, min_eq_right hlt.le])
  have white : CloudMsg.lookup float32 .ironbow lo hi (.fin hi) = .ok ⟨255, 255, 255, 255⟩ := by
    unfold CloudMsg.lookup
    have e : Fl.stdMin (.fin hi) (Fl.stdMax (.fin lo) (.fin hi)) = .fin hi := by simp [Fl.stdMin, Fl.stdMax, Fl.lt, hlt]
    rw [e]
    exact at_one hne (by rw [max_eq_right hlt.le, min_self])
  refine ⟨_, limits h h1 h2, fun v => ?_, fun v hv => (r4 v hv).trans black, r1.trans black, r2.trans black,
    fun v hv => (r5 v hv).trans white, r3.trans white⟩
  obtain ⟨q, hq⟩ := CloudMsg.clamp_fin lo hi v
  obtain ⟨k, hk, c1, c2, c, a, b, e, d⟩ := ColorMap.C69_ironbow (.inl rfl) CloudMsg.rnd32_monotone (fun k h => CloudMsg.rnd32_nat h) (by decide +kernel) hne q
  refine ⟨c, ?_, k, hk, c1, c2, a, b, d⟩
  unfold CloudMsg.lookup
  rw [hq]
  exact e

example : (part (fun _ => ()) bare).isSome = true ∧ expected bare "intensity_min_value" (decimal 10) = .single (.fin 10) ∧
    expected bare "intensity_max_value" (decimal 40) = .single (.fin 40) ∧ (10 : ℚ) < 40 := by
  refine ⟨by decide +kernel, by decide +kernel, by decide +kernel, by norm_num⟩

/-- **C123**, violation: if the maximum, which also sets the scale of the TSDF server, is below the minimum, whose default is 10, all intensities are
white. -/
theorem C123_scale_violated {hw : ℕ} {P : Params} {s : IntensitySetup} (h : intensityServer hw P = .ok s) {lo hi : ℚ}
    (h1 : expected P "intensity_min_value" (decimal 10) = .single (.fin lo)) (h2 : expected P "intensity_max_value" (decimal 40) = .single (.fin hi))
    (hlt : hi < lo) : ∃ look, s.look = some look ∧ ∀ v, look v = .ok ⟨255, 255, 255, 255⟩ := by
  obtain ⟨x, hx⟩ := expected_float h1
  obtain ⟨y, hy⟩ := expected_float h2
  have hne : rnd32 (hi - lo) ≠ 0 := sub_ne hy hx hlt.ne
  refine ⟨_, limits h h1 h2, fun v => ?_⟩
  have e : Fl.stdMin (.fin hi) (Fl.stdMax (.fin lo) v) = .fin hi := by
    have key : ∀ q, lo ≤ q → Fl.stdMin (.fin hi) (.fin q) = .fin hi := fun q hq => by simp [Fl.stdMin, Fl.lt, (hlt.le.trans hq)]
    cases v with
    | nan => exact key lo le_rfl
    | ninf => exact key lo le_rfl
    | pinf => rfl
    | fin q =>
      by_cases hq : lo < q
      · rw [show Fl.stdMax (.fin lo) (.fin q) = .fin q from by simp [Fl.stdMax, Fl.lt, hq]]
        exact key q hq.le
      · rw [show Fl.stdMax (.fin lo) (.fin q) = .fin lo from by simp [Fl.stdMax, Fl.lt, hq]]
        exact key lo le_rfl
  unfold CloudMsg.lookup
  rw [e]
  exact at_one hne (by rw [max_eq_left hlt.le, min_eq_left hlt.le])

example : (part (fun _ => ()) (upTo 5)).isSome = true ∧ expected (upTo 5) "intensity_min_value" (decimal 10) = .single (.fin 10) ∧
    expected (upTo 5) "intensity_max_value" (decimal 40) = .single (.fin 5) ∧ (5 : ℚ) < 10 := by
  refine ⟨by decide +kernel, by decide +kernel, by decide +kernel, by norm_num⟩

/-- **C123**, violation: if the maximum equals the minimum, colouring any intensity is undefined (a NaN is converted to an index). -/
theorem C123_equal_limits_violated {hw : ℕ} {P : Params} {s : IntensitySetup} (h : intensityServer hw P = .ok s) {lo : ℚ}
    (h1 : expected P "intensity_min_value" (decimal 10) = .single (.fin lo)) (h2 : expected P "intensity_max_value" (decimal 40) = .single (.fin lo)) :
    ∃ look, s.look = some look ∧ ∀ v, look v = .ub := by
  refine ⟨_, limits h h1 h2, fun v => ?_⟩
  obtain ⟨q, hq⟩ := CloudMsg.clamp_fin lo lo v
  unfold CloudMsg.lookup
  rw [hq]
  have hn : ColorMap.normalized rnd32 lo lo q = none := by
    unfold ColorMap.normalized
    dsimp only
    rw [sub_self, if_pos (by decide +kernel)]
  show ColorMap.ironbow float32 rnd32 lo lo q = .ub
  unfold ColorMap.ironbow
  rw [hn]

example : (part (fun _ => ()) (upTo 10)).isSome = true ∧ expected (upTo 10) "intensity_min_value" (decimal 10) = .single (.fin 10) ∧
    expected (upTo 10) "intensity_max_value" (decimal 40) = .single (.fin 10) := by
  refine ⟨by decide +kernel, by decide +kernel, by decide +kernel⟩

/-! ### Meshes -/

/-- Intensity 40 was measured where a vertex of the example map is looked up. -/
private def exMeasured : VLayer (IntensityVoxel Fl) :=
  ⟨⟨1, 1⟩, [(⟨16383, 32767, 16383⟩, ⟨1, 1, ⟨16383, 32767, 16383⟩, true, Flags.setAll, [⟨.fin 40, .fin 1⟩]⟩)]⟩

/-- Nothing was measured. -/
private def exUnmeasured : VLayer (IntensityVoxel Fl) := ⟨⟨1, 1⟩, []⟩

/-- The server of C103 with the default scale. -/
private def exIntensity : Env (TsdfVoxel Word) := ⟨ServerMesh.exServer, CloudMsg.lookup float32 .ironbow 10 40⟩

private def exFresh : State (TsdfVoxel Word) := ⟨ServerMesh.exStart, exUnmeasured, ⟨.fin 0, []⟩⟩

/-- A map, without and with measured intensities. -/
private def exFull (l : VLayer (IntensityVoxel Fl)) : State (TsdfVoxel Word) := ⟨⟨ServerMesh.exMap Flags.setAll, []⟩, l, ⟨.fin 0, []⟩⟩

private theorem exRun : Run exIntensity exFresh [.base (.change (ServerMesh.exMap Flags.setAll))] [] (exFull exUnmeasured) :=
  .step (es := []) (out := []) (new := []) (.base (.change (ServerMesh.exMap Flags.setAll))) .start ServerMesh.exMarked rfl

private theorem exRun' : Run exIntensity exFresh [.base (.change (ServerMesh.exMap Flags.setAll)), .image exMeasured] [] (exFull exMeasured) :=
  .step (es := [_]) (out := []) (new := []) (.image exMeasured) exRun rfl rfl

/-- What a client has at the origin. -/
private def atOrigin (ms : List Msg) : Option (List ℕ × Vec3 (BitVec 8)) :=
  (shownBlock ms ⟨0, 0, 0⟩).map fun b => (b.x, IntensityVis.vertexBytes b 0)

/-- **C123**, an update: the mesh of the TSDF server is sent, as in C103, and then, with the same blocks and vertices, the mesh in which a vertex sent as
(x, y, z) has the colour of the intensity at the coordinates x, y and z, if that has been measured; else the colour it has in the first mesh. -/
theorem C123_update {env : Env V} {s s' : State V} {out : List Published} (h : step env s (.base .update) = .ok (out, s')) :
    ∃ m m', out = [.mesh m, .intensityMesh m'] ∧ ServerMesh.updateMesh env.base s.base = .ok (m, s'.base) ∧ s'.intensity = s.intensity ∧ s'.cached = m' ∧
      (WellFormed s.intensity → (∀ b ∈ m.blocks, ∀ k x y z, IntensityVis.Sends b k x y z → Addressable s.intensity ⟨x, y, z⟩) →
        m'.edge = m.edge ∧ List.Forall₂ (fun b b' => b'.index = b.index ∧ blockPositions b' = blockPositions b ∧
          ∀ k < b.x.length, ∃ x y z, IntensityVis.Sends b k x y z ∧ ∀ g, Interp.ClearInVoxel s.intensity g ⟨x, y, z⟩ →
            IntensityVis.Repainted env.look (content s.intensity g) (IntensityVis.vertexBytes b k) (IntensityVis.vertexBytes b' k)) m.blocks m'.blocks) := by
  obtain ⟨r, hr, h⟩ := Outcome.bind_eq_ok.1 h
  obtain ⟨m', hm, h⟩ := Outcome.bind_eq_ok.1 h
  obtain ⟨rfl, rfl⟩ := Prod.mk.inj (Outcome.ok.inj h)
  refine ⟨r.1, m', rfl, hr, rfl, rfl, fun wf ha => ?_⟩
  obtain ⟨e, f⟩ := IntensityVis.C84_recolored wf hm ha
  refine ⟨e, f.imp ?_⟩
  rintro b b' ⟨a1, a2, a3, a4, -, a6⟩
  exact ⟨a1, by unfold blockPositions; rw [a2, a3, a4], a6⟩

example : (match step exIntensity (exFull exMeasured) (.base .update) with
    | .ok (out, _) => some (atOrigin (meshesOf out), atOrigin (intensityMeshesOf out))
    | _ => none) = some (some ([16383, 16383, 32767], ⟨127, 127, 127⟩), some ([16383, 16383, 32767], ⟨255, 255, 255⟩)) := by decide +kernel

/-- **C123**, runs: as long as the mesh service is not called, both topics show the same: a client of `intensity_mesh` has the blocks that a client of
`mesh` has, with the same vertices. -/
theorem C123_same_blocks {env : Env V} {s₀ s : State V} {es : List (Event V)} {out : List Published} (h : Run env s₀ es out s)
    (hn : Event.base .generate ∉ es) (i : Idx) :
    (shownBlock (intensityMeshesOf out) i).map blockPositions = (shownBlock (meshesOf out) i).map blockPositions := by
  suffices key : List.Forall₂ IntensityVis.SameShape ((meshesOf out).flatMap fun m => m.blocks) ((intensityMeshesOf out).flatMap fun m => m.blocks) by
    unfold shownBlock
    exact find_shape (List.forall₂_reverse_iff.2 key)
  induction h with
  | start => exact .nil
  | @step es out new s s' e h ha hs ih =>
    have ih := ih fun c => hn (List.mem_append_left _ c)
    have he : e ≠ .base .generate := fun c => hn (by rw [c]; simp)
    unfold meshesOf intensityMeshesOf at ih ⊢
    rw [List.filterMap_append, List.filterMap_append, List.flatMap_append, List.flatMap_append]
    refine List.rel_append ih ?_
    cases e with
    | image l =>
      obtain ⟨rfl, -⟩ := Prod.mk.inj (Outcome.ok.inj hs)
      exact .nil
    | base e =>
      cases e with
      | update =>
        obtain ⟨r, hr, hs⟩ := Outcome.bind_eq_ok.1 hs
        obtain ⟨m', hm, hs⟩ := Outcome.bind_eq_ok.1 hs
        obtain ⟨rfl, -⟩ := Prod.mk.inj (Outcome.ok.inj hs)
        simpa using recolor_shape hm
      | generate => exact absurd rfl he
      | _ =>
        obtain ⟨b, hb, hs⟩ := Outcome.bind_eq_ok.1 hs
        obtain ⟨rfl, -⟩ := Prod.mk.inj (Outcome.ok.inj hs)
        exact .nil

example : ∃ es out s, Run exIntensity exFresh es out s ∧ Event.base .generate ∉ es ∧ (shownBlock (meshesOf out) ⟨0, 0, 0⟩).isSome = true := by
  have h : (match step exIntensity (exFull exMeasured) (.base .update) with
    | .ok (out, _) => (shownBlock (meshesOf out) ⟨0, 0, 0⟩).isSome | _ => false) = true := by decide +kernel
  cases hs : step exIntensity (exFull exMeasured) (.base .update) with
  | ok r =>
    rw [hs] at h
    exact ⟨_, _, _, .step (.base .update) exRun' trivial hs, by simp, h⟩
  | fatal => rw [hs] at h; cases h
  | ub => rw [hs] at h; cases h

/-- **C123**, violation: intensities that are measured between two updates are not shown by the second one, unless the map changes, too: its message on
`intensity_mesh` has no blocks. -/
theorem C123_images_not_shown {env : Env V} {s₀ s s₁ s₂ : State V} {es is : List (Event V)} {out out₁ out₂ : List Published} (h0 : Fresh s₀.base)
    (h : Run env s₀ es out s) (hu : step env s (.base .update) = .ok (out₁, s₁)) (hi : ∀ e ∈ is, ∃ new, e = .image new) (h2 : Run env s₁ is out₂ s₂) :
    out₂ = [] ∧ step env s₂ (.base .update) = .ok ([.mesh ⟨env.base.edge, []⟩, .intensityMesh ⟨env.base.edge, []⟩], { s₂ with cached := ⟨env.base.edge, []⟩ }) := by
  obtain ⟨a, b, -⟩ := images_only h2 hi
  refine ⟨a, ?_⟩
  obtain ⟨r, hr, hu⟩ := Outcome.bind_eq_ok.1 hu
  obtain ⟨m', hm, hu⟩ := Outcome.bind_eq_ok.1 hu
  obtain ⟨-, e⟩ := Prod.mk.inj (Outcome.ok.inj hu)
  have q : Quiet r.2 := quiet_after (msg := r.1) (run_sound h0 h) hr
  have q2 : Quiet s₂.base := by rw [b, ← e]; exact q
  show updateMesh env s₂ = _
  unfold updateMesh
  rw [quiet_update env.base q2]
  rfl

/-- The colour of the first vertex a client has at the origin; `none` if it has none. -/
private def colorAtOrigin (ms : List Msg) : Option (ℕ × ℕ × ℕ) :=
  (shownBlock ms ⟨0, 0, 0⟩).map fun b =>
    ((IntensityVis.vertexBytes b 0).x.toNat, (IntensityVis.vertexBytes b 0).y.toNat, (IntensityVis.vertexBytes b 0).z.toNat)

/-- The two updates of the example. -/
private def twice : Outcome (Bool × Bool × Bool × Bool) := do
  let r ← step exIntensity (exFull exUnmeasured) (.base .update)
  let t ← step exIntensity { r.2 with intensity := exMeasured } (.base .update)
  let c ← step exIntensity (exFull exMeasured) (.base .update)
  pure (decide (r.2.intensity.cfg = ⟨1, 1⟩), decide (t.2.base.map = c.2.base.map),
    decide (colorAtOrigin (intensityMeshesOf (r.1 ++ [] ++ t.1)) = some (127, 127, 127)), decide (colorAtOrigin (intensityMeshesOf c.1) = some (255, 255, 255)))

private theorem twice_eq : twice = .ok (true, true, true, true) := by decide +kernel

/-- **C123**, violation, an instance: an image is taken after an update. After the next update a client still has the gray vertex it had before; had the
image come before, with the same map and the same intensities in the end, the vertex would be white. -/
theorem C123_images_violated : ∃ (env : Env (TsdfVoxel Word)) (s₀ s s' : State (TsdfVoxel Word)) (es es' : List (Event (TsdfVoxel Word))) (out out' : List Published)
    (b b' : MeshBlock), Fresh s₀.base ∧ Run env s₀ (es ++ [.base .update]) out s ∧ Run env s₀ (es' ++ [.base .update]) out' s' ∧
      s.base.map = s'.base.map ∧ s.intensity = s'.intensity ∧
      shownBlock (intensityMeshesOf out) ⟨0, 0, 0⟩ = some b ∧ shownBlock (intensityMeshesOf out') ⟨0, 0, 0⟩ = some b' ∧
      IntensityVis.vertexBytes b 0 = ⟨127, 127, 127⟩ ∧ IntensityVis.vertexBytes b' 0 = ⟨255, 255, 255⟩ := by
  have h := twice_eq
  unfold twice at h
  obtain ⟨⟨o1, s1⟩, h1, h⟩ := Outcome.bind_eq_ok.1 h
  obtain ⟨⟨o2, s2⟩, h2, h⟩ := Outcome.bind_eq_ok.1 h
  obtain ⟨⟨o3, s3⟩, h3, h⟩ := Outcome.bind_eq_ok.1 h
  simp only [Outcome.pure_eq, Outcome.ok.injEq, Prod.mk.injEq, decide_eq_true_eq] at h
  obtain ⟨e0, e1, e2, e3⟩ := h
  have r1 := Run.step (.base .update) exRun trivial h1
  have r2 := Run.step (new := []) (.image exMeasured) r1 (by show exMeasured.cfg = s1.intensity.cfg; rw [e0]; rfl) rfl
  have r3 := Run.step (.base .update) r2 trivial h2
  have r4 := Run.step (.base .update) exRun' trivial h3
  obtain ⟨b, hb, e2⟩ := Option.map_eq_some_iff.1 e2
  obtain ⟨b', hb', e3⟩ := Option.map_eq_some_iff.1 e3
  simp only [Prod.mk.injEq] at e2 e3
  obtain ⟨_, _, -, -, v2, -⟩ := C123_update h2
  obtain ⟨_, _, -, -, v3, -⟩ := C123_update h3
  refine ⟨exIntensity, exFresh, s2, s3, _, _, _, _, b, b', ServerMesh.exStart_fresh, r3, r4, e1, by rw [v2, v3]; rfl, hb, hb', ?_, ?_⟩
  · exact Vec3.ext (BitVec.eq_of_toNat_eq e2.1) (BitVec.eq_of_toNat_eq e2.2.1) (BitVec.eq_of_toNat_eq e2.2.2)
  · exact Vec3.ext (BitVec.eq_of_toNat_eq e3.1) (BitVec.eq_of_toNat_eq e3.2.1) (BitVec.eq_of_toNat_eq e3.2.2)

/-- **C123**, violation: what the mesh service sends does not reach the clients of `intensity_mesh`, neither at once nor with the next update. -/
theorem C123_generate_not_shown {env : Env V} {s₀ s s₁ s₂ : State V} {es is : List (Event V)} {out out₁ out₂ : List Published} (h0 : Fresh s₀.base)
    (h : Run env s₀ es out s) (hg : step env s (.base .generate) = .ok (out₁, s₁)) (hi : ∀ e ∈ is, ∃ new, e = .image new) (h2 : Run env s₁ is out₂ s₂) :
    intensityMeshesOf out₁ = [] ∧ out₂ = [] ∧
      step env s₂ (.base .update) = .ok ([.mesh ⟨env.base.edge, []⟩, .intensityMesh ⟨env.base.edge, []⟩], { s₂ with cached := ⟨env.base.edge, []⟩ }) := by
  obtain ⟨a, b, -⟩ := images_only h2 hi
  obtain ⟨r, hr, hg⟩ := Outcome.bind_eq_ok.1 hg
  obtain ⟨rfl, e⟩ := Prod.mk.inj (Outcome.ok.inj hg)
  refine ⟨rfl, a, ?_⟩
  have q : Quiet r.2 := quiet_after (msg := r.1) (run_sound h0 h) hr
  have q2 : Quiet s₂.base := by rw [b, ← e]; exact q
  show updateMesh env s₂ = _
  unfold updateMesh
  rw [quiet_update env.base q2]
  rfl

private def served : Outcome (Bool × Option (ℕ × ℕ × ℕ) × Bool) := do
  let r ← step exIntensity (exFull exMeasured) (.base .generate)
  let t ← step exIntensity r.2 (.base .update)
  pure ((shownBlock (meshesOf (r.1 ++ t.1)) ⟨0, 0, 0⟩).isSome, colorAtOrigin (meshesOf (r.1 ++ t.1)),
    (shownBlock (intensityMeshesOf (r.1 ++ t.1)) ⟨0, 0, 0⟩).isNone)

private theorem served_eq : served = .ok (true, some (127, 127, 127), true) := by decide +kernel

/-- **C123**, violation, an instance: after a call of the mesh service and an update, a client of `mesh` has the block at the origin, a client of
`intensity_mesh` does not. -/
theorem C123_generate_violated : ∃ (env : Env (TsdfVoxel Word)) (s₀ s : State (TsdfVoxel Word)) (es : List (Event (TsdfVoxel Word))) (out : List Published),
    Fresh s₀.base ∧ Run env s₀ (es ++ [.base .update]) out s ∧ (shownBlock (meshesOf out) ⟨0, 0, 0⟩).isSome = true ∧
      shownBlock (intensityMeshesOf out) ⟨0, 0, 0⟩ = none := by
  have h := served_eq
  unfold served at h
  obtain ⟨⟨o1, s1⟩, h1, h⟩ := Outcome.bind_eq_ok.1 h
  obtain ⟨⟨o2, s2⟩, h2, h⟩ := Outcome.bind_eq_ok.1 h
  simp only [Outcome.pure_eq, Outcome.ok.injEq, Prod.mk.injEq] at h
  obtain ⟨e1, -, e3⟩ := h
  have r1 := Run.step (.base .generate) exRun' trivial h1
  have r2 := Run.step (.base .update) r1 trivial h2
  exact ⟨exIntensity, exFresh, s2, _, _, ServerMesh.exStart_fresh, r2, e1, Option.isNone_iff_eq_none.1 e3⟩

/-- Runs that meet the hypotheses of the two theorems above. -/
example : ∃ (s₁ t₁ : State (TsdfVoxel Word)) (o₁ p₁ : List Published), Fresh exFresh.base ∧
    Run exIntensity exFresh [.base (.change (ServerMesh.exMap Flags.setAll))] [] (exFull exUnmeasured) ∧
    step exIntensity (exFull exUnmeasured) (.base .update) = .ok (o₁, s₁) ∧ Run exIntensity s₁ [.image exMeasured] [] { s₁ with intensity := exMeasured } ∧
    Run exIntensity exFresh [.base (.change (ServerMesh.exMap Flags.setAll)), .image exMeasured] [] (exFull exMeasured) ∧
    step exIntensity (exFull exMeasured) (.base .generate) = .ok (p₁, t₁) := by
  have h := twice_eq
  unfold twice at h
  obtain ⟨⟨o1, s1⟩, h1, h⟩ := Outcome.bind_eq_ok.1 h
  obtain ⟨⟨o2, s2⟩, h2, h⟩ := Outcome.bind_eq_ok.1 h
  obtain ⟨⟨o3, s3⟩, h3, h⟩ := Outcome.bind_eq_ok.1 h
  simp only [Outcome.pure_eq, Outcome.ok.injEq, Prod.mk.injEq, decide_eq_true_eq] at h
  have g := served_eq
  unfold served at g
  obtain ⟨⟨p1, t1⟩, g1, -⟩ := Outcome.bind_eq_ok.1 g
  exact ⟨s1, t1, o1, p1, ServerMesh.exStart_fresh, exRun, h1,
    .step (es := []) (out := []) (new := []) (.image exMeasured) .start (by show exMeasured.cfg = s1.intensity.cfg; rw [h.1]; rfl) rfl, exRun', g1⟩

/-- **C123**, intensities are forgotten by nothing: neither clearing the map nor removing its distant blocks, nor any other event than an image, changes
the intensity layer; blocks that are mapped again have the intensities measured before. -/
theorem C123_intensities_kept {env : Env V} {s₀ s : State V} {es : List (Event V)} {out : List Published} (h : Run env s₀ es out s)
    (hn : ∀ new, Event.image new ∉ es) : s.intensity = s₀.intensity := by
  induction h with
  | start => rfl
  | @step es out new s s' e h ha hs ih =>
    have ih := ih fun n c => hn n (List.mem_append_left _ c)
    rw [← ih]
    cases e with
    | image n => exact absurd (by simp) (hn n)
    | base e =>
      cases e with
      | update =>
        obtain ⟨r, hr, hs⟩ := Outcome.bind_eq_ok.1 hs
        obtain ⟨m', hm, hs⟩ := Outcome.bind_eq_ok.1 hs
        rw [← (Prod.mk.inj (Outcome.ok.inj hs)).2]
      | generate =>
        obtain ⟨r, hr, hs⟩ := Outcome.bind_eq_ok.1 hs
        rw [← (Prod.mk.inj (Outcome.ok.inj hs)).2]
      | _ =>
        obtain ⟨b, hb, hs⟩ := Outcome.bind_eq_ok.1 hs
        rw [← (Prod.mk.inj (Outcome.ok.inj hs)).2]

example : Run exIntensity (exFull exMeasured) [.base .clear] [] ⟨ServerMesh.clear (exFull exMeasured).base, exMeasured, ⟨.fin 0, []⟩⟩ ∧
    exMeasured.blocks ≠ [] :=
  ⟨.step (es := []) (out := []) (new := []) (.base .clear) .start trivial rfl, by decide⟩

end Vox.IntensityServer
