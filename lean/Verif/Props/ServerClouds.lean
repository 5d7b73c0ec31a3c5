/-
Property C115: the point clouds and markers a server publishes show its map.
-/
import Verif.Lemmas.ServerClouds

namespace Vox.ServerClouds

open Layer Grid Ieee PtCloud MeshMsg Spec

/-! ### Examples -/

/-- An intensity map without blocks. -/
def noIntensity : VLayer (IntensityVoxel Fl) := ⟨⟨1, 2⟩, []⟩

theorem noIntensity_fits : FitsLayer noIntensity := by
  refine ⟨⟨by norm_num [noIntensity], by simp [noIntensity], by simp [noIntensity], fun j b h => by simp [noIntensity] at h⟩, by simp [noIntensity], ?_, ?_⟩ <;>
    norm_num [noIntensity]

/-- A server with the maps of C75. -/
def exServer (k : Kind) (slices : Bool) : Server := ⟨k, "world", exMap, exEsdf, noIntensity, 1 / 4, slices, true, false, true, .fin 3⟩

theorem exServer_fits (k : Kind) (slices : Bool) : Fits (exServer k slices) := by
  refine ⟨⟨exMap_wf, by simp [exServer, exMap], ?_, ?_⟩, ⟨exEsdf_wf, by simp [exServer, exEsdf], ?_, ?_⟩, noIntensity_fits⟩ <;>
    norm_num [exServer, exMap, exEsdf]

/-! ### The messages -/

/-- **C115.** Every message of a server shows what its map holds: the distances of the voxels of weight above 0.001, the colours of the voxels nearer to the
surface than three quarters of a voxel, the occupied voxels as cubes, the slices, the distances of the ESDF, the traversable space, the intensities. -/
theorem C115_faithful {s : Server} (h : Fits s) : ∃ ms, publish s = .ok ms ∧ ∀ m ∈ ms, Faithful s m := by
  obtain ⟨ms, e, -, h2⟩ := publish_ok h
  exact ⟨ms, e, h2⟩

example : Fits (exServer .esdf true) ∧
    (match publish (exServer .esdf true) with | .ok ms => decide (ms.length = 9) | _ => false) = true ∧
    (match surfaceMsg (exServer .tsdf false) with
      | .ok (_, .colored _ E) => decide (E = [(⟨3 / 2, 1 / 2, 1 / 2⟩, ⟨1, 2, 3, 255⟩)]) | _ => false) = true ∧
    (match occupiedMsg (exServer .tsdf false) with
      | .ok (_, .markers [m]) => decide (m.points = [⟨1 / 2, 3 / 2, 1 / 2⟩, ⟨3 / 2, 3 / 2, 1 / 2⟩] ∧ m.scale = ⟨1, 1, 1⟩) | _ => false) = true :=
  ⟨exServer_fits _ _, by decide +kernel, by decide +kernel, by decide +kernel⟩

/-- A server should publish on each of its topics once. It does, except for the slices of an ESDF server. -/
theorem C115_each_once_partial {s : Server} (h : Fits s) (hk : s.kind ≠ .esdf ∨ s.slices = false) :
    ∃ ms, publish s = .ok ms ∧ (ms.map (·.1)).Nodup ∧ ∀ t, t ∈ ms.map (·.1) ↔ Wanted s t := by
  obtain ⟨ms, e, h1, -⟩ := publish_ok h
  refine ⟨ms, e, ?_⟩
  rw [h1]
  unfold topics tsdfTopics sliceTopics Wanted
  cases hkind : s.kind <;> cases hs : s.slices <;> cases ht : s.traversable <;> simp [hkind, hs] at hk ⊢ <;> intro t <;> cases t <;> simp

example : Fits (exServer .intensity true) ∧ (exServer .intensity true).kind ≠ .esdf ∧
    (match publish (exServer .intensity true) with
      | .ok ms => decide (ms.map (·.1) = [.intensityCloud, .tsdfCloud, .surface, .occupied, .tsdfSlice]) | _ => false) = true :=
  ⟨exServer_fits _ _, by simp [exServer], by decide +kernel⟩

/-- An ESDF server publishes its slices twice: once itself, and once through the function of the TSDF server, whose call of `publishSlices` is virtual. -/
theorem C115_slices_twice {s : Server} (h : Fits s) (hk : s.kind = .esdf) (hs : s.slices = true) :
    ∃ ms, publish s = .ok ms ∧ (ms.map (·.1)).count .tsdfSlice = 2 ∧ (ms.map (·.1)).count .esdfSlice = 2 ∧
      ∀ t, t ∈ ms.map (·.1) ↔ Wanted s t := by
  obtain ⟨ms, e, h1, -⟩ := publish_ok h
  refine ⟨ms, e, ?_⟩
  rw [h1]
  unfold topics tsdfTopics sliceTopics Wanted
  rw [hk, hs]
  cases ht : s.traversable <;> refine ⟨by decide, by decide, fun t => ?_⟩ <;> cases t <;> simp

example : Fits (exServer .esdf true) ∧ (exServer .esdf true).kind = .esdf ∧ (exServer .esdf true).slices = true := ⟨exServer_fits _ _, rfl, rfl⟩

/-- The marker of an occupancy map shows the voxels above the threshold as cubes, and is added to the markers there are. -/
theorem C115_occupancy_marker (threshold : Fl) (frame : String) {l : VLayer (OccVoxel Fl)} (wf : WellFormed l) (nd : (l.blocks.map (·.1)).Nodup)
    (ms : List CubeMarker) : ∃ m, occBlocks threshold frame l ms = .ok (ms ++ [m]) ∧ ShowsCubes frame (fun v => Fl.lt threshold v.probabilityLog = true) l m :=
  occupancyBlocks_ok (fun _ _ => rfl) frame wf nd ms

example : WellFormed (exOcc true) ∧ ((exOcc true).blocks.map (·.1)).Nodup ∧
    (match occBlocks (.fin 1) "world" (exOcc true) [] with | .ok [m] => decide (m.points = [⟨1 / 2, 1 / 2, 1 / 2⟩]) | _ => false) = true :=
  ⟨exOcc_wf _, by simp [exOcc], by decide +kernel⟩

/-! ### What can be read off the clouds -/

/-- The surface message of a server. -/
theorem surface_message {s : Server} (h : Fits s) : ∃ ms E, publish s = .ok ms ∧ (Topic.surface, Content.colored s.frame E) ∈ ms ∧
    ∃ θ : ℚ, |θ - 3 / 4 * s.tsdf.cfg.voxelSize| ≤ s.tsdf.cfg.voxelSize / 2 ^ 22 ∧
      Shows (fun v => if Fl.lt (.fin 0) v.weight = true ∧ Fl.lt (Fl.abs v.distance) (.fin θ) = true then some v.color else none) s.tsdf E := by
  obtain ⟨ms, e, h1, h2⟩ := publish_ok h
  have hm : Topic.surface ∈ ms.map (·.1) := by rw [h1]; exact tsdf_topics_mem s (.inr (.inl rfl))
  obtain ⟨⟨t, c⟩, hm, rfl⟩ := List.mem_map.1 hm
  obtain ⟨w, θ, -, b, hf⟩ := h2 _ hm
  cases c with
  | points f E => exact hf.elim
  | markers _ => exact hf.elim
  | colored f E =>
    obtain ⟨rfl, hs⟩ := hf
    exact ⟨ms, E, e, hm, θ, b, hs⟩

/-- **C115.** Where the surface passes between two neighbouring voxels — their distances have different signs and differ by at most the voxel size — one of
the two is shown in the surface cloud, with its colour. -/
theorem C115_crossing_shown {s : Server} (h : Fits s) {g g' : Idx} {v v' : TsdfVoxel Fl} {d d' : ℚ} (hv : content s.tsdf g = some v)
    (hv' : content s.tsdf g' = some v') (hw : Fl.lt (.fin 0) v.weight = true) (hw' : Fl.lt (.fin 0) v'.weight = true) (hd : v.distance = .fin d)
    (hd' : v'.distance = .fin d') (h0 : 0 ≤ d) (h0' : d' ≤ 0) (hdiff : d - d' ≤ s.tsdf.cfg.voxelSize) :
    ∃ ms E, publish s = .ok ms ∧ (Topic.surface, Content.colored s.frame E) ∈ ms ∧
      ((voxelCenter s.tsdf.cfg.voxelSize g, v.color) ∈ E ∨ (voxelCenter s.tsdf.cfg.voxelSize g', v'.color) ∈ E) := by
  obtain ⟨ms, E, e, hm, θ, b, -, hE⟩ := surface_message h
  refine ⟨ms, E, e, hm, ?_⟩
  have hs : 0 < s.tsdf.cfg.voxelSize := h.1.1.size_pos
  have b' := (abs_le.1 b).1
  have hθ : s.tsdf.cfg.voxelSize / 2 < θ := by
    generalize s.tsdf.cfg.voxelSize = z at *
    norm_num at *
    linarith
  rcases le_or_gt d (s.tsdf.cfg.voxelSize / 2) with h1 | h1
  · left
    have : Fl.lt (Fl.abs v.distance) (.fin θ) = true := by
      rw [hd]
      show decide (|d| < θ) = true
      rw [abs_of_nonneg h0, decide_eq_true_eq]
      linarith
    exact (hE _).2 ⟨g, v, v.color, hv, if_pos ⟨hw, this⟩, rfl⟩
  · right
    have : Fl.lt (Fl.abs v'.distance) (.fin θ) = true := by
      rw [hd']
      show decide (|d'| < θ) = true
      rw [abs_of_nonpos h0', decide_eq_true_eq]
      linarith
    exact (hE _).2 ⟨g', v', v'.color, hv', if_pos ⟨hw', this⟩, rfl⟩

/-- Two voxels on either side of the surface. -/
def exPair (d d' : ℚ) : Server := ⟨.tsdf, "world", ⟨⟨1, 1⟩, [(⟨0, 0, 0⟩, ⟨1, 1, ⟨0, 0, 0⟩, true, Flags.setAll, [⟨.fin d, .fin 1, ⟨1, 1, 1, 255⟩⟩]⟩),
    (⟨1, 0, 0⟩, ⟨1, 1, ⟨1, 0, 0⟩, true, Flags.setAll, [⟨.fin d', .fin 1, ⟨2, 2, 2, 255⟩⟩]⟩)]⟩, exEsdf, noIntensity, 1 / 4, false, true, false, true, .fin 3⟩

theorem exPair_fits (d d' : ℚ) : Fits (exPair d d') := by
  refine ⟨⟨⟨by norm_num [exPair], by simp [exPair], by simp [exPair], ?_⟩, by simp [exPair], ?_, ?_⟩, (exServer_fits .esdf true).2.1, noIntensity_fits⟩
  · intro j b h
    unfold exPair at h
    simp only at h
    rw [lookup_cons_ite] at h
    split_ifs at h with h1
    · obtain rfl := Option.some.inj h
      rw [h1]
      exact ⟨rfl, rfl, by simp [exPair], rfl⟩
    · rw [lookup_cons_ite] at h
      split_ifs at h with h2
      · obtain rfl := Option.some.inj h
        rw [h2]
        exact ⟨rfl, rfl, by simp [exPair], rfl⟩
      · cases h
  · norm_num [exPair]
  · norm_num [exPair]

example : Fits (exPair (1 / 4) (-3 / 4)) ∧ content (exPair (1 / 4) (-3 / 4)).tsdf ⟨0, 0, 0⟩ = some ⟨.fin (1 / 4), .fin 1, ⟨1, 1, 1, 255⟩⟩ ∧
    content (exPair (1 / 4) (-3 / 4)).tsdf ⟨1, 0, 0⟩ = some ⟨.fin (-3 / 4), .fin 1, ⟨2, 2, 2, 255⟩⟩ ∧
    (1 / 4 : ℚ) - (-3 / 4) ≤ (exPair (1 / 4) (-3 / 4)).tsdf.cfg.voxelSize := by
  refine ⟨exPair_fits _ _, by decide +kernel, by decide +kernel, ?_⟩
  norm_num [exPair]

/-- Distances along rays may differ by more than the voxel size; then the surface between two voxels need not be shown. -/
theorem C115_crossing_violated : ∃ s : Server, Fits s ∧ ∃ g g' v v' d d', content s.tsdf g = some v ∧ content s.tsdf g' = some v' ∧ g' = ⟨g.x + 1, g.y, g.z⟩ ∧
    v.weight = .fin 1 ∧ v'.weight = .fin 1 ∧ v.distance = .fin d ∧ v'.distance = .fin d' ∧ 0 < d ∧ d' < 0 ∧
    ∃ ms, publish s = .ok ms ∧ (Topic.surface, Content.colored s.frame []) ∈ ms := by
  have t : (match publish (exPair 1 (-1)) with | .ok ms => decide ((Topic.surface, Content.colored "world" []) ∈ ms) | _ => false) = true := by decide +kernel
  obtain ⟨ms, e, -⟩ := C115_faithful (exPair_fits 1 (-1))
  rw [e] at t
  exact ⟨exPair 1 (-1), exPair_fits _ _, ⟨0, 0, 0⟩, ⟨1, 0, 0⟩, ⟨.fin 1, .fin 1, ⟨1, 1, 1, 255⟩⟩, ⟨.fin (-1), .fin 1, ⟨2, 2, 2, 255⟩⟩, 1, -1,
    by decide +kernel, by decide +kernel, rfl, rfl, rfl, rfl, rfl, by norm_num, by norm_num, ms, e, of_decide_eq_true t⟩

/-- **C115.** What the surface cloud shows, the marker of the occupied voxels shows as well, if its weight is above 0.001. -/
theorem C115_surface_occupied {s : Server} (h : Fits s) : ∃ ms E m, publish s = .ok ms ∧ (Topic.surface, Content.colored s.frame E) ∈ ms ∧
    (Topic.occupied, Content.markers [m]) ∈ ms ∧ ∀ g v q, content s.tsdf g = some v → v.weight = .fin q → 1 / 1000 + 1 / 10 ^ 9 ≤ q →
      (voxelCenter s.tsdf.cfg.voxelSize g, v.color) ∈ E → voxelCenter s.tsdf.cfg.voxelSize g ∈ m.points := by
  obtain ⟨ms, E, e, hm, θ, b, -, hE⟩ := surface_message h
  obtain ⟨ms', e', h1, h2⟩ := publish_ok h
  obtain rfl := Outcome.ok.inj (e.symm.trans e')
  have ho : Topic.occupied ∈ ms.map (·.1) := by rw [h1]; exact tsdf_topics_mem s (.inr (.inr rfl))
  obtain ⟨⟨t, c⟩, ho, rfl⟩ := List.mem_map.1 ho
  obtain ⟨w, θ', hw, -, hf⟩ := h2 _ ho
  cases c with
  | points f E => exact hf.elim
  | colored f E => exact hf.elim
  | markers l =>
    obtain ⟨m, rfl, hm'⟩ := hf
    refine ⟨ms, E, m, e, hm, ho, fun g v q hc hq hq2 hmem => ?_⟩
    obtain ⟨g', v', r, hc', hr, heq⟩ := (hE _).1 hmem
    have hg := Slice.voxelCenter_inj h.1.1.size_pos (Prod.mk.inj heq).1
    subst hg
    obtain rfl := Option.some.inj (hc.symm.trans hc')
    have hlt : Fl.lt (Fl.abs v.distance) (.fin θ) = true := by
      by_contra hn
      simp [hn] at hr
    refine (hm'.points _).2 ⟨g, v, hc, ⟨?_, ?_⟩, rfl⟩
    · rw [hq]
      show decide (w < q) = true
      rw [decide_eq_true_eq]
      have := (abs_lt.1 hw).2
      linarith
    · cases hd : v.distance with
      | nan => rw [hd] at hlt; simp [Fl.abs, Fl.lt] at hlt
      | ninf => rfl
      | pinf => rw [hd] at hlt; simp [Fl.abs, Fl.lt] at hlt
      | fin d =>
        rw [hd] at hlt
        have h3 : |d| < θ := by simpa [Fl.abs, Fl.lt] using hlt
        show decide (d ≤ _) = true
        rw [decide_eq_true_eq]
        have h4 := (abs_le.1 b).2
        have h5 := le_abs_self d
        have hs := h.1.1.size_pos
        generalize s.tsdf.cfg.voxelSize = z at *
        norm_num at *
        linarith

example : Fits (exPair (1 / 4) (-3 / 4)) ∧
    (match publish (exPair (1 / 4) (-3 / 4)) with
      | .ok ms => decide ((Topic.surface, Content.colored "world" [(⟨1 / 2, 1 / 2, 1 / 2⟩, ⟨1, 1, 1, 255⟩)]) ∈ ms) | _ => false) = true :=
  ⟨exPair_fits _ _, by decide +kernel⟩

/-- For smaller weights it does not: the surface cloud asks for a weight above 0 only. -/
theorem C115_surface_occupied_violated : ∃ s : Server, Fits s ∧ ∃ ms E m p, publish s = .ok ms ∧ (Topic.surface, Content.colored s.frame E) ∈ ms ∧
    (Topic.occupied, Content.markers [m]) ∈ ms ∧ p ∈ E.map (·.1) ∧ p ∉ m.points := by
  obtain ⟨a, ha, h1⟩ := surfaceMsg_ok (exServer_fits .tsdf false).1
  obtain ⟨b, hb, h2⟩ := occupiedMsg_ok (exServer_fits .tsdf false).1
  obtain ⟨c, hc, -⟩ := tsdfVoxelsMsg_ok (exServer_fits .tsdf false).1
  have t1 : (match surfaceMsg (exServer .tsdf false) with
      | .ok (_, .colored _ E) => decide (E = [(⟨3 / 2, 1 / 2, 1 / 2⟩, ⟨1, 2, 3, 255⟩)]) | _ => false) = true := by decide +kernel
  have t2 : (match occupiedMsg (exServer .tsdf false) with
      | .ok (_, .markers [m]) => decide ((⟨3 / 2, 1 / 2, 1 / 2⟩ : Pt) ∉ m.points) | _ => false) = true := by decide +kernel
  have e : publish (exServer .tsdf false) = .ok [c, a, b] := by
    show tsdfPublish _ = _
    unfold tsdfPublish slicesIf
    rw [hc, Outcome.bind_ok, ha, Outcome.bind_ok, hb]
    rfl
  rw [ha] at t1
  rw [hb] at t2
  obtain ⟨ta, ca⟩ := a
  obtain ⟨tb, cb⟩ := b
  obtain ⟨rfl, w, θ, -, -, f1⟩ := h1
  obtain ⟨rfl, w', θ', -, -, f2⟩ := h2
  cases ca with
  | points f E => exact f1.elim
  | markers _ => exact f1.elim
  | colored f E =>
    cases cb with
    | points f E => exact f2.elim
    | colored f E => exact f2.elim
    | markers l =>
      obtain ⟨m, rfl, -⟩ := f2
      obtain ⟨rfl, -⟩ := f1
      refine ⟨exServer .tsdf false, exServer_fits _ _, _, E, m, ⟨3 / 2, 1 / 2, 1 / 2⟩, e, by simp, by simp, ?_, by simpa using t2⟩
      have : E = _ := of_decide_eq_true t1
      rw [this]
      simp

/-! ### When they are published -/

/-- The events after which a server with `publish_pointclouds_on_update` publishes, and those that change nothing. -/
def Announced : Event → Prop
  | .scan _ _ => True
  | .noScan => True
  | .meshTimer => True
  | .service => True
  | .tsdfMap valid _ => valid = true
  | _ => False

theorem after_fits {s : Server} (h : Fits s) {e : Event} (he : FitsEvent e) : Fits (after s e) := by
  cases e with
  | scan t e => exact ⟨he.1, he.2, h.2.2⟩
  | noScan => exact h
  | meshTimer => exact h
  | service => exact h
  | tsdfMap _ t => exact ⟨he, h.2.1, h.2.2⟩
  | clear =>
    refine ⟨⟨⟨h.1.1.size_pos, h.1.1.side_pos, h.1.1.side_le, fun i b hb => ?_⟩, List.nodup_nil, h.1.2.2⟩,
      ⟨⟨h.2.1.1.size_pos, h.2.1.1.side_pos, h.2.1.1.side_le, fun i b hb => ?_⟩, List.nodup_nil, h.2.1.2.2⟩, h.2.2⟩
    · cases hb
    · cases hb
  | load t e => exact ⟨he.1, he.2, h.2.2⟩
  | esdfMap _ e => exact ⟨h.1, he, h.2.2⟩
  | generateEsdf e => exact ⟨h.1, he, h.2.2⟩
  | esdfTimer e => exact ⟨h.1, he, h.2.2⟩
  | image i => exact ⟨h.1, h.2.1, he⟩

/-- After each event the clouds received last should show the map. With `publish_pointclouds_on_update` they do, over any sequence of point clouds, timers,
requests and valid map messages. -/
theorem C115_current_partial {es : List Event} : ∀ {s : Server} {past : List Msg}, Fits s → s.onUpdate = true → Current s past → (∀ e ∈ es, FitsEvent e ∧ Announced e) →
    ∃ s' ms, run (s, past) es = .ok (s', ms) ∧ Current s' ms := by
  induction es with
  | nil => exact fun {s past} _ _ hc _ => ⟨s, past, rfl, hc⟩
  | cons e es ih =>
    intro s past h hu hc he
    obtain ⟨he1, he2⟩ := he e (List.mem_cons_self ..)
    have hf := after_fits h he1
    have hu' : (after s e).onUpdate = true := by cases e <;> exact hu
    obtain ⟨ms, h1, h2⟩ : ∃ ms, published (after s e) e = .ok ms ∧ Current (after s e) (past ++ ms) := by
      have hp := current_of_publish hf past
      cases e with
      | scan t e => simpa only [published, publishIf, hu', if_true] using hp
      | noScan => exact ⟨[], rfl, by rw [List.append_nil]; exact hc⟩
      | meshTimer => exact ⟨[], by simp only [published, publishIf, hu', Bool.not_true, Bool.and_false]; rfl, by rw [List.append_nil]; exact hc⟩
      | service => exact hp
      | tsdfMap valid t =>
        obtain rfl : valid = true := he2
        simpa only [published, publishIf, hu', Bool.and_true, if_true] using hp
      | clear => exact he2.elim
      | load t e => exact he2.elim
      | esdfMap _ e => exact he2.elim
      | generateEsdf e => exact he2.elim
      | esdfTimer e => exact he2.elim
      | image i => exact he2.elim
    obtain ⟨s', ms', h3, h4⟩ := ih hf hu' h2 fun e' h' => he e' (List.mem_cons_of_mem _ h')
    refine ⟨s', ms', ?_, h4⟩
    unfold run at h3 ⊢
    rw [List.foldlM_cons]
    unfold step
    simp only
    rw [h1]
    exact h3

/-- Without it but with `publish_pointclouds`, they are current after each timer event of the mesh; and after a request they always are. -/
theorem C115_timer_current {s : Server} (h : Fits s) (past : List Msg) {e : Event} (he : e = .service ∨ e = .meshTimer ∧ s.clouds = true ∧ s.onUpdate = false) :
    ∃ ms, run (s, past) [e] = .ok (s, ms) ∧ Current s ms := by
  obtain ⟨ms, h1, h2⟩ := current_of_publish h past
  refine ⟨past ++ ms, ?_, h2⟩
  rcases he with rfl | ⟨rfl, h3, h4⟩
  · show (step (s, past) .service >>= _) = _
    unfold step published after
    simp only
    rw [h1]
    rfl
  · show (step (s, past) .meshTimer >>= _) = _
    unfold step published after publishIf
    simp only
    rw [h3, h4]
    simp only [Bool.not_false, Bool.and_self, if_true]
    rw [h1]
    rfl

/-- A server that has answered a request receives a scan, another message, and a map. -/
example : ∃ ms, run (exServer .esdf false, []) [.service] = .ok (exServer .esdf false, ms) ∧ Current (exServer .esdf false) ms ∧
    ∀ e ∈ [Event.scan (exPair 1 (-1)).tsdf exEsdf, .noScan, .tsdfMap true exMap], FitsEvent e ∧ Announced e := by
  obtain ⟨ms, h1, h2⟩ := C115_timer_current (exServer_fits .esdf false) [] (e := .service) (.inl rfl)
  refine ⟨ms, h1, h2, fun e he => ?_⟩
  rcases List.mem_cons.1 he with rfl | he
  · exact ⟨⟨(exPair_fits 1 (-1)).1, (exServer_fits .esdf false).2.1⟩, trivial⟩
  rcases List.mem_cons.1 he with rfl | he
  · exact ⟨trivial, trivial⟩
  rcases List.mem_cons.1 he with rfl | he
  · exact ⟨(exServer_fits .esdf false).1, rfl⟩
  · cases he

/-- An empty map shows nothing. -/
theorem empty_shows {V R : Type} {f : V → Option R} {l : VLayer V} {E : List (Pt × R)} (h : Shows f (MapServer.removeAllBlocks l) E) : E = [] := by
  rcases E with - | ⟨e, E⟩
  · rfl
  · obtain ⟨g, v, r, hc, -⟩ := (h.2 e).1 (List.mem_cons_self ..)
    unfold content MapServer.removeAllBlocks at hc
    simp at hc

/-- Clearing the map publishes no clouds: those received last still show what has been erased. -/
theorem C115_clear_violated : ∃ (s : Server) (past : List Msg), Fits s ∧ s.onUpdate = true ∧ Current s past ∧
    ∃ s' ms, run (s, past) [.clear] = .ok (s', ms) ∧ s'.tsdf.blocks = [] ∧ ¬ Current s' ms := by
  obtain ⟨past, h1, h2⟩ := C115_timer_current (exServer_fits .tsdf false) [] (e := .service) (.inl rfl)
  refine ⟨exServer .tsdf false, past, exServer_fits _ _, rfl, h2, after (exServer .tsdf false) .clear, past ++ [], rfl, rfl, fun hc => ?_⟩
  rw [List.append_nil] at hc
  obtain ⟨c, e1, w, θ, -, -, f1⟩ := hc .tsdfCloud (.inl rfl)
  have t : (match run (exServer .tsdf false, []) [.service] with
      | .ok (_, ms) => (match latest .tsdfCloud ms with | some (.points _ E) => decide (E ≠ []) | _ => false) | _ => false) = true := by decide +kernel
  rw [h1] at t
  simp only [e1] at t
  cases c with
  | colored f E => exact f1.elim
  | markers _ => exact f1.elim
  | points f E =>
    have := empty_shows f1.2
    exact (of_decide_eq_true t) this

/-- The timer of the ESDF publishes no clouds either: the ESDF cloud received last shows the distances before the update. -/
theorem C115_esdf_timer_violated : ∃ (s : Server) (past : List Msg) (e : VLayer (EsdfVoxel Fl)), Fits s ∧ FitsLayer e ∧ s.kind = .esdf ∧ s.onUpdate = true ∧
    CurrentEsdf s past ∧ ∃ s' ms, run (s, past) [.esdfTimer e] = .ok (s', ms) ∧ s'.esdf = e ∧ ¬ CurrentEsdf s' ms := by
  obtain ⟨ms, e, h1, h2⟩ := publish_ok (exServer_fits .esdf false)
  have hf : FitsLayer (MapServer.removeAllBlocks exEsdf) := (after_fits (exServer_fits .esdf false) (e := .clear) trivial).2.1
  obtain ⟨c, hc, hm⟩ := latest_append (ms := []) (ns := ms) (t := .esdfCloud) (by rw [h1]; decide)
  rw [List.nil_append] at hc
  refine ⟨exServer .esdf false, ms, MapServer.removeAllBlocks exEsdf, exServer_fits _ _, hf, rfl, rfl, ⟨c, hc, h2 _ hm⟩,
    after (exServer .esdf false) (.esdfTimer (MapServer.removeAllBlocks exEsdf)), ms ++ [], rfl, rfl, ?_⟩
  rintro ⟨c', e1, w, θ, -, -, f1⟩
  rw [List.append_nil] at e1
  have t : (match publish (exServer .esdf false) with
      | .ok ms => (match latest .esdfCloud ms with | some (.points _ E) => decide (E ≠ []) | _ => false) | _ => false) = true := by decide +kernel
  rw [e] at t
  simp only [e1] at t
  cases c' with
  | colored f E => exact f1.elim
  | markers _ => exact f1.elim
  | points f E =>
    have := empty_shows f1.2
    exact (of_decide_eq_true t) this

/-- The colour of a cube does not tell its height: cubes five metres apart have the same. -/
theorem C115_height_violated : ∃ z z' : ℚ, z' - z = 5 ∧ ∃ c, heightColor z = .ok c ∧ heightColor z' = .ok c :=
  ⟨0, 5, by norm_num, ⟨0, 255, 255, 255⟩, by decide +kernel, by decide +kernel⟩

end Vox.ServerClouds
