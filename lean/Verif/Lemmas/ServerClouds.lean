/-
Lemmas for C115: the clouds and markers of a server.
-/
import Verif.Props.PtCloud
import Verif.Lemmas.SdfCloud
import Verif.Lemmas.RoundError
import Verif.Spec.ServerClouds

namespace Vox.ServerClouds

open Layer Grid Ieee PtCloud MeshMsg Spec

variable {V R : Type}

/-! ### The threshold -/

theorem surfaceThreshold_ok {s : ℚ} (h1 : 1 / 2 ^ 20 ≤ s) (h2 : s ≤ 2 ^ 20) :
    ∃ θ, surfaceThreshold s = .fin θ ∧ |θ - 3 / 4 * s| ≤ s / 2 ^ 22 := by
  have hs : 0 < s := lt_of_lt_of_le (by positivity) h1
  have ha : |s * (3 / 4)| = s * (3 / 4) := abs_of_pos (by positivity)
  have hbig : s * (3 / 4) ≤ 2 ^ 20 := by
    have : s * (3 / 4) ≤ s := by linarith
    exact this.trans h2
  have hp : pow2 (-1022) ≤ |s * (3 / 4)| := by
    rw [ha, show (-1022 : ℤ) = -((1022 : ℕ) : ℤ) by norm_num, IndexF.pow2_neg]
    have : (1 : ℚ) / 2 ^ 1022 ≤ 1 / 2 ^ 22 := one_div_le_one_div_of_le (by positivity) (pow_le_pow_right₀ (by norm_num) (by norm_num))
    have n : (1 : ℚ) / 2 ^ 22 ≤ 1 / 2 ^ 20 * (3 / 4) := by norm_num
    have m : 1 / 2 ^ 20 * (3 / 4) ≤ s * (3 / 4) := mul_le_mul_of_nonneg_right h1 (by norm_num)
    generalize (1 : ℚ) / 2 ^ 1022 = z at *
    linarith
  have e1 := IndexF.rnd64_rel hp
  have hr : float64.rnd (s * (3 / 4)) = .fin (rnd64 (s * (3 / 4))) := by
    refine overflow_of_lt ?_
    have h3 := abs_le.1 e1
    rw [ha] at h3
    have : |rnd64 (s * (3 / 4))| ≤ 2 ^ 21 := by
      rw [abs_le]
      constructor <;> norm_num at * <;> linarith
    refine this.trans_lt (pow_lt_pow_right₀ (by norm_num) (by norm_num))
  generalize rnd64 (s * (3 / 4)) = r at e1 hr
  have e2 := IndexF.rnd32_err r
  rw [ha] at e1
  have h3 := abs_le.1 e1
  have hr0 : 0 < r := by norm_num at *; linarith
  rw [abs_of_pos hr0, RoundErr.u_eq, RoundErr.eta_eq] at e2
  have h4 := abs_le.1 e2
  refine ⟨rnd32 r, ?_, ?_⟩
  · show MeshMsg.toFloat (float64.rnd (s * (3 / 4))) = _
    rw [hr]
    show float32.rnd r = _
    refine RoundErr.rnd_fin ?_
    rw [abs_of_pos hr0]
    norm_num at *
    linarith
  · rw [abs_le]
    constructor <;> norm_num at * <;> linarith

/-! ### Colours -/

theorem heightColor_ok (z : ℚ) : ∃ c, heightColor z = .ok c ∧ c.a = 255 ∧ (c.r = 255 ∨ c.g = 255 ∨ c.b = 255) ∧ (c.r = 0 ∨ c.g = 0 ∨ c.b = 0) :=
  ColorMap.rainbow_rounded rnd64_mono hint64 _

theorem channel_full : channelToMsg 255 = .fin 1 := by decide +kernel

theorem channel_none : channelToMsg 0 = .fin 0 := by decide +kernel

/-- The colour of a cube as a function. -/
def cubeColor (z : ℚ) : ColorMsg × Fl :=
  match heightColor z with
  | .ok c => (colorToMsg c, channelToMsg c.a)
  | _ => (⟨.nan, .nan, .nan⟩, .nan)

theorem cubeColor_spec (z : ℚ) : (cubeColor z).2 = .fin 1 ∧ ((cubeColor z).1.x = .fin 1 ∨ (cubeColor z).1.y = .fin 1 ∨ (cubeColor z).1.z = .fin 1) ∧
    ((cubeColor z).1.x = .fin 0 ∨ (cubeColor z).1.y = .fin 0 ∨ (cubeColor z).1.z = .fin 0) := by
  obtain ⟨c, h1, h2, h3, h4⟩ := heightColor_ok z
  have e : cubeColor z = (colorToMsg c, channelToMsg c.a) := by unfold cubeColor; rw [h1]
  rw [e]
  refine ⟨by rw [h2]; exact channel_full, ?_, ?_⟩
  · rcases h3 with h | h | h
    · exact .inl (by show channelToMsg c.r = _; rw [h]; exact channel_full)
    · exact .inr (.inl (by show channelToMsg c.g = _; rw [h]; exact channel_full))
    · exact .inr (.inr (by show channelToMsg c.b = _; rw [h]; exact channel_full))
  · rcases h4 with h | h | h
    · exact .inl (by show channelToMsg c.r = _; rw [h]; exact channel_none)
    · exact .inr (.inl (by show channelToMsg c.g = _; rw [h]; exact channel_none))
    · exact .inr (.inr (by show channelToMsg c.b = _; rw [h]; exact channel_none))

/-! ### The marker -/

theorem cube_ok {vis : Vis V Unit} {P : V → Prop} [DecidablePred P] (hv : ∀ v p, vis v p = .ok (if P v then some () else none)) (v : V) (p : Pt) :
    cube vis v p = .ok (if P v then some (cubeColor p.z) else none) := by
  unfold cube
  rw [hv]
  by_cases h : P v
  · rw [if_pos h, if_pos h]
    obtain ⟨c, h1, -⟩ := heightColor_ok p.z
    have e : cubeColor p.z = (colorToMsg c, channelToMsg c.a) := by unfold cubeColor; rw [h1]
    show (heightColor p.z >>= _) = _
    rw [h1, e]
    rfl
  · rw [if_neg h, if_neg h]
    rfl

theorem occupancyBlocks_ok {vis : Vis V Unit} {P : V → Prop} [DecidablePred P] (hv : ∀ v p, vis v p = .ok (if P v then some () else none))
    (frame : String) {l : VLayer V} (wf : WellFormed l) (nd : (l.blocks.map (·.1)).Nodup) (ms : List CubeMarker) :
    ∃ m, occupancyBlocks vis frame l ms = .ok (ms ++ [m]) ∧ ShowsCubes frame P l m := by
  have hc := cloud_ok (vis := cube vis) (f := fun g v => if P v then some (cubeColor (voxelCenter l.cfg.voxelSize g).z) else none) wf
    fun g v _ => cube_ok hv v _
  have hn := entries_nodup (f := fun g v => if P v then some (cubeColor (voxelCenter l.cfg.voxelSize g).z) else none) wf (positions_cover wf nd)
  have hm := entries_mem (f := fun g v => if P v then some (cubeColor (voxelCenter l.cfg.voxelSize g).z) else none) wf (positions_cover wf nd)
  generalize (Eval.positions l.cfg.vps (l.blocks.map (·.1))).filterMap (entryAt _ l) = E at hc hn hm
  unfold occupancyBlocks
  rw [hc]
  refine ⟨_, rfl, rfl, ⟨rfl, rfl, rfl⟩, ⟨rfl, rfl⟩, hn, fun p => ?_, by simp, fun c hcm => ?_⟩
  · constructor
    · intro hp
      obtain ⟨e, he, rfl⟩ := List.mem_map.1 hp
      obtain ⟨g, v, r, h1, h2, rfl⟩ := (hm e).1 he
      split_ifs at h2 with h
      exact ⟨g, v, h1, h, rfl⟩
    · rintro ⟨g, v, h1, h, rfl⟩
      exact List.mem_map.2 ⟨(_, cubeColor (voxelCenter l.cfg.voxelSize g).z), (hm _).2 ⟨g, v, _, h1, by rw [if_pos h], rfl⟩, rfl⟩
  · obtain ⟨e, he, rfl⟩ := List.mem_map.1 hcm
    obtain ⟨g, v, r, h1, h2, rfl⟩ := (hm e).1 he
    split_ifs at h2
    obtain rfl := Option.some.inj h2
    exact cubeColor_spec _

/-! ### Slices -/

theorem eps_le : kFloatEpsilon ≤ 2 / 1000000 := by decide +kernel

theorem slice_near {vis : ℕ → ℚ → ℚ → Vis V R} {f : V → Option R} {l : VLayer V} (wf : WellFormed l) (nd : (l.blocks.map (·.1)).Nodup)
    (hvis : ∀ (a : ℕ) p s v c, vis a p s v c = (do
      let on ← onPlane a p s c
      pure (if on then f v else none))) (val : ℚ) :
    ∃ E, cloud (vis 2 (slicePlane l.cfg.voxelSize val) l.cfg.voxelSize) l = .ok E ∧ ShowsNear val f l E := by
  classical
  obtain ⟨E, h1, h2, h3⟩ := slice_shows wf nd hvis 2 val (P := fun g =>
    |((axial 2 g : ℤ) + 1 / 2) * l.cfg.voxelSize - slicePlane l.cfg.voxelSize val| ≤ l.cfg.voxelSize / 2 + kFloatEpsilon) fun _ => Iff.rfl
  refine ⟨E, h1, h2, fun e he => ?_⟩
  obtain ⟨g, v, r, hp, hc, hr, rfl⟩ := (h3 e).1 he
  refine ⟨g, v, r, hc, hr, rfl, ?_⟩
  have hz : (voxelCenter l.cfg.voxelSize g).z = ((axial 2 g : ℤ) + 1 / 2) * l.cfg.voxelSize := by simp [voxelCenter, axial]
  have hs := wf.size_pos
  have he := eps_le
  have h := abs_le.1 hp
  show |(voxelCenter l.cfg.voxelSize g).z - val| ≤ _
  rw [hz, abs_le]
  unfold slicePlane at h
  split_ifs at h <;> constructor <;> linarith

/-! ### The messages -/

/-- A message on topic `t` that shows the map. -/
def Sent (s : Server) (t : Topic) (m : Msg) : Prop := m.1 = t ∧ Faithful s m

/-- The weight and the distance near the surface. -/
theorem thresholds {s : Server} (h : FitsLayer s.tsdf) : ∃ w θ : ℚ, minWeight = .fin w ∧ surfaceThreshold s.tsdf.cfg.voxelSize = .fin θ ∧ |w - 1 / 1000| < 1 / 10 ^ 9 ∧
    |θ - 3 / 4 * s.tsdf.cfg.voxelSize| ≤ s.tsdf.cfg.voxelSize / 2 ^ 22 := by
  obtain ⟨w, h1, h2⟩ := minWeight_eq
  obtain ⟨θ, h3, h4⟩ := surfaceThreshold_ok h.2.2.1 h.2.2.2
  exact ⟨w, θ, h1, h3, h2, h4⟩

theorem tsdfVoxelsMsg_ok {s : Server} (h : FitsLayer s.tsdf) : ∃ m, tsdfVoxelsMsg s = .ok m ∧ Sent s .tsdfCloud m := by
  obtain ⟨w, θ, hw, -, b1, b2⟩ := thresholds h
  obtain ⟨E, h1, h2⟩ := cloud_shows (vis := tsdfDistance) (f := measured w) h.1 h.2.1 fun v p => by
    unfold tsdfDistance measured
    rw [hw]
  refine ⟨(.tsdfCloud, .points s.frame E), by unfold tsdfVoxelsMsg; rw [h1]; rfl, rfl, w, θ, b1, b2, rfl, h2⟩

theorem surfaceMsg_ok {s : Server} (h : FitsLayer s.tsdf) : ∃ m, surfaceMsg s = .ok m ∧ Sent s .surface m := by
  obtain ⟨w, θ, -, hθ, b1, b2⟩ := thresholds h
  obtain ⟨E, h1, h2⟩ := C75_near_surface (.fin θ) h.1 h.2.1
  refine ⟨(.surface, .colored s.frame E), by unfold surfaceMsg; rw [hθ, h1]; rfl, rfl, w, θ, b1, b2, rfl, h2⟩

theorem occupiedMsg_ok {s : Server} (h : FitsLayer s.tsdf) : ∃ m, occupiedMsg s = .ok m ∧ Sent s .occupied m := by
  obtain ⟨w, θ, hw, -, b1, b2⟩ := thresholds h
  obtain ⟨m, h1, h2⟩ := occupancyBlocks_ok (vis := occupiedTsdf (.fin s.tsdf.cfg.voxelSize))
    (P := fun v => Fl.lt (.fin w) v.weight = true ∧ Fl.le v.distance (.fin s.tsdf.cfg.voxelSize) = true) (fun v p => by
      unfold occupiedTsdf
      rw [hw]
      congr 1
      simp only [Bool.and_eq_true]) s.frame h.1 h.2.1 []
  refine ⟨(.occupied, .markers [m]), by unfold occupiedMsg tsdfBlocks; rw [h1]; rfl, rfl, w, θ, b1, b2, m, rfl, h2⟩

theorem esdfVoxelsMsg_ok {s : Server} (ht : FitsLayer s.tsdf) (h : FitsLayer s.esdf) : ∃ m, esdfVoxelsMsg s = .ok m ∧ Sent s .esdfCloud m := by
  obtain ⟨w, θ, -, -, b1, b2⟩ := thresholds ht
  obtain ⟨E, h1, h2⟩ := C75_esdf h.1 h.2.1
  refine ⟨(.esdfCloud, .points s.frame E), by unfold esdfVoxelsMsg; rw [h1]; rfl, rfl, w, θ, b1, b2, rfl, h2⟩

theorem tsdfSlices_ok {s : Server} (h : FitsLayer s.tsdf) : ∃ m, tsdfSlices s = .ok [m] ∧ Sent s .tsdfSlice m := by
  obtain ⟨w, θ, hw, -, b1, b2⟩ := thresholds h
  obtain ⟨E, h1, h2⟩ := slice_near (vis := tsdfSlice) (f := measured w) h.1 h.2.1 (fun a p z v c => by
    rw [tsdfSlice_eq]
    unfold measured
    rw [hw]) (rnd32 s.sliceLevel)
  refine ⟨(.tsdfSlice, .points s.frame E), by unfold tsdfSlices tsdfLayerSlice; rw [h1]; rfl, rfl, w, θ, b1, b2, rfl, h2⟩

theorem esdfSlices_ok {s : Server} (ht : FitsLayer s.tsdf) (h : FitsLayer s.esdf) :
    ∃ m n, esdfSlices s = .ok [m, n] ∧ Sent s .tsdfSlice m ∧ Sent s .esdfSlice n := by
  obtain ⟨w, θ, -, -, b1, b2⟩ := thresholds ht
  obtain ⟨m, e, hm⟩ := tsdfSlices_ok ht
  obtain ⟨E, h1, h2⟩ := slice_near (vis := esdfSlice) (f := fun v => if v.observed then some v.distance else none) h.1 h.2.1
    (fun a p z v c => esdfSlice_eq a p z v c) (rnd32 s.sliceLevel)
  refine ⟨m, (.esdfSlice, .points s.frame E), by unfold esdfSlices esdfLayerSlice; rw [e, Outcome.bind_ok, h1]; rfl, hm, rfl, w, θ, b1, b2, rfl, h2⟩

/-- The messages of a list show the map and are on the given topics, in this order. -/
def SentOn (s : Server) (ts : List Topic) (ms : List Msg) : Prop := ms.map (·.1) = ts ∧ ∀ m ∈ ms, Faithful s m

theorem SentOn.append {s : Server} {ts us : List Topic} {ms ns : List Msg} (h1 : SentOn s ts ms) (h2 : SentOn s us ns) : SentOn s (ts ++ us) (ms ++ ns) := by
  refine ⟨by rw [List.map_append, h1.1, h2.1], fun m hm => ?_⟩
  rcases List.mem_append.1 hm with h | h
  · exact h1.2 m h
  · exact h2.2 m h

theorem sent_one {s : Server} {t : Topic} {m : Msg} (h : Sent s t m) : SentOn s [t] [m] :=
  ⟨by rw [List.map_cons, h.1]; rfl, fun m' hm => by rw [List.mem_singleton.1 hm]; exact h.2⟩

theorem sent_nil (s : Server) : SentOn s [] [] := ⟨rfl, by simp⟩

/-- The topics of the slices. -/
def sliceTopics (s : Server) : List Topic := if s.kind = .esdf then [.tsdfSlice, .esdfSlice] else [.tsdfSlice]

theorem publishSlices_ok {s : Server} (h : Fits s) : ∃ ms, publishSlices s = .ok ms ∧ SentOn s (sliceTopics s) ms := by
  unfold publishSlices sliceTopics
  by_cases hk : s.kind = .esdf
  · rw [if_pos hk, if_pos hk]
    obtain ⟨m, n, e, h1, h2⟩ := esdfSlices_ok h.1 h.2.1
    exact ⟨_, e, (sent_one h1).append (sent_one h2)⟩
  · rw [if_neg hk, if_neg hk]
    obtain ⟨m, e, h1⟩ := tsdfSlices_ok h.1
    exact ⟨_, e, sent_one h1⟩

theorem slicesIf_ok {s : Server} (h : Fits s) : ∃ ms, slicesIf s = .ok ms ∧ SentOn s (if s.slices then sliceTopics s else []) ms := by
  unfold slicesIf
  cases s.slices
  · exact ⟨[], rfl, sent_nil s⟩
  · exact publishSlices_ok h

/-- The topics of `TsdfServer::publishPointclouds`. -/
def tsdfTopics (s : Server) : List Topic := [.tsdfCloud, .surface, .occupied] ++ if s.slices then sliceTopics s else []

theorem tsdfPublish_ok {s : Server} (h : Fits s) : ∃ ms, tsdfPublish s = .ok ms ∧ SentOn s (tsdfTopics s) ms := by
  obtain ⟨a, ea, ha⟩ := tsdfVoxelsMsg_ok h.1
  obtain ⟨b, eb, hb⟩ := surfaceMsg_ok h.1
  obtain ⟨c, ec, hc⟩ := occupiedMsg_ok h.1
  obtain ⟨d, ed, hd⟩ := slicesIf_ok h
  refine ⟨[a, b, c] ++ d, by unfold tsdfPublish; rw [ea, Outcome.bind_ok, eb, Outcome.bind_ok, ec, Outcome.bind_ok, ed]; rfl, ?_⟩
  exact ((sent_one ha).append ((sent_one hb).append (sent_one hc))).append hd

theorem traversableIf_ok {s : Server} (ht : FitsLayer s.tsdf) (h : FitsLayer s.esdf) :
    ∃ ms, traversableIf s = .ok ms ∧ SentOn s (if s.traversable then [.traversable] else []) ms := by
  unfold traversableIf
  cases s.traversable
  · exact ⟨[], rfl, sent_nil s⟩
  · obtain ⟨w, θ, -, -, b1, b2⟩ := thresholds ht
    obtain ⟨E, h1, h2⟩ := C75_free_esdf s.radius h.1 h.2.1
    refine ⟨[(.traversable, .points s.frame E)], ?_, sent_one ⟨rfl, w, θ, b1, b2, rfl, h2⟩⟩
    rw [if_pos rfl, h1]
    rfl

/-- The topics of a server, in the order of publication. -/
def topics (s : Server) : List Topic :=
  match s.kind with
  | .tsdf => tsdfTopics s
  | .esdf => ([.esdfCloud] ++ (if s.slices then sliceTopics s else []) ++ if s.traversable then [.traversable] else []) ++ tsdfTopics s
  | .intensity => [.intensityCloud] ++ tsdfTopics s

theorem publish_ok {s : Server} (h : Fits s) : ∃ ms, publish s = .ok ms ∧ SentOn s (topics s) ms := by
  obtain ⟨d, ed, hd⟩ := tsdfPublish_ok h
  unfold publish topics
  cases s.kind with
  | tsdf => exact ⟨d, ed, hd⟩
  | esdf =>
    obtain ⟨a, ea, ha⟩ := esdfVoxelsMsg_ok h.1 h.2.1
    obtain ⟨b, eb, hb⟩ := slicesIf_ok h
    obtain ⟨c, ec, hc⟩ := traversableIf_ok h.1 h.2.1
    refine ⟨[a] ++ b ++ c ++ d, ?_, (((sent_one ha).append hb).append hc).append hd⟩
    show esdfPublish s = _
    unfold esdfPublish
    rw [ea, Outcome.bind_ok, eb, Outcome.bind_ok, ec, Outcome.bind_ok, ed]
    rfl
  | intensity =>
    obtain ⟨w, θ, hw, -, b1, b2⟩ := thresholds h.1
    obtain ⟨E, h1, h2⟩ := cloud_shows (vis := intensity) (f := fun v => if Fl.lt (.fin w) v.weight then some v.intensity else none) h.2.2.1 h.2.2.2.1
      fun v p => by unfold intensity; rw [hw]
    refine ⟨[(.intensityCloud, .points s.frame E)] ++ d, ?_, (sent_one (m := (.intensityCloud, .points s.frame E)) ⟨rfl, w, θ, b1, b2, rfl, h2⟩).append hd⟩
    show intensityPublish s = _
    unfold intensityPublish
    rw [h1, Outcome.bind_ok, ed]
    rfl

/-! ### What was received last -/

theorem latest_append {t : Topic} {ms ns : List Msg} (h : t ∈ ns.map (·.1)) : ∃ c, latest t (ms ++ ns) = some c ∧ (t, c) ∈ ns := by
  unfold latest
  rw [List.filter_append]
  have hne : ns.filter (fun m => m.1 = t) ≠ [] := by
    obtain ⟨m, hm, e⟩ := List.mem_map.1 h
    intro h0
    have := List.filter_eq_nil_iff.1 h0 m hm
    simp [e] at this
  rw [List.getLast?_append_of_ne_nil _ hne, List.getLast?_eq_some_getLast hne]
  refine ⟨_, rfl, ?_⟩
  have hm := List.getLast_mem hne
  generalize (ns.filter fun m => m.1 = t).getLast hne = x at hm
  obtain ⟨h1, h2⟩ := List.mem_filter.1 hm
  have e : x.1 = t := by simpa using h2
  rw [← e]
  exact h1

theorem latest_nothing {t : Topic} {ms ns : List Msg} (h : t ∉ ns.map (·.1)) : latest t (ms ++ ns) = latest t ms := by
  unfold latest
  have e : ns.filter (fun m => m.1 = t) = [] := by
    rw [List.filter_eq_nil_iff]
    intro m hm e
    exact h (List.mem_map.2 ⟨m, hm, by simpa using e⟩)
  rw [List.filter_append, e, List.append_nil]

theorem tsdf_topics_mem (s : Server) {t : Topic} (ht : t = .tsdfCloud ∨ t = .surface ∨ t = .occupied) : t ∈ topics s := by
  have : t ∈ tsdfTopics s := by unfold tsdfTopics; rcases ht with rfl | rfl | rfl <;> simp
  unfold topics
  cases s.kind
  · exact this
  · exact List.mem_append_right _ this
  · exact List.mem_append_right _ this

/-- Once published, the clouds are current. -/
theorem current_of_publish {s : Server} (h : Fits s) (past : List Msg) : ∃ ms, publish s = .ok ms ∧ Current s (past ++ ms) := by
  obtain ⟨ms, e, h1, h2⟩ := publish_ok h
  refine ⟨ms, e, fun t ht => ?_⟩
  obtain ⟨c, hc, hm⟩ := latest_append (ms := past) (ns := ms) (t := t) (by rw [h1]; exact tsdf_topics_mem s ht)
  exact ⟨c, hc, h2 _ hm⟩

end Vox.ServerClouds
