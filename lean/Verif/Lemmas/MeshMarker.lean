/-
Markers and point clouds of a mesh layer.
-/
import Verif.Lemmas.MarkerColor
import Verif.Lemmas.HeightColor

namespace Vox.MeshMsg

open MC MeshInt Spec Ieee

/-! ### One vertex -/

theorem vertex_tint {mode : ColorMode} {m : Mesh} (hm : Markable mode m) {k : ℕ} {v : Vec3 Fl} (hv : m.vertices[k]? = some v) :
    ∃ c a, vertexColor m mode k = .ok c ∧ vertexAlpha m mode k = .ok a ∧ Tint m k (c, a) mode ∧ Converts c := by
  have hk : k < m.vertices.length := (List.getElem?_eq_some_iff.1 hv).1
  cases mode with
  | color =>
    have h := hm.colors (by simp)
    have ho : m.colors[k]? = some (m.colors[k]'(by omega)) := List.getElem?_eq_getElem (by omega)
    generalize m.colors[k]'(by omega) = o at ho
    refine ⟨colorToMsg o, channelToMsg o.a, ?_, ?_, ⟨o, ho, channel_near _, channel_near _, channel_near _, channel_near _⟩,
      ⟨_, channel_msg _⟩, ⟨_, channel_msg _⟩, ⟨_, channel_msg _⟩⟩
    · unfold vertexColor; dsimp only; rw [some_at ho]; rfl
    · unfold vertexAlpha; dsimp only; rw [some_at ho]; rfl
  | height =>
    obtain ⟨z, hz⟩ := hm.heights rfl v (List.mem_of_getElem? hv)
    obtain ⟨c, hc, tr, tg, tb⟩ := heightColor_tint z
    refine ⟨colorToMsg c, channelToMsg 255, ?_, rfl, ⟨v, z, hv, hz, tr, tg, tb, alpha_255⟩,
      ⟨_, channel_msg _⟩, ⟨_, channel_msg _⟩, ⟨_, channel_msg _⟩⟩
    unfold vertexColor; dsimp only
    rw [some_at hv, Outcome.bind_ok, hz, hc]
  | normals =>
    have h := hm.normals (by simp)
    have hn : m.normals[k]? = some (m.normals[k]'(by omega)) := List.getElem?_eq_getElem (by omega)
    obtain ⟨w, hw, w1, w2, w3⟩ := h.2 _ (List.mem_of_getElem? hn)
    rw [hw] at hn
    have c1 := normal_channel w1
    have c2 := normal_channel w2
    have c3 := normal_channel w3
    have a1 := abs_le.1 w1
    have a2 := abs_le.1 w2
    have a3 := abs_le.1 w3
    refine ⟨normalColor (w.map .fin), .fin 1, ?_, rfl, ⟨w, hn, c1, c2, c3, rfl⟩, converts_near c1 (by linarith) (by linarith),
      converts_near c2 (by linarith) (by linarith), converts_near c3 (by linarith) (by linarith)⟩
    unfold vertexColor; dsimp only; rw [some_at hn]; rfl
  | gray =>
    refine ⟨_, _, rfl, rfl, rfl, ?_, ?_, ?_⟩ <;> exact fromMsg_defined (by norm_num) (by norm_num)
  | lambert =>
    have h := hm.normals (by simp)
    have hn : m.normals[k]? = some (m.normals[k]'(by omega)) := List.getElem?_eq_getElem (by omega)
    obtain ⟨l1, l2, l3⟩ := lambert_channels ⟨127, 127, 127, 255⟩ (good_of_near (h.2 _ (List.mem_of_getElem? hn)))
    refine ⟨_, .fin 1, ?_, rfl, ⟨l1, l2, l3, rfl⟩, converts_channel (by norm_num) l1, converts_channel (by norm_num) l2,
      converts_channel (by norm_num) l3⟩
    unfold vertexColor; dsimp only; rw [some_at hn]; rfl
  | lambertColor =>
    have h := hm.normals (by simp)
    have h' := hm.colors (by simp)
    have hn : m.normals[k]? = some (m.normals[k]'(by omega)) := List.getElem?_eq_getElem (by omega)
    have ho : m.colors[k]? = some (m.colors[k]'(by omega)) := List.getElem?_eq_getElem (by omega)
    obtain ⟨l1, l2, l3⟩ := lambert_channels (m.colors[k]'(by omega)) (good_of_near (h.2 _ (List.mem_of_getElem? hn)))
    refine ⟨_, .fin 1, ?_, rfl, ⟨l1, l2, l3, rfl⟩, converts_channel (by norm_num) l1, converts_channel (by norm_num) l2,
      converts_channel (by norm_num) l3⟩
    unfold vertexColor; dsimp only; rw [some_at ho, Outcome.bind_ok, some_at hn]; rfl

/-! ### One mesh -/

theorem canColor_ok {mode : ColorMode} {m : Mesh} (hm : Markable mode m) (h : m.vertices ≠ []) : canColor mode m = .ok () := by
  have hl : 0 < m.vertices.length := List.length_pos_iff.2 h
  have hc : mode = .color ∨ mode = .lambertColor → m.colors.isEmpty = false := fun hx => by
    have := hm.colors hx
    simpa using List.ne_nil_of_length_pos (by omega : 0 < m.colors.length)
  have hn : mode = .normals ∨ mode = .lambert ∨ mode = .lambertColor → m.normals.isEmpty = false := fun hx => by
    have := (hm.normals hx).1
    simpa using List.ne_nil_of_length_pos (by omega : 0 < m.normals.length)
  unfold canColor Outcome.check
  cases mode <;> simp_all [Outcome.bind_ok]

theorem range_vertices {α : Type} (l : List α) : List.Forall₂ (fun k v => l[k]? = some v) (List.range l.length) l := by
  rw [List.forall₂_iff_get]
  refine ⟨by simp, fun i h1 h2 => ?_⟩
  simp

theorem fold_marker {mode : ColorMode} {m : Mesh} (hm : Markable mode m) {ks : List ℕ} {vs : List (Vec3 Fl)}
    (h : List.Forall₂ (fun k v => m.vertices[k]? = some v) ks vs) : ∀ mk : Marker, ∃ cs,
      ks.foldlM (markerVertex mode m) mk = .ok ⟨mk.points ++ vs, mk.colors ++ cs⟩ ∧ List.Forall₂ (fun k c => Tint m k c mode) ks cs := by
  induction h with
  | nil => intro mk; exact ⟨[], by simp [Outcome.pure_eq], .nil⟩
  | @cons k v ks vs hv _ ih =>
    intro mk
    obtain ⟨c, a, h1, h2, h3, -⟩ := vertex_tint hm hv
    obtain ⟨cs, e, t⟩ := ih ⟨mk.points ++ [v], mk.colors ++ [(c, a)]⟩
    refine ⟨(c, a) :: cs, ?_, .cons h3 t⟩
    have e1 : markerVertex mode m mk k = .ok ⟨mk.points ++ [v], mk.colors ++ [(c, a)]⟩ := by
      unfold markerVertex
      rw [some_at hv, Outcome.bind_ok, h1, Outcome.bind_ok, h2]
      rfl
    rw [List.foldlM_cons, e1, Outcome.bind_ok, e]
    simp

theorem fold_cloud {mode : ColorMode} {m : Mesh} (hm : Markable mode m) {ks : List ℕ} {vs : List (Vec3 Fl)}
    (h : List.Forall₂ (fun k v => m.vertices[k]? = some v) ks vs) : ∀ acc : RgbCloud, ∃ cs,
      ks.foldlM (cloudVertex mode m) acc = .ok (acc ++ vs.zip cs) ∧ cs.length = vs.length ∧
        (mode = .color → List.Forall₂ (fun k c => ∃ o, m.colors[k]? = some o ∧ c = ⟨o.r, o.g, o.b⟩) ks cs) := by
  induction h with
  | nil => intro acc; exact ⟨[], by simp [Outcome.pure_eq], rfl, fun _ => .nil⟩
  | @cons k v ks vs hv _ ih =>
    intro acc
    obtain ⟨c, a, h1, h2, h3, ⟨r, hr⟩, ⟨g, hg⟩, ⟨b, hb⟩⟩ := vertex_tint hm hv
    obtain ⟨cs, e, t, t'⟩ := ih (acc ++ [(v, ⟨r, g, b⟩)])
    refine ⟨⟨r, g, b⟩ :: cs, ?_, by simp [t], fun hc => .cons ?_ (t' hc)⟩
    · have e1 : cloudVertex mode m acc k = .ok (acc ++ [(v, ⟨r, g, b⟩)]) := by
        unfold cloudVertex
        rw [some_at hv, Outcome.bind_ok, h1, Outcome.bind_ok, hr, Outcome.bind_ok, hg, Outcome.bind_ok, hb]
        rfl
      rw [List.foldlM_cons, e1, Outcome.bind_ok, e]
      simp
    · subst hc
      unfold vertexColor at h1
      dsimp only at h1
      obtain ⟨o, ho, h1⟩ := Outcome.bind_eq_ok.1 h1
      obtain rfl := Outcome.ok.inj h1
      refine ⟨o, ?_, ?_⟩
      · unfold MeshOps.at_ at ho
        split at ho
        · next x hx => rw [hx, Outcome.ok.inj ho]
        · cases ho
      · rw [← Outcome.ok.inj ((channel_msg o.r).symm.trans hr), ← Outcome.ok.inj ((channel_msg o.g).symm.trans hg),
          ← Outcome.ok.inj ((channel_msg o.b).symm.trans hb)]

theorem addMesh_marker {mode : ColorMode} {m : Mesh} (hm : Markable mode m) (mk : Marker) : ∃ cs,
    addMesh mode (markerVertex mode) mk m = .ok ⟨mk.points ++ m.vertices, mk.colors ++ cs⟩ ∧
      List.Forall₂ (fun k c => Tint m k c mode) (List.range m.vertices.length) cs := by
  unfold addMesh
  by_cases h : m.vertices = []
  · rw [if_pos (by simp [h]), h]
    exact ⟨[], by simp, .nil⟩
  · rw [if_neg (by simpa using h), canColor_ok hm h, Outcome.bind_ok]
    exact fold_marker hm (range_vertices _) mk

theorem addMesh_cloud {mode : ColorMode} {m : Mesh} (hm : Markable mode m) (acc : RgbCloud) : ∃ cs,
    addMesh mode (cloudVertex mode) acc m = .ok (acc ++ m.vertices.zip cs) ∧ cs.length = m.vertices.length ∧
        (mode = .color → List.Forall₂ (fun k c => ∃ o, m.colors[k]? = some o ∧ c = ⟨o.r, o.g, o.b⟩) (List.range m.vertices.length) cs) := by
  unfold addMesh
  by_cases h : m.vertices = []
  · rw [if_pos (by simp [h]), h]
    exact ⟨[], by simp, rfl, fun _ => .nil⟩
  · rw [if_neg (by simpa using h), canColor_ok hm h, Outcome.bind_ok]
    exact fold_cloud hm (range_vertices _) acc

/-! ### All meshes -/

theorem forall₂_corner {γ : Type} {P : Mesh × ℕ → γ → Prop} {m : Mesh} {ks : List ℕ} {cs : List γ}
    (h : List.Forall₂ (fun k c => P (m, k) c) ks cs) : List.Forall₂ P (ks.map fun k => (m, k)) cs := by
  induction h with
  | nil => exact .nil
  | cons h _ ih => exact .cons h ih

theorem fillMarker_ok {mode : ColorMode} : ∀ {ml : MeshMap}, (∀ e ∈ ml, Markable mode e.2) → ∀ mk, ∃ cs,
    fillMarker mode ml mk = .ok ⟨mk.points ++ ml.flatMap (·.2.vertices), mk.colors ++ cs⟩ ∧
      List.Forall₂ (fun p c => Tint p.1 p.2 c mode) (cornersOf ml) cs
  | [], _, mk => ⟨[], by simp [fillMarker, Outcome.pure_eq], .nil⟩
  | e :: ml, h, mk => by
    obtain ⟨cs, h1, h2⟩ := addMesh_marker (h e (by simp)) mk
    obtain ⟨cs', h3, h4⟩ := fillMarker_ok (ml := ml) (fun e he => h e (List.mem_cons_of_mem _ he)) ⟨mk.points ++ e.2.vertices, mk.colors ++ cs⟩
    refine ⟨cs ++ cs', ?_, ?_⟩
    · unfold fillMarker at h3 ⊢
      rw [List.foldlM_cons, h1, Outcome.bind_ok, h3]
      simp
    · unfold cornersOf at h4 ⊢
      rw [List.flatMap_cons]
      exact List.rel_append (forall₂_corner h2) h4

theorem fillCloud_ok {mode : ColorMode} : ∀ {ml : MeshMap}, (∀ e ∈ ml, Markable mode e.2) → ∀ acc : RgbCloud, ∃ cs,
    ml.foldlM (fun acc e => addMesh mode (cloudVertex mode) acc e.2) acc = .ok (acc ++ (ml.flatMap (·.2.vertices)).zip cs) ∧
      cs.length = (ml.flatMap (·.2.vertices)).length ∧
      (mode = .color → List.Forall₂ (fun p c => ∃ o, p.1.colors[p.2]? = some o ∧ c = ⟨o.r, o.g, o.b⟩) (cornersOf ml) cs)
  | [], _, acc => ⟨[], by simp [Outcome.pure_eq], rfl, fun _ => .nil⟩
  | e :: ml, h, acc => by
    obtain ⟨cs, h1, h2, h2'⟩ := addMesh_cloud (h e (by simp)) acc
    obtain ⟨cs', h3, h4, h4'⟩ := fillCloud_ok (ml := ml) (fun e he => h e (List.mem_cons_of_mem _ he)) (acc ++ e.2.vertices.zip cs)
    refine ⟨cs ++ cs', ?_, ?_, fun hc => ?_⟩
    · rw [List.foldlM_cons, h1, Outcome.bind_ok, h3, List.flatMap_cons, List.zip_append h2.symm, List.append_assoc]
    · rw [List.flatMap_cons, List.length_append, List.length_append, h2, h4]
    · have := h4' hc
      unfold cornersOf at this ⊢
      rw [List.flatMap_cons]
      exact List.rel_append (forall₂_corner (P := fun (p : Mesh × ℕ) (c : Vec3 (BitVec 8)) => ∃ o, p.1.colors[p.2]? = some o ∧ c = ⟨o.r, o.g, o.b⟩) (h2' hc)) this

/-! ### Triangles -/

theorem soup_positions {colored : Bool} {m : Mesh} (h : TriangleSoup colored m) : positions m = m.vertices.map some := by
  unfold positions
  rw [h.indices]
  apply List.ext_getElem
  · simp
  · intro i h1 h2
    simp

theorem faces_triples {colored : Bool} : ∀ {ml : MeshMap}, (∀ e ∈ ml, TriangleSoup colored e.2) →
    triples ((ml.flatMap (·.2.vertices)).map some) = facesOf ml
  | [], _ => rfl
  | e :: ml, h => by
    have ih := faces_triples fun e he => h e (List.mem_cons_of_mem _ he)
    have he := h e List.mem_cons_self
    unfold facesOf at ih ⊢
    rw [List.flatMap_cons, List.flatMap_cons, List.map_append, MeshOps.triples_append _ _ (by simpa using he.three), ih, soup_positions he]

end Vox.MeshMsg
