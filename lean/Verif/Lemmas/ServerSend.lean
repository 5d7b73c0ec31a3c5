/-
The meshes of a server can be sent.
-/
import Verif.Spec.ServerSend
import Verif.Lemmas.ServerMesh
import Verif.Lemmas.MeshColorMsg
import Verif.Lemmas.MeshBlockMsg

namespace Vox.ServerMesh

open Layer Grid MC MeshInt MeshOps Spec LayerMsg Export MeshMsg

variable {V : Type}

/-! ### The vertices -/

theorem axis_between {s : ℚ} (hs : 0 < s) {N : ℕ} (hN : 0 < N) {i v a b : ℤ} {t : ℚ} (hv : 0 ≤ v ∧ v < N) (ha : i * N + v ≤ a ∧ a ≤ i * N + v + 1)
    (hb : i * N + v ≤ b ∧ b ≤ i * N + v + 1) (h0 : 0 ≤ t) (h1 : t ≤ 1) :
    InCells (N * s) N i (s / 2 + s * a + t * ((s / 2 + s * b) - (s / 2 + s * a))) := by
  have hN' : (0 : ℚ) < N := by exact_mod_cast hN
  have e : (N : ℚ) * s / N = s := by field_simp
  have hv0 : (0 : ℚ) ≤ v := by exact_mod_cast hv.1
  have hv1 : (v : ℚ) + 1 ≤ N := by exact_mod_cast hv.2
  have a0 : (i : ℚ) * N + v ≤ a := by exact_mod_cast ha.1
  have a1 : (a : ℚ) ≤ i * N + v + 1 := by exact_mod_cast ha.2
  have b0 : (i : ℚ) * N + v ≤ b := by exact_mod_cast hb.1
  have b1 : (b : ℚ) ≤ i * N + v + 1 := by exact_mod_cast hb.2
  have c0 : (i : ℚ) * N ≤ a + t * (b - a) := by nlinarith
  have c1 : (a : ℚ) + t * (b - a) ≤ i * N + N := by nlinarith
  have e2 : s / 2 + s * a + t * ((s / 2 + s * b) - (s / 2 + s * a)) = s / 2 + s * (a + t * (b - a)) := by ring
  unfold InCells
  rw [e, e2]
  constructor
  · have := mul_le_mul_of_nonneg_left c0 hs.le
    nlinarith
  · have := mul_le_mul_of_nonneg_left c1 hs.le
    nlinarith

/-- Marching cubes puts the vertices of a block between its cell centres. -/
theorem vertex_cells {l : VLayer V} (wf : WellFormed l) {sdf : V → Option ℚ} {i : Idx} {e : GridEdge} (he : e ∈ blockEdges l sdf i) :
    InCells l.cfg.blockSize l.cfg.vps i.x (surfacePoint l sdf e).x ∧ InCells l.cfg.blockSize l.cfg.vps i.y (surfacePoint l sdf e).y ∧
      InCells l.cfg.blockSize l.cfg.vps i.z (surfacePoint l sdf e).z := by
  obtain ⟨v, hv, -, hedge, hs⟩ := mem_blockEdges he
  obtain ⟨h0, h1⟩ := edgeParam_range hs
  obtain ⟨d, d', hd, hd', e1, e2⟩ := edge_ends hedge
  have hp := wf.size_pos
  have hN := wf.side_pos
  have hbs : l.cfg.blockSize = l.cfg.vps * l.cfg.voxelSize := by
    unfold Cfg.blockSize; ring
  obtain ⟨vx, vy, vz⟩ := hv
  obtain ⟨dx, dy, dz⟩ := hd
  obtain ⟨dx', dy', dz'⟩ := hd'
  rw [hbs]
  unfold surfacePoint crossing lerp gridPoint
  rw [e1, e2]
  unfold edgeParam at h0 h1
  rw [e1, e2] at h0 h1
  refine ⟨axis_between hp hN vx ?_ ?_ h0 h1, axis_between hp hN vy ?_ ?_ h0 h1, axis_between hp hN vz ?_ ?_ h0 h1⟩ <;>
    simp only [globalIndex, Vec3.map₂, Vec3.add_x, Vec3.add_y, Vec3.add_z]
  · rcases dx with h | h <;> rw [h] <;> constructor <;> linarith
  · rcases dx' with h | h <;> rw [h] <;> constructor <;> linarith
  · rcases dy with h | h <;> rw [h] <;> constructor <;> linarith
  · rcases dy' with h | h <;> rw [h] <;> constructor <;> linarith
  · rcases dz with h | h <;> rw [h] <;> constructor <;> linarith
  · rcases dz' with h | h <;> rw [h] <;> constructor <;> linarith

/-! ### The normals -/

theorem component_le {x r q : ℚ} (hq : 0 < q) (hr : 0 ≤ r) (h : x * x + r ≤ 4 * (q * q)) : |x / q| ≤ 2 := by
  rw [abs_div, abs_of_pos hq, div_le_iff₀ hq]
  exact abs_le_of_sq_le_sq (by nlinarith) (by linarith)

theorem normalized_good {sq : ℚ → Fl} (hs : NearSqrt sq) (v : Pt) : GoodNormal (Occ.normalized (Arith.exact sq) (v.map .fin)) := by
  have e : (Arith.exact sq).dot (v.map .fin) (v.map .fin) = .fin (v.x * v.x + v.y * v.y + v.z * v.z) := rfl
  have x0 := mul_self_nonneg v.x
  have y0 := mul_self_nonneg v.y
  have z0 := mul_self_nonneg v.z
  unfold Occ.normalized
  rw [e]
  by_cases hz : 0 < v.x * v.x + v.y * v.y + v.z * v.z
  · rw [if_pos (by simpa [Fl.lt] using hz)]
    obtain ⟨q, hq, q0, q1⟩ := hs _ hz
    have e2 : (Arith.exact sq).sqrtFl (.fin (v.x * v.x + v.y * v.y + v.z * v.z)) = .fin q := by
      show (if 0 ≤ v.x * v.x + v.y * v.y + v.z * v.z then sq (v.x * v.x + v.y * v.y + v.z * v.z) else Fl.nan) = _
      rw [if_pos hz.le, hq]
    have d : ∀ a : ℚ, (Arith.exact sq).div (.fin a) (.fin q) = .fin (a / q) := fun a => by
      show (if q = 0 then Fl.infOfSign a else Fl.fin (a / q)) = _
      rw [if_neg q0.ne']
    rw [e2]
    refine ⟨⟨_, d _, component_le (r := v.y * v.y + v.z * v.z) q0 (by linarith) (by linarith)⟩,
      ⟨_, d _, component_le (r := v.x * v.x + v.z * v.z) q0 (by linarith) (by linarith)⟩,
      ⟨_, d _, component_le (r := v.x * v.x + v.y * v.y) q0 (by linarith) (by linarith)⟩⟩
  · rw [if_neg (by simpa [Fl.lt] using hz)]
    have h1 : v.x = 0 := mul_self_eq_zero.1 (by linarith)
    have h2 : v.y = 0 := mul_self_eq_zero.1 (by linarith)
    have h3 : v.z = 0 := mul_self_eq_zero.1 (by linarith)
    exact ⟨⟨v.x, rfl, by rw [h1]; norm_num⟩, ⟨v.y, rfl, by rw [h2]; norm_num⟩, ⟨v.z, rfl, by rw [h3]; norm_num⟩⟩

theorem triNormal_good {sq : ℚ → Fl} (hs : NearSqrt sq) (a b c : Pt) : GoodNormal (triNormal (Arith.exact sq) (a.map .fin) (b.map .fin) (c.map .fin)) := by
  unfold triNormal
  exact normalized_good hs ⟨(b.y + -a.y) * (c.z + -a.z) + -((b.z + -a.z) * (c.y + -a.y)), (b.z + -a.z) * (c.x + -a.x) + -((b.x + -a.x) * (c.z + -a.z)),
    (b.x + -a.x) * (c.y + -a.y) + -((b.y + -a.y) * (c.x + -a.x))⟩

/-! ### Sending one mesh -/

theorem blockMesh_sendable {env : Env V} {l : VLayer V} (hc : CanSend env l.cfg) (i : Idx) :
    Sendable env.mode (blockMesh env.E.sq env.useColor l env.fns i) := by
  constructor
  · intro h
    simp [blockMesh, hc.colors h]
  · intro h
    constructor
    · simp [blockMesh, triNormals_length, blockEdges_length]
    · intro n hn
      simp only [blockMesh, triNormals, List.mem_flatMap, List.mem_replicate] at hn
      obtain ⟨t, -, -, rfl⟩ := hn
      exact triNormal_good (hc.normals h) _ _ _

theorem blockMesh_sent {env : Env V} {l : VLayer V} (hc : CanSend env l.cfg) (wf : WellFormed l) (hn : NearOrigin l) {i : Idx}
    (hi : (block? l i).isSome = true) : ∃ b, encodeBlock env.inv env.mode i (blockMesh env.E.sq env.useColor l env.fns i) = .ok b := by
  rw [hc.inv]
  refine (encode_defined (blockMesh_sendable hc i)).2 fun v hv => ?_
  obtain ⟨e, he, rfl⟩ := List.mem_map.1 hv
  obtain ⟨hx, hy, hz⟩ := vertex_cells wf he
  obtain ⟨nx, ny, nz⟩ := hn i hi
  exact cells_ok hc.size hc.side nx ny nz hx hy hz

/-! ### Sending all -/

/-- Every mesh of the layer can be sent. -/
def AllSend (env : Env V) (ml : MeshMap) : Prop := ∀ i m, ml.lookup i = some m → ∃ b, encodeBlock env.inv env.mode i m = .ok b

theorem encode_mark (inv : Fl) (mode : ColorMode) (i : Idx) (m : Mesh) (u : Bool) : encodeBlock inv mode i { m with updated := u } = encodeBlock inv mode i m := rfl

theorem encode_empty (inv : Fl) (mode : ColorMode) (i : Idx) {m : Mesh} (h : m.vertices = []) : ∃ b, encodeBlock inv mode i m = .ok b := by
  unfold encodeBlock
  rw [h]
  exact ⟨_, rfl⟩

theorem sendBlock_succeeds {env : Env V} {bs : List MeshBlock} {ml : MeshMap} (h : AllSend env ml) {i : Idx} (hi : (ml.lookup i).isSome = true) :
    ∃ st, sendBlock env.inv env.mode (bs, ml) i = .ok st ∧ AllSend env st.2 ∧ ∀ j, j ≠ i → st.2.lookup j = ml.lookup j := by
  obtain ⟨m, hm⟩ := Option.isSome_iff_exists.1 hi
  obtain ⟨b, hb⟩ := h i m hm
  have e : sendBlock env.inv env.mode (bs, ml) i =
      .ok (bs ++ [b], if m.vertices.isEmpty then ml.filter fun e => e.1 ≠ i else setMesh ml i { m with updated := false }) := by
    unfold sendBlock
    dsimp only
    rw [hm]
    dsimp only
    rw [hb]
    rfl
  refine ⟨_, e, ?_, ?_⟩
  · intro j m' hj
    dsimp only at hj
    split_ifs at hj
    · rw [Layer.lookup_filter_key] at hj
      split_ifs at hj
      exact h j m' hj
    · rw [lookup_setMesh] at hj
      split_ifs at hj with hji
      · rw [hji, hm] at hj
        obtain rfl := Option.some.inj hj
        subst hji
        exact ⟨b, hb⟩
      · exact h j m' hj
  · intro j hj
    dsimp only
    split_ifs
    · rw [Layer.lookup_filter_key]
      simp [hj]
    · rw [lookup_setMesh, if_neg hj]

theorem sendBlocks_succeed {env : Env V} : ∀ (ks : List Idx) (bs : List MeshBlock) (ml : MeshMap), AllSend env ml → ks.Nodup →
    (∀ i ∈ ks, (ml.lookup i).isSome = true) → ∃ st, ks.foldlM (sendBlock env.inv env.mode) (bs, ml) = .ok st ∧ AllSend env st.2
  | [], bs, ml, h, _, _ => ⟨(bs, ml), rfl, h⟩
  | i :: ks, bs, ml, h, hn, hk => by
    obtain ⟨st1, e1, h1, l1⟩ := sendBlock_succeeds (bs := bs) h (hk i List.mem_cons_self)
    rw [List.nodup_cons] at hn
    obtain ⟨st, e2, h2⟩ := sendBlocks_succeed ks st1.1 st1.2 h1 hn.2 fun j hj => by
      rw [l1 j (fun e => hn.1 (e ▸ hj))]
      exact hk j (List.mem_cons_of_mem _ hj)
    exact ⟨st, by rw [List.foldlM_cons, e1, Outcome.bind_ok, e2], h2⟩

theorem generateMsg_succeeds {env : Env V} {ml : MeshMap} (hk : MeshKeys ml) (h : AllSend env ml) :
    ∃ msg ml', generateMsg env.edge env.inv env.mode ml = .ok (msg, ml') ∧ AllSend env ml' := by
  have hnd : ((ml.filter fun e => e.2.updated).map (·.1)).Nodup := (List.filter_sublist.map _).nodup hk
  obtain ⟨st, e, h'⟩ := sendBlocks_succeed ((ml.filter fun e => e.2.updated).map (·.1)) [] ml h hnd (by
    intro i hi
    obtain ⟨⟨j, m⟩, hj, rfl⟩ := List.mem_map.1 hi
    rw [(Layer.lookup_mem_iff hk).2 (List.mem_filter.1 hj).1]
    rfl)
  exact ⟨⟨env.edge, st.1⟩, st.2, by unfold generateMsg; dsimp only; rw [e]; rfl, h'⟩

/-- Meshing and sending succeeds. -/
theorem meshes_and_sends {env : Env V} {only : Bool} {s : State V} (hc : CanSend env s.map.cfg) (hn : NearOrigin s.map) (hm : MapSound s.map)
    (hk : MeshKeys s.meshes) (hs : AllSend env s.meshes) :
    ∃ msg s', (do
      let r ← MeshInt.generateMesh env.E.sq env.useColor env.fns true only true (s.map, s.meshes)
      let m ← MeshMsg.generateMsg env.edge env.inv env.mode r.2
      pure (m.1, (⟨r.1, m.2⟩ : State V)) : Outcome (MeshMsg.Msg × State V)) = .ok (msg, s') ∧ AllSend env s'.meshes := by
  obtain ⟨l1, ml1, e1, e2, e3, e4⟩ := generateMesh_ok env.E.sq env.useColor env.fns true only true hm.wf hm.nodup hm.range (fun _ => rfl) s.meshes
  have hs1 : AllSend env ml1 := by
    intro i m hi
    rw [e3] at hi
    split_ifs at hi with hb
    · obtain rfl := Option.some.inj hi
      rw [mem_blocksToMesh hm.nodup] at hb
      obtain ⟨b, hb, -⟩ := hb
      exact blockMesh_sent hc hm.wf hn (by rw [hb]; rfl)
    · exact hs i m hi
  obtain ⟨msg, ml2, e5, h2⟩ := generateMsg_succeeds (generate_keys hk e1) hs1
  refine ⟨msg, ⟨l1, ml2⟩, ?_, h2⟩
  rw [e1, Outcome.bind_ok]
  dsimp only
  rw [e5]
  rfl

/-! ### Runs -/

theorem receive_cfg {env : Env V} {m : LayerMsg.Msg} {s s' : State V} (hm : MapSound s.map) (hT : Decodes env.T.codec)
    (h : receive env m s = .ok s') : s'.map.cfg = s.map.cfg := by
  unfold receive MapServer.mapCallback deserializeMsg deserializeLayer at h
  obtain ⟨l, h0, h⟩ := Outcome.bind_eq_ok.1 h
  obtain rfl := Outcome.ok.inj h
  obtain ⟨⟨l', f⟩, h1, h2⟩ := Outcome.bind_eq_ok.1 h0
  clear h0
  obtain rfl := Outcome.ok.inj h2
  dsimp only
  by_cases c1 : env.T.name ≠ m.layerType
  · rw [if_pos c1] at h1
    obtain ⟨rfl, -⟩ := Prod.mk.inj (Outcome.ok.inj h1)
    rfl
  by_cases c2 : sizesDiffer env.ar m s.map = true
  · rw [if_neg c1, if_pos c2] at h1
    obtain ⟨rfl, -⟩ := Prod.mk.inj (Outcome.ok.inj h1)
    rfl
  · rw [if_neg c1, if_neg c2] at h1
    obtain ⟨B', h3, h1⟩ := Outcome.bind_eq_ok.1 h1
    obtain ⟨-, -, h1⟩ := Outcome.bind_eq_ok.1 h1
    obtain ⟨rfl, -⟩ := Prod.mk.inj (Outcome.ok.inj h1)
    have key : ∀ B : VLayer V, WellFormed B → (B.blocks.map (·.1)).Nodup → B.cfg = s.map.cfg → m.blocks.foldlM (applyBlock env.T m.action) B = .ok B' →
        B'.cfg = s.map.cfg := by
      intro B wb nb hB h4
      have hany := (applyBlocks_any env.T hT m.action m.blocks wb nb).1
      rw [h4] at hany
      rcases hany with hany | ⟨B1, h5, c4, -⟩
      · cases hany
      · obtain rfl := Outcome.ok.inj h5
        rw [c4, hB]
    by_cases ha : m.action = 2
    · rw [if_pos ha] at h3
      exact key ⟨s.map.cfg, []⟩ ⟨hm.wf.size_pos, hm.wf.side_pos, hm.wf.side_le, by simp⟩ (by simp) rfl h3
    · rw [if_neg ha] at h3
      exact key _ hm.wf hm.nodup rfl h3

theorem step_cfg {env : Env V} {s s' : State V} {e : Event V} (h : Sound env s) (ha : Admissible env s e) (hs : step env s e = .ok s') :
    s'.map.cfg = s.map.cfg := by
  cases e with
  | change new =>
    obtain rfl := Outcome.ok.inj hs
    exact MarkedChange.cfg ha
  | cloud new center =>
    obtain rfl := Outcome.ok.inj hs
    show new.cfg = s.map.cfg
    exact MarkedChange.cfg ha
  | update =>
    obtain ⟨⟨msg, s1⟩, h1, h2⟩ := Outcome.bind_eq_ok.1 hs
    obtain rfl := Outcome.ok.inj h2
    exact (mesh_and_send h.map h.keys h.soups h1).1.cfg.symm
  | generate =>
    obtain ⟨⟨msg, s1⟩, h1, h2⟩ := Outcome.bind_eq_ok.1 hs
    obtain rfl := Outcome.ok.inj h2
    exact (mesh_and_send h.map h.keys h.soups h1).1.cfg.symm
  | clear =>
    obtain rfl := Outcome.ok.inj hs
    rfl
  | receive m =>
    exact receive_cfg h.map ha.2 hs

theorem run_cfg {env : Env V} {s₀ s : State V} {es : List (Event V)} (h0 : Fresh s₀) (h : ServerRun env s₀ es s) : s.map.cfg = s₀.map.cfg := by
  induction h with
  | start => rfl
  | step e h ha hs ih => rw [step_cfg (run_sound h0 h) ha hs, ih]

theorem step_sends {env : Env V} {s s' : State V} {e : Event V} (hc : CanSend env s.map.cfg) (hn : NearOrigin s.map) (h : Sound env s)
    (hse : AllSend env s.meshes) (ha : Admissible env s e) (hs : step env s e = .ok s') : AllSend env s'.meshes := by
  cases e with
  | change new =>
    obtain rfl := Outcome.ok.inj hs
    exact hse
  | cloud new center =>
    obtain rfl := Outcome.ok.inj hs
    intro i m hi
    have hi : (clearDistant new.cfg s.meshes center env.maxDistance).lookup i = some m := hi
    rw [clearDistant_lookup] at hi
    obtain ⟨m0, h0, rfl⟩ := Option.map_eq_some_iff.1 hi
    split_ifs
    · exact encode_empty _ _ _ rfl
    · exact hse i m0 h0
  | update =>
    obtain ⟨⟨msg, s1⟩, h1, h2⟩ := Outcome.bind_eq_ok.1 hs
    obtain rfl := Outcome.ok.inj h2
    obtain ⟨msg', s2, e2, h3⟩ := meshes_and_sends (only := true) hc hn h.map h.keys hse
    unfold updateMesh at h1
    rw [h1] at e2
    obtain ⟨-, rfl⟩ := Prod.mk.inj (Outcome.ok.inj e2)
    exact h3
  | generate =>
    obtain ⟨⟨msg, s1⟩, h1, h2⟩ := Outcome.bind_eq_ok.1 hs
    obtain rfl := Outcome.ok.inj h2
    obtain ⟨msg', s2, e2, h3⟩ := meshes_and_sends (only := false) hc hn h.map h.keys hse
    unfold remesh at h1
    rw [h1] at e2
    obtain ⟨-, rfl⟩ := Prod.mk.inj (Outcome.ok.inj e2)
    exact h3
  | clear =>
    obtain rfl := Outcome.ok.inj hs
    intro i m hi
    cases hi
  | receive m =>
    obtain ⟨a, -⟩ := receive_ok h.map ha.1 ha.2 hs
    rw [a]
    exact hse

theorem run_sends {env : Env V} {s₀ s : State V} {es : List (Event V)} (h0 : Fresh s₀) (h : ServerRun env s₀ es s) (hc : CanSend env s₀.map.cfg)
    (hn : StaysNear env s₀ es) : AllSend env s.meshes := by
  induction h with
  | start =>
    rw [h0.2.2]
    intro i m hi
    cases hi
  | step e h ha hs ih =>
    have hn' : StaysNear env s₀ _ := fun es₁ s₁ hp hr => hn es₁ s₁ (hp.trans (List.prefix_append _ _)) hr
    refine step_sends ?_ (hn' _ _ (List.prefix_refl _) h) (run_sound h0 h) (ih hn') ha hs
    rw [run_cfg h0 h]
    exact hc

end Vox.ServerMesh
