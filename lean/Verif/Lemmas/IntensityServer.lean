/-
Lemmas on the intensity server.
-/
import Verif.Spec.IntensityServer
import Verif.Lemmas.ServerMesh
import Verif.Lemmas.IntensityVis
import Verif.Lemmas.Setup

namespace Vox.IntensityServer

open Layer Grid Ieee MeshMsg MC MeshInt Spec IntensitySpec

variable {V : Type}

/-! ### Nothing left to send -/

/-- No block and no mesh is marked. -/
def Quiet (s : ServerMesh.State V) : Prop := (∀ e ∈ s.map.blocks, e.2.updated.get .mesh = false) ∧ ∀ e ∈ s.meshes, e.2.updated = false

theorem mem_lookup {α : Type} {l : List (Idx × α)} (hn : (l.map (·.1)).Nodup) {e : Idx × α} (h : e ∈ l) : l.lookup e.1 = some e.2 := by
  induction l with
  | nil => cases h
  | cons a l ih =>
    obtain ⟨k, v⟩ := a
    rw [List.map_cons, List.nodup_cons] at hn
    rcases List.mem_cons.1 h with rfl | h
    · simp
    · have hne : e.1 ≠ k := fun c => hn.1 (List.mem_map.2 ⟨e, h, c⟩)
      rw [List.lookup_cons, beq_false_of_ne hne]
      exact ih hn.2 h

/-- After meshing and sending nothing is left. -/
theorem quiet_after {env : ServerMesh.Env V} {only : Bool} {s s' : ServerMesh.State V} {msg : Msg} (h : ServerMesh.Sound env s)
    (e : (do
      let r ← MeshInt.generateMesh env.E.sq env.useColor env.fns true only true (s.map, s.meshes)
      let m ← MeshMsg.generateMsg env.edge env.inv env.mode r.2
      pure (m.1, (⟨r.1, m.2⟩ : ServerMesh.State V)) : Outcome (Msg × ServerMesh.State V)) = .ok (msg, s')) : Quiet s' := by
  obtain ⟨a, b, -, -, d⟩ := ServerMesh.mesh_and_send h.map h.keys h.soups e
  have hs := h.map.same a
  constructor
  · intro x hx
    have hb : block? s'.map x.1 = some x.2 := mem_lookup hs.nodup hx
    have hd := d x.1
    unfold flagOf at hd
    rw [hb] at hd
    cases h0 : block? s.map x.1 with
    | none => rw [h0] at hd; cases hd
    | some b0 =>
      rw [h0] at hd
      have hd := Option.some.inj hd
      dsimp only at hd
      rw [hd]
      split
      · rfl
      · next hni =>
        cases hf : b0.updated.get .mesh with
        | false => rfl
        | true => exact absurd ((mem_blocksToMesh h.map.nodup only x.1).2 ⟨b0, h0, fun _ => hf⟩) hni
  · obtain ⟨r, hr, e⟩ := Outcome.bind_eq_ok.1 e
    obtain ⟨m, hm, e⟩ := Outcome.bind_eq_ok.1 e
    obtain rfl := (Prod.mk.inj (Outcome.ok.inj e)).2
    unfold generateMsg at hm
    obtain ⟨st, hst, hm⟩ := Outcome.bind_eq_ok.1 hm
    have hk : MeshKeys r.2 := ServerMesh.generate_keys h.keys (show _ = Outcome.ok (r.1, r.2) from hr)
    have hnd : ((r.2.filter fun e => e.2.updated).map (·.1)).Nodup := (List.filter_sublist.map _).nodup hk
    obtain ⟨new, -, -, hl, -⟩ := MeshMsg.exchange (edge := env.edge) _ _ _ _ hnd hst
    obtain rfl := (Outcome.ok.inj hm).symm
    intro x hx
    have hx2 : st.2.lookup x.1 = some x.2 := mem_lookup b hx
    rw [hl] at hx2
    split at hx2
    · cases h0 : r.2.lookup x.1 with
      | none => rw [h0] at hx2; cases hx2
      | some m0 =>
        rw [h0, Option.bind_some] at hx2
        split at hx2
        · cases hx2
        · obtain h := Option.some.inj hx2
          rw [← h]
    · next hni =>
      cases hf : x.2.updated with
      | false => rfl
      | true =>
        refine absurd (List.mem_map.2 ⟨x, List.mem_filter.2 ⟨?_, hf⟩, rfl⟩) hni
        obtain ⟨l1, l2, e, -⟩ := List.lookup_eq_some_iff.1 hx2
        rw [e]
        simp

/-- Then an update changes nothing and sends an empty message. -/
theorem quiet_update (env : ServerMesh.Env V) {s : ServerMesh.State V} (h : Quiet s) : ServerMesh.updateMesh env s = .ok (⟨env.edge, []⟩, s) := by
  have h1 : blocksToMesh true s.map = [] := by
    unfold blocksToMesh
    rw [if_pos rfl, List.filter_eq_nil_iff.2 (fun e he => by rw [h.1 e he]; exact Bool.false_ne_true), List.map_nil]
  have h2 : (s.meshes.filter fun e => e.2.updated) = [] :=
    List.filter_eq_nil_iff.2 (fun e he => by rw [h.2 e he]; exact Bool.false_ne_true)
  unfold ServerMesh.updateMesh MeshInt.generateMesh
  dsimp only
  rw [h1]
  unfold generateMsg
  show (do
    let st ← ((s.meshes.filter fun e => e.2.updated).map (·.1)).foldlM (sendBlock env.inv env.mode) ([], s.meshes)
    pure ((⟨env.edge, st.1⟩ : Msg), st.2) : Outcome (Msg × MeshMap)) >>= (fun m => pure (m.1, (⟨s.map, m.2⟩ : ServerMesh.State V))) = _
  rw [h2]
  rfl

/-! ### Recolouring -/

/-- Recolouring keeps everything but the colours. -/
theorem recolor_shape {look : Fl → Outcome Color} {l : VLayer (IntensityVoxel Fl)} {m m' : Msg} (h : IntensityVis.recolor look l m = .ok m') :
    List.Forall₂ IntensityVis.SameShape m.blocks m'.blocks := by
  unfold IntensityVis.recolor at h
  obtain ⟨bs, hbs, h'⟩ := Outcome.bind_eq_ok.1 h
  clear h
  obtain rfl := Outcome.ok.inj h'
  clear h'
  dsimp only
  generalize m.blocks = cs at hbs
  induction cs generalizing bs with
  | nil =>
    obtain rfl := Outcome.ok.inj hbs
    exact .nil
  | cons c cs ih =>
    rw [List.mapM_cons] at hbs
    obtain ⟨c', hc, hbs⟩ := Outcome.bind_eq_ok.1 hbs
    obtain ⟨cs', hcs, hbs⟩ := Outcome.bind_eq_ok.1 hbs
    obtain rfl := Outcome.ok.inj hbs
    exact .cons (IntensityVis.foldl_ok c.x.length le_rfl hc).1 (ih _ hcs)

theorem find_shape {i : Idx} : ∀ {bs bs' : List MeshBlock}, List.Forall₂ IntensityVis.SameShape bs bs' →
    (bs'.find? fun b => decide (b.index = i)).map blockPositions = (bs.find? fun b => decide (b.index = i)).map blockPositions
  | _, _, .nil => rfl
  | _, _, .cons (a := b) (b := b') h t => by
    rw [List.find?_cons, List.find?_cons, h.1]
    cases hc : decide (b.index = i) with
    | true =>
      unfold blockPositions
      simp only [Option.map_some, h.2.1, h.2.2.1, h.2.2.2]
    | false => exact find_shape t

/-! ### Runs -/

theorem run_sound {env : Env V} {s₀ s : State V} {es : List (Event V)} {out : List Published} (h0 : Fresh s₀.base) (h : Run env s₀ es out s) :
    ServerMesh.Sound env.base s.base := by
  induction h with
  | start => exact ServerMesh.fresh_sound h0
  | @step es out new s s' e h ha hs ih =>
    cases e with
    | image new =>
      obtain h := (Prod.mk.inj (Outcome.ok.inj hs)).2
      rw [← h]
      exact ih
    | base e =>
      have key : ∃ b, ServerMesh.step env.base s.base e = .ok b ∧ b = s'.base := by
        cases e with
        | update =>
          obtain ⟨r, hr, hs⟩ := Outcome.bind_eq_ok.1 hs
          obtain ⟨m, hm, hs⟩ := Outcome.bind_eq_ok.1 hs
          refine ⟨r.2, ?_, congrArg State.base (Prod.mk.inj (Outcome.ok.inj hs)).2⟩
          show (do let r ← ServerMesh.updateMesh env.base _; pure r.2) = _
          rw [hr]
          rfl
        | generate =>
          obtain ⟨r, hr, hs⟩ := Outcome.bind_eq_ok.1 hs
          refine ⟨r.2, ?_, congrArg State.base (Prod.mk.inj (Outcome.ok.inj hs)).2⟩
          show (do let r ← ServerMesh.remesh env.base _; pure r.2) = _
          rw [hr]
          rfl
        | _ =>
          obtain ⟨b, hb, hs⟩ := Outcome.bind_eq_ok.1 hs
          exact ⟨b, hb, congrArg State.base (Prod.mk.inj (Outcome.ok.inj hs)).2⟩
      obtain ⟨b, hb, e⟩ := key
      rw [← e]
      exact ServerMesh.step_sound ih ha hb

/-- Images only. -/
theorem images_only {env : Env V} {s s' : State V} {es : List (Event V)} {out : List Published} (h : Run env s es out s')
    (hi : ∀ e ∈ es, ∃ new, e = .image new) : out = [] ∧ s'.base = s.base ∧ s'.cached = s.cached := by
  induction h with
  | start => exact ⟨rfl, rfl, rfl⟩
  | step e h ha hs ih =>
    obtain ⟨i1, i2, i3⟩ := ih fun x hx => hi x (List.mem_append_left _ hx)
    obtain ⟨new, rfl⟩ := hi e (by simp)
    obtain ⟨a, b⟩ := Prod.mk.inj (Outcome.ok.inj hs)
    subst i1
    rw [← a, ← b]
    exact ⟨rfl, i2, i3⟩

end Vox.IntensityServer
