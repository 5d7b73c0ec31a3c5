/-
The ESDF server: keys of the layer, origin of the queued voxels, removing distant blocks.
-/
import Verif.Spec.EsdfServer
import Verif.Lemmas.EsdfRobot
import Verif.Lemmas.LayerMsg
import Verif.Lemmas.ServerMesh

namespace Vox.EsdfServer

open Layer Grid Spec Sphere Esdf

variable {A : Flt} {cfg : Config} {L : Limits} {V : Type}

theorem foldlM_keep {α σ : Type} {f : σ → α → Outcome σ} {P : σ → Prop} (l : List α) :
    ∀ {s s' : σ}, (∀ a ∈ l, ∀ s s', f s a = .ok s' → P s → P s') → l.foldlM f s = .ok s' → P s → P s' := by
  induction l with
  | nil =>
    intro s s' _ h hp
    obtain rfl := Outcome.ok.inj h
    exact hp
  | cons a l ih =>
    intro s s' hf h hp
    rw [List.foldlM_cons] at h
    obtain ⟨s1, h1, h2⟩ := Outcome.bind_eq_ok.1 h
    exact ih (fun b hb => hf b (List.mem_cons_of_mem _ hb)) h2 (hf a List.mem_cons_self s s1 h1 hp)

/-! ### No block is listed twice -/

/-- No block is listed twice. -/
def Once {V : Type} (l : VLayer V) : Prop := (l.blocks.map (·.1)).Nodup

theorem writeVoxel_once {V : Type} {l l' : VLayer V} {i v : Idx} {x : V} (h : writeVoxel l i v x = .ok l') (n : Once l) : Once l' := by
  unfold writeVoxel at h
  split at h
  · cases h
  · split at h
    · obtain rfl := Outcome.ok.inj h
      unfold Once
      rw [LayerMsg.modifyBlock_keys]
      exact n
    · cases h

theorem setVoxel_once {V : Type} {l l' : VLayer V} {g : Idx} {x : V} (h : setVoxel l g x = .ok l') (n : Once l) : Once l' := by
  unfold setVoxel at h
  obtain ⟨e, -, h⟩ := Outcome.bind_eq_ok.1 h
  exact writeVoxel_once h n

theorem updateNeighbor_once {s s' : Esdf.State} {g : Idx} {n : EVoxel} {d : ℚ} {p : Idx} (h : updateNeighbor cfg s g n d p = .ok s')
    (k : Once s.layer) : Once s'.layer := by
  unfold updateNeighbor at h
  split at h
  · obtain ⟨q, -, h⟩ := Outcome.bind_eq_ok.1 h
    obtain ⟨l, h1, h⟩ := Outcome.bind_eq_ok.1 h
    obtain rfl := Outcome.ok.inj h
    exact setVoxel_once h1 k
  · obtain ⟨l, h1, h⟩ := Outcome.bind_eq_ok.1 h
    obtain rfl := Outcome.ok.inj h
    exact setVoxel_once h1 k

theorem openNeighbor_once {s s' : Esdf.State} {g : Idx} {v : EVoxel} {e : Idx × ℚ} (h : openNeighbor A cfg g v s e = .ok s')
    (k : Once s.layer) : Once s'.layer := by
  unfold openNeighbor at h
  obtain ⟨n?, -, h⟩ := Outcome.bind_eq_ok.1 h
  repeat' split at h
  any_goals (obtain rfl := Outcome.ok.inj h; exact k)
  exact updateNeighbor_once h k

theorem openStep_once {s s' : Esdf.State} (h : openStep A cfg s = .ok s') (k : Once s.layer) : Once s'.layer := by
  unfold openStep at h
  obtain ⟨f, -, h⟩ := Outcome.bind_eq_ok.1 h
  obtain ⟨q, -, h⟩ := Outcome.bind_eq_ok.1 h
  obtain ⟨v?, -, h⟩ := Outcome.bind_eq_ok.1 h
  split at h
  · cases h
  · obtain ⟨l, h1, h⟩ := Outcome.bind_eq_ok.1 h
    have k1 := setVoxel_once h1 k
    split at h
    · obtain rfl := Outcome.ok.inj h
      exact k1
    · exact foldlM_keep (P := fun s => Once s.layer) neighborTable (fun _ _ _ _ h k => openNeighbor_once h k) h k1

theorem processOpen_once (fuel : ℕ) : ∀ {s s' : Esdf.State}, processOpen A cfg fuel s = .ok (some s') → Once s.layer → Once s'.layer := by
  induction fuel with
  | zero => intro s s' h; cases h
  | succ fuel ih =>
    intro s s' h k
    unfold processOpen at h
    obtain ⟨e, -, h⟩ := Outcome.bind_eq_ok.1 h
    split at h
    · obtain rfl := Option.some.inj (Outcome.ok.inj h)
      exact k
    · obtain ⟨s1, h1, h⟩ := Outcome.bind_eq_ok.1 h
      exact ih h (openStep_once h1 k)

theorem raiseNeighbor_once {s s' : Esdf.State} {g : Idx} {o : Idx} (h : raiseNeighbor cfg g s o = .ok s')
    (k : Once s.layer) : Once s'.layer := by
  unfold raiseNeighbor at h
  obtain ⟨n?, -, h⟩ := Outcome.bind_eq_ok.1 h
  split at h
  · obtain rfl := Outcome.ok.inj h; exact k
  · split at h
    · obtain rfl := Outcome.ok.inj h; exact k
    · split at h
      · obtain ⟨l, h1, h⟩ := Outcome.bind_eq_ok.1 h
        obtain rfl := Outcome.ok.inj h
        exact setVoxel_once h1 k
      · split at h
        · obtain rfl := Outcome.ok.inj h; exact k
        · obtain ⟨q, -, h⟩ := Outcome.bind_eq_ok.1 h
          obtain ⟨l, h1, h⟩ := Outcome.bind_eq_ok.1 h
          obtain rfl := Outcome.ok.inj h
          exact setVoxel_once h1 k

theorem raiseStep_once {s s' : Esdf.State} {g : Idx} (h : raiseStep cfg g s = .ok s') (k : Once s.layer) : Once s'.layer := by
  unfold raiseStep at h
  obtain ⟨v?, -, h⟩ := Outcome.bind_eq_ok.1 h
  split at h
  · cases h
  · exact foldlM_keep (P := fun s => Once s.layer) kOffsets (fun _ _ _ _ h k => raiseNeighbor_once h k) h k

theorem processRaise_once (fuel : ℕ) : ∀ {s s' : Esdf.State}, processRaise cfg fuel s = .ok (some s') → Once s.layer → Once s'.layer := by
  induction fuel with
  | zero => intro s s' h; cases h
  | succ fuel ih =>
    intro s s' h k
    unfold processRaise at h
    split at h
    · obtain rfl := Option.some.inj (Outcome.ok.inj h)
      exact k
    · obtain ⟨s1, h1, h⟩ := Outcome.bind_eq_ok.1 h
      exact ih h (raiseStep_once h1 k)

theorem tsdfVoxel_once {s s' : Esdf.State} {inc : Bool} {i : Idx} {b : Block ℚ (TsdfVoxel ℚ)} {n : ℕ}
    (h : tsdfVoxel A cfg inc i b s n = .ok s') (k : Once s.layer) : Once s'.layer := by
  unfold tsdfVoxel at h
  obtain ⟨t, -, h⟩ := Outcome.bind_eq_ok.1 h
  obtain ⟨v, -, h⟩ := Outcome.bind_eq_ok.1 h
  split at h
  · unfold crustVoxel at h
    split at h
    · obtain ⟨x, -, h⟩ := Outcome.bind_eq_ok.1 h
      obtain ⟨l, h1, h⟩ := Outcome.bind_eq_ok.1 h
      obtain rfl := Outcome.ok.inj h
      exact writeVoxel_once h1 k
    · obtain rfl := Outcome.ok.inj h; exact k
  · unfold copyVoxel at h
    obtain ⟨x, -, h⟩ := Outcome.bind_eq_ok.1 h
    obtain ⟨y, -, h⟩ := Outcome.bind_eq_ok.1 h
    obtain ⟨q, -, h⟩ := Outcome.bind_eq_ok.1 h
    obtain ⟨l, h1, h⟩ := Outcome.bind_eq_ok.1 h
    obtain rfl := Outcome.ok.inj h
    exact writeVoxel_once h1 k

theorem tsdfBlock_once {s s' : Esdf.State} {inc : Bool} {tsdf : VLayer (TsdfVoxel ℚ)} {i : Idx}
    (h : tsdfBlock A cfg inc tsdf s i = .ok s') (k : Once s.layer) : Once s'.layer := by
  unfold tsdfBlock at h
  split at h
  · obtain rfl := Outcome.ok.inj h; exact k
  · refine foldlM_keep (P := fun s => Once s.layer) _ (fun _ _ _ _ h k => tsdfVoxel_once h k) h ?_
    show Once (markUpdated _ i _)
    unfold Once markUpdated
    rw [LayerMsg.modifyBlock_keys]
    exact LayerMsg.allocateBlock_nodup k _ _

theorem updateFromTsdfBlocks_once {s s' : Esdf.State} {inc : Bool} {tsdf : VLayer (TsdfVoxel ℚ)} {fuel : ℕ} {blocks : List Idx}
    (h : updateFromTsdfBlocks A cfg fuel tsdf blocks inc s = .ok (some s')) (k : Once s.layer) : Once s'.layer := by
  unfold updateFromTsdfBlocks at h
  obtain ⟨-, -, h⟩ := Outcome.bind_eq_ok.1 h
  obtain ⟨s1, h1, h⟩ := Outcome.bind_eq_ok.1 h
  obtain ⟨s2, h2, h⟩ := Outcome.bind_eq_ok.1 h
  have k1 := foldlM_keep (P := fun s => Once s.layer) blocks (fun _ _ _ _ h k => tsdfBlock_once h k) h1 k
  split at h
  · cases h
  · exact processOpen_once fuel h (processRaise_once fuel h2 k1)

theorem allocateAll_once {V : Type} (d : V) (is : List Idx) : ∀ {l : VLayer V}, Once l → Once (is.foldl (allocateBlock d) l) := by
  induction is with
  | nil => intro l h; exact h
  | cons i is ih => intro l h; exact ih (LayerMsg.allocateBlock_nodup h _ _)

theorem clearVoxel_once {s s' : Esdf.State} {e : Idx × Idx} (h : clearVoxel cfg s e = .ok s') (k : Once s.layer) : Once s'.layer := by
  unfold clearVoxel at h
  split at h
  · obtain rfl := Outcome.ok.inj h; exact k
  · obtain ⟨x, -, h⟩ := Outcome.bind_eq_ok.1 h
    split at h
    · obtain ⟨l, h1, h⟩ := Outcome.bind_eq_ok.1 h
      obtain rfl := Outcome.ok.inj h
      exact writeVoxel_once h1 k
    · obtain rfl := Outcome.ok.inj h; exact k

theorem occupyVoxel_once {s s' : Esdf.State} {e : Idx × Idx} (h : occupyVoxel cfg s e = .ok s') (k : Once s.layer) : Once s'.layer := by
  unfold occupyVoxel at h
  split at h
  · obtain rfl := Outcome.ok.inj h; exact k
  · obtain ⟨x, -, h⟩ := Outcome.bind_eq_ok.1 h
    split at h
    · obtain ⟨l, h1, h⟩ := Outcome.bind_eq_ok.1 h
      obtain rfl := Outcome.ok.inj h
      exact writeVoxel_once h1 k
    · split at h
      · obtain ⟨q, -, h⟩ := Outcome.bind_eq_ok.1 h
        obtain rfl := Outcome.ok.inj h
        exact k
      · obtain rfl := Outcome.ok.inj h; exact k

theorem overSphere_keep {f : Esdf.State → Idx × Idx → Outcome Esdf.State} {P : Esdf.State → Prop} {m : VoxelMap} {s s' : Esdf.State}
    (hf : ∀ e ∈ pairs m, ∀ s s', f s e = .ok s' → P s → P s') (h : overSphere f m s = .ok s') (hp : P s) : P s' := by
  unfold overSphere at h
  refine foldlM_keep m (fun kv hkv s s' h1 h2 => ?_) h hp
  refine foldlM_keep kv.2 (fun v hv s s' h3 h4 => ?_) h1 h2
  exact hf (kv.1, v) (by
    unfold pairs
    rw [List.mem_flatMap]
    exact ⟨kv, hkv, List.mem_map.2 ⟨v, hv, rfl⟩⟩) s s' h3 h4

theorem addRobotPosition_once {order : VoxelMap → VoxelMap} {p : Pt} {s s' : Esdf.State} (h : addRobotPosition cfg order p s = .ok s')
    (k : Once s.layer) : Once s'.layer := by
  unfold addRobotPosition getAndAllocateSphere at h
  obtain ⟨r, h1, h⟩ := Outcome.bind_eq_ok.1 h
  obtain ⟨s1, h2, h⟩ := Outcome.bind_eq_ok.1 h
  obtain ⟨r2, h3, h⟩ := Outcome.bind_eq_ok.1 h
  obtain ⟨m, -, h1⟩ := Outcome.bind_eq_ok.1 h1
  obtain ⟨m2, -, h3⟩ := Outcome.bind_eq_ok.1 h3
  obtain rfl := Outcome.ok.inj h1
  obtain rfl := Outcome.ok.inj h3
  have k1 := overSphere_keep (P := fun s => Once s.layer) (fun _ _ _ _ h k => clearVoxel_once h k) h2 (allocateAll_once _ _ k)
  exact overSphere_keep (P := fun s => Once s.layer) (fun _ _ _ _ h k => occupyVoxel_once h k) h (allocateAll_once _ _ k1)

/-! ### Where queued voxels come from -/

theorem push_waits {q q' : BQueue Idx} {k : Idx} {x : ℚ} (h : q.push k x = .ok q') {g : Idx} (hg : ∃ b ∈ q'.buckets, g ∈ b) :
    g = k ∨ ∃ b ∈ q.buckets, g ∈ b := by
  unfold BQueue.push at h
  obtain ⟨-, -, h⟩ := Outcome.bind_eq_ok.1 h
  obtain ⟨-, -, h⟩ := Outcome.bind_eq_ok.1 h
  obtain ⟨i, -, h⟩ := Outcome.bind_eq_ok.1 h
  split at h
  · obtain rfl := Outcome.ok.inj h
    obtain ⟨b, hb, hg⟩ := hg
    obtain ⟨n, hn⟩ := List.mem_iff_getElem?.1 hb
    dsimp only at hn
    rw [List.getElem?_modify] at hn
    obtain ⟨b0, h0, rfl⟩ := Option.map_eq_some_iff.1 hn
    split at hg
    · rcases List.mem_append.1 hg with h | h
      · exact Or.inr ⟨b0, List.mem_iff_getElem?.2 ⟨n, h0⟩, h⟩
      · exact Or.inl (List.mem_singleton.1 h)
    · exact Or.inr ⟨b0, List.mem_iff_getElem?.2 ⟨n, h0⟩, hg⟩
  · cases h

theorem writeVoxel_cfg {V : Type} {l l' : VLayer V} {i v : Idx} {x : V} (h : writeVoxel l i v x = .ok l') : l'.cfg = l.cfg := by
  unfold writeVoxel at h
  split at h
  · cases h
  · split at h
    · obtain rfl := Outcome.ok.inj h
      rfl
    · cases h

/-- The configuration of the layer, and where the queued voxels come from. -/
def From (c : Cfg) (Q : Idx → Prop) (s : Esdf.State) : Prop := s.layer.cfg = c ∧ ∀ g, Waits s g → Q g

theorem clearVoxel_from {c : Cfg} {Q : Idx → Prop} {e : Idx × Idx} (he : Q (globalIndex c.vps e.1 e.2)) {s s' : Esdf.State}
    (h : clearVoxel cfg s e = .ok s') (k : From c Q s) : From c Q s' := by
  unfold clearVoxel at h
  split at h
  · obtain rfl := Outcome.ok.inj h; exact k
  · obtain ⟨x, -, h⟩ := Outcome.bind_eq_ok.1 h
    split at h
    · obtain ⟨l, h1, h⟩ := Outcome.bind_eq_ok.1 h
      obtain rfl := Outcome.ok.inj h
      refine ⟨(writeVoxel_cfg h1).trans k.1, ?_⟩
      rintro g (hg | hg)
      · dsimp only at hg
        split at hg
        · rcases List.mem_append.1 hg with h | h
          · exact k.2 g (Or.inl h)
          · rw [List.mem_singleton.1 h, k.1]; exact he
        · exact k.2 g (Or.inl hg)
      · exact k.2 g (Or.inr hg)
    · obtain rfl := Outcome.ok.inj h; exact k

theorem occupyVoxel_from {c : Cfg} {Q : Idx → Prop} {e : Idx × Idx} (he : Q (globalIndex c.vps e.1 e.2)) {s s' : Esdf.State}
    (h : occupyVoxel cfg s e = .ok s') (k : From c Q s) : From c Q s' := by
  unfold occupyVoxel at h
  split at h
  · obtain rfl := Outcome.ok.inj h; exact k
  · obtain ⟨x, -, h⟩ := Outcome.bind_eq_ok.1 h
    split at h
    · obtain ⟨l, h1, h⟩ := Outcome.bind_eq_ok.1 h
      obtain rfl := Outcome.ok.inj h
      exact ⟨(writeVoxel_cfg h1).trans k.1, fun g hg => k.2 g hg⟩
    · split at h
      · obtain ⟨q, h1, h⟩ := Outcome.bind_eq_ok.1 h
        obtain rfl := Outcome.ok.inj h
        refine ⟨k.1, ?_⟩
        rintro g (hg | hg)
        · exact k.2 g (Or.inl hg)
        · rcases push_waits h1 hg with rfl | h
          · rw [k.1]; exact he
          · exact k.2 g (Or.inr h)
      · obtain rfl := Outcome.ok.inj h; exact k

theorem allocateAll_cfg {V : Type} (d : V) (is : List Idx) : ∀ {l : VLayer V}, (is.foldl (allocateBlock d) l).cfg = l.cfg := by
  induction is with
  | nil => intro l; rfl
  | cons i is ih => intro l; exact (ih (l := allocateBlock d l i)).trans (allocateBlock_cfg d l i)

theorem addRobotPosition_from {order : VoxelMap → VoxelMap} (ho : ∀ m, (order m).Perm m) {p : Pt} {s s' : Esdf.State} (hn : 0 < s.layer.cfg.vps)
    (r1 : SphereInRange s.layer.cfg p cfg.clearRadius) (r2 : SphereInRange s.layer.cfg p cfg.occupiedRadius)
    (h : addRobotPosition cfg order p s = .ok s') {Q : Idx → Prop} (k : ∀ g, Waits s g → Q g)
    (h1 : ∀ g, Covered s.layer.cfg p cfg.clearRadius g → Q g) (h2 : ∀ g, Covered s.layer.cfg p cfg.occupiedRadius g → Q g) :
    From s.layer.cfg Q s' := by
  obtain ⟨m1, e1, -, p1, -⟩ := sphere_pairs hn r1 order ho
  obtain ⟨m2, e2, -, p2, -⟩ := sphere_pairs hn r2 order ho
  unfold addRobotPosition getAndAllocateSphere at h
  simp only [e1, Outcome.bind_ok, Outcome.pure_eq] at h
  obtain ⟨s1, a1, h⟩ := Outcome.bind_eq_ok.1 h
  have k1 : From s.layer.cfg Q s1 := overSphere_keep (fun e he _ _ h k => clearVoxel_from (h1 _ ((p1 e.1 e.2).1 he).2) h k) a1
    ⟨allocateAll_cfg _ _, fun g hg => k g hg⟩
  rw [k1.1] at h
  simp only [e2, Outcome.bind_ok] at h
  exact overSphere_keep (fun e he _ _ h k => occupyVoxel_from (h2 _ ((p2 e.1 e.2).1 he).2) h k) h
    ⟨(allocateAll_cfg _ _).trans k1.1, fun g hg => k1.2 g hg⟩

theorem entries_waits (bs : List (List Idx)) : ∀ (n : ℕ) (g : Idx), (∃ e ∈ BQueue.entriesFrom n bs, e.2 = g) ↔ ∃ b ∈ bs, g ∈ b := by
  induction bs with
  | nil => intro n g; simp [BQueue.entriesFrom]
  | cons b bs ih =>
    intro n g
    have := ih (n + 1) g
    simp only [BQueue.entriesFrom, List.mem_append, List.mem_map, List.mem_cons, exists_eq_or_imp] at this ⊢
    rw [← this]
    constructor
    · rintro ⟨e, ⟨k, hk, rfl⟩ | he, rfl⟩
      · exact Or.inl hk
      · exact Or.inr ⟨e, he, rfl⟩
    · rintro (h | ⟨e, he, rfl⟩)
      · exact ⟨(n, g), Or.inl ⟨g, h, rfl⟩, rfl⟩
      · exact ⟨e, Or.inr he, rfl⟩

theorem waits_iff {q : BQueue Idx} {n : ℕ} {mx : ℚ} {es : List (ℕ × Idx)} (r : BQueue.Rel q ⟨n, mx, es⟩) (g : Idx) :
    (∃ b ∈ q.buckets, g ∈ b) ↔ ∃ e ∈ es, e.2 = g := by
  rw [← entries_waits q.buckets 0 g, r.ent]

theorem not_waits {s : Esdf.State} (h : Ready A L [] s) (hr : s.raise = []) (g : Idx) : ¬ Waits s g := by
  obtain ⟨S, G, -⟩ := h
  rintro (h | h)
  · rw [hr] at h; cases h
  · obtain ⟨e, he, -⟩ := (waits_iff G.queue g).1 h
    cases he

/-! ### Removing distant blocks -/

theorem near_iff {l : VLayer V} (wf : WellFormed l) {i : Idx} {b : Block ℚ V} (hb : block? l i = some b) (p : Pt) (d : ℚ) :
    sqNorm (b.origin - p) ≤ d * d ↔ NearRobot l.cfg p d i := by
  obtain ⟨-, -, e, -⟩ := wf.block i b hb
  rw [e]
  unfold NearRobot sqNorm
  simp only [Vec3.sub_x, Vec3.sub_y, Vec3.sub_z, pow_two]

theorem prune_block? {l : VLayer V} (wf : WellFormed l) (k : Once l) (p : Pt) (d : ℚ) (i : Idx) :
    block? (ServerMesh.removeDistant l p d) i = if NearRobot l.cfg p d i then block? l i else none := by
  rw [ServerMesh.removeDistant_block? l p d k]
  cases hb : block? l i with
  | none => simp
  | some b =>
    simp only [Option.bind_some]
    rw [show (if sqNorm (b.origin - p) ≤ d * d then some b else none) = if NearRobot l.cfg p d i then some b else none from
      if_congr (near_iff wf hb p d) rfl rfl]

theorem prune_content {l : VLayer V} (wf : WellFormed l) (k : Once l) (p : Pt) (d : ℚ) (g : Idx) :
    content (ServerMesh.removeDistant l p d) g = if NearRobot l.cfg p d (blockOf l.cfg.vps g) then content l g else none := by
  have := prune_block? wf k p d (blockOf l.cfg.vps g)
  unfold content
  show ((block? (ServerMesh.removeDistant l p d) (blockOf l.cfg.vps g)).bind _) = _
  rw [this]
  split_ifs <;> rfl

theorem prune_allocated {l : VLayer V} (wf : WellFormed l) (k : Once l) (p : Pt) (d : ℚ) (i : Idx) :
    Allocated (ServerMesh.removeDistant l p d) i ↔ Allocated l i ∧ NearRobot l.cfg p d i := by
  unfold Allocated
  show (block? (ServerMesh.removeDistant l p d) i).isSome = true ↔ (block? l i).isSome = true ∧ _
  rw [prune_block? wf k]
  split_ifs with h <;> simp [h]

theorem prune_wf {l : VLayer V} (wf : WellFormed l) (k : Once l) (p : Pt) (d : ℚ) : WellFormed (ServerMesh.removeDistant l p d) := by
  refine ⟨wf.size_pos, wf.side_pos, wf.side_le, fun i b hb => ?_⟩
  have hb : block? (ServerMesh.removeDistant l p d) i = some b := hb
  rw [prune_block? wf k] at hb
  split_ifs at hb
  exact wf.block i b hb

theorem prune_once {l : VLayer V} (k : Once l) (p : Pt) (d : ℚ) : Once (ServerMesh.removeDistant l p d) := by
  unfold Once at *
  exact (List.filter_sublist.map _).nodup k

/-- The state stays consistent if no queued voxel is removed. -/
theorem ready_prune {es : List (ℕ × Idx)} {s : Esdf.State} (h : Ready A L es s) (k : Once s.layer) (env : Env) (p : Pt)
    (hw : ∀ g, Waits s g → NearRobot s.layer.cfg p env.maxDistance (blockOf s.layer.cfg.vps g)) : Ready A L es (pruneEsdf env p s) := by
  obtain ⟨S, G, hr⟩ := h
  refine ⟨S.filter fun g => NearRobot s.layer.cfg p env.maxDistance (blockOf s.layer.cfg.vps g), ⟨prune_wf G.wf k p _, G.power, ?_, ?_, ?_, G.queue, ?_⟩, ?_⟩
  · intro g
    show (content (ServerMesh.removeDistant s.layer p env.maxDistance) g).isSome = true ↔ _
    rw [prune_content G.wf k, Finset.mem_filter, ← G.dom g]
    split_ifs with h <;> simp [h]
  · intro g hg
    exact G.range g (Finset.mem_filter.1 hg).1
  · intro g v hv
    have hv : content (ServerMesh.removeDistant s.layer p env.maxDistance) g = some v := hv
    rw [prune_content G.wf k] at hv
    split_ifs at hv
    exact G.vals g v hv
  · intro e he
    refine Finset.mem_filter.2 ⟨G.queued e he, hw _ (Or.inr ?_)⟩
    exact (waits_iff G.queue _).2 ⟨e, he, rfl⟩
  · intro g hg
    exact Finset.mem_filter.2 ⟨hr g hg, hw g (Or.inl hg)⟩

end Vox.EsdfServer
