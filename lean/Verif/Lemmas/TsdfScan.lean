/-
Lemmas about visits of voxels, the temporary blocks and the worker pool.
-/
import Verif.Spec.TsdfScan
import Verif.Lemmas.GridWrite
import Mathlib.Data.List.Perm.Basic
import Mathlib.Data.List.Nodup

namespace Vox.TsdfScan

open Layer Grid Tsdf Spec

/-- The content of layer and temporary blocks together. -/
def Store.cont (st : Store) (g : Idx) : Option (TsdfVoxel Fl) := (content st.layer g).or (content st.temp g)

/-- The status of the blocks of layer and temporary map together. -/
def Store.stat (st : Store) (i : Idx) : Option (Bool × Flags) := (status st.layer i).or (status st.temp i)

/-- The invariant of the map while integrating. -/
structure Store.Inv (st : Store) : Prop where
  wfL : WellFormed st.layer
  wfT : WellFormed st.temp
  cfg : st.temp.cfg = st.layer.cfg
  disj : ∀ i, Allocated st.layer i → ¬ Allocated st.temp i
  nodup : (st.temp.blocks.map (·.1)).Nodup

theorem Store.start_inv {l : VLayer (TsdfVoxel Fl)} (wf : WellFormed l) : (Store.start l).Inv where
  wfL := wf
  wfT := ⟨wf.size_pos, wf.side_pos, wf.side_le, fun i b h => by simp [Store.start] at h⟩
  cfg := rfl
  disj := fun i _ h => by simp [Store.start, Allocated] at h
  nodup := by simp [Store.start]

theorem Store.start_cont (l : VLayer (TsdfVoxel Fl)) (g : Idx) : (Store.start l).cont g = content l g := by
  simp [Store.cont, Store.start, content]

theorem Store.start_stat (l : VLayer (TsdfVoxel Fl)) (i : Idx) : (Store.start l).stat i = status l i := by
  simp [Store.stat, Store.start, status]

/-- A visit within one layer. -/
theorem visitIn_eq (A : Arith) (P : Params) {l : VLayer (TsdfVoxel Fl)} (wf : WellFormed l) {i v : Idx} (hv : InBlock l.cfg.vps v)
    (hi : Allocated l i) (o : Obs) : ∃ x, content l (globalIndex l.cfg.vps i v) = some x ∧
      ∃ f : TsdfVoxel Fl → VLayer (TsdfVoxel Fl),
        visitIn A P l i v o = (updateVoxel A P.tsdf (.fin l.cfg.voxelSize) o x >>= fun y => .ok (f y)) ∧
        ∀ y, (f y).cfg = l.cfg ∧ WellFormed (f y) ∧
          (∀ g, content (f y) g = if g = globalIndex l.cfg.vps i v then some y else content l g) ∧
          (∀ j, status (f y) j = if j = i then (status l j).map (fun p => (p.1, Flags.setAll)) else status l j) ∧
          (f y).blocks.map (·.1) = l.blocks.map (·.1) := by
  set l1 := modifyBlock l i fun b => { b with updated := Flags.setAll } with hl1
  have wf1 : WellFormed l1 := modifyBlock_wf wf _ _ fun _ => ⟨rfl, rfl, rfl, rfl⟩
  have hc1 : ∀ g, content l1 g = content l g := by
    intro g
    rw [content_eq wf1, content_eq wf, hl1, modifyBlock_block?, modifyBlock_cfg]
    split_ifs with hj
    · rw [hj]; cases block? l i <;> rfl
    · rfl
  have hs1 : ∀ j, status l1 j = if j = i then (status l j).map (fun p => (p.1, Flags.setAll)) else status l j := by
    intro j
    have e : ∀ l : VLayer (TsdfVoxel Fl), status l j = (block? l j).map fun b => (b.hasData, b.updated) := fun _ => rfl
    rw [e, e, hl1, modifyBlock_block?]
    split_ifs with hj
    · cases block? l j <;> rfl
    · rfl
  have hk1 : l1.blocks.map (·.1) = l.blocks.map (·.1) := by
    rw [hl1]
    unfold modifyBlock
    simp only [List.map_map]
    refine List.map_congr_left fun e _ => ?_
    simp only [Function.comp_apply]
    split_ifs <;> rfl
  have hi1 : Allocated l1 i := by
    rw [allocated_iff_mem, hk1, ← allocated_iff_mem]; exact hi
  obtain ⟨x, hx, hcx⟩ := readVoxel_ok wf1 (i := i) (v := v) hv hi1
  have hw := fun y => writeVoxel_ok wf1 (i := i) (v := v) hv hi1 y
  choose f hf1 hf2 hf3 hf4 hf5 hf6 using hw
  refine ⟨x, by rw [← hc1]; exact hcx, f, ?_, ?_⟩
  · show (readVoxel l1 i v >>= fun x => updateVoxel A P.tsdf (.fin l1.cfg.voxelSize) o x >>= fun y => writeVoxel l1 i v y) = _
    rw [hx, Outcome.bind_ok]
    simp only [hf1]
    rfl
  · intro y
    refine ⟨hf2 y, hf3 y, ?_, ?_, (hf6 y).trans hk1⟩
    · intro g
      rw [hf4 y, hc1]
      rfl
    · intro j
      rw [hf5 y, hs1]

/-- A visit, seen from the map as a whole. -/
theorem visit_eq (A : Arith) (P : Params) {st : Store} (inv : st.Inv) {k : ℕ} (hk : k < 31) (hside : st.layer.cfg.vps = 2 ^ k)
    {w : Visit} (hg : w.g.All fun c => |c| ≤ 2 ^ 24) : ∃ f : TsdfVoxel Fl → Store,
      visit A P st w = (updateVoxel A P.tsdf (.fin st.layer.cfg.voxelSize) w.obs ((st.cont w.g).getD freshVoxel) >>= fun y => .ok (f y)) ∧
      ∀ y, (f y).Inv ∧ (f y).layer.cfg = st.layer.cfg ∧
        (∀ g, (f y).cont g = if g = w.g then some y
          else if blockOf st.layer.cfg.vps g = blockOf st.layer.cfg.vps w.g then some ((st.cont g).getD freshVoxel)
          else st.cont g) ∧
        (∀ i, (f y).stat i = if i = blockOf st.layer.cfg.vps w.g then some (((st.stat i).map (·.1)).getD false, Flags.setAll)
          else st.stat i) := by
  have hn := inv.wfL.side_pos
  have hsplit : splitGlobal st.layer.cfg.vps w.g = .ok (blockOf st.layer.cfg.vps w.g, localOf st.layer.cfg.vps w.g) := by
    rw [hside]; exact splitGlobal_ok hk hg
  have hv := localOf_inBlock hn w.g
  have hsplitg := globalIndex_split (n := st.layer.cfg.vps) w.g
  cases hb : block? st.layer (blockOf st.layer.cfg.vps w.g) with
  | some b =>
    have hal : Allocated st.layer (blockOf st.layer.cfg.vps w.g) := Option.isSome_iff_exists.2 ⟨b, hb⟩
    obtain ⟨x, hx, f, hf, hp⟩ := visitIn_eq A P inv.wfL hv hal w.obs
    rw [hsplitg] at hx
    refine ⟨fun y => { st with layer := f y }, ?_, ?_⟩
    · unfold visit
      rw [hsplit, Outcome.bind_ok]
      simp only [hb]
      rw [hf]
      have : (st.cont w.g).getD freshVoxel = x := by simp [Store.cont, hx]
      rw [this]
      cases updateVoxel A P.tsdf (.fin st.layer.cfg.voxelSize) w.obs x <;> rfl
    · intro y
      obtain ⟨h1, h2, h3, h4, h5⟩ := hp y
      have hal' : ∀ i, Allocated (f y) i ↔ Allocated st.layer i := fun i => by
        rw [allocated_iff_mem, h5, ← allocated_iff_mem]
      refine ⟨⟨h2, inv.wfT, inv.cfg.trans h1.symm, fun i hi => inv.disj i ((hal' i).1 hi), inv.nodup⟩, h1, ?_, ?_⟩
      · intro g
        simp only [Store.cont]
        rw [h3, hsplitg]
        by_cases hgw : g = w.g
        · rw [if_pos hgw, if_pos hgw]; rfl
        · rw [if_neg hgw, if_neg hgw]
          split_ifs with hbl
          · have : (content st.layer g).isSome = true := by
              rw [content_isSome inv.wfL, hbl, hb]; rfl
            obtain ⟨c, hc⟩ := Option.isSome_iff_exists.1 this
            simp [hc]
          · rfl
      · intro i
        simp only [Store.stat]
        rw [h4]
        split_ifs with hi
        · have : (status st.layer i).isSome = true := by rw [← allocated_iff_status, hi]; exact hal
          obtain ⟨c, hc⟩ := Option.isSome_iff_exists.1 this
          simp [hc]
        · rfl
  | none =>
    have hnal : ¬ Allocated st.layer (blockOf st.layer.cfg.vps w.g) := by
      intro h
      have : (block? st.layer (blockOf st.layer.cfg.vps w.g)).isSome = true := h
      rw [hb] at this; cases this
    set t := allocateBlock freshVoxel st.temp (blockOf st.layer.cfg.vps w.g) with ht
    have wft : WellFormed t := allocateBlock_wf inv.wfT _ _
    have hct : t.cfg = st.layer.cfg := (allocateBlock_cfg _ _ _).trans inv.cfg
    have hst := fun j => allocateBlock_status freshVoxel st.temp (blockOf st.layer.cfg.vps w.g) j
    have hcont := fun g => allocateBlock_content inv.wfT freshVoxel (blockOf st.layer.cfg.vps w.g) g
    have hal : Allocated t (blockOf st.layer.cfg.vps w.g) := by
      rw [allocated_iff_status, ht, hst, if_pos rfl]; rfl
    obtain ⟨x, hx, f, hf, hp⟩ := visitIn_eq A P wft (v := localOf st.layer.cfg.vps w.g) (by rw [hct]; exact hv) hal w.obs
    rw [hct, hsplitg] at hx
    have hnone : ∀ g, blockOf st.layer.cfg.vps g = blockOf st.layer.cfg.vps w.g → content st.layer g = none := by
      intro g h
      have := content_isSome inv.wfL g
      rw [h, hb] at this
      cases hc : content st.layer g with
      | none => rfl
      | some c => rw [hc] at this; cases this
    refine ⟨fun y => { st with temp := f y }, ?_, ?_⟩
    · unfold visit
      rw [hsplit, Outcome.bind_ok]
      simp only [hb]
      rw [← ht, hf]
      have : (st.cont w.g).getD freshVoxel = x := by
        rw [ht, hcont, inv.cfg, if_pos rfl] at hx
        simp only [Store.cont, hnone w.g rfl, Option.none_or]
        exact Option.some.inj hx
      rw [this, hct]
      cases updateVoxel A P.tsdf (.fin st.layer.cfg.voxelSize) w.obs x <;> rfl
    · intro y
      obtain ⟨h1, h2, h3, h4, h5⟩ := hp y
      rw [hct, hsplitg] at h3
      have hal' : ∀ i, Allocated (f y) i ↔ i = blockOf st.layer.cfg.vps w.g ∨ Allocated st.temp i := by
        intro i
        rw [allocated_iff_mem, h5, ← allocated_iff_mem, allocated_iff_status, ht, hst, allocated_iff_status]
        by_cases hi : i = blockOf st.layer.cfg.vps w.g <;> simp [hi]
      refine ⟨⟨inv.wfL, h2, h1.trans hct, ?_, ?_⟩, rfl, ?_, ?_⟩
      · intro i hi hi'
        rcases (hal' i).1 hi' with h | h
        · exact hnal (h ▸ hi)
        · exact inv.disj i hi h
      · show ((f y).blocks.map (·.1)).Nodup
        rw [h5, ht]
        unfold allocateBlock
        cases hbt : block? st.temp (blockOf st.layer.cfg.vps w.g) with
        | some b => exact inv.nodup
        | none =>
          simp only [List.map_cons, List.nodup_cons]
          refine ⟨?_, inv.nodup⟩
          rw [← allocated_iff_mem]
          intro h
          have : (block? st.temp (blockOf st.layer.cfg.vps w.g)).isSome = true := h
          rw [hbt] at this; cases this
      · intro g
        simp only [Store.cont]
        rw [h3]
        by_cases hgw : g = w.g
        · rw [if_pos hgw, if_pos hgw, hgw, hnone w.g rfl]; rfl
        · rw [if_neg hgw, if_neg hgw, ht, hcont, inv.cfg]
          split_ifs with hbl
          · rw [hnone g hbl]; rfl
          · rfl
      · intro i
        simp only [Store.stat]
        rw [h4, ht, hst]
        split_ifs with hi
        · have : status st.layer i = none := by
            rw [hi]
            cases hs : status st.layer (blockOf st.layer.cfg.vps w.g) with
            | none => rfl
            | some c => exact absurd (allocated_iff_status.2 (by rw [hs]; rfl)) hnal
          rw [this]
          cases status st.temp i <;> rfl
        · rfl

/-! ### Merging the temporary blocks -/

theorem insert_all (bs : List (Idx × Block ℚ (TsdfVoxel Fl))) : ∀ (l : VLayer (TsdfVoxel Fl)), (bs.map (·.1)).Nodup →
    (∀ i ∈ bs.map (·.1), block? l i = none) → ∃ l', bs.foldlM insertBlock l = .ok l' ∧ l'.cfg = l.cfg ∧
      ∀ i, block? l' i = (block? l i).or (bs.lookup i) := by
  induction bs with
  | nil => intro l _ _; exact ⟨l, rfl, rfl, fun i => by simp⟩
  | cons e bs ih =>
    intro l hnd hno
    simp only [List.map_cons, List.nodup_cons] at hnd
    have he : block? l e.1 = none := hno _ (by simp)
    have hl1 : ∀ i, block? ({ l with blocks := e :: l.blocks } : VLayer (TsdfVoxel Fl)) i = if i = e.1 then some e.2 else block? l i := by
      intro i
      unfold block?
      obtain ⟨a, b⟩ := e
      simp only [List.lookup_cons]
      by_cases hi : i = a
      · simp [hi]
      · simp [hi, beq_eq_false_iff_ne.2 hi]
    obtain ⟨l', h1, h2, h3⟩ := ih { l with blocks := e :: l.blocks } hnd.2 (by
      intro i hi
      rw [hl1, if_neg (by rintro rfl; exact hnd.1 hi)]
      exact hno i (by simp only [List.map_cons, List.mem_cons]; exact Or.inr hi))
    refine ⟨l', ?_, h2, ?_⟩
    · rw [List.foldlM_cons]
      unfold insertBlock
      rw [he]
      exact h1
    · intro i
      rw [h3, hl1]
      obtain ⟨a, b⟩ := e
      simp only [List.lookup_cons]
      by_cases hi : i = a
      · subst hi; simp [he]
      · simp [hi, beq_eq_false_iff_ne.2 hi]

theorem merge_eq {st : Store} (inv : st.Inv) : ∃ l', st.merge = .ok l' ∧ l'.cfg = st.layer.cfg ∧ WellFormed l' ∧
    (∀ g, content l' g = st.cont g) ∧ ∀ i, status l' i = st.stat i := by
  obtain ⟨l', h1, h2, h3⟩ := insert_all st.temp.blocks st.layer inv.nodup (by
    intro i hi
    have hal : Allocated st.temp i := allocated_iff_mem.2 hi
    cases hb : block? st.layer i with
    | none => rfl
    | some b => exact absurd hal (inv.disj i (Option.isSome_iff_exists.2 ⟨b, hb⟩)))
  have hor : ∀ i, block? l' i = (block? st.layer i).or (block? st.temp i) := h3
  have wf' : WellFormed l' := by
    refine ⟨h2 ▸ inv.wfL.size_pos, h2 ▸ inv.wfL.side_pos, h2 ▸ inv.wfL.side_le, ?_⟩
    intro i b hb
    have hb' : block? l' i = some b := hb
    rw [hor] at hb'
    rw [h2]
    cases hb0 : block? st.layer i with
    | some b0 =>
      rw [hb0] at hb'
      simp only [Option.some_or, Option.some.injEq] at hb'
      exact hb' ▸ inv.wfL.block i b0 hb0
    | none =>
      rw [hb0, Option.none_or] at hb'
      rw [← inv.cfg]
      exact inv.wfT.block i b hb'
  refine ⟨l', h1, h2, wf', ?_, ?_⟩
  · intro g
    rw [content_eq wf', h2, hor, Store.cont, content_eq inv.wfL, content_eq inv.wfT, inv.cfg]
    cases hb0 : block? st.layer (blockOf st.layer.cfg.vps g) with
    | some b0 =>
      have h4 := (inv.wfL.block _ _ hb0).2.2.2
      have hlt := (linearIndex_eq inv.wfL.side_le (localOf_inBlock inv.wfL.side_pos g)).2
      simp [List.getElem?_eq_getElem (h4 ▸ hlt)]
    | none => simp
  · intro i
    have e : ∀ l : VLayer (TsdfVoxel Fl), status l i = (block? l i).map fun b => (b.hasData, b.updated) := fun _ => rfl
    rw [Store.stat, e, e, e, hor]
    cases block? st.layer i <;> rfl

/-! ### A sequence of visits -/

theorem obsOf_append (ws us : List Visit) (g : Idx) : obsOf (ws ++ us) g = obsOf ws g ++ obsOf us g := by simp [obsOf]

theorem obsOf_cons (w : Visit) (ws : List Visit) (g : Idx) :
    obsOf (w :: ws) g = if w.g = g then w.obs :: obsOf ws g else obsOf ws g := by
  unfold obsOf
  rw [List.filter_cons]
  by_cases h : w.g = g <;> simp [h]

theorem obsOf_perm {ws us : List Visit} (h : ws.Perm us) (g : Idx) : (obsOf ws g).Perm (obsOf us g) := (h.filter _).map _

theorem obsOf_nil_of {n : ℕ} {ws : List Visit} {g : Idx} (h : ¬ Touched n ws (blockOf n g)) : obsOf ws g = [] := by
  unfold obsOf
  rw [List.map_eq_nil_iff, List.filter_eq_nil_iff]
  intro w hw
  simp only [decide_eq_true_eq]
  rintro rfl
  exact h ⟨w, hw, rfl⟩

/-- What is known about the map after the visits `ws`, in this order. -/
structure After (A : Arith) (P : Params) (st : Store) (ws : List Visit) (st' : Store) : Prop where
  inv : st'.Inv
  cfg : st'.layer.cfg = st.layer.cfg
  voxel : ∀ g, ∃ v, integrate A P.tsdf (.fin st.layer.cfg.voxelSize) (obsOf ws g) ((st.cont g).getD freshVoxel) = .ok v ∧
    ((Touched st.layer.cfg.vps ws (blockOf st.layer.cfg.vps g) → st'.cont g = some v) ∧
      (¬ Touched st.layer.cfg.vps ws (blockOf st.layer.cfg.vps g) → st'.cont g = st.cont g))
  marked : ∀ i, Touched st.layer.cfg.vps ws i → st'.stat i = some (((st.stat i).map (·.1)).getD false, Flags.setAll)
  unmarked : ∀ i, ¬ Touched st.layer.cfg.vps ws i → st'.stat i = st.stat i

theorem After.refl (A : Arith) (P : Params) {st : Store} (inv : st.Inv) : After A P st [] st where
  inv := inv
  cfg := rfl
  voxel g := ⟨_, rfl, fun ⟨_, h, _⟩ => by simp at h, fun _ => rfl⟩
  marked i := fun ⟨_, h, _⟩ => by simp at h
  unmarked _ _ := rfl

theorem integrate_snoc {A : Arith} {cfg : Config} {vs : Fl} {o : Obs} : ∀ {os : List Obs} {x : TsdfVoxel Fl},
    integrate A cfg vs (os ++ [o]) x = (integrate A cfg vs os x >>= updateVoxel A cfg vs o) := by
  intro os
  induction os with
  | nil =>
    intro x
    show (updateVoxel A cfg vs o x >>= fun v' => integrate A cfg vs [] v') = updateVoxel A cfg vs o x
    cases updateVoxel A cfg vs o x <;> rfl
  | cons a os ih =>
    intro x
    show (updateVoxel A cfg vs a x >>= fun v' => integrate A cfg vs (os ++ [o]) v') =
      ((updateVoxel A cfg vs a x >>= fun v' => integrate A cfg vs os v') >>= updateVoxel A cfg vs o)
    cases updateVoxel A cfg vs a x with
    | ok y => exact ih
    | fatal => rfl
    | ub => rfl

theorem touched_snoc {n : ℕ} {ws : List Visit} {w : Visit} {i : Idx} :
    Touched n (ws ++ [w]) i ↔ Touched n ws i ∨ i = blockOf n w.g := by
  constructor
  · rintro ⟨u, hu, rfl⟩
    rcases List.mem_append.1 hu with h | h
    · exact Or.inl ⟨u, h, rfl⟩
    · rw [List.mem_singleton] at h; exact Or.inr (h ▸ rfl)
  · rintro (⟨u, hu, rfl⟩ | rfl)
    · exact ⟨u, List.mem_append_left _ hu, rfl⟩
    · exact ⟨w, by simp, rfl⟩

theorem After.step {A : Arith} {P : Params} {st st' st'' : Store} {ws : List Visit} {w : Visit} (h : After A P st ws st')
    {k : ℕ} (hk : k < 31) (hside : st.layer.cfg.vps = 2 ^ k) (hg : w.g.All fun c => |c| ≤ 2 ^ 24)
    (hw : visit A P st' w = .ok st'') : After A P st (ws ++ [w]) st'' := by
  obtain ⟨f, hf, hp⟩ := visit_eq A P h.inv hk (h.cfg ▸ hside) hg
  rw [hf] at hw
  obtain ⟨y, hy, hw⟩ := Outcome.bind_eq_ok.1 hw
  have hst : f y = st'' := Outcome.ok.inj hw
  obtain ⟨p1, p2, p3, p4⟩ := hp y
  rw [hst] at p1 p2 p3 p4
  rw [h.cfg] at p3 p4 hy
  refine ⟨p1, p2.trans h.cfg, ?_, ?_, ?_⟩
  · intro g
    obtain ⟨v, hv, h1, h2⟩ := h.voxel g
    have hcur : (st'.cont g).getD freshVoxel = v := by
      by_cases ht : Touched st.layer.cfg.vps ws (blockOf st.layer.cfg.vps g)
      · rw [h1 ht]; rfl
      · rw [h2 ht]
        rw [obsOf_nil_of ht] at hv
        exact Outcome.ok.inj hv
    rw [obsOf_append, obsOf_cons, p3]
    by_cases hgw : w.g = g
    · subst hgw
      rw [if_pos rfl, if_pos rfl]
      refine ⟨y, ?_, fun _ => rfl, fun hn => absurd (touched_snoc.2 (Or.inr rfl)) hn⟩
      show integrate _ _ _ (_ ++ [w.obs]) _ = _
      rw [integrate_snoc, hv, Outcome.bind_ok, ← hcur, hy]
    · rw [if_neg hgw, if_neg (fun e => hgw e.symm)]
      refine ⟨v, by simpa [obsOf] using hv, ?_, ?_⟩
      · intro ht
        split_ifs with hb
        · rw [hcur]
        · rcases touched_snoc.1 ht with ht | ht
          · exact h1 ht
          · exact absurd ht hb
      · intro hn
        rw [touched_snoc, not_or] at hn
        rw [if_neg hn.2]
        exact h2 hn.1
  · intro i ht
    rw [p4]
    split_ifs with hi
    · by_cases ht' : Touched st.layer.cfg.vps ws i
      · rw [h.marked i ht']; rfl
      · rw [h.unmarked i ht']
    · rcases touched_snoc.1 ht with ht | ht
      · exact h.marked i ht
      · exact absurd ht hi
  · intro i hn
    rw [touched_snoc, not_or] at hn
    rw [p4, if_neg hn.2]
    exact h.unmarked i hn.1

/-- After the temporary blocks are merged, the visits have been added to the layer. -/
theorem After.adds {A : Arith} {P : Params} {l l' : VLayer (TsdfVoxel Fl)} {ws us : List Visit} {st : Store}
    (h : After A P (Store.start l) ws st) (hp : ws.Perm us) (hm : st.merge = .ok l') : Adds A P l us l' := by
  obtain ⟨l'', e1, e2, e3, e4, e5⟩ := merge_eq h.inv
  rw [e1] at hm
  obtain rfl := Outcome.ok.inj hm
  have hT : ∀ i, Touched l.cfg.vps us i ↔ Touched l.cfg.vps ws i := fun i =>
    ⟨fun ⟨w, hw, e⟩ => ⟨w, hp.mem_iff.2 hw, e⟩, fun ⟨w, hw, e⟩ => ⟨w, hp.mem_iff.1 hw, e⟩⟩
  refine ⟨e2.trans h.cfg, e3, ?_, ?_, ?_, ?_⟩
  · intro g ht
    obtain ⟨v, hv, h1, -⟩ := h.voxel g
    rw [Store.start_cont] at hv
    exact ⟨_, v, obsOf_perm hp g, hv, by rw [e4]; exact h1 ((hT _).1 ht)⟩
  · intro g ht
    obtain ⟨v, hv, -, h2⟩ := h.voxel g
    rw [e4, h2 (fun h => ht ((hT _).2 h)), Store.start_cont]
  · intro i ht
    rw [e5, h.marked i ((hT _).1 ht), Store.start_stat]
  · intro i ht
    rw [e5, h.unmarked i (fun h => ht ((hT _).2 h)), Store.start_stat]

/-! ### The worker pool -/

theorem visitsOf_cons (j : Job) (js : List Job) : visitsOf (j :: js) = visitsOf [j] ++ visitsOf js := by
  simp [visitsOf]

theorem visitsOf_append (js ks : List Job) : visitsOf (js ++ ks) = visitsOf js ++ visitsOf ks := by
  simp [visitsOf]

/-- What the workers still have to do. -/
def Pool.open (n : ℕ) (s : Pool) : List Visit :=
  visitsOf s.todo ++ ((List.range n).flatMap fun t => s.pending t ++ visitsOf (s.queue t))

theorem flatMap_update {α β : Type} [DecidableEq α] {ts : List α} (hnd : ts.Nodup) {t : α} (ht : t ∈ ts) (f : α → List β) (x y : List β)
    (hx : (f t).Perm (y ++ x)) : (ts.flatMap f).Perm (y ++ ts.flatMap (Function.update f t x)) := by
  induction ts with
  | nil => cases ht
  | cons a ts ih =>
    simp only [List.nodup_cons] at hnd
    simp only [List.flatMap_cons]
    by_cases hat : a = t
    · subst hat
      rw [Function.update_self]
      have : ts.flatMap (Function.update f a x) = ts.flatMap f := by
        simp only [List.flatMap_def]
        congr 1
        refine List.map_congr_left fun b hb => ?_
        rw [Function.update_of_ne]
        rintro rfl
        exact hnd.1 hb
      rw [this, ← List.append_assoc]
      exact hx.append_right _
    · rw [Function.update_of_ne hat]
      have ht' : t ∈ ts := by
        rcases List.mem_cons.1 ht with h | h
        · exact absurd h.symm hat
        · exact h
      refine ((ih hnd.2 ht').append_left _).trans ?_
      rw [← List.append_assoc, ← List.append_assoc]
      exact List.perm_append_comm.append_right _

theorem pool_runs {A : Arith} {P : Params} {n k : ℕ} (hk : k < 31) {s₀ s : Pool} (inv : s₀.store.Inv)
    (hside : s₀.store.layer.cfg.vps = 2 ^ k) (hr : InReach (s₀.open n)) (h : Runs A P n s₀ s) :
    ∃ ws, After A P s₀.store ws s.store ∧ (ws ++ s.open n).Perm (s₀.open n) := by
  induction h with
  | refl => exact ⟨[], After.refl A P inv, List.Perm.refl _⟩
  | step hrun hact ih =>
    rename_i s₁ s₂
    obtain ⟨ws, haf, hperm⟩ := ih
    have hnd := List.nodup_range (n := n)
    cases hact with
    | take t vs rest ht hp htodo =>
      refine ⟨ws, haf, List.Perm.trans (List.Perm.append_left _ ?_) hperm⟩
      unfold Pool.open
      simp only
      have e : (fun u => Function.update s₁.pending t vs u ++ visitsOf (s₁.queue u)) =
          Function.update (fun u => s₁.pending u ++ visitsOf (s₁.queue u)) t (vs ++ visitsOf (s₁.queue t)) := by
        funext u
        by_cases hu : u = t
        · subst hu; simp
        · simp [Function.update_of_ne hu]
      rw [e, htodo, visitsOf_cons]
      have key := flatMap_update hnd (List.mem_range.2 ht)
        (Function.update (fun u => s₁.pending u ++ visitsOf (s₁.queue u)) t (vs ++ visitsOf (s₁.queue t)))
        (s₁.pending t ++ visitsOf (s₁.queue t)) vs (by rw [Function.update_self, hp]; exact List.Perm.refl _)
      rw [Function.update_idem] at key
      have e2 : Function.update (fun u => s₁.pending u ++ visitsOf (s₁.queue u)) t (s₁.pending t ++ visitsOf (s₁.queue t)) =
          fun u => s₁.pending u ++ visitsOf (s₁.queue u) := Function.update_eq_self t _
      rw [e2] at key
      refine (key.append_left _).trans ?_
      have e3 : visitsOf [Outcome.ok vs] = vs := by simp [visitsOf]
      rw [e3, ← List.append_assoc]
      exact List.perm_append_comm.append_right _
    | own t vs rest ht hp hq =>
      refine ⟨ws, haf, List.Perm.trans (List.Perm.append_left _ ?_) hperm⟩
      unfold Pool.open
      simp only
      refine List.Perm.append_left _ ?_
      have e : (fun u => Function.update s₁.pending t vs u ++ visitsOf (Function.update s₁.queue t rest u)) =
          fun u => s₁.pending u ++ visitsOf (s₁.queue u) := by
        funext u
        by_cases hu : u = t
        · subst hu
          simp only [Function.update_self]
          rw [hp, hq, visitsOf_cons]
          simp [visitsOf]
        · simp [Function.update_of_ne hu]
      rw [e]
    | visit t w vs st ht hp hv =>
      have hmem : w ∈ s₀.open n := by
        refine hperm.mem_iff.1 (List.mem_append_right _ ?_)
        unfold Pool.open
        refine List.mem_append_right _ (List.mem_flatMap.2 ⟨t, List.mem_range.2 ht, ?_⟩)
        rw [hp]; simp
      refine ⟨ws ++ [w], haf.step hk hside (hr w hmem) hv, ?_⟩
      refine List.Perm.trans ?_ hperm
      rw [List.append_assoc]
      refine List.Perm.append_left _ ?_
      unfold Pool.open
      simp only
      have key := flatMap_update hnd (List.mem_range.2 ht) (fun u => s₁.pending u ++ visitsOf (s₁.queue u))
        (vs ++ visitsOf (s₁.queue t)) [w] (by simp [hp])
      have e : (fun u => Function.update s₁.pending t vs u ++ visitsOf (s₁.queue u)) =
          Function.update (fun u => s₁.pending u ++ visitsOf (s₁.queue u)) t (vs ++ visitsOf (s₁.queue t)) := by
        funext u
        by_cases hu : u = t
        · subst hu; simp
        · simp [Function.update_of_ne hu]
      rw [e]
      refine List.Perm.trans ?_ (key.symm.append_left _)
      rw [← List.append_assoc, ← List.append_assoc]
      exact List.perm_append_comm.append_right _

end Vox.TsdfScan
