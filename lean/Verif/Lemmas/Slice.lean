/-
Slices: closed form of the loops.
-/
import Verif.Model.Slice
import Verif.Spec.Slice
import Verif.Lemmas.Evaluation

namespace Vox.Slice

open Layer Grid Spec Eval

variable {V : Type}

abbrev Entry := Pt × ℚ × Option ℚ

/-- What a voxel hands to the output arrays. -/
def feed (c : Caps) (M : ℕ) (st : St) (e : Entry) : Outcome St := if st.done then .ok st else store c M st e

theorem feed_done (c : Caps) (M : ℕ) {st : St} (h : st.done = true) (E : List Entry) : E.foldlM (feed c M) st = .ok st := by
  induction E with
  | nil => rfl
  | cons e E ih =>
    rw [List.foldlM_cons]
    unfold feed
    rw [if_pos h]
    exact ih

/-- The state after the entries `E` have been stored. -/
def stateOf (c : Caps) (M : ℕ) (E : List Entry) : St :=
  ⟨E.length, decide (E.length ≤ c.positions ∧ E.length ≤ c.distances), (E.map (·.1)).take c.positions, (E.map (·.2.1)).take c.distances,
    (E.take c.distances).filterMap (·.2.2), decide (E ≠ [] ∧ M ≤ E.length)⟩

theorem take_snoc_lt {α : Type} {L : List α} {n : ℕ} (h : L.length < n) (x : α) : (L ++ [x]).take n = L.take n ++ [x] := by
  rw [List.take_append, List.take_of_length_le (l := [x]) (by simp; omega)]

theorem take_snoc_ge {α : Type} {L : List α} {n : ℕ} (h : n ≤ L.length) (x : α) : (L ++ [x]).take n = L.take n := by
  rw [List.take_append, Nat.sub_eq_zero_of_le h, List.take_zero, List.append_nil]

theorem store_stateOf (c : Caps) (M : ℕ) (E : List Entry) (e : Entry) (hw : c.distances ≤ c.weights ∨ e.2.2 = none) :
    store c M (stateOf c M E) e = .ok (stateOf c M (E ++ [e])) := by
  obtain ⟨p, d, w⟩ := e
  have e1 : (storePosition c (stateOf c M E) p) = ⟨E.length, decide (E.length ≤ c.positions ∧ E.length ≤ c.distances) && decide (E.length < c.positions),
      ((E ++ [(p, d, w)]).map (·.1)).take c.positions, (E.map (·.2.1)).take c.distances,
      (E.take c.distances).filterMap (·.2.2), decide (E ≠ [] ∧ M ≤ E.length)⟩ := by
    unfold storePosition stateOf
    simp only [List.map_append, List.map_cons, List.map_nil]
    split_ifs with h
    · rw [take_snoc_lt (by simpa using h)]
      simp [h]
    · rw [take_snoc_ge (by simpa using h)]
      simp [h]
  have e2 : storeDistance c (storePosition c (stateOf c M E) p) d w = .ok ⟨E.length, decide (E.length ≤ c.positions ∧ E.length ≤ c.distances) && decide (E.length < c.positions) && decide (E.length < c.distances),
      ((E ++ [(p, d, w)]).map (·.1)).take c.positions, ((E ++ [(p, d, w)]).map (·.2.1)).take c.distances,
      ((E ++ [(p, d, w)]).take c.distances).filterMap (·.2.2), decide (E ≠ [] ∧ M ≤ E.length)⟩ := by
    rw [e1]
    unfold storeDistance
    simp only
    split_ifs with h
    · have t1 : ((E ++ [(p, d, w)]).map (·.2.1)).take c.distances = (E.map (·.2.1)).take c.distances ++ [d] := by
        rw [List.map_append]
        exact take_snoc_lt (by simpa using h) d
      have t2 : ((E ++ [(p, d, w)]).take c.distances) = E.take c.distances ++ [(p, d, w)] := take_snoc_lt h _
      rw [t1, t2, List.filterMap_append]
      unfold storeWeight
      cases w with
      | none => simp [h]
      | some w =>
        have hc : E.length < c.weights := by
          rcases hw with hw | hw
          · omega
          · cases hw
        simp [h, hc]
    · have t1 : ((E ++ [(p, d, w)]).map (·.2.1)).take c.distances = (E.map (·.2.1)).take c.distances := by
        rw [List.map_append]
        exact take_snoc_ge (by simpa using h) d
      have t2 : ((E ++ [(p, d, w)]).take c.distances) = E.take c.distances := take_snoc_ge (by omega) _
      rw [t1, t2]
      simp [h]
  unfold store
  rw [e2, Outcome.bind_ok, Outcome.pure_eq]
  unfold stateOf
  have b1 : (decide (E.length ≤ c.positions ∧ E.length ≤ c.distances) && decide (E.length < c.positions) && decide (E.length < c.distances)) =
      decide ((E ++ [(p, d, w)]).length ≤ c.positions ∧ (E ++ [(p, d, w)]).length ≤ c.distances) := by
    rw [Bool.eq_iff_iff]
    simp only [Bool.and_eq_true, decide_eq_true_eq, List.length_append, List.length_cons, List.length_nil]
    omega
  rw [b1]
  simp

theorem feed_all (c : Caps) (M : ℕ) (E : List Entry) (hw : c.distances ≤ c.weights ∨ ∀ e ∈ E, e.2.2 = none) : ∀ E₀ : List Entry, E₀.length ≤ max M 1 →
    E.foldlM (feed c M) (stateOf c M E₀) = .ok (stateOf c M (E₀ ++ E.take (max M 1 - E₀.length))) := by
  induction E with
  | nil => intro E₀ _; simp
  | cons e E ih =>
    intro E₀ h0
    by_cases hd : E₀.length = max M 1
    · rw [feed_done, hd, Nat.sub_self, List.take_zero, List.append_nil]
      have : E₀ ≠ [] := by
        rintro rfl
        simp at hd
        omega
      simp only [stateOf, decide_eq_true_eq]
      exact ⟨this, by omega⟩
    · rw [List.foldlM_cons]
      have hnd : (stateOf c M E₀).done = false := by
        simp only [stateOf, decide_eq_false_iff_not]
        rintro ⟨h1, h2⟩
        have := List.length_pos_iff.2 h1
        omega
      unfold feed
      rw [hnd, if_neg (by simp), store_stateOf c M E₀ e (hw.imp_right fun h => h e (by simp)), Outcome.bind_ok]
      have := ih (hw.imp_right fun h x hx => h x (by simp [hx])) (E₀ ++ [e]) (by rw [List.length_append, List.length_singleton]; omega)
      unfold feed at this
      rw [this]
      have hk : max M 1 - E₀.length = (max M 1 - (E₀ ++ [e]).length) + 1 := by
        rw [List.length_append, List.length_singleton]; omega
      rw [hk, List.take_succ_cons, List.append_assoc]
      rfl

/-! ### The loops feed the selected voxels -/

open Classical in
/-- The output of voxel `g`. -/
noncomputable def entryAt (K : Kind V) (a : Fin 3) (val : ℚ) (l : VLayer V) (g : Idx) : Option Entry :=
  match block? l (blockOf l.cfg.vps g) with
  | none => none
  | some b =>
    if K.skips b = false ∧ NotAboveBlock l.cfg.voxelSize l.cfg.vps a val g ∧ OnSlice l.cfg.voxelSize a val g then
      ((content l g).bind K.reading).map fun r => (voxelCenter l.cfg.voxelSize g, r)
    else none

theorem axis_ok (a : Fin 3) (p : Pt) : axis a p = .ok (axial a p) := by
  match a with
  | 0 => rfl
  | 1 => rfl
  | 2 => rfl

theorem foldlM_filterMap {α β γ : Type} {f : β → α → Outcome β} {h : α → Option γ} {k : β → γ → Outcome β} (xs : List α) :
    ∀ s, (∀ x ∈ xs, ∀ s, f s x = match h x with | none => .ok s | some e => k s e) → xs.foldlM f s = (xs.filterMap h).foldlM k s := by
  induction xs with
  | nil => intro s _; rfl
  | cons x xs ih =>
    intro s H
    rw [List.foldlM_cons, H x (by simp), List.filterMap_cons]
    cases h x with
    | none => exact ih s fun y hy => H y (by simp [hy])
    | some e =>
      simp only [List.foldlM_cons]
      congr 1
      funext s'
      exact ih s' fun y hy => H y (by simp [hy])

theorem foldlM_flatMap {α β γ : Type} {f : β → α → Outcome β} {h : α → List γ} {k : β → γ → Outcome β} (xs : List α) :
    ∀ s, (∀ x ∈ xs, ∀ s, f s x = (h x).foldlM k s) → xs.foldlM f s = (xs.flatMap h).foldlM k s := by
  induction xs with
  | nil => intro s _; rfl
  | cons x xs ih =>
    intro s H
    rw [List.foldlM_cons, H x (by simp), List.flatMap_cons, List.foldlM_append]
    congr 1
    funext s'
    exact ih s' fun y hy => H y (by simp [hy])

theorem axial_div_le (n : ℕ) (h0 : 0 < n) (a : Fin 3) (g : Idx) :
    (axial a (blockOf n g) : ℤ) * n ≤ axial a g ∧ axial a g < ((axial a (blockOf n g) : ℤ) + 1) * n := by
  have hn : (0 : ℤ) < n := by exact_mod_cast h0
  have key : ∀ z : ℤ, z / n * n ≤ z ∧ z < (z / n + 1) * n := fun z =>
    ⟨Int.ediv_mul_le z hn.ne', by have := Int.lt_ediv_add_one_mul_self z hn; linarith⟩
  match a with
  | 0 => exact key g.x
  | 1 => exact key g.y
  | 2 => exact key g.z

theorem axial_center (s : ℚ) (a : Fin 3) (g : Idx) : axial a (voxelCenter s g) = ((axial a g : ℤ) + 1 / 2) * s := by
  match a with
  | 0 => rfl
  | 1 => rfl
  | 2 => rfl

theorem axial_origin {l : VLayer V} (wf : WellFormed l) {i : Idx} {b : Block ℚ V} (hb : block? l i = some b) (a : Fin 3) :
    axial a b.origin = (axial a i : ℤ) * (l.cfg.voxelSize * l.cfg.vps) := by
  rw [(wf.block _ _ hb).2.2.1]
  match a with
  | 0 => rfl
  | 1 => rfl
  | 2 => rfl

theorem near_of {s : ℚ} (hs : 0 < s) {n : ℕ} (h0 : 0 < n) (a : Fin 3) (val : ℚ) (g : Idx) (hon : OnSlice s a val g) :
    (axial a (blockOf n g) : ℤ) * (s * n) - val ≤ s * n := by
  have h1 := (axial_div_le n h0 a g).1
  have h1' : ((axial a (blockOf n g) : ℤ) : ℚ) * n ≤ (axial a g : ℤ) := by exact_mod_cast h1
  unfold OnSlice at hon
  rw [axial_center] at hon
  have h2 := (abs_le.1 hon).2
  have hn1 : (1 : ℚ) ≤ n := by exact_mod_cast h0
  have h3 : s * 1 ≤ s * n := mul_le_mul_of_nonneg_left hn1 hs.le
  have h4 := mul_le_mul_of_nonneg_right h1' hs.le
  nlinarith

theorem voxelStep_ok {K : Kind V} {c : Caps} {M : ℕ} {a : Fin 3} {val : ℚ} {l : VLayer V} (wf : WellFormed l) {i : Idx} {b : Block ℚ V}
    (hb : block? l i = some b) (hsk : K.skips b = false) (hna : val ≤ ((axial a i : ℤ) + 1) * (l.cfg.voxelSize * l.cfg.vps)) {k : ℕ}
    (hk : k < l.cfg.vps * l.cfg.vps * l.cfg.vps) (st : St) :
    voxelStep K c M a val b st k = match entryAt K a val l (pos l.cfg.vps i k) with | none => .ok st | some e => feed c M st e := by
  obtain ⟨w1, w2, w3, w4⟩ := wf.block _ _ hb
  obtain ⟨x, h1, h2⟩ := Merge.voxelAt_ok (b := b) (k := k) (by rw [w4]; exact hk)
  have hc : content l (pos l.cfg.vps i k) = some x := by rw [content_pos wf hk, hb]; exact h2
  have hsz : numVoxels l.cfg.vps ≤ 2 ^ 31 := by
    have a2 : l.cfg.vps * l.cfg.vps ≤ 1290 * 1290 := Nat.mul_le_mul wf.side_le wf.side_le
    have a3 : l.cfg.vps * l.cfg.vps * l.cfg.vps ≤ 1290 * 1290 * 1290 := Nat.mul_le_mul a2 wf.side_le
    unfold numVoxels
    omega
  obtain ⟨v, v1, v2, v3⟩ := Props.C01_linear_to_voxel_to_linear hsz (l := k) (by
    unfold isValidLinearIndex numVoxels
    rw [if_neg (by omega)])
  have hv : v = loc l.cfg.vps k := linearIndex_inj wf.side_le v2 (loc_spec wf.side_le hk).1 (by rw [v3, (loc_spec wf.side_le hk).2])
  have hcen : centerOf b v = voxelCenter l.cfg.voxelSize (pos l.cfg.vps i k) := by
    rw [centerOf_eq wf hb, hv]
    rfl
  have hbl : blockOf l.cfg.vps (pos l.cfg.vps i k) = i := blockOf_pos wf.side_le hk i
  unfold voxelStep entryAt
  rw [hbl, hb, w1, v1, h1]
  simp only [Outcome.bind_ok, hcen, axis_ok, hc, Option.bind_some, w2]
  have hna' : NotAboveBlock l.cfg.voxelSize l.cfg.vps a val (pos l.cfg.vps i k) := by
    unfold NotAboveBlock
    rw [hbl]
    exact hna
  by_cases hd : st.done = true
  · rw [if_pos hd]
    split
    · rfl
    · unfold feed
      rw [if_pos hd]
  · rw [if_neg hd]
    by_cases hon : |axial a (voxelCenter l.cfg.voxelSize (pos l.cfg.vps i k)) - val| ≤ l.cfg.voxelSize
    · rw [if_pos hon, if_pos ⟨hsk, hna', hon⟩]
      cases hr : K.reading x with
      | none => rfl
      | some r =>
        simp only [Option.map_some, feed]
        rw [if_neg hd]
    · rw [if_neg hon, if_neg (fun h => hon h.2.2)]

theorem filterMap_none {α β : Type} {f : α → Option β} {L : List α} (h : ∀ x ∈ L, f x = none) : L.filterMap f = [] :=
  List.filterMap_eq_nil_iff.2 h

theorem blockStep_ok {K : Kind V} {c : Caps} {M : ℕ} {a : Fin 3} {val : ℚ} {l : VLayer V} (wf : WellFormed l) {i : Idx} {b : Block ℚ V}
    (hb : block? l i = some b) (st : St) :
    blockStep K c M a val l st i = (((List.range (l.cfg.vps * l.cfg.vps * l.cfg.vps)).map (pos l.cfg.vps i)).filterMap (entryAt K a val l)).foldlM (feed c M) st := by
  obtain ⟨w1, w2, w3, w4⟩ := wf.block _ _ hb
  unfold blockStep
  by_cases hd : st.done = true
  · rw [if_pos hd, feed_done c M hd]
  rw [if_neg hd, hb]
  simp only
  have hbl : ∀ g ∈ (List.range (l.cfg.vps * l.cfg.vps * l.cfg.vps)).map (pos l.cfg.vps i), blockOf l.cfg.vps g = i := by
    intro g hg
    obtain ⟨k, hk, rfl⟩ := List.mem_map.1 hg
    exact blockOf_pos wf.side_le (List.mem_range.1 hk) i
  by_cases hsk : K.skips b = true
  · rw [if_pos hsk, filterMap_none]
    · rfl
    · intro g hg
      unfold entryAt
      rw [hbl g hg, hb]
      simp [hsk]
  rw [if_neg hsk, axis_ok, Outcome.bind_ok, axial_origin wf hb, w1, w2]
  split_ifs with hfar
  · rw [filterMap_none]
    · rfl
    · intro g hg
      unfold entryAt
      rw [hbl g hg, hb]
      simp only
      rw [if_neg]
      rintro ⟨_, hna, hon⟩
      have h2 := near_of wf.size_pos wf.side_pos a val g hon
      unfold NotAboveBlock at hna
      rw [hbl g hg] at h2 hna
      rw [gt_iff_lt, lt_abs] at hfar
      rcases hfar with h | h <;> nlinarith
  · rw [gt_iff_lt, not_lt, abs_le] at hfar
    rw [List.filterMap_map]
    refine foldlM_filterMap _ _ fun k hk s => ?_
    have hna : val ≤ ((axial a i : ℤ) + 1) * (l.cfg.voxelSize * l.cfg.vps) := by nlinarith [hfar.1]
    rw [voxelStep_ok wf hb (by simpa using hsk) hna (List.mem_range.1 hk) s, Function.comp_apply]
    cases entryAt K a val l (pos l.cfg.vps i k) <;> rfl

/-- All outputs, in the order of the loops. -/
noncomputable def entries (K : Kind V) (a : Fin 3) (val : ℚ) (l : VLayer V) : List Entry :=
  (positions l.cfg.vps (l.blocks.map (·.1))).filterMap (entryAt K a val l)

theorem slice_ok {K : Kind V} {c : Caps} {M : ℕ} {a : Fin 3} {val : ℚ} {l : VLayer V} (wf : WellFormed l)
    (hw : c.distances ≤ c.weights ∨ ∀ e ∈ entries K a val l, e.2.2 = none) :
    slice K c M a val l = .ok (finish (stateOf c M ((entries K a val l).take (max M 1)))) := by
  unfold slice
  have h : (l.blocks.map (·.1)).foldlM (blockStep K c M a val l) ⟨0, true, [], [], [], false⟩ = (entries K a val l).foldlM (feed c M) (stateOf c M []) := by
    unfold entries positions
    rw [List.filterMap_flatMap]
    have e0 : stateOf c M [] = ⟨0, true, [], [], [], false⟩ := by simp [stateOf]
    rw [e0]
    refine foldlM_flatMap _ _ fun i hi s => ?_
    obtain ⟨e, he, rfl⟩ := List.mem_map.1 hi
    have : (block? l e.1).isSome = true := allocated_iff_mem.2 (List.mem_map.2 ⟨e, he, rfl⟩)
    obtain ⟨b, hb⟩ := Option.isSome_iff_exists.1 this
    exact blockStep_ok wf hb s
  rw [h, feed_all c M _ hw [] (Nat.zero_le _)]
  simp

theorem entryAt_iff {K : Kind V} {a : Fin 3} {val : ℚ} {l : VLayer V} (g : Idx) (e : Entry) :
    entryAt K a val l g = some e ↔ ∃ b v r, block? l (blockOf l.cfg.vps g) = some b ∧ K.skips b = false ∧ content l g = some v ∧ K.reading v = some r ∧
      OnSlice l.cfg.voxelSize a val g ∧ NotAboveBlock l.cfg.voxelSize l.cfg.vps a val g ∧ e = (voxelCenter l.cfg.voxelSize g, r) := by
  unfold entryAt
  cases hb : block? l (blockOf l.cfg.vps g) with
  | none => simp
  | some b =>
    simp only
    split_ifs with h
    · cases hc : content l g with
      | none => simp
      | some v =>
        simp only [Option.bind_some, Option.map_eq_some_iff]
        constructor
        · rintro ⟨r, h1, h2⟩
          exact ⟨b, v, r, rfl, h.1, rfl, h1, h.2.2, h.2.1, h2.symm⟩
        · rintro ⟨b', v', r, h1, h2, h3, h4, h5, h6, h7⟩
          obtain rfl := Option.some.inj h3
          exact ⟨r, h4, h7.symm⟩
    · simp only [false_iff]
      rintro ⟨b', v', r, h1, h2, h3, h4, h5, h6, h7⟩
      obtain rfl := Option.some.inj h1
      exact h ⟨h2, h6, h5⟩

theorem voxelCenter_inj {s : ℚ} (hs : 0 < s) {g h : Idx} (e : voxelCenter s g = voxelCenter s h) : g = h := by
  have key : ∀ x y : ℤ, ((x : ℚ) + 1 / 2) * s = ((y : ℚ) + 1 / 2) * s → x = y := by
    intro x y e
    have := mul_right_cancel₀ hs.ne' e
    exact_mod_cast add_right_cancel this
  exact Vec3.ext (key _ _ (congrArg Vec3.x e)) (key _ _ (congrArg Vec3.y e)) (key _ _ (congrArg Vec3.z e))

theorem mem_entries {K : Kind V} {a : Fin 3} {val : ℚ} {l : VLayer V} (wf : WellFormed l) (e : Entry) :
    e ∈ entries K a val l ↔ ∃ g b v r, block? l (blockOf l.cfg.vps g) = some b ∧ K.skips b = false ∧ content l g = some v ∧ K.reading v = some r ∧
      OnSlice l.cfg.voxelSize a val g ∧ NotAboveBlock l.cfg.voxelSize l.cfg.vps a val g ∧ e = (voxelCenter l.cfg.voxelSize g, r) := by
  unfold entries
  rw [List.mem_filterMap]
  constructor
  · rintro ⟨g, _, h⟩
    exact ⟨g, (entryAt_iff g e).1 h⟩
  · rintro ⟨g, h⟩
    refine ⟨g, ?_, (entryAt_iff g e).2 h⟩
    obtain ⟨b, _, _, hb, _⟩ := h
    rw [mem_positions wf.side_pos wf.side_le]
    refine allocated_iff_mem.1 ?_
    show (block? l _).isSome = true
    rw [hb]
    rfl

theorem entries_nodup {K : Kind V} {a : Fin 3} {val : ℚ} {l : VLayer V} (wf : WellFormed l) (nd : (l.blocks.map (·.1)).Nodup) :
    ((entries K a val l).map (·.1)).Nodup := by
  unfold entries
  rw [List.map_filterMap]
  refine List.Nodup.filterMap ?_ (positions_nodup wf.side_le nd)
  intro g h p hg hh
  obtain ⟨e, he, h1⟩ := Option.map_eq_some_iff.1 (show Option.map _ _ = some p from hg)
  obtain ⟨f, hf, h2⟩ := Option.map_eq_some_iff.1 (show Option.map _ _ = some p from hh)
  obtain ⟨_, _, _, _, _, _, _, _, _, e1⟩ := (entryAt_iff g e).1 he
  obtain ⟨_, _, _, _, _, _, _, _, _, e2⟩ := (entryAt_iff h f).1 hf
  rw [e1] at h1
  rw [e2] at h2
  exact voxelCenter_inj wf.size_pos (h1.trans h2.symm)

end Vox.Slice
