/-
Evaluation of a map against ground truth.
-/
import Verif.Spec.Evaluation
import Verif.Lemmas.Merge
import Verif.Lemmas.Layer
import Mathlib.Data.List.Nodup
import Mathlib.Data.List.Count
import Mathlib.Data.List.Perm.Basic

namespace Vox.Eval

open Layer Grid Spec

variable {V : Type}

/-! ### The voxels of a layer as a list -/

theorem exists_loc {n k : ℕ} (hn : n ≤ 1290) (hk : k < n * n * n) : ∃ v, InBlock n v ∧ linearIndex n v = k := by
  have hsz : numVoxels n ≤ 2 ^ 31 := by
    have h2 : n * n ≤ 1290 * 1290 := Nat.mul_le_mul hn hn
    have h3 : n * n * n ≤ 1290 * 1290 * 1290 := Nat.mul_le_mul h2 hn
    unfold numVoxels
    omega
  obtain ⟨v, _, h1, h2⟩ := Props.C01_linear_to_voxel_to_linear hsz (l := k) (by
    unfold isValidLinearIndex numVoxels
    rw [if_neg (by omega)])
  exact ⟨v, h1, h2⟩

open Classical in
/-- The local index with linear index `k`. -/
noncomputable def loc (n k : ℕ) : Idx := if h : ∃ v, InBlock n v ∧ linearIndex n v = k then h.choose else 0

theorem loc_spec {n k : ℕ} (hn : n ≤ 1290) (hk : k < n * n * n) : InBlock n (loc n k) ∧ linearIndex n (loc n k) = k := by
  have h := exists_loc hn hk
  unfold loc
  rw [dif_pos h]
  exact h.choose_spec

/-- The global index of the voxel with linear index `k` of block `i`. -/
noncomputable def pos (n : ℕ) (i : Idx) (k : ℕ) : Idx := globalIndex n i (loc n k)

/-- The voxels of the blocks `is`. -/
noncomputable def positions (n : ℕ) (is : List Idx) : List Idx := is.flatMap fun i => (List.range (n * n * n)).map (pos n i)

theorem blockOf_pos {n k : ℕ} (hn : n ≤ 1290) (hk : k < n * n * n) (i : Idx) : blockOf n (pos n i k) = i :=
  blockOf_globalIndex (loc_spec hn hk).1

theorem localOf_pos {n k : ℕ} (hn : n ≤ 1290) (hk : k < n * n * n) (i : Idx) : localOf n (pos n i k) = loc n k :=
  localOf_globalIndex (loc_spec hn hk).1

theorem pos_of {n : ℕ} (h0 : 0 < n) (hn : n ≤ 1290) (g : Idx) : pos n (blockOf n g) (linearIndex n (localOf n g)) = g ∧ linearIndex n (localOf n g) < n * n * n := by
  have hv := localOf_inBlock h0 g
  have hlt := (linearIndex_eq hn hv).2
  refine ⟨?_, hlt⟩
  obtain ⟨h1, h2⟩ := loc_spec hn hlt
  have : loc n (linearIndex n (localOf n g)) = localOf n g := linearIndex_inj hn h1 hv h2
  unfold pos
  rw [this, globalIndex_split]

theorem mem_positions {n : ℕ} (h0 : 0 < n) (hn : n ≤ 1290) {is : List Idx} {g : Idx} : g ∈ positions n is ↔ blockOf n g ∈ is := by
  unfold positions
  rw [List.mem_flatMap]
  constructor
  · rintro ⟨i, hi, hg⟩
    obtain ⟨k, hk, rfl⟩ := List.mem_map.1 hg
    rw [blockOf_pos hn (List.mem_range.1 hk)]
    exact hi
  · intro h
    obtain ⟨e, hl⟩ := pos_of h0 hn g
    exact ⟨_, h, List.mem_map.2 ⟨_, List.mem_range.2 hl, e⟩⟩

theorem positions_nodup {n : ℕ} (hn : n ≤ 1290) {is : List Idx} (h : is.Nodup) : (positions n is).Nodup := by
  unfold positions
  rw [List.nodup_flatMap]
  refine ⟨fun i _ => ?_, ?_⟩
  · refine List.Nodup.map_on ?_ List.nodup_range
    intro a ha b hb e
    have ha := List.mem_range.1 ha
    have hb := List.mem_range.1 hb
    have := congrArg (localOf n) e
    rw [localOf_pos hn ha, localOf_pos hn hb] at this
    rw [← (loc_spec hn ha).2, ← (loc_spec hn hb).2, this]
  · refine List.Pairwise.imp_of_mem ?_ h
    intro i j _ _ hij x hx hy
    obtain ⟨a, ha, rfl⟩ := List.mem_map.1 hx
    obtain ⟨b, hb, e⟩ := List.mem_map.1 hy
    have := congrArg (blockOf n) e
    rw [blockOf_pos hn (List.mem_range.1 ha), blockOf_pos hn (List.mem_range.1 hb)] at this
    exact hij this.symm

theorem content_pos {l : VLayer V} (wf : WellFormed l) {k : ℕ} (hk : k < l.cfg.vps * l.cfg.vps * l.cfg.vps) (i : Idx) :
    content l (pos l.cfg.vps i k) = (block? l i).bind fun b => b.voxels[k]? := by
  rw [content_eq wf, blockOf_pos wf.side_le hk, localOf_pos wf.side_le hk, (loc_spec wf.side_le hk).2]

/-! ### The bookkeeping, voxel by voxel -/

/-- What one voxel contributes. -/
def item (N : Num) (S : Sdf V) (m : Mode) (gt test : VLayer V) (d : Details) (g : Idx) : Details :=
  match content gt g, content test g with
  | some a, some b => account N d (computeVoxelError N S a b m)
  | some a, none => countOne S d a
  | none, some b => countOne S d b
  | none, none => d

/-- The evaluated error of a voxel. -/
def errorAt (N : Num) (S : Sdf V) (m : Mode) (gt test : VLayer V) (g : Idx) : Option ℚ :=
  match content gt g, content test g with
  | some a, some b =>
    match computeVoxelError N S a b m with
    | .evaluated e => some e
    | _ => none
  | _, _ => none

theorem foldlM_pure {α β : Type} {f : β → α → Outcome β} {g : β → α → β} (xs : List α) : ∀ s, (∀ x ∈ xs, ∀ s, f s x = .ok (g s x)) →
    xs.foldlM f s = .ok (xs.foldl g s) := by
  induction xs with
  | nil => intro s _; rfl
  | cons x xs ih =>
    intro s h
    rw [List.foldlM_cons, h x (by simp), List.foldl_cons]
    exact ih _ fun y hy => h y (by simp [hy])

theorem countTest_ok (N : Num) (S : Sdf V) (m : Mode) {gt test : VLayer V} (wg : WellFormed gt) (wt : WellFormed test) (hv : gt.cfg.vps = test.cfg.vps) {i : Idx}
    {b : Block ℚ V} (hb : block? test i = some b) (ha : block? gt i = none) (d : Details) :
    countBlock S (numVoxels test.cfg.vps) b d = .ok (((List.range (numVoxels test.cfg.vps)).map (pos test.cfg.vps i)).foldl (item N S m gt test) d) := by
  unfold countBlock
  rw [List.foldl_map]
  refine foldlM_pure _ _ fun k hk s => ?_
  have hk := List.mem_range.1 hk
  obtain ⟨x, h1, h2⟩ := Merge.voxelAt_ok (b := b) (k := k) (by rw [(wt.block _ _ hb).2.2.2]; exact hk)
  have e1 : content test (pos test.cfg.vps i k) = some x := by rw [content_pos wt hk, hb]; exact h2
  have e2 : content gt (pos test.cfg.vps i k) = none := by rw [← hv, content_pos wg (by rw [hv]; exact hk), ha]; rfl
  rw [h1]
  unfold item
  rw [e1, e2]
  rfl

theorem countGt_ok (N : Num) (S : Sdf V) (m : Mode) {gt test : VLayer V} (wg : WellFormed gt) (wt : WellFormed test) (hv : gt.cfg.vps = test.cfg.vps) {i : Idx}
    {a : Block ℚ V} (ha : block? gt i = some a) (hb : block? test i = none) (d : Details) :
    countBlock S (numVoxels test.cfg.vps) a d = .ok (((List.range (numVoxels test.cfg.vps)).map (pos test.cfg.vps i)).foldl (item N S m gt test) d) := by
  unfold countBlock
  rw [List.foldl_map]
  refine foldlM_pure _ _ fun k hk s => ?_
  have hk := List.mem_range.1 hk
  have hk' : k < gt.cfg.vps * gt.cfg.vps * gt.cfg.vps := by rw [hv]; exact hk
  obtain ⟨x, h1, h2⟩ := Merge.voxelAt_ok (b := a) (k := k) (by rw [(wg.block _ _ ha).2.2.2]; exact hk')
  have e1 : content gt (pos test.cfg.vps i k) = some x := by rw [← hv, content_pos wg hk', ha]; exact h2
  have e2 : content test (pos test.cfg.vps i k) = none := by rw [content_pos wt hk, hb]; rfl
  rw [h1]
  unfold item
  rw [e1, e2]
  rfl

/-- The voxel written to the error layer. -/
def errVoxel (S : Sdf V) (e : ℚ) (x : V) : V := S.setWeight (S.setSdf |e| x)

theorem voxelSteps_ok (N : Num) (S : Sdf V) (m : Mode) {gt test : VLayer V} (wg : WellFormed gt) (wt : WellFormed test) (hv : gt.cfg.vps = test.cfg.vps) {i : Idx}
    {a b : Block ℚ V} (ha : block? gt i = some a) (hb : block? test i = some b) (d : Details) (xs : Option (List V))
    (hxs : ∀ ys, xs = some ys → ys.length = numVoxels test.cfg.vps) (c : ℕ) (hc : c ≤ numVoxels test.cfg.vps) :
    ∃ xs', (List.range c).foldlM (voxelStep N S m a b) (d, xs) = .ok (((List.range c).map (pos test.cfg.vps i)).foldl (item N S m gt test) d, xs') ∧
      (xs = none → xs' = none) ∧
      ∀ ys, xs = some ys → ∃ ys', xs' = some ys' ∧ ys'.length = ys.length ∧ ∀ k : ℕ, ys'[k]? = if k < c then
        (match errorAt N S m gt test (pos test.cfg.vps i k) with
          | some e => ys[k]?.map (errVoxel S e)
          | none => ys[k]?) else ys[k]? := by
  induction c with
  | zero => exact ⟨xs, rfl, id, fun ys h => ⟨ys, h, rfl, by simp⟩⟩
  | succ c ih =>
    obtain ⟨xs1, h1, h2, h3⟩ := ih (by omega)
    have hk : c < test.cfg.vps * test.cfg.vps * test.cfg.vps := by unfold numVoxels at hc; omega
    have hk' : c < gt.cfg.vps * gt.cfg.vps * gt.cfg.vps := by rw [hv]; exact hk
    obtain ⟨x, a1, a2⟩ := Merge.voxelAt_ok (b := a) (k := c) (by rw [(wg.block _ _ ha).2.2.2]; exact hk')
    obtain ⟨y, b1, b2⟩ := Merge.voxelAt_ok (b := b) (k := c) (by rw [(wt.block _ _ hb).2.2.2]; exact hk)
    have e1 : content gt (pos test.cfg.vps i c) = some x := by rw [← hv, content_pos wg hk', ha]; exact a2
    have e2 : content test (pos test.cfg.vps i c) = some y := by rw [content_pos wt hk, hb]; exact b2
    have hit : ∀ d, item N S m gt test d (pos test.cfg.vps i c) = account N d (computeVoxelError N S x y m) := by
      intro d
      unfold item
      rw [e1, e2]
    have her : errorAt N S m gt test (pos test.cfg.vps i c) = (match computeVoxelError N S x y m with
        | .evaluated e => some e
        | _ => none) := by
      unfold errorAt
      rw [e1, e2]
    rw [List.range_succ, List.foldlM_append, h1, List.map_append, List.foldl_append]
    simp only [Outcome.bind_ok, List.foldlM_cons, List.foldlM_nil, List.map_cons, List.map_nil, List.foldl_cons, List.foldl_nil, hit, voxelStep, a1, b1]
    cases xs with
    | none =>
      obtain rfl := h2 rfl
      refine ⟨none, ?_, fun _ => rfl, fun ys h => by cases h⟩
      cases computeVoxelError N S x y m <;> rfl
    | some ys =>
      obtain ⟨ys1, rfl, l1, g1⟩ := h3 ys rfl
      have hlen := hxs ys rfl
      have hlt : c < ys1.length := by rw [l1, hlen]; exact hk
      cases hr : computeVoxelError N S x y m with
      | evaluated e =>
        rw [hr] at her
        refine ⟨some (ys1.set c (errVoxel S e ys1[c])), ?_, nofun, ?_⟩
        · simp only [writeError, List.getElem?_eq_getElem hlt, Outcome.bind_ok, Outcome.pure_eq]
          rfl
        · intro zs hz
          obtain rfl := Option.some.inj hz
          refine ⟨_, rfl, by rw [List.length_set, l1], fun k => ?_⟩
          rw [List.getElem?_set]
          by_cases hkc : c = k
          · subst hkc
            simp only [if_true, hlt, Nat.lt_succ_self, her]
            have hg := g1 c
            rw [if_neg (lt_irrefl c), List.getElem?_eq_getElem hlt] at hg
            rw [← hg]
            rfl
          · rw [if_neg hkc, g1]
            have : k < c + 1 ↔ k < c := by omega
            simp only [this]
      | ignored =>
        rw [hr] at her
        refine ⟨some ys1, by simp [writeError], nofun, ?_⟩
        intro zs hz
        obtain rfl := Option.some.inj hz
        refine ⟨ys1, rfl, l1, fun k => ?_⟩
        rw [g1]
        by_cases hkc : k = c
        · subst hkc
          simp [her]
        · have : k < c + 1 ↔ k < c := by omega
          simp only [this]
      | noOverlap =>
        rw [hr] at her
        refine ⟨some ys1, by simp [writeError], nofun, ?_⟩
        intro zs hz
        obtain rfl := Option.some.inj hz
        refine ⟨ys1, rfl, l1, fun k => ?_⟩
        rw [g1]
        by_cases hkc : k = c
        · subst hkc
          simp [her]
        · have : k < c + 1 ↔ k < c := by omega
          simp only [this]

open Classical in
/-- What the error layer holds at `g` afterwards. -/
noncomputable def errContent (N : Num) (S : Sdf V) (m : Mode) (gt test E : VLayer V) (g : Idx) : Option V :=
  match errorAt N S m gt test g with
  | some e => some (errVoxel S e ((content E g).getD S.dflt))
  | none => some ((content E g).getD S.dflt)

theorem modify_const (l : VLayer V) (i : Idx) {b : Block ℚ V} (hb : block? l i = some b) (f : Block ℚ V → Block ℚ V) (j : Idx) :
    block? (modifyBlock l i f) j = block? (modifyBlock l i fun _ => f b) j := by
  rw [modifyBlock_block?, modifyBlock_block?]
  split_ifs with h
  · rw [h, hb]; rfl
  · rfl

open Classical in
theorem testStep_ok (N : Num) (S : Sdf V) (m : Mode) {gt test : VLayer V} (wg : WellFormed gt) (wt : WellFormed test) (hv : gt.cfg.vps = test.cfg.vps)
    {i : Idx} (hi : Allocated test i) (d : Details) (E : Option (VLayer V)) (hE : ∀ l, E = some l → WellFormed l ∧ l.cfg.vps = test.cfg.vps) :
    ∃ E', testStep N S m gt test (d, E) i = .ok (((List.range (numVoxels test.cfg.vps)).map (pos test.cfg.vps i)).foldl (item N S m gt test) d, E') ∧
      (E = none → E' = none) ∧
      ∀ l, E = some l → ∃ l', E' = some l' ∧ WellFormed l' ∧ l'.cfg = l.cfg ∧
        ∀ g, content l' g = if blockOf test.cfg.vps g = i ∧ Allocated gt i then errContent N S m gt test l g else content l g := by
  obtain ⟨b, hb⟩ := Option.isSome_iff_exists.1 hi
  have hb : block? test i = some b := hb
  unfold testStep
  rw [hb]
  cases ha : block? gt i with
  | none =>
    have hna : ¬ Allocated gt i := by
      intro h
      have h' : (block? gt i).isSome = true := h
      rw [ha] at h'
      cases h'
    simp only [countTest_ok N S m wg wt hv hb ha, Outcome.bind_ok, Outcome.pure_eq]
    refine ⟨E, rfl, id, fun l h => ⟨l, h, (hE l h).1, rfl, fun g => ?_⟩⟩
    rw [if_neg fun h => hna h.2]
  | some a =>
    have hal : Allocated gt i := by
      show (block? gt i).isSome = true
      rw [ha]; rfl
    simp only [blockStep]
    cases E with
    | none =>
      obtain ⟨xs', h1, h2, _⟩ := voxelSteps_ok N S m wg wt hv ha hb d none (fun _ h => by cases h) _ le_rfl
      refine ⟨none, ?_, fun _ => rfl, fun l h => by cases h⟩
      simp only [h1, Outcome.bind_ok, Outcome.pure_eq]
    | some l =>
      obtain ⟨wl, hlv⟩ := hE l rfl
      have we := allocateBlock_wf wl S.dflt i
      have ce := fun g => allocateBlock_content wl S.dflt i g
      have ee := allocateBlock_cfg S.dflt l i
      obtain ⟨c, hc⟩ : ∃ c, block? (allocateBlock S.dflt l i) i = some c := by
        rw [allocateBlock_block?, if_pos rfl]
        exact ⟨_, rfl⟩
      set l1 := allocateBlock S.dflt l i with hl1
      obtain ⟨c1, c2, c3, c4⟩ := we.block _ _ hc
      have hlen : c.voxels.length = numVoxels test.cfg.vps := by
        rw [c4, ee, hlv]
        rfl
      obtain ⟨xs', h1, _, h3⟩ := voxelSteps_ok N S m wg wt hv ha hb d (some c.voxels) (fun ys h => by rw [← Option.some.inj h]; exact hlen) _ le_rfl
      obtain ⟨ys, rfl, y1, y2⟩ := h3 _ rfl
      refine ⟨some (modifyBlock l1 i fun b => { b with voxels := ys }), ?_, nofun, ?_⟩
      · simp only [← hl1, hc, h1, Outcome.bind_ok, Outcome.pure_eq]
      · intro l0 h0
        obtain rfl := Option.some.inj h0
        have wf' : WellFormed (modifyBlock l1 i fun b => { b with voxels := ys }) := by
          refine ⟨we.size_pos, we.side_pos, we.side_le, ?_⟩
          intro j b' hb'
          have hb'' : block? (modifyBlock l1 i fun b => { b with voxels := ys }) j = some b' := hb'
          rw [modifyBlock_block?] at hb''
          split_ifs at hb'' with hj
          · rw [hj, hc] at hb''
            obtain rfl := Option.some.inj hb''
            rw [hj]
            exact ⟨c1, c2, c3, y1.trans c4⟩
          · exact we.block _ _ hb''
        refine ⟨_, rfl, wf', by rw [modifyBlock_cfg, ee], fun g => ?_⟩
        rw [content_eq wf', modifyBlock_cfg, ee, hlv, modifyBlock_block?]
        by_cases hg : blockOf test.cfg.vps g = i
        · rw [if_pos hg, if_pos ⟨hg, hal⟩, hg, hc]
          obtain ⟨p1, p2⟩ := pos_of wt.side_pos wt.side_le g
          have hce := ce g
          rw [hlv, if_pos hg, content_eq we, ee, hlv, hg, hc] at hce
          simp only [Option.bind_some] at hce
          simp only [Option.map_some, Option.bind_some]
          rw [y2, if_pos (by unfold numVoxels; exact p2), ← hg, p1, hce]
          unfold errContent
          cases errorAt N S m gt test g <;> rfl
        · rw [if_neg hg, if_neg fun h => hg h.1]
          have hce := ce g
          rw [hlv, if_neg hg, content_eq we, ee, hlv] at hce
          exact hce

open Classical in
theorem testSteps_ok (N : Num) (S : Sdf V) (m : Mode) {gt test : VLayer V} (wg : WellFormed gt) (wt : WellFormed test) (hv : gt.cfg.vps = test.cfg.vps)
    (is : List Idx) : ∀ (d : Details) (E : Option (VLayer V)), is.Nodup → (∀ i ∈ is, Allocated test i) → (∀ l, E = some l → WellFormed l ∧ l.cfg.vps = test.cfg.vps) →
    ∃ E', is.foldlM (testStep N S m gt test) (d, E) = .ok ((positions test.cfg.vps is).foldl (item N S m gt test) d, E') ∧
      (E = none → E' = none) ∧
      ∀ l, E = some l → ∃ l', E' = some l' ∧ WellFormed l' ∧ l'.cfg = l.cfg ∧
        ∀ g, content l' g = if blockOf test.cfg.vps g ∈ is ∧ Allocated gt (blockOf test.cfg.vps g) then errContent N S m gt test l g else content l g := by
  induction is with
  | nil => intro d E _ _ hE; exact ⟨E, rfl, id, fun l h => ⟨l, h, (hE l h).1, rfl, by simp⟩⟩
  | cons i is ih =>
    intro d E hn hal hE
    rw [List.nodup_cons] at hn
    obtain ⟨E1, h1, h2, h3⟩ := testStep_ok N S m wg wt hv (hal i (by simp)) d E hE
    obtain ⟨E', k1, k2, k3⟩ := ih (((List.range (numVoxels test.cfg.vps)).map (pos test.cfg.vps i)).foldl (item N S m gt test) d) E1 hn.2
      (fun j hj => hal j (by simp [hj])) (by
        intro l hl
        cases E with
        | none => rw [h2 rfl] at hl; cases hl
        | some l0 =>
          obtain ⟨l', e1, w1, c1, _⟩ := h3 l0 rfl
          rw [e1] at hl
          obtain rfl := Option.some.inj hl
          exact ⟨w1, by rw [c1]; exact (hE l0 rfl).2⟩)
    refine ⟨E', ?_, fun h => k2 (h2 h), ?_⟩
    · rw [List.foldlM_cons, h1]
      simp only [Outcome.bind_ok, k1]
      unfold positions
      rw [List.flatMap_cons, List.foldl_append]
      rfl
    · intro l hl
      obtain ⟨l1, e1, w1, c1, g1⟩ := h3 l hl
      obtain ⟨l', e2, w2, c2, g2⟩ := k3 l1 e1
      refine ⟨l', e2, w2, c2.trans c1, fun g => ?_⟩
      rw [g2]
      simp only [List.mem_cons]
      by_cases hgi : blockOf test.cfg.vps g = i
      · have : blockOf test.cfg.vps g ∉ is := by rw [hgi]; exact hn.1
        rw [if_neg fun h => this h.1, g1]
        by_cases ha : Allocated gt i
        · rw [if_pos ⟨hgi, ha⟩, if_pos ⟨Or.inl hgi, by rw [hgi]; exact ha⟩]
        · rw [if_neg fun h => ha h.2, if_neg fun h => ha (by rw [← hgi]; exact h.2)]
      · have hc : content l1 g = content l g := by rw [g1, if_neg fun h => hgi h.1]
        have : errContent N S m gt test l1 g = errContent N S m gt test l g := by
          unfold errContent
          rw [hc]
        rw [this, hc]
        simp only [hgi, false_or]

theorem gtSteps_ok (N : Num) (S : Sdf V) (m : Mode) {gt test : VLayer V} (wg : WellFormed gt) (wt : WellFormed test) (hv : gt.cfg.vps = test.cfg.vps)
    (is : List Idx) : ∀ (d : Details), (∀ i ∈ is, Allocated gt i) →
    is.foldlM (gtStep S gt test) d = .ok ((positions test.cfg.vps (is.filter fun i => (block? test i).isNone)).foldl (item N S m gt test) d) := by
  induction is with
  | nil => intro d _; rfl
  | cons i is ih =>
    intro d hal
    obtain ⟨a, ha⟩ := Option.isSome_iff_exists.1 (hal i (by simp))
    have ha : block? gt i = some a := ha
    have ih' := fun d => ih d fun j hj => hal j (by simp [hj])
    rw [List.foldlM_cons]
    unfold gtStep
    rw [ha]
    cases hb : block? test i with
    | none =>
      simp only [countGt_ok N S m wg wt hv ha hb, Outcome.bind_ok]
      rw [List.filter_cons, hb]
      simp only [Option.isNone_none, if_true]
      unfold positions
      rw [List.flatMap_cons, List.foldl_append]
      exact ih' _
    | some b =>
      simp only [Outcome.bind_ok]
      rw [List.filter_cons, hb]
      simp only [Option.isNone_some, Bool.false_eq_true, if_false]
      exact ih' _

/-- All voxels the evaluation goes through. -/
noncomputable def visited (gt test : VLayer V) : List Idx :=
  positions test.cfg.vps (test.blocks.map (·.1)) ++ positions test.cfg.vps ((gt.blocks.map (·.1)).filter fun i => (block? test i).isNone)

theorem visited_lists {gt test : VLayer V} (wg : WellFormed gt) (wt : WellFormed test) (hv : gt.cfg.vps = test.cfg.vps)
    (ng : (gt.blocks.map (·.1)).Nodup) (nt : (test.blocks.map (·.1)).Nodup) : Lists gt test (visited gt test) := by
  have hal : ∀ {l : VLayer V} {i : Idx}, i ∈ l.blocks.map (·.1) ↔ (block? l i).isSome = true := fun {l i} => allocated_iff_mem.symm
  refine ⟨?_, ?_⟩
  · unfold visited
    rw [List.nodup_append]
    refine ⟨positions_nodup wt.side_le nt, positions_nodup wt.side_le (ng.filter _), ?_⟩
    intro g h1 h h2 e
    subst e
    rw [mem_positions wt.side_pos wt.side_le] at h1 h2
    rw [hal] at h1
    rw [List.mem_filter, Option.isNone_iff_eq_none] at h2
    rw [h2.2] at h1
    cases h1
  · intro g
    unfold visited
    rw [List.mem_append, mem_positions wt.side_pos wt.side_le, mem_positions wt.side_pos wt.side_le, List.mem_filter, hal, hal,
      content_isSome wg, content_isSome wt, hv]
    cases block? test (blockOf test.cfg.vps g) <;> cases block? gt (blockOf test.cfg.vps g) <;> simp

open Classical in
/-- The whole evaluation. -/
theorem evaluate_ok (N : Num) (S : Sdf V) (m : Mode) {gt test : VLayer V} (wg : WellFormed gt) (wt : WellFormed test) (hv : gt.cfg.vps = test.cfg.vps)
    (nt : (test.blocks.map (·.1)).Nodup)
    (E : Option (VLayer V)) (hE : ∀ l, E = some l → WellFormed l ∧ l.cfg.vps = test.cfg.vps) :
    ∃ E', evaluateLayersRmse N S gt test m E = .ok (finish N ((visited gt test).foldl (item N S m gt test) Details.init), E') ∧
      (E = none → E' = none) ∧
      ∀ l, E = some l → ∃ l', E' = some l' ∧ WellFormed l' ∧ l'.cfg = l.cfg ∧
        ∀ g, content l' g = if Allocated test (blockOf test.cfg.vps g) ∧ Allocated gt (blockOf test.cfg.vps g) then errContent N S m gt test l g else content l g := by
  obtain ⟨E', h1, h2, h3⟩ := testSteps_ok N S m wg wt hv _ Details.init E nt (fun i hi => allocated_iff_mem.2 hi) hE
  refine ⟨E', ?_, h2, ?_⟩
  · unfold evaluateLayersRmse
    rw [h1]
    simp only [Outcome.bind_ok]
    rw [gtSteps_ok N S m wg wt hv _ _ fun i hi => allocated_iff_mem.2 hi]
    unfold visited
    rw [List.foldl_append]
    rfl
  · intro l hl
    obtain ⟨l', e1, w1, c1, g1⟩ := h3 l hl
    refine ⟨l', e1, w1, c1, fun g => ?_⟩
    rw [g1, allocated_iff_mem (l := test)]
    congr

/-! ### What the bookkeeping amounts to -/

theorem ignoresTest_iff (m : Mode) : m.ignoresTest = true ↔ m = .behindTest ∨ m = .behindAll := by cases m <;> decide

theorem ignoresGt_iff (m : Mode) : m.ignoresGt = true ↔ m = .behindGt ∨ m = .behindAll := by cases m <;> decide

inductive Cases (N : Num) (S : Sdf V) (m : Mode) (gt test : VLayer V) (g : Idx) : Prop
  | evaluated (e : ℚ) : Evaluated S N.rnd m gt test g e → Overlaps S gt test g → ¬ Behind S m gt test g → Considered S gt test g →
      (∀ d, item N S m gt test d g = account N d (.evaluated e)) → errorAt N S m gt test g = some e → Cases N S m gt test g
  | ignored : Overlaps S gt test g → Behind S m gt test g → Considered S gt test g →
      (∀ d, item N S m gt test d g = account N d .ignored) → errorAt N S m gt test g = none → Cases N S m gt test g
  | apart : ¬ Overlaps S gt test g → Considered S gt test g →
      (∀ d, item N S m gt test d g = account N d .noOverlap) → errorAt N S m gt test g = none → Cases N S m gt test g
  | unknown : ¬ Overlaps S gt test g → ¬ Considered S gt test g → (∀ d, item N S m gt test d g = d) → errorAt N S m gt test g = none → Cases N S m gt test g

theorem cases_of (N : Num) (S : Sdf V) (m : Mode) (gt test : VLayer V) (g : Idx) : Cases N S m gt test g := by
  have hitem : ∀ d, item N S m gt test d g = match content gt g, content test g with
      | some a, some b => account N d (computeVoxelError N S a b m)
      | some a, none => countOne S d a
      | none, some b => countOne S d b
      | none, none => d := fun _ => rfl
  have herr : errorAt N S m gt test g = match content gt g, content test g with
      | some a, some b =>
        (match computeVoxelError N S a b m with
        | .evaluated e => some e
        | _ => none)
      | _, _ => none := rfl
  have ov : ∀ {a b}, content gt g = some a → content test g = some b → (Overlaps S gt test g ↔ S.observed a = true ∧ S.observed b = true) := by
    intro a b ha hb
    constructor
    · rintro ⟨a', b', h1, h2, h3, h4⟩
      rw [ha] at h1; rw [hb] at h2
      rw [Option.some.inj h1, Option.some.inj h2]
      exact ⟨h3, h4⟩
    · rintro ⟨h3, h4⟩
      exact ⟨a, b, ha, hb, h3, h4⟩
  cases ha : content gt g with
  | none =>
    have no : ¬ Overlaps S gt test g := by
      rintro ⟨a, b, h1, _⟩
      rw [ha] at h1; cases h1
    cases hb : content test g with
    | none =>
      refine .unknown no ?_ (fun d => by rw [hitem, ha, hb]) (by rw [herr, ha, hb])
      rintro (⟨a, b, h1, _⟩ | ⟨a, h1, _⟩ | ⟨b, h1, _⟩)
      · rw [ha] at h1; cases h1
      · rw [ha] at h1; cases h1
      · rw [hb] at h1; cases h1
    | some b =>
      by_cases ho : S.observed b = true
      · refine .apart no (Or.inr (Or.inr ⟨b, hb, ha, ho⟩)) (fun d => ?_) (by rw [herr, ha, hb])
        rw [hitem, ha, hb]
        simp [countOne, ho, account]
      · refine .unknown no ?_ (fun d => ?_) (by rw [herr, ha, hb])
        · rintro (⟨a, b, h1, _⟩ | ⟨a, h1, _⟩ | ⟨b', h1, _, h2⟩)
          · rw [ha] at h1; cases h1
          · rw [ha] at h1; cases h1
          · rw [hb] at h1
            rw [← Option.some.inj h1] at h2
            exact ho h2
        · rw [hitem, ha, hb]
          simp [countOne, ho]
  | some a =>
    cases hb : content test g with
    | none =>
      have no : ¬ Overlaps S gt test g := by
        rintro ⟨a, b, _, h1, _⟩
        rw [hb] at h1; cases h1
      by_cases ho : S.observed a = true
      · refine .apart no (Or.inr (Or.inl ⟨a, ha, hb, ho⟩)) (fun d => ?_) (by rw [herr, ha, hb])
        rw [hitem, ha, hb]
        simp [countOne, ho, account]
      · refine .unknown no ?_ (fun d => ?_) (by rw [herr, ha, hb])
        · rintro (⟨a, b, _, h1⟩ | ⟨a', h1, _, h2⟩ | ⟨b', h1, _⟩)
          · rw [hb] at h1; cases h1
          · rw [ha] at h1
            rw [← Option.some.inj h1] at h2
            exact ho h2
          · rw [hb] at h1; cases h1
        · rw [hitem, ha, hb]
          simp [countOne, ho]
    | some b =>
      have con : Considered S gt test g := Or.inl ⟨a, b, ha, hb⟩
      by_cases ho : S.observed a = true ∧ S.observed b = true
      · have hov := (ov ha hb).2 ho
        have beh : Behind S m gt test g ↔ ((m.ignoresTest && decide (S.sdf b < 0)) || (m.ignoresGt && decide (S.sdf a < 0))) = true := by
          unfold Behind
          rw [← ignoresTest_iff, ← ignoresGt_iff, Bool.or_eq_true, Bool.and_eq_true, Bool.and_eq_true, decide_eq_true_eq, decide_eq_true_eq, ha, hb]
          simp
        by_cases hbh : Behind S m gt test g
        · have hr : computeVoxelError N S a b m = .ignored := by
            unfold computeVoxelError
            rw [if_neg (by simp [ho.1, ho.2]), if_pos (beh.1 hbh)]
          exact .ignored hov hbh con (fun d => by rw [hitem, ha, hb]; simp only [hr]) (by rw [herr, ha, hb]; simp only [hr])
        · have hr : computeVoxelError N S a b m = .evaluated (N.rnd (S.sdf b - S.sdf a)) := by
            unfold computeVoxelError
            rw [if_neg (by simp [ho.1, ho.2]), if_neg (fun h => hbh (beh.2 h))]
          exact .evaluated _ ⟨hov, hbh, a, b, ha, hb, rfl⟩ hov hbh con (fun d => by rw [hitem, ha, hb]; simp only [hr]) (by rw [herr, ha, hb]; simp only [hr])
      · have hr : computeVoxelError N S a b m = .noOverlap := by
          unfold computeVoxelError
          rw [if_pos]
          cases h1 : S.observed a <;> cases h2 : S.observed b <;> simp_all
        exact .apart (fun h => ho ((ov ha hb).1 h)) con (fun d => by rw [hitem, ha, hb]; simp only [hr]) (by rw [herr, ha, hb]; simp only [hr])

theorem errorAt_iff (N : Num) (S : Sdf V) (m : Mode) (gt test : VLayer V) (g : Idx) (e : ℚ) :
    errorAt N S m gt test g = some e ↔ Evaluated S N.rnd m gt test g e := by
  have key : ∀ e e', Evaluated S N.rnd m gt test g e → Evaluated S N.rnd m gt test g e' → e = e' := by
    rintro e e' ⟨_, _, a, b, h1, h2, h3⟩ ⟨_, _, a', b', k1, k2, k3⟩
    rw [h1] at k1; rw [h2] at k2
    rw [h3, k3, Option.some.inj k1, Option.some.inj k2]
  cases cases_of N S m gt test g with
  | evaluated e' h1 _ _ _ _ h2 =>
    rw [h2]
    exact ⟨fun h => Option.some.inj h ▸ h1, fun h => by rw [key _ _ h1 h]⟩
  | ignored h1 h2 _ _ h3 =>
    rw [h3]
    exact ⟨nofun, fun h => absurd h2 h.2.1⟩
  | apart h1 _ _ h3 =>
    rw [h3]
    exact ⟨nofun, fun h => absurd h.1 h1⟩
  | unknown h1 _ _ h3 =>
    rw [h3]
    exact ⟨nofun, fun h => absurd h.1 h1⟩

open Classical in
theorem counts (N : Num) (S : Sdf V) (m : Mode) (gt test : VLayer V) (L : List Idx) : ∀ d : Details,
    (L.foldl (item N S m gt test) d).numEvaluated = d.numEvaluated + L.countP (fun g => decide (Overlaps S gt test g ∧ ¬ Behind S m gt test g)) ∧
    (L.foldl (item N S m gt test) d).numIgnored = d.numIgnored + L.countP (fun g => decide (Overlaps S gt test g ∧ Behind S m gt test g)) ∧
    (L.foldl (item N S m gt test) d).numOverlapping = d.numOverlapping + L.countP (fun g => decide (Overlaps S gt test g)) ∧
    (L.foldl (item N S m gt test) d).numNonOverlapping = d.numNonOverlapping + L.countP (fun g => decide (Considered S gt test g ∧ ¬ Overlaps S gt test g)) := by
  induction L with
  | nil => intro d; simp
  | cons g L ih =>
    intro d
    rw [List.foldl_cons]
    obtain ⟨h1, h2, h3, h4⟩ := ih (item N S m gt test d g)
    rw [h1, h2, h3, h4]
    simp only [List.countP_cons]
    cases cases_of N S m gt test g with
    | evaluated e _ a b c h =>
      simp only [h, account, a, b, c, not_false_eq_true, and_true, and_false, decide_true, decide_false, if_true, not_true_eq_false, Bool.false_eq_true, if_false]
      omega
    | ignored a b c h =>
      simp only [h, account, a, b, c, and_true, and_false, decide_true, decide_false, if_true, not_true_eq_false, Bool.false_eq_true, if_false]
      omega
    | apart a c h =>
      simp only [h, account, a, c, not_false_eq_true, and_true, false_and, decide_true, decide_false, if_true, Bool.false_eq_true, if_false]
      omega
    | unknown a c h =>
      simp only [h, a, c, false_and, decide_false, Bool.false_eq_true, if_false]
      omega

theorem extremes (N : Num) (S : Sdf V) (m : Mode) (gt test : VLayer V) (L : List Idx) : ∀ d : Details,
    d.maxError ≤ (L.foldl (item N S m gt test) d).maxError ∧
    (∀ g ∈ L, ∀ e, Evaluated S N.rnd m gt test g e → |e| ≤ (L.foldl (item N S m gt test) d).maxError) ∧
    ((L.foldl (item N S m gt test) d).maxError = d.maxError ∨ ∃ g ∈ L, ∃ e, Evaluated S N.rnd m gt test g e ∧ (L.foldl (item N S m gt test) d).maxError = |e|) ∧
    (d.minError = 0 → (L.foldl (item N S m gt test) d).minError = 0) := by
  induction L with
  | nil => intro d; exact ⟨le_refl _, by simp, Or.inl rfl, id⟩
  | cons g L ih =>
    intro d
    rw [List.foldl_cons]
    obtain ⟨h1, h2, h3, h4⟩ := ih (item N S m gt test d g)
    have hstep : d.maxError ≤ (item N S m gt test d g).maxError ∧ (∀ e, Evaluated S N.rnd m gt test g e → |e| ≤ (item N S m gt test d g).maxError) ∧
        ((item N S m gt test d g).maxError = d.maxError ∨ ∃ e, Evaluated S N.rnd m gt test g e ∧ (item N S m gt test d g).maxError = |e|) ∧
        (d.minError = 0 → (item N S m gt test d g).minError = 0) := by
      have hno : ∀ e, errorAt N S m gt test g = none → ¬ Evaluated S N.rnd m gt test g e := by
        intro e h he
        rw [(errorAt_iff N S m gt test g e).2 he] at h
        cases h
      cases cases_of N S m gt test g with
      | evaluated e a _ _ _ h k =>
        rw [h]
        refine ⟨le_max_left _ _, ?_, ?_, ?_⟩
        · intro e' he
          have := (errorAt_iff N S m gt test g e').2 he
          rw [k] at this
          rw [← Option.some.inj this]
          exact le_max_right _ _
        · rcases max_choice d.maxError |e| with hm | hm
          · exact Or.inl hm
          · exact Or.inr ⟨e, a, hm⟩
        · intro h0
          show min d.minError |e| = 0
          rw [h0]
          exact min_eq_left (abs_nonneg e)
      | ignored _ _ _ h k => rw [h]; exact ⟨le_refl _, fun e he => absurd he (hno e k), Or.inl rfl, id⟩
      | apart _ _ h k => rw [h]; exact ⟨le_refl _, fun e he => absurd he (hno e k), Or.inl rfl, id⟩
      | unknown _ _ h k => rw [h]; exact ⟨le_refl _, fun e he => absurd he (hno e k), Or.inl rfl, id⟩
    obtain ⟨s1, s2, s3, s4⟩ := hstep
    refine ⟨s1.trans h1, ?_, ?_, fun h => h4 (s4 h)⟩
    · intro g' hg e he
      rcases List.mem_cons.1 hg with rfl | hg
      · exact (s2 e he).trans h1
      · exact h2 g' hg e he
    · rcases h3 with h3 | ⟨g', hg, e, he, h3⟩
      · rcases s3 with s3 | ⟨e, he, s3⟩
        · exact Or.inl (h3.trans s3)
        · exact Or.inr ⟨g, by simp, e, he, h3.trans s3⟩
      · exact Or.inr ⟨g', by simp [hg], e, he, h3⟩

/-- The total, without rounding of squares and sums. -/
theorem total_exact (N : Num) (hr : ∀ q, N.rndD q = q) (S : Sdf V) (m : Mode) (gt test : VLayer V) (L : List Idx) : ∀ d : Details,
    (L.foldl (item N S m gt test) d).total = d.total + (L.map fun g => ((errorAt N S m gt test g).map fun e => N.rnd (e * e)).getD 0).sum := by
  induction L with
  | nil => intro d; simp
  | cons g L ih =>
    intro d
    rw [List.foldl_cons, ih, List.map_cons, List.sum_cons]
    cases cases_of N S m gt test g with
    | evaluated e _ _ _ _ h k => rw [h, k]; simp [account, hr, add_assoc]
    | ignored _ _ _ h k => rw [h, k]; simp [account]
    | apart _ _ h k => rw [h, k]; simp [account]
    | unknown _ _ h k => rw [h, k]; simp

/-- Bounds of the total under rounding. -/
theorem total_rounded {N : Num} (m1 : Monotone N.rnd) (m2 : Monotone N.rndD) (z1 : N.rnd 0 = 0) (i2 : ∀ q, N.rndD (N.rnd q) = N.rnd q)
    (i3 : ∀ q, N.rndD (N.rndD q) = N.rndD q) (S : Sdf V) (m : Mode) (gt test : VLayer V) (L : List Idx) : ∀ d : Details, 0 ≤ d.total → N.rndD d.total = d.total →
    d.total ≤ (L.foldl (item N S m gt test) d).total ∧
    (∀ g ∈ L, ∀ e, Evaluated S N.rnd m gt test g e → N.rnd (e * e) ≤ (L.foldl (item N S m gt test) d).total) ∧
    ((∀ g ∈ L, ∀ e, Evaluated S N.rnd m gt test g e → e = 0) → (L.foldl (item N S m gt test) d).total = d.total) := by
  have z2 : N.rndD 0 = 0 := by
    have := i2 0
    rwa [z1] at this
  have nn : ∀ e : ℚ, 0 ≤ N.rnd (e * e) := fun e => by
    have := m1 (mul_self_nonneg e)
    rwa [z1] at this
  induction L with
  | nil => intro d _ _; exact ⟨le_refl _, by simp, fun _ => rfl⟩
  | cons g L ih =>
    intro d h0 hf
    rw [List.foldl_cons]
    have hno : ∀ e, errorAt N S m gt test g = none → ¬ Evaluated S N.rnd m gt test g e := by
      intro e h he
      rw [(errorAt_iff N S m gt test g e).2 he] at h
      cases h
    have hstep : 0 ≤ (item N S m gt test d g).total ∧ N.rndD (item N S m gt test d g).total = (item N S m gt test d g).total ∧
        d.total ≤ (item N S m gt test d g).total ∧
        (∀ e, Evaluated S N.rnd m gt test g e → N.rnd (e * e) ≤ (item N S m gt test d g).total) ∧
        ((∀ e, Evaluated S N.rnd m gt test g e → e = 0) → (item N S m gt test d g).total = d.total) := by
      cases cases_of N S m gt test g with
      | evaluated e a _ _ _ h k =>
        rw [h]
        have l1 : d.total ≤ N.rndD (d.total + N.rnd (e * e)) := by
          have := m2 (le_add_of_nonneg_right (nn e) : d.total ≤ d.total + N.rnd (e * e))
          rwa [hf] at this
        refine ⟨h0.trans l1, i3 _, l1, ?_, ?_⟩
        · intro e' he
          have := (errorAt_iff N S m gt test g e').2 he
          rw [k] at this
          rw [← Option.some.inj this]
          have := m2 (le_add_of_nonneg_left h0 : N.rnd (e * e) ≤ d.total + N.rnd (e * e))
          rwa [i2] at this
        · intro hall
          show N.rndD (d.total + N.rnd (e * e)) = d.total
          rw [hall e a, mul_zero, z1, add_zero, hf]
      | ignored _ _ _ h k => rw [h]; exact ⟨h0, hf, le_refl _, fun e he => absurd he (hno e k), fun _ => rfl⟩
      | apart _ _ h k => rw [h]; exact ⟨h0, hf, le_refl _, fun e he => absurd he (hno e k), fun _ => rfl⟩
      | unknown _ _ h k => rw [h]; exact ⟨h0, hf, le_refl _, fun e he => absurd he (hno e k), fun _ => rfl⟩
    obtain ⟨s0, sf, s1, s2, s3⟩ := hstep
    obtain ⟨h1, h2, h3⟩ := ih (item N S m gt test d g) s0 sf
    refine ⟨s1.trans h1, ?_, ?_⟩
    · intro g' hg e he
      rcases List.mem_cons.1 hg with rfl | hg
      · exact (s2 e he).trans h1
      · exact h2 g' hg e he
    · intro hall
      rw [h3 fun g' hg => hall g' (by simp [hg]), s3 (hall g (by simp))]

theorem lists_perm {gt test : VLayer V} {L L' : List Idx} (h : Lists gt test L) (h' : Lists gt test L') : L.Perm L' :=
  (List.perm_ext_iff_of_nodup h.1 h'.1).2 fun g => by rw [h.2, h'.2]

end Vox.Eval
