/-
Properties of layers: C12 (finite map), C13 (update flags), C14 (removing distant blocks), C15 (copy).
-/
import Verif.Lemmas.Layer

namespace Vox.Props

open Vox.Layer Vox.Spec

variable {V : Type}

/-- **C12.** Every sequence of operations on a new layer shows the caller exactly what the same sequence
on a mathematical finite map shows (or aborts exactly when the specification does), in debug and in
release builds. -/
theorem C12_layer_is_finite_map (dbg : Bool) (cfg : Cfg) (dflt : V) (ops : List (Op V)) :
    Prod.snd <$> runOps (codeStep dbg cfg dflt) (St.empty dflt) ops =
      Prod.snd <$> runOps (specStep dbg cfg dflt) (fun _ => none) ops := by
  have h := run_refines dbg cfg dflt ops (inv_empty dflt)
  rw [view_empty] at h
  cases hs : runOps (specStep dbg cfg dflt) (fun _ => none) ops with
  | ok r =>
    rw [hs] at h
    obtain ⟨s', hc, -, -⟩ := h
    rw [hc]; rfl
  | fatal => rw [hs] at h; rw [h]; rfl
  | ub => rw [hs] at h; exact h.elim

/-- A run with an allocation, a mutation through the pointer, an overwrite attempt, a removal and queries. -/
example : Prod.snd <$> runOps (codeStep false ⟨1/2, 1⟩ (7 : ℕ)) (St.empty 7)
    [.alloc ⟨1, 0, -2⟩ fun b => { b with voxels := [9] }, .insert ⟨1, 0, -2⟩ (Block.new 3 1 1 0),
     .get ⟨1, 0, -2⟩, .count, .remove ⟨1, 0, -2⟩, .has ⟨1, 0, -2⟩] =
    .ok [.block (some ⟨1, 1/2, ⟨1/2, 0, -1⟩, false, ⟨false, false, false⟩, [7]⟩), .none,
         .block (some ⟨1, 1/2, ⟨1/2, 0, -1⟩, false, ⟨false, false, false⟩, [9]⟩), .num 1, .none,
         .flag false] := by
  decide +kernel

/-- **C12.** In a debug build inserting over an existing block aborts. -/
theorem C12_insert_over_existing_debug (cfg : Cfg) (dflt : V) (i : Idx) (f) (b : Block ℚ V) :
    runOps (codeStep true cfg dflt) (St.empty dflt) [.alloc i f, .insert i b] = .fatal := by
  have h := run_refines true cfg dflt [.alloc i f, .insert i b] (inv_empty dflt)
  have hs : runOps (specStep true cfg dflt) (view (St.empty dflt)) [.alloc i f, .insert i b] = .fatal := by
    simp [runOps, specStep]
  rw [hs] at h
  exact h

/-- A layer state that some sequence of operations on a new layer produces. -/
def LayerReachable (dbg : Bool) (cfg : Cfg) (dflt : V) (s : St V) : Prop :=
  ∃ ops obs, runOps (codeStep dbg cfg dflt) (St.empty dflt) ops = .ok (s, obs)

theorem LayerReachable.inv {dbg : Bool} {cfg : Cfg} {dflt : V} {s : St V}
    (h : LayerReachable dbg cfg dflt s) : Inv s := by
  obtain ⟨ops, obs, hr⟩ := h
  have := run_refines dbg cfg dflt ops (inv_empty dflt)
  cases hs : runOps (specStep dbg cfg dflt) (view (St.empty dflt)) ops with
  | ok r =>
    rw [hs] at this
    obtain ⟨s', hc, hi, -⟩ := this
    rw [hr] at hc
    simp only [Outcome.ok.injEq, Prod.mk.injEq] at hc
    rw [hc.1]; exact hi
  | fatal => rw [hs] at this; rw [hr] at this; cases this
  | ub => rw [hs] at this; exact this.elim

/-- **C13.** After any history, the query for the blocks updated for a consumer returns exactly the
indices of the blocks whose flag for that consumer is set, each once. -/
theorem C13_updated_query {dbg : Bool} {cfg : Cfg} {dflt : V} {s : St V}
    (h : LayerReachable dbg cfg dflt s) (c : Consumer) :
    (allUpdatedBlocks s c).Nodup ∧
    ∀ i, i ∈ allUpdatedBlocks s c ↔
      ∃ p, getBlockPtr s i = some p ∧ (s.mem.heap p).updated.get c = true := by
  have hi := h.inv
  refine ⟨hi.keys.sublist (List.filter_sublist.map _), fun i => ?_⟩
  simp only [allUpdatedBlocks, getBlockPtr, List.mem_map, List.mem_filter]
  constructor
  · rintro ⟨⟨j, p⟩, ⟨hm, hu⟩, rfl⟩
    exact ⟨p, (lookup_mem_iff hi.keys).2 hm, hu⟩
  · rintro ⟨p, hp, hu⟩
    exact ⟨(i, p), ⟨lookup_some_mem hp, hu⟩, rfl⟩

/-- **C13.** The query for all allocated blocks returns every block index once. -/
theorem C13_all_blocks_query {dbg : Bool} {cfg : Cfg} {dflt : V} {s : St V}
    (h : LayerReachable dbg cfg dflt s) :
    (allBlocks s).Nodup ∧ ∀ i, i ∈ allBlocks s ↔ getBlockPtr s i ≠ none := by
  refine ⟨h.inv.keys, fun i => ?_⟩
  rw [getBlockPtr, ne_eq, lookup_eq_none_iff', not_not]; rfl

/-- **C13.** Clearing one consumer's flag of one block: that block is no longer reported to that consumer,
everything else is reported as before, and no voxel, origin or has-data mark changes. -/
theorem C13_clear_one_flag {dbg : Bool} {cfg : Cfg} {dflt : V} {s s' : St V} {ob : Obs V}
    (h : LayerReachable dbg cfg dflt s) (c : Consumer) (i : Idx)
    (hs : codeStep dbg cfg dflt s (.modify i fun b => { b with updated := b.updated.put c false }) =
      .ok (s', ob)) :
    (∀ c' j, j ∈ allUpdatedBlocks s' c' ↔ j ∈ allUpdatedBlocks s c' ∧ ¬ (c' = c ∧ j = i)) ∧
    (∀ j, getBlockPtr s' j = getBlockPtr s j) ∧
    ∀ p, (s'.mem.heap p).voxels = (s.mem.heap p).voxels ∧ (s'.mem.heap p).origin = (s.mem.heap p).origin ∧
      (s'.mem.heap p).hasData = (s.mem.heap p).hasData := by
  have hr' : LayerReachable dbg cfg dflt s' := by
    obtain ⟨ops, obs, hr⟩ := h
    refine ⟨ops ++ [.modify i fun b => { b with updated := b.updated.put c false }], obs ++ [ob], ?_⟩
    generalize St.empty dflt = s0 at hr
    induction ops generalizing s0 obs with
    | nil =>
      simp only [runOps, Outcome.ok.injEq, Prod.mk.injEq] at hr
      obtain ⟨rfl, rfl⟩ := hr
      simp [runOps, hs]
    | cons o ops ih =>
      simp only [runOps, List.cons_append] at hr ⊢
      cases h1 : codeStep dbg cfg dflt s0 o with
      | ok r =>
        rw [h1] at hr
        simp only [Outcome.bind_ok] at hr ⊢
        cases h2 : runOps (codeStep dbg cfg dflt) r.1 ops with
        | ok r2 =>
          rw [h2] at hr
          simp only [Outcome.bind_ok, Outcome.pure_eq, Outcome.ok.injEq, Prod.mk.injEq] at hr
          obtain ⟨hr1, rfl⟩ := hr
          have := ih (obs := r2.2) (s0 := r.1) (by rw [h2, ← hr1])
          rw [this]; rfl
        | fatal => rw [h2] at hr; simp at hr
        | ub => rw [h2] at hr; simp at hr
      | fatal => rw [h1] at hr; simp at hr
      | ub => rw [h1] at hr; simp at hr
  have hi := h.inv
  simp only [codeStep] at hs
  cases hl : getBlockPtr s i with
  | none =>
    rw [hl] at hs
    simp only [Outcome.ok.injEq, Prod.mk.injEq] at hs
    obtain ⟨rfl, -⟩ := hs
    refine ⟨fun c' j => ⟨fun hj => ⟨hj, ?_⟩, fun hj => hj.1⟩, fun _ => rfl, fun p => ⟨rfl, rfl, rfl⟩⟩
    rintro ⟨-, rfl⟩
    obtain ⟨p, hp, -⟩ := ((C13_updated_query h c').2 j).1 hj
    rw [hl] at hp; cases hp
  | some p =>
    rw [hl] at hs
    simp only [Outcome.ok.injEq, Prod.mk.injEq] at hs
    obtain ⟨rfl, -⟩ := hs
    refine ⟨fun c' j => ?_, fun _ => rfl, fun q => ?_⟩
    · rw [(C13_updated_query hr' c').2 j, (C13_updated_query h c').2 j]
      change (∃ q, getBlockPtr s j = some q ∧ _) ↔ _
      constructor
      · rintro ⟨q, hq, hu⟩
        by_cases hqp : q = p
        · subst hqp
          have hji : j = i := hi.lookup_inj hq hl
          simp only [Mem.write, Function.update_self] at hu
          refine ⟨⟨q, hq, ?_⟩, ?_⟩
          · revert hu; cases c <;> cases c' <;> simp [Flags.put, Flags.get]
          · rintro ⟨rfl, -⟩
            revert hu; cases c' <;> simp [Flags.put, Flags.get]
        · simp only [Mem.write, Function.update_of_ne hqp] at hu
          refine ⟨⟨q, hq, hu⟩, ?_⟩
          rintro ⟨-, rfl⟩
          rw [hl] at hq
          exact hqp (Option.some.inj hq).symm
      · rintro ⟨⟨q, hq, hu⟩, hn⟩
        refine ⟨q, hq, ?_⟩
        by_cases hqp : q = p
        · subst hqp
          have hji : j = i := hi.lookup_inj hq hl
          simp only [Mem.write, Function.update_self]
          have hcc : c' ≠ c := fun hc => hn ⟨hc, hji⟩
          revert hu hcc; cases c <;> cases c' <;> simp [Flags.put, Flags.get]
        · simpa only [Mem.write, Function.update_of_ne hqp] using hu
    · by_cases hqp : q = p
      · subst hqp; simp [Mem.write]
      · simp [Mem.write, Function.update_of_ne hqp]

/-- A history with two blocks, one flagged for the mesh and one for the ESDF. -/
example : (runOps (codeStep true ⟨1, 1⟩ (0 : ℕ)) (St.empty 0)
    [.alloc ⟨0, 0, 0⟩ fun b => { b with updated := ⟨true, true, false⟩ },
     .alloc ⟨1, 0, 0⟩ fun b => { b with updated := ⟨false, true, true⟩ },
     .modify ⟨1, 0, 0⟩ fun b => { b with updated := b.updated.put .mesh false }]).bind
      (fun r => .ok (allUpdatedBlocks r.1 .mesh, allUpdatedBlocks r.1 .esdf)) =
    .ok ([⟨0, 0, 0⟩], [⟨1, 0, 0⟩]) := by decide +kernel

/-- **C14.** After removing the blocks farther than `d` from a centre, a block is present iff it was
present and its origin is at most `d` away; surviving blocks are the same objects with the same content. -/
theorem C14_remove_distant {dbg : Bool} {cfg : Cfg} {dflt : V} {s : St V}
    (h : LayerReachable dbg cfg dflt s) (center : Pt) {d : ℚ} (i : Idx) (p : Layer.Ptr) :
    (getBlockPtr (removeDistantBlocks s center d) i = some p ↔
      getBlockPtr s i = some p ∧
        ((s.mem.heap p).origin.x - center.x) ^ 2 + ((s.mem.heap p).origin.y - center.y) ^ 2 +
          ((s.mem.heap p).origin.z - center.z) ^ 2 ≤ d ^ 2) ∧
    (removeDistantBlocks s center d).mem = s.mem := by
  have hi := h.inv
  refine ⟨?_, rfl⟩
  have hmap : (removeDistantBlocks s center d).map = s.map.filter fun e => e.1 ∉
      (s.map.filter fun e => sqNorm ((s.mem.heap e.2).origin - center) > d * d).map (·.1) := by
    simp only [removeDistantBlocks, foldl_eraseKey]
  have hk : ((removeDistantBlocks s center d).map.map (·.1)).Nodup := by
    rw [hmap]; exact hi.keys.sublist (List.filter_sublist.map _)
  simp only [getBlockPtr]
  rw [lookup_mem_iff hk, lookup_mem_iff hi.keys, hmap, List.mem_filter]
  have hsq : ∀ q : Layer.Ptr, sqNorm ((s.mem.heap q).origin - center) =
      ((s.mem.heap q).origin.x - center.x) ^ 2 + ((s.mem.heap q).origin.y - center.y) ^ 2 +
          ((s.mem.heap q).origin.z - center.z) ^ 2 := by
    intro q; simp only [sqNorm, Vec3.sub_x, Vec3.sub_y, Vec3.sub_z]; ring
  constructor
  · rintro ⟨hm, hn⟩
    refine ⟨hm, ?_⟩
    by_contra hlt
    apply of_decide_eq_true hn
    refine List.mem_map.2 ⟨(i, p), List.mem_filter.2 ⟨hm, ?_⟩, rfl⟩
    simp only [hsq, gt_iff_lt, decide_eq_true_eq]
    rw [not_le, pow_two d] at hlt
    exact hlt
  · rintro ⟨hm, hle⟩
    refine ⟨hm, decide_eq_true ?_⟩
    intro hmem
    obtain ⟨⟨j, q⟩, hf, hj⟩ := List.mem_map.1 hmem
    obtain ⟨hm2, hgt⟩ := List.mem_filter.1 hf
    simp only at hj
    subst hj
    have hqp : q = p := by
      have h1 := (lookup_mem_iff hi.keys).2 hm2
      have h2 := (lookup_mem_iff hi.keys).2 hm
      rw [h1] at h2
      exact Option.some.inj h2
    subst hqp
    simp only [hsq, gt_iff_lt, decide_eq_true_eq] at hgt
    rw [pow_two d] at hle
    exact absurd hgt (not_lt.2 hle)

example : (runOps (codeStep true ⟨1, 2⟩ (0 : ℕ)) (St.empty 0) [.alloc 0 id, .alloc ⟨3, 0, 0⟩ id]).bind
      (fun r => .ok (allBlocks (removeDistantBlocks r.1 ⟨0, 1, 0⟩ 2))) = .ok [0] := by decide +kernel

/-- **C14**, mesh layer: no mesh block disappears; blocks whose origin is farther than `d` become empty
and are marked updated (so that displays clear them), the others are unchanged. -/
theorem C14_clear_distant_mesh {M : Type} (m : List (Idx × MeshBlock M))
    (center : Pt) (d : ℚ) (i : Idx) :
    (clearDistantMesh m center d).lookup i = (m.lookup i).map fun b =>
      if (b.origin.x - center.x) ^ 2 + (b.origin.y - center.y) ^ 2 + (b.origin.z - center.z) ^ 2 ≤ d ^ 2
      then b else { origin := b.origin, content := [], updated := true } := by
  induction m with
  | nil => rfl
  | cons e m ih =>
    obtain ⟨k, b⟩ := e
    have hsq : sqNorm (b.origin - center) =
        (b.origin.x - center.x) ^ 2 + (b.origin.y - center.y) ^ 2 + (b.origin.z - center.z) ^ 2 := by
      simp only [sqNorm, Vec3.sub_x, Vec3.sub_y, Vec3.sub_z]; ring
    have hcons : clearDistantMesh ((k, b) :: m) center d =
        (k, if sqNorm (b.origin - center) > d * d then { b with content := [], updated := true } else b)
          :: clearDistantMesh m center d := by
      simp only [clearDistantMesh, List.map_cons, List.cons.injEq, and_true]
      split <;> rfl
    rw [hcons, lookup_cons_ite, lookup_cons_ite, ih]
    by_cases hik : i = k
    · rw [if_pos hik, if_pos hik, hsq, Option.map_some]
      congr 1
      by_cases hd : (b.origin.x - center.x) ^ 2 + (b.origin.y - center.y) ^ 2 +
          (b.origin.z - center.z) ^ 2 ≤ d ^ 2
      · rw [if_pos hd, if_neg]; rw [pow_two d] at hd; exact not_lt.2 hd
      · rw [if_neg hd, if_pos]; rw [pow_two d, not_le] at hd; exact hd
    · rw [if_neg hik, if_neg hik]

example : clearDistantMesh [(⟨0, 0, 0⟩, ⟨0, [1, 2], false⟩), (⟨5, 0, 0⟩, ⟨⟨5, 0, 0⟩, [3], false⟩)] 0 1 =
    [(⟨0, 0, 0⟩, ⟨0, [1, 2], false⟩), ((⟨5, 0, 0⟩ : Idx), ⟨⟨5, 0, 0⟩, ([] : List ℕ), true⟩)] := by
  decide +kernel

/-- Every block of the layer has the layer's geometry (true of blocks the layer allocates itself). -/
def BlocksMatch (cfg : Cfg) (s : St V) : Prop :=
  ∀ i p, getBlockPtr s i = some p →
    (s.mem.heap p).voxels.length = numVoxels cfg.vps ∧ (s.mem.heap p).vps = cfg.vps ∧
    (s.mem.heap p).voxelSize = cfg.voxelSize ∧ (s.mem.heap p).origin = originPoint i cfg.blockSize

/-- **C15 (partial).** The copy of a layer has the same block indices; corresponding blocks have the same
geometry and the same voxels; the copy's blocks are new objects, so that whatever is done through the
pointers of one layer leaves the other's blocks unchanged. Missing from the full claim: the has-data mark
and the update flags (see `C15_metadata_violated`). -/
theorem C15_copy_partial {dbg : Bool} {cfg : Cfg} {dflt : V} {s : St V}
    (h : LayerReachable dbg cfg dflt s) (hb : BlocksMatch cfg s) (dbg' : Bool) :
    ∃ s', copyLayer dbg' cfg dflt s = .ok s' ∧
      (∀ i, getBlockPtr s' i = none ↔ getBlockPtr s i = none) ∧
      (∀ i p p', getBlockPtr s i = some p → getBlockPtr s' i = some p' →
        (s'.mem.heap p').voxels = (s.mem.heap p).voxels ∧ (s'.mem.heap p').vps = (s.mem.heap p).vps ∧
        (s'.mem.heap p').voxelSize = (s.mem.heap p).voxelSize ∧
        (s'.mem.heap p').origin = (s.mem.heap p).origin) ∧
      -- the original is untouched
      (∀ i p, getBlockPtr s i = some p → s'.mem.heap p = s.mem.heap p) ∧
      -- no block object is shared
      (∀ i j p p', getBlockPtr s i = some p → getBlockPtr s' j = some p' → ∀ f,
        (s'.mem.write p' f).heap p = s'.mem.heap p ∧ (s'.mem.write p f).heap p' = s'.mem.heap p') := by
  have hi := h.inv
  have hpre : ∀ e ∈ s.map, e.2 < s.mem.next ∧ (s.mem.heap e.2).voxels.length = numVoxels cfg.vps ∧
      ([] : BlockMap).lookup e.1 = none := fun e he =>
    ⟨hi.alloc e he, (hb e.1 e.2 ((lookup_mem_iff hi.keys).2 he)).1, rfl⟩
  obtain ⟨s', hc, hi', hh, hp, -, hv⟩ := copy_fold dbg' cfg dflt s.mem s.map ⟨s.mem, []⟩
    ⟨by simp, by simp, by simp⟩ hi.keys hpre le_rfl (fun _ _ => rfl) (by simp)
  have hblock : ∀ i p, getBlockPtr s i = some p → ∃ p', getBlockPtr s' i = some p' ∧
      s'.mem.heap p' = copied cfg dflt i (s.mem.heap p) := by
    intro i p hip
    have := hv i
    rw [show s.map.lookup i = some p from hip] at this
    exact view_some_lookup this
  refine ⟨s', hc, ?_, ?_, ?_, ?_⟩
  · intro i
    constructor
    · intro hn
      cases hl : getBlockPtr s i with
      | none => rfl
      | some p => obtain ⟨p', hp', -⟩ := hblock i p hl; rw [hn] at hp'; cases hp'
    · intro hn
      have := hv i
      rw [show s.map.lookup i = none from hn] at this
      exact view_none_lookup this
  · intro i p p' hip hip'
    obtain ⟨q, hq, hqb⟩ := hblock i p hip
    rw [hip'] at hq
    obtain rfl := Option.some.inj hq
    obtain ⟨-, b1, b2, b3⟩ := hb i p hip
    rw [hqb]
    exact ⟨rfl, b1.symm, b2.symm, b3.symm⟩
  · intro i p hip
    exact hh p (hi.lookup_lt hip)
  · intro i j p p' hip hip' f
    have h1 : p < s.mem.next := hi.lookup_lt hip
    have h2 : s.mem.next ≤ p' := hp _ (lookup_some_mem hip')
    have hne : p ≠ p' := Nat.ne_of_lt (Nat.lt_of_lt_of_le h1 h2)
    exact ⟨by simp [Mem.write, Function.update_of_ne hne], by simp [Mem.write, Function.update_of_ne hne.symm]⟩

/-- A layer with a filled block meets the hypotheses. -/
example : ∃ s : St ℕ, LayerReachable true ⟨1/2, 1⟩ 0 s ∧ BlocksMatch ⟨1/2, 1⟩ s ∧
    getBlockPtr s ⟨1, 0, 0⟩ ≠ none := by
  refine ⟨_, ⟨[.alloc ⟨1, 0, 0⟩ fun b => { b with voxels := [5], hasData := true }], _, rfl⟩, ?_, ?_⟩
  · intro i p h
    simp only [getBlockPtr, St.empty, lookup_cons_ite] at h
    split at h
    · next hi =>
      simp only [Option.some.injEq] at h
      subst h hi
      refine ⟨?_, ?_, ?_, ?_⟩ <;>
        simp [Mem.write, St.empty, numVoxels, Block.new]
    · simp at h
  · simp [getBlockPtr]

/-- **C15, violated.** The copy of a block that has data says it has none and has no update flag set, so
merging a block from the copy changes nothing although merging the original block does. -/
theorem C15_metadata_violated :
    let mergeV : ℕ → ℕ → ℕ := fun a b => a + b
    let run := runOps (codeStep true ⟨1, 1⟩ (0 : ℕ)) (St.empty 0)
      [.alloc 0 fun b => { b with voxels := [5], hasData := true, updated := Flags.setAll }]
    let target : Block ℚ ℕ := Block.new 0 1 1 0
    (run.bind fun r => do
      let orig ← getBlock r.1 0
      let viaOrig ← target.merge mergeV orig
      let c ← copyLayer true ⟨1, 1⟩ 0 r.1
      let cb ← getBlock c 0
      let viaCopy ← target.merge mergeV cb
      pure (orig.hasData, cb.hasData, orig.updated, cb.updated, cb.voxels, viaOrig.voxels, viaCopy.voxels)) =
    .ok (true, false, Flags.setAll, Flags.ofBool false, [5], [5], [0]) := by
  rfl

/-- **C15, violated, in general.** Whatever the original contained, every block of the copy claims to have
no data; merging it into any block of the same geometry leaves that block as it is. -/
theorem C15_merge_from_copy_transfers_nothing {dbg : Bool} {cfg : Cfg} {dflt : V} {s s' : St V}
    (h : LayerReachable dbg cfg dflt s) (hb : BlocksMatch cfg s)
    (hc : copyLayer dbg cfg dflt s = .ok s') (mergeV : V → V → V) {i : Idx} {b target : Block ℚ V}
    (hg : getBlock s' i = .ok b) (hvs : target.voxelSize = cfg.voxelSize) (hvps : target.vps = cfg.vps) :
    target.merge mergeV b = .ok target := by
  have hi := h.inv
  have hpre : ∀ e ∈ s.map, e.2 < s.mem.next ∧ (s.mem.heap e.2).voxels.length = numVoxels cfg.vps ∧
      ([] : BlockMap).lookup e.1 = none := fun e he =>
    ⟨hi.alloc e he, (hb e.1 e.2 ((lookup_mem_iff hi.keys).2 he)).1, rfl⟩
  obtain ⟨s'', hc', -, -, -, -, hv⟩ := copy_fold dbg cfg dflt s.mem s.map ⟨s.mem, []⟩
    ⟨by simp, by simp, by simp⟩ hi.keys hpre le_rfl (fun _ _ => rfl) (by simp)
  have : s'' = s' := by
    have : Outcome.ok s'' = .ok s' := hc'.symm.trans hc
    exact Outcome.ok.inj this
  subst this
  have hvi : view s'' i = some b := by
    simp only [getBlock] at hg
    simp only [view]
    cases hl : s''.map.lookup i with
    | none => rw [hl] at hg; cases hg
    | some p => rw [hl] at hg; simp only [Outcome.ok.injEq] at hg; simp [hg]
  have hbi := hv i
  rw [hvi] at hbi
  cases hl : s.map.lookup i with
  | none => rw [hl] at hbi; simp [view] at hbi
  | some p =>
    rw [hl] at hbi
    simp only [Option.some.injEq] at hbi
    subst hbi
    simp [Block.merge, copied, Block.new, hvs, hvps, Outcome.check]

end Vox.Props
