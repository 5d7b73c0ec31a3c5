/-
Properties C16-C20 and C66: loading and saving layers.
-/
import Verif.Lemmas.LayerIO

namespace Vox.Props
open Vox Vox.Serial Vox.Layer Vox.FloatBits Vox.Proto Vox.IO

variable {V : Type}

/-! ### Concrete instances used by the examples -/

/-- The index computation in exact arithmetic. -/
def exactIdxOf (size : Word) (vps : ℕ) (o : Vec3 Word) : Outcome Idx :=
  match fl32 size, fl32 o.x, fl32 o.y, fl32 o.z with
  | .fin s, .fin x, .fin y, .fin z => toIdx32 (gridIndexFromOrigin ⟨x, y, z⟩ (1 / (s * vps)))
  | _, _, _, _ => .ub

/-- "tsdf". -/
def tsdfName : List Byte := [116, 115, 100, 102]
/-- "occupancy". -/
def occName : List Byte := [111, 99, 99, 117, 112, 97, 110, 99, 121]

def tsdfEnv : Env (TsdfVoxel Word) := ⟨tsdfCodec, tsdfName, fun a _ => a, exactIdxOf⟩
def occEnv : Env (OccVoxel Word) := ⟨occCodec, occName, fun a _ => a, exactIdxOf⟩

theorem tsdfEnv_ok : EnvOk tsdfEnv fun _ => True :=
  ⟨tsdf_lawful, by decide, by decide, by decide⟩
theorem occEnv_ok : EnvOk occEnv fun _ => True :=
  ⟨occ_lawful, by decide, by decide, by decide⟩

/-- Voxel size 1, one voxel per block, blocks (0,0,0) with data and (2,-1,0) without. -/
def sampleBlock (x y : Word) (data : Bool) (d : Word) : Block Word (TsdfVoxel Word) :=
  { vps := 1, voxelSize := 0x3f800000#32, origin := ⟨x, y, 0#32⟩, hasData := data,
    updated := Flags.ofBool false, voxels := [⟨d, 0x40000000#32, ⟨1, 2, 3, 4⟩⟩] }

def sampleLayer : FLayer (TsdfVoxel Word) :=
  { voxelSize := 0x3f800000#32, vps := 1,
    blocks := [(⟨0, 0, 0⟩, sampleBlock 0#32 0#32 true 0x7fc00000#32),
      (⟨2, -1, 0⟩, sampleBlock 0x40000000#32 0xbf800000#32 false 0x3f000000#32)] }

theorem sampleLayer_size : fl32 (0x3f800000#32) = .fin 1 := by
  simp [fl32, fields32]
  norm_num

theorem sampleLayer_storable : Storable tsdfEnv (fun _ => True) sampleLayer where
  size := ⟨1, sampleLayer_size, by norm_num⟩
  vps := by decide
  side := by decide
  words := by decide
  keys := by decide
  count := by decide
  blocks := by
    intro e he
    simp only [sampleLayer, List.mem_cons, List.not_mem_nil, or_false] at he
    rcases he with rfl | rfl
    · exact ⟨rfl, rfl, rfl, fun _ _ => trivial, by decide, by decide, by decide, by decide +kernel⟩
    · exact ⟨rfl, rfl, rfl, fun _ _ => trivial, by decide, by decide, by decide, by decide +kernel⟩

/-! ## C16 merge strategies -/

/-- Incompatible blocks are rejected and the layer is unchanged, whatever the strategy. -/
theorem C16_incompatible (env : Env V) (l : FLayer V) (p : BlockProto) (s : Strategy)
    (h : ¬ (closeVoxelSize p.voxelSize l.voxelSize = true ∧ p.vps = wrap32 l.vps)) :
    addBlockFromProto env l p s = .ok (false, l) := by
  unfold addBlockFromProto isCompatibleBlock
  rw [if_neg (by simpa using h)]
  rfl

example : ¬ (closeVoxelSize (protoOf tsdfEnv (sampleBlock 0 0 true 0)).voxelSize (0x40000000#32) = true ∧
    (protoOf tsdfEnv (sampleBlock 0 0 true 0)).vps = wrap32 1) := by decide +kernel

theorem add_place {env : Env V} {l : FLayer V} {p : BlockProto} {b : Block Word V} {i : Idx} {s : Strategy}
    {m : List (Idx × Block Word V)} (hc : isCompatibleBlock l p = true) (hb : blockFromProto env p = .ok b)
    (hi : env.idxOf l.voxelSize l.vps b.origin = .ok i) (hm : placeBlock env l.blocks i b s = .ok m) :
    addBlockFromProto env l p s =
      .ok (true, { l with blocks := modifyKey m i fun b => { b with updated := Flags.setAll } }) := by
  simp [addBlockFromProto, hc, hb, hi, hm]

section C16
variable (env : Env V) (l : FLayer V) (p : BlockProto) (b : Block Word V) (i : Idx)
  (hc : closeVoxelSize p.voxelSize l.voxelSize = true ∧ p.vps = wrap32 l.vps)
  (hb : blockFromProto env p = .ok b) (hi : env.idxOf l.voxelSize l.vps b.origin = .ok i)
  (hk : (l.blocks.map (·.1)).Nodup)

include hc hb hi hk

/-- Under every strategy a block that is not yet there is inserted as stored (with its update flags set);
nothing else changes. -/
theorem C16_missing (s : Strategy) (hn : l.blocks.lookup i = none) :
    ∃ l', addBlockFromProto env l p s = .ok (true, l') ∧ l'.voxelSize = l.voxelSize ∧ l'.vps = l.vps ∧
      (l'.blocks.map (·.1)).Nodup ∧
      l'.blocks.lookup i = some { b with updated := Flags.setAll } ∧
      ∀ j, j ≠ i → l'.blocks.lookup j = l.blocks.lookup j := by
  have hc' : isCompatibleBlock l p = true := by
    unfold isCompatibleBlock; simpa using hc
  obtain ⟨m, h1, h2, h3⟩ := add_missing (s := s) hc' hb hi hk hn
  refine ⟨_, h1, rfl, rfl, h2, ?_, fun j hj => ?_⟩
  · rw [h3 i, if_pos rfl]; rfl
  · rw [h3 j, if_neg hj]

omit hk in
/-- Prohibit aborts when the block exists. -/
theorem C16_prohibit_existing (old : Block Word V) (ho : l.blocks.lookup i = some old) :
    addBlockFromProto env l p .prohibit = .fatal := by
  have hc' : isCompatibleBlock l p = true := by
    unfold isCompatibleBlock; simpa using hc
  simp [addBlockFromProto, hc', hb, hi, placeBlock, ho, Outcome.check]

/-- Replace ends with the stored block in place of the existing one. -/
theorem C16_replace_existing (old : Block Word V) (_ho : l.blocks.lookup i = some old) :
    ∃ l', addBlockFromProto env l p .replace = .ok (true, l') ∧ l'.voxelSize = l.voxelSize ∧
      l'.vps = l.vps ∧ (l'.blocks.map (·.1)).Nodup ∧
      l'.blocks.lookup i = some { b with updated := Flags.setAll } ∧
      ∀ j, j ≠ i → l'.blocks.lookup j = l.blocks.lookup j := by
  have hc' : isCompatibleBlock l p = true := by
    unfold isCompatibleBlock; simpa using hc
  refine ⟨_, add_place hc' hb hi rfl, rfl, rfl, ?_, ?_, fun j hj => ?_⟩
  · rw [modifyKey_keys]; exact assign_keys hk i b
  · rw [lookup_modifyKey, lookup_assign, if_pos rfl, if_pos rfl]; rfl
  · rw [lookup_modifyKey, lookup_assign, if_neg hj, if_neg hj]

/-- Discard keeps the existing block (only its update flags are set). -/
theorem C16_discard_existing (old : Block Word V) (ho : l.blocks.lookup i = some old) :
    ∃ l', addBlockFromProto env l p .discard = .ok (true, l') ∧ l'.voxelSize = l.voxelSize ∧
      l'.vps = l.vps ∧ (l'.blocks.map (·.1)).Nodup ∧
      l'.blocks.lookup i = some { old with updated := Flags.setAll } ∧
      ∀ j, j ≠ i → l'.blocks.lookup j = l.blocks.lookup j := by
  have hc' : isCompatibleBlock l p = true := by
    unfold isCompatibleBlock; simpa using hc
  refine ⟨_, add_place hc' hb hi (m := l.blocks) (by simp [placeBlock, ho]), rfl, rfl, ?_, ?_, fun j hj => ?_⟩
  · rw [modifyKey_keys]; exact hk
  · rw [lookup_modifyKey, ho, if_pos rfl]; rfl
  · rw [lookup_modifyKey, if_neg hj]

/-- Merge combines the voxels one by one. The full claim needs neither the has-data mark of the stored
block nor exactly equal voxel sizes; both are necessary here, see the two theorems below. -/
theorem C16_merge_existing_partial (old : Block Word V) (ho : l.blocks.lookup i = some old)
    (hdata : b.hasData = true) (hvs : b.voxelSize = old.voxelSize) (hvp : b.vps = old.vps) :
    ∃ l' new, addBlockFromProto env l p .merge = .ok (true, l') ∧ l'.voxelSize = l.voxelSize ∧
      l'.vps = l.vps ∧ (l'.blocks.map (·.1)).Nodup ∧ l'.blocks.lookup i = some new ∧
      new.hasData = true ∧ new.updated = Flags.setAll ∧ new.origin = old.origin ∧
      (∀ (n : ℕ) a c, b.voxels[n]? = some a → old.voxels[n]? = some c →
        new.voxels[n]? = some (env.mergeV a c)) ∧
      ∀ j, j ≠ i → l'.blocks.lookup j = l.blocks.lookup j := by
  have hc' : isCompatibleBlock l p = true := by
    unfold isCompatibleBlock; simpa using hc
  have hm : old.merge env.mergeV b = .ok { old with hasData := true, updated := Flags.setAll, voxels := List.zipWith env.mergeV b.voxels old.voxels } := by
    simp [Block.merge, hvs, hvp, hdata, Outcome.check]
  refine ⟨_, { old with hasData := true, updated := Flags.setAll, voxels := List.zipWith env.mergeV b.voxels old.voxels },
    add_place hc' hb hi (by simp only [placeBlock, ho, hm, Outcome.bind_ok]; rfl), rfl, rfl, ?_, ?_, rfl, rfl, rfl, ?_,
    fun j hj => ?_⟩
  · rw [modifyKey_keys, modifyKey_keys]; exact hk
  · rw [lookup_modifyKey, lookup_modifyKey, ho, if_pos rfl, if_pos rfl]; rfl
  · intro n a c ha hc
    simp [List.getElem?_zipWith, ha, hc]
  · rw [lookup_modifyKey, lookup_modifyKey, if_neg hj, if_neg hj]

omit hk in
/-- A stored block that carries voxel values but no has-data mark is silently ignored by merge although
success is reported (blocks filled by the integrators are never marked). -/
theorem C16_merge_unmarked_ignored (old : Block Word V) (ho : l.blocks.lookup i = some old)
    (hdata : b.hasData = false) (hvs : b.voxelSize = old.voxelSize) (hvp : b.vps = old.vps) :
    ∃ l', addBlockFromProto env l p .merge = .ok (true, l') ∧
      l'.blocks.lookup i = some { old with updated := Flags.setAll } := by
  have hc' : isCompatibleBlock l p = true := by
    unfold isCompatibleBlock; simpa using hc
  have hm : old.merge env.mergeV b = .ok old := by
    simp [Block.merge, hvs, hvp, hdata, Outcome.check]
  refine ⟨_, add_place hc' hb hi (by simp only [placeBlock, ho, hm, Outcome.bind_ok]; rfl), ?_⟩
  rw [lookup_modifyKey, lookup_modifyKey, ho, if_pos rfl, if_pos rfl]; rfl

omit hk in
/-- A stored block that passes the compatibility check (voxel size equal up to the float epsilon) but whose voxel size
is not exactly the same aborts in merge. -/
theorem C16_merge_close_size_aborts (old : Block Word V) (ho : l.blocks.lookup i = some old)
    (hvs : b.voxelSize ≠ old.voxelSize) : addBlockFromProto env l p .merge = .fatal := by
  have hc' : isCompatibleBlock l p = true := by
    unfold isCompatibleBlock; simpa using hc
  have hm : old.merge env.mergeV b = .fatal := by simp [Block.merge, hvs, Outcome.check]
  simp [addBlockFromProto, hc', hb, hi, placeBlock, ho, hm]

end C16

/-- The common hypotheses: the stored form of block (2,-1,0) decodes and is compatible. -/
example :
    let p := protoOf tsdfEnv (sampleBlock 0x40000000#32 0xbf800000#32 true 0x3f000000#32)
    (closeVoxelSize p.voxelSize sampleLayer.voxelSize = true ∧ p.vps = wrap32 sampleLayer.vps) ∧
    blockFromProto tsdfEnv p = .ok (sampleBlock 0x40000000#32 0xbf800000#32 true 0x3f000000#32) ∧
    tsdfEnv.idxOf sampleLayer.voxelSize sampleLayer.vps ⟨0x40000000#32, 0xbf800000#32, 0#32⟩ = .ok ⟨2, -1, 0⟩ ∧
    (sampleLayer.blocks.map (·.1)).Nodup ∧ (sampleLayer.blocks.lookup ⟨2, -1, 0⟩).isSome ∧
    sampleLayer.blocks.lookup ⟨5, 0, 0⟩ = none := by decide +kernel

/-- Voxel sizes 0.1 and the next larger float are compatible but not equal. -/
example : closeVoxelSize (widen 0x3dccccce#32) (0x3dcccccd#32) = true ∧ (0x3dccccce#32 : Word) ≠ 0x3dcccccd#32 := by
  decide +kernel

/-! ## C17, C18 save and load -/

/-- Specification: `l'` is the restriction of `l` to the indices satisfying `keep`, with all update flags
set: same configuration, same voxels and has-data marks. -/
def IsRestriction (keep : Idx → Prop) [DecidablePred keep] (l l' : FLayer V) : Prop :=
  l'.voxelSize = l.voxelSize ∧ l'.vps = l.vps ∧ (l'.blocks.map (·.1)).Nodup ∧
    ∀ i, l'.blocks.lookup i =
      if keep i then (l.blocks.lookup i).map fun b => { b with updated := Flags.setAll } else none

theorem lookup_filter_pred {α : Type} (m : List (Idx × α)) (q : Idx → Bool) (i : Idx) :
    (m.filter fun e => q e.1).lookup i = if q i then m.lookup i else none := by
  induction m with
  | nil => simp
  | cons e m ih =>
    obtain ⟨k, b⟩ := e
    rw [List.filter_cons]
    by_cases hk : q k = true
    · rw [if_pos hk, lookup_cons_ite, lookup_cons_ite, ih]
      by_cases hi : i = k
      · subst hi; rw [if_pos rfl, if_pos rfl, if_pos hk]
      · rw [if_neg hi, if_neg hi]
    · rw [if_neg hk, ih, lookup_cons_ite]
      by_cases hi : i = k
      · subst hi; rw [if_neg hk, if_neg hk]
      · rw [if_neg hi]

/-- Saving a requested list of blocks succeeds, and loading the written bytes (whatever follows them)
yields exactly the requested blocks that exist. -/
theorem C18_save_subset {env : Env V} {P : V → Prop} (he : EnvOk env P) {l : FLayer V}
    (hl : Storable env P l) (list : List Idx) (multi : Bool) (rest : List Byte) :
    ∃ file l', saveSubset env l list false = .ok file ∧
      loadLayer env multi (file ++ rest) = .ok (true, some l') ∧ IsRestriction (· ∈ list) l l' := by
  have hs := saveSubset_ok he hl list false
  have hf := filter_storable hl fun e => selected false list e.1
  have hcnt : (l.blocks.filter fun e => selected false list e.1).length + 1 < 2 ^ 32 := by
    have := List.length_filter_le (fun e : Idx × Block Word V => selected false list e.1) l.blocks
    have := hl.count
    omega
  obtain ⟨m, h1, h2, h3⟩ := load_section he hl _ hf.1 hf.2 hcnt multi none .prohibit (judgeNew env) _
    (judgeNew_own hl) ⟨rfl, rfl, by simp⟩ (fun _ _ => rfl)
    (section_ env l (l.blocks.filter fun e => selected false list e.1) ++ rest).length rest
  refine ⟨_, _, hs, h1, rfl, rfl, h2, fun i => ?_⟩
  rw [h3 i, lookup_filter_pred]
  by_cases hm : i ∈ list
  · rw [if_pos (by simp [selected, hm]), if_pos hm]
    cases hli : l.blocks.lookup i with
    | none => simp
    | some b => rfl
  · rw [if_neg (by simp [selected, hm]), if_neg hm]
    rfl

/-- Saving a whole layer and loading it gives the layer back: same configuration, block set, voxels and
has-data marks. -/
theorem C17_save_load {env : Env V} {P : V → Prop} (he : EnvOk env P) {l : FLayer V}
    (hl : Storable env P l) (multi : Bool) (rest : List Byte) :
    ∃ file l', saveLayer env l = .ok file ∧
      loadLayer env multi (file ++ rest) = .ok (true, some l') ∧ IsRestriction (fun _ => True) l l' := by
  have hs := saveSubset_ok he hl [] true
  have hall : (l.blocks.filter fun e => selected true [] e.1) = l.blocks := by simp [selected]
  rw [hall] at hs
  obtain ⟨m, h1, h2, h3⟩ := load_section he hl l.blocks hl.blocks hl.keys hl.count multi none .prohibit
    (judgeNew env) _ (judgeNew_own hl) ⟨rfl, rfl, by simp⟩ (fun _ _ => rfl)
    (section_ env l l.blocks ++ rest).length rest
  refine ⟨_, _, hs, h1, rfl, rfl, h2, fun i => ?_⟩
  rw [h3 i, if_pos trivial]
  cases l.blocks.lookup i <;> simp [flagged]

/-- The same when loading into an existing empty layer of the same configuration, under every strategy. -/
theorem C17_save_load_into {env : Env V} {P : V → Prop} (he : EnvOk env P) {l : FLayer V}
    (hl : Storable env P l) (s : Strategy) (multi : Bool) (rest : List Byte) :
    ∃ file l', saveLayer env l = .ok file ∧
      loadBlocksFromFile env s multi { l with blocks := [] } (file ++ rest) = .ok (true, some l') ∧
      IsRestriction (fun _ => True) l l' := by
  have hs := saveSubset_ok he hl [] true
  have hall : (l.blocks.filter fun e => selected true [] e.1) = l.blocks := by simp [selected]
  rw [hall] at hs
  obtain ⟨m, h1, h2, h3⟩ := load_section he hl l.blocks hl.blocks hl.keys hl.count multi
    (some { l with blocks := [] }) s
    (judgeInto env { l with blocks := [] }) _ (judgeInto_own hl { l with blocks := [] } rfl rfl) ⟨rfl, rfl, by simp⟩
    (fun _ _ => rfl) (section_ env l l.blocks ++ rest).length rest
  refine ⟨_, _, hs, h1, rfl, rfl, h2, fun i => ?_⟩
  rw [h3 i, if_pos trivial]
  cases l.blocks.lookup i <;> simp [flagged]

/-- The hypotheses hold for a layer with two blocks, one containing a NaN distance. -/
example : EnvOk tsdfEnv (fun _ => True) ∧ Storable tsdfEnv (fun _ => True) sampleLayer ∧
    sampleLayer.blocks.length = 2 := ⟨tsdfEnv_ok, sampleLayer_storable, rfl⟩

/-! ## C19 several layers in one file -/

/-- `bytes` is what saving (part of) some well-formed layer of any voxel type wrote, and the header of that
layer satisfies `Q`. -/
def SavedWith (Q : LayerProto → Prop) (bytes : List Byte) : Prop :=
  ∃ (V' : Type) (env' : Env V') (P' : V' → Prop) (l' : FLayer V') (list : List Idx) (all : Bool),
    EnvOk env' P' ∧ Storable env' P' l' ∧ saveSubset env' l' list all = .ok bytes ∧
      Q ⟨widen l'.voxelSize, l'.vps, env'.typeName⟩

theorem skip_saved (env : Env V) (cur : Option (FLayer V)) (s : Strategy)
    (judge : LayerProto → Outcome (Verdict V)) (Q : LayerProto → Prop)
    (hQ : ∀ {V' : Type} {env' : Env V'} {P' : V' → Prop} {l' : FLayer V'}, Storable env' P' l' →
      Q ⟨widen l'.voxelSize, l'.vps, env'.typeName⟩ → judge (layerProto env' l') = .ok .mismatch)
    (tail : List Byte) (ht : 8191 ≤ tail.length) :
    ∀ (secs : List (List Byte)) (k : ℕ), (∀ b ∈ secs, SavedWith Q b) →
      loadLoop env s judge true cur (k + secs.length) (secs.flatten ++ tail) =
        loadLoop env s judge true cur k tail ∧ secs.length ≤ secs.flatten.length := by
  intro secs
  induction secs with
  | nil => intro k _; exact ⟨rfl, le_rfl⟩
  | cons b secs ih =>
    intro k hb
    obtain ⟨V', env', P', l', list, all, he', hl', hsave, hq⟩ := hb b List.mem_cons_self
    rw [saveSubset_ok he' hl'] at hsave
    simp only [Outcome.ok.injEq] at hsave
    obtain ⟨h1, h2⟩ := ih k fun b' hb' => hb b' (List.mem_cons_of_mem _ hb')
    have hcnt : (l'.blocks.filter fun e => selected all list e.1).length + 1 < 2 ^ 32 := by
      have := List.length_filter_le (fun e : Idx × Block Word V' => selected all list e.1) l'.blocks
      have := hl'.count
      omega
    have hpos := section_ne_nil env' l' (l'.blocks.filter fun e => selected all list e.1)
    rw [hsave] at hpos
    constructor
    · rw [List.length_cons, ← Nat.add_assoc, List.flatten_cons, List.append_assoc, ← hsave,
        skip_section he' hl' _ (filter_storable hl' _).1 hcnt env cur s judge (hQ hl' hq) (k + secs.length)
          (secs.flatten ++ tail) (by rw [List.length_append]; simp only [chunk]; omega), h1]
    · rw [List.flatten_cons, List.length_append, List.length_cons]
      omega

theorem judgeNew_mismatch {env : Env V} {V' : Type} {env' : Env V'} {P' : V' → Prop} {l' : FLayer V'}
    (hl' : Storable env' P' l') (hne : env'.typeName ≠ env.typeName) :
    judgeNew env (layerProto env' l') = .ok .mismatch := by
  obtain ⟨q, hq, hq0⟩ := hl'.size
  have hv : l'.vps % 2 ^ 32 = l'.vps := Nat.mod_eq_of_lt (by have := hl'.side; omega)
  have hvp := hl'.vps
  have hle : ¬ q ≤ 0 := not_le.2 hq0
  simp only [judgeNew, layerProto, hv, fl64_widen, hq, Fl.le, hle, decide_false, Bool.false_or,
    show ¬ l'.vps = 0 by omega, Bool.false_eq_true, if_false]
  rw [if_neg fun h => hne h.symm]

/-- Loading a layer from a file with several layers skips exactly those of other types and loads the
first one of the right type completely, whatever follows.

Partial: needs at least 8191 bytes to follow the last skipped layer (the claimed statement has no such
condition; it fails without it, see `C19_small_file_violated`). -/
theorem C19_first_compatible_partial {env : Env V} {P : V → Prop} (he : EnvOk env P) {l : FLayer V}
    (hl : Storable env P l) (secs : List (List Byte))
    (hsecs : ∀ b ∈ secs, SavedWith (fun h => h.type ≠ env.typeName) b)
    (target rest : List Byte) (htarget : saveLayer env l = .ok target)
    (hlen : 8191 ≤ (target ++ rest).length) :
    ∃ l', loadLayer env true (secs.flatten ++ (target ++ rest)) = .ok (true, some l') ∧
      IsRestriction (fun _ => True) l l' := by
  have hs := saveSubset_ok he hl [] true
  have hall : (l.blocks.filter fun e => selected true [] e.1) = l.blocks := by simp [selected]
  rw [hall] at hs
  unfold saveLayer at htarget
  rw [hs] at htarget
  simp only [Outcome.ok.injEq] at htarget
  obtain ⟨-, hle⟩ := skip_saved env none .prohibit (judgeNew env) (fun h => h.type ≠ env.typeName)
    (fun hl' hq => judgeNew_mismatch hl' hq) (target ++ rest) hlen secs 0 hsecs
  obtain ⟨k, hk⟩ : ∃ k, (secs.flatten ++ (target ++ rest)).length + 1 = (k + 1) + secs.length :=
    ⟨(secs.flatten ++ (target ++ rest)).length - secs.length, by rw [List.length_append]; omega⟩
  obtain ⟨m, h1, h2, h3⟩ := load_section he hl l.blocks hl.blocks hl.keys hl.count true none .prohibit
    (judgeNew env) _ (judgeNew_own hl) ⟨rfl, rfl, by simp⟩ (fun _ _ => rfl) k rest
  refine ⟨{ voxelSize := l.voxelSize, vps := l.vps, blocks := m }, ?_, rfl, rfl, h2, fun i => ?_⟩
  · unfold loadLayer
    rw [hk, (skip_saved env none .prohibit (judgeNew env) (fun h => h.type ≠ env.typeName)
      (fun hl' hq => judgeNew_mismatch hl' hq) (target ++ rest) hlen secs (k + 1) hsecs).1, ← htarget, h1]
  · rw [h3 i, if_pos trivial]
    cases l.blocks.lookup i <;> simp [flagged]

/-- The same for loading into an existing layer: layers that differ in type, side or voxel size are
skipped. -/
theorem C19_first_compatible_into_partial {env : Env V} {P : V → Prop} (he : EnvOk env P) {l : FLayer V}
    (hl : Storable env P l) (s : Strategy) (secs : List (List Byte))
    (hsecs : ∀ b ∈ secs, SavedWith (fun h => h.type ≠ env.typeName ∨ h.vps ≠ l.vps ∨
      closeVoxelSize h.voxelSize l.voxelSize = false) b)
    (target rest : List Byte) (htarget : saveLayer env l = .ok target)
    (hlen : 8191 ≤ (target ++ rest).length) :
    ∃ l', loadBlocksFromFile env s true { l with blocks := [] } (secs.flatten ++ (target ++ rest)) =
        .ok (true, some l') ∧ IsRestriction (fun _ => True) l l' := by
  have hs := saveSubset_ok he hl [] true
  have hall : (l.blocks.filter fun e => selected true [] e.1) = l.blocks := by simp [selected]
  rw [hall] at hs
  unfold saveLayer at htarget
  rw [hs] at htarget
  simp only [Outcome.ok.injEq] at htarget
  have hQ : ∀ {V' : Type} {env' : Env V'} {P' : V' → Prop} {l' : FLayer V'}, Storable env' P' l' →
      ((⟨widen l'.voxelSize, l'.vps, env'.typeName⟩ : LayerProto).type ≠ env.typeName ∨
        (⟨widen l'.voxelSize, l'.vps, env'.typeName⟩ : LayerProto).vps ≠ l.vps ∨
      closeVoxelSize (⟨widen l'.voxelSize, l'.vps, env'.typeName⟩ : LayerProto).voxelSize l.voxelSize = false) →
      judgeInto env { l with blocks := [] } (layerProto env' l') = .ok .mismatch := by
    intro V' env' P' l' hl' hq
    have hv : l'.vps % 2 ^ 32 = l'.vps := Nat.mod_eq_of_lt (by have := hl'.side; omega)
    unfold judgeInto isCompatibleLayer layerProto
    rw [if_neg]
    simp only [hv, Bool.and_eq_true, decide_eq_true_eq]
    rintro ⟨⟨ha, hb⟩, hc⟩
    rcases hq with h | h | h
    · exact h hc.symm
    · exact h hb
    · simp only at h; rw [ha] at h; exact Bool.noConfusion h
  obtain ⟨-, hle⟩ := skip_saved env (some { l with blocks := [] }) s (judgeInto env { l with blocks := [] }) _ hQ
    (target ++ rest) hlen secs 0 hsecs
  obtain ⟨k, hk⟩ : ∃ k, (secs.flatten ++ (target ++ rest)).length + 1 = (k + 1) + secs.length :=
    ⟨(secs.flatten ++ (target ++ rest)).length - secs.length, by rw [List.length_append]; omega⟩
  obtain ⟨m, h1, h2, h3⟩ := load_section he hl l.blocks hl.blocks hl.keys hl.count true
    (some { l with blocks := [] }) s (judgeInto env { l with blocks := [] }) _
    (judgeInto_own hl { l with blocks := [] } rfl rfl) ⟨rfl, rfl, by simp⟩ (fun _ _ => rfl) k rest
  refine ⟨{ voxelSize := l.voxelSize, vps := l.vps, blocks := m }, ?_, rfl, rfl, h2, fun i => ?_⟩
  · unfold loadBlocksFromFile
    rw [hk, (skip_saved env (some { l with blocks := [] }) s (judgeInto env { l with blocks := [] }) _ hQ
      (target ++ rest) hlen secs (k + 1) hsecs).1, ← htarget, h1]
  · rw [h3 i, if_pos trivial]
    cases l.blocks.lookup i <;> simp [flagged]

/-- Without multiple-layer support only the first layer is considered: if it has another type, loading
reports failure and creates nothing. -/
theorem C19_single_only_first (env : Env V) (b rest : List Byte)
    (hb : SavedWith (fun h => h.type ≠ env.typeName) b) :
    loadLayer env false (b ++ rest) = .ok (false, none) := by
  obtain ⟨V', env', P', l', list, all, he', hl', hsave, hq⟩ := hb
  rw [saveSubset_ok he' hl'] at hsave
  simp only [Outcome.ok.injEq] at hsave
  have hle := List.length_filter_le (fun e : Idx × Block Word V' => selected all list e.1) l'.blocks
  have hcnt := hl'.count
  rw [← hsave]
  unfold loadLayer
  rw [loadLoop]
  have hc : readCount (section_ env' l' (l'.blocks.filter fun e => selected all list e.1) ++ rest) =
      some (1 + (l'.blocks.filter fun e => selected all list e.1).length,
        writeMsg (layerProto env' l').fields ++
          (blockBytes env' (l'.blocks.filter fun e => selected all list e.1) ++ rest)) := by
    unfold section_ readCount writeCount
    rw [Nat.mod_eq_of_lt (by omega), List.append_assoc, List.append_assoc, readVarint32_enc (by omega)]
  rw [hc]
  simp only
  rw [if_neg (by omega), header_ok he' l']
  simp only [judgeNew_mismatch hl' hq, Outcome.bind_ok, Bool.not_false, if_true]

/-- An empty occupancy layer. -/
def emptyOcc : FLayer (OccVoxel Word) := { voxelSize := 0x3f800000#32, vps := 1, blocks := [] }

theorem emptyOcc_storable : Storable occEnv (fun _ => True) emptyOcc where
  size := ⟨1, sampleLayer_size, by norm_num⟩
  vps := by decide
  side := by decide
  words := by decide
  keys := by decide
  count := by decide
  blocks := by simp [emptyOcc]

theorem emptyOcc_saved : SavedWith (fun h => h.type ≠ tsdfEnv.typeName)
    (writeCount 1 ++ writeMsg (layerProto occEnv emptyOcc).fields) :=
  ⟨_, occEnv, _, emptyOcc, [], true, occEnv_ok, emptyOcc_storable, by rfl, by simp [occEnv, tsdfEnv, occName, tsdfName]⟩

/-- The hypotheses of the partial theorems: an occupancy layer precedes the wanted layer, and anything of
8191 bytes follows. -/
example : ∃ target, saveLayer tsdfEnv sampleLayer = .ok target ∧
    (∀ b ∈ [writeCount 1 ++ writeMsg (layerProto occEnv emptyOcc).fields],
      SavedWith (fun h => h.type ≠ tsdfEnv.typeName) b) ∧
    8191 ≤ (target ++ List.replicate 8191 (0 : Byte)).length := by
  obtain ⟨f, _, hf, _⟩ := C17_save_load tsdfEnv_ok sampleLayer_storable false []
  refine ⟨f, hf, fun b hb => ?_, by rw [List.length_append, List.length_replicate]; exact Nat.le_add_left _ _⟩
  rw [List.mem_singleton] at hb
  rw [hb]; exact emptyOcc_saved

/-- The claim fails for short files: an occupancy layer followed by the wanted (two-block) TSDF layer; the
file is shorter than the 8192-byte read chunk, so the end-of-file flag is set while the occupancy layer is
being skipped, and loading reports failure without ever looking at the second layer. -/
theorem C19_small_file_violated :
    ∃ first target, SavedWith (fun h => h.type ≠ tsdfEnv.typeName) first ∧
      saveLayer tsdfEnv sampleLayer = .ok target ∧
      loadLayer tsdfEnv true (first ++ target) = .ok (false, none) := by
  refine ⟨_, _, emptyOcc_saved, saveSubset_ok tsdfEnv_ok sampleLayer_storable [] true, ?_⟩
  decide +kernel

/-! ## C20 truncated files -/

/-- No strict prefix of a saved file loads successfully. -/
theorem C20_truncated_load {env : Env V} {P : V → Prop} (he : EnvOk env P) {l : FLayer V}
    (hl : Storable env P l) (list : List Idx) (all multi : Bool) (file p q : List Byte)
    (hs : saveSubset env l list all = .ok file) (hp : p ++ q = file) (hq : q ≠ []) (r : Option (FLayer V)) :
    loadLayer env multi p ≠ .ok (true, r) := by
  rw [saveSubset_ok he hl] at hs
  simp only [Outcome.ok.injEq] at hs
  have hle := List.length_filter_le (fun e : Idx × Block Word V => selected all list e.1) l.blocks
  have hcnt := hl.count
  exact load_prefix he hl _ (filter_storable hl _).1 (by omega) multi none .prohibit (judgeNew env)
    judgeNew_load _ p q (hp.trans hs.symm) hq r

/-- The same when loading into any existing layer with any strategy. -/
theorem C20_truncated_load_into {env : Env V} {P : V → Prop} (he : EnvOk env P) {l : FLayer V}
    (hl : Storable env P l) (list : List Idx) (all multi : Bool) (file p q : List Byte)
    (hs : saveSubset env l list all = .ok file) (hp : p ++ q = file) (hq : q ≠ [])
    (s : Strategy) (cur : FLayer V) (r : Option (FLayer V)) :
    loadBlocksFromFile env s multi cur p ≠ .ok (true, r) := by
  rw [saveSubset_ok he hl] at hs
  simp only [Outcome.ok.injEq] at hs
  have hle := List.length_filter_le (fun e : Idx × Block Word V => selected all list e.1) l.blocks
  have hcnt := hl.count
  exact load_prefix he hl _ (filter_storable hl _).1 (by omega) multi (some cur) s (judgeInto env cur)
    (judgeInto_load cur) _ p q (hp.trans hs.symm) hq r

/-- A file cut in the middle. -/
example : ∃ file p q, saveSubset tsdfEnv sampleLayer [] true = .ok file ∧ p ++ q = file ∧ q ≠ [] ∧
    p.length = 40 := by
  refine ⟨_, _, _, saveSubset_ok tsdfEnv_ok sampleLayer_storable [] true, List.take_append_drop 40 _, ?_, ?_⟩ <;>
  decide +kernel

/-! ## C66 framing -/

/-- Every 32-bit value is read back exactly, consuming exactly the written bytes, whatever follows; the
encoding has one to five bytes. -/
theorem C66_varint_roundtrip (n : ℕ) (h : n < 2 ^ 32) (rest : List Byte) :
    readCount (writeCount n ++ rest) = some (n, rest) ∧ 1 ≤ (writeCount n).length ∧
      (writeCount n).length ≤ 5 := by
  unfold readCount writeCount
  rw [Nat.mod_eq_of_lt h]
  refine ⟨readVarint32_enc h rest, ?_, encVarint_length 5 (lt_trans h (by norm_num)) (by norm_num)⟩
  exact List.length_pos_iff.2 (encVarintF_ne_nil 9 n)

example : writeCount 300 = [172, 2] ∧ (4294967295 : ℕ) < 2 ^ 32 := by decide

/-- Truncated encodings are rejected. -/
theorem C66_varint_truncated (n : ℕ) (p q : List Byte) (hp : p ++ q = writeCount n) (hq : q ≠ []) :
    readCount p = none := readVarint32_prefix hp hq

example : [(172 : Byte)] ++ [2] = writeCount 300 := by decide

/-- Distinct values have encodings neither of which is a prefix of the other, so a reader cannot
mistake one for another. -/
theorem C66_varint_injective (m n : ℕ) (hm : m < 2 ^ 32) (hn : n < 2 ^ 32) (r s : List Byte)
    (h : writeCount m ++ r = writeCount n ++ s) : m = n ∧ r = s := by
  have h1 := (C66_varint_roundtrip m hm r).1
  have h2 := (C66_varint_roundtrip n hn s).1
  rw [h, h2] at h1
  simp only [Option.some.injEq, Prod.mk.injEq] at h1
  exact ⟨h1.1.symm, h1.2.symm⟩

example : writeCount 5 ++ [1] = writeCount 5 ++ [1] := rfl

/-- A block message framed by its size is read back exactly, whatever follows. -/
theorem C66_block_message (p : BlockProto) (hv : IsI32 p.vps) (hsz : p.voxelData.length ≤ 2 ^ 28)
    (rest : List Byte) :
    ∃ eof, readMsg BlockProto.decode (writeMsg p.fields ++ rest) = some (p, rest, eof) :=
  ⟨_, readMsg_write BlockProto.decode (blockFields_ok _) (fields_ne_nil _)
    (by have := blockFields_length p; omega) (block_decode hv) rest⟩

example : IsI32 (16 : ℤ) ∧ 16 * 16 * 16 * 3 ≤ 2 ^ 28 := by decide

end Vox.Props
