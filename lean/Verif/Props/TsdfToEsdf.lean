/-
C130: the program that makes an ESDF file from a TSDF file.
-/
import Verif.Model.TsdfToEsdf
import Verif.Props.ServerIO

namespace Vox.TsdfToEsdf

open FloatBits Proto Serial Layer Vox.IO ServerIO Props

variable {mT : TsdfVoxel Word → TsdfVoxel Word → TsdfVoxel Word} {mE : EsdfVoxel Word → EsdfVoxel Word → EsdfVoxel Word}
  {iT iE : Word → ℕ → Vec3 Word → Outcome Idx} {number : String → Option Word}
  {batch : Settings → FLayer (TsdfVoxel Word) → FLayer (EsdfVoxel Word) → Outcome (FLayer (EsdfVoxel Word))}

/-- The settings stand in the third to sixth argument in this order. -/
structure GivenBy (number : String → Option Word) (third fourth fifth sixth : String) (s : Settings) : Prop where
  minWeight : number third = some s.minWeight
  minDistance : number fourth = some s.minDistance
  maxDistance : number fifth = some s.maxDistance
  defaultDistance : number sixth = some s.defaultDistance

theorem GivenBy.eq {w lo hi dflt : String} {s : Settings} (h : GivenBy number w lo hi dflt s) : settings number w lo hi dflt = some s := by
  unfold settings
  rw [h.minWeight, h.minDistance, h.maxDistance, h.defaultDistance]
  rfl

theorem loadLayerAt_file {V : Type} (env : Env V) (multi : Bool) {path : String} (hp : path ≠ "") {d : Disk} {file : List Byte} (h : d.files path = some file) :
    loadLayerAt env multi path d = loadLayer env multi file := by
  unfold loadLayerAt
  rw [decide_eq_true hp, h]
  rfl

theorem work_some {s : Settings} {input output : String} {d : Disk} {ok : Bool} {l : FLayer (TsdfVoxel Word)}
    (h : loadLayerAt (tsdfType mT iT) false input d = .ok (ok, some l)) {e : FLayer (EsdfVoxel Word)}
    (hb : batch s l { voxelSize := l.voxelSize, vps := l.vps, blocks := [] } = .ok e) :
    work (tsdfType mT iT) (esdfType mE iE) batch s input output d =
      (do
        let saved ← saveLayerTo (esdfType mE iE) e output true d
        pure (if saved.1 then Ended.done else .threw, saved.2)) := by
  unfold work
  rw [h]
  show (batch s l { voxelSize := l.voxelSize, vps := l.vps, blocks := [] }).bind _ = _
  rw [hb]
  rfl

theorem save_done {e : FLayer (EsdfVoxel Word)} (he : Storable (esdfType mE iE) Kept e) {output : String} (hp : output ≠ "") {d : Disk}
    (hw : d.writable output = true) :
    ∃ bytes, (do
        let saved ← saveLayerTo (esdfType mE iE) e output true d
        pure (if saved.1 then Ended.done else .threw, saved.2)) = Outcome.ok (Ended.done, d.put output bytes) ∧
      (∀ multi, ∃ e'', loadLayer (esdfType mE iE) multi bytes = .ok (true, some e'') ∧ IsRestriction (fun _ => True) e e'') := by
  obtain ⟨bytes, l', h1, -, -⟩ := C17_save_load (esdfType_ok mE iE) he false []
  refine ⟨bytes, ?_, ?_⟩
  · unfold saveLayerTo
    rw [decide_eq_true hp, hw, h1]
    rfl
  · intro multi
    obtain ⟨b, l'', g1, g2, g3⟩ := C17_save_load (esdfType_ok mE iE) he multi []
    rw [h1] at g1
    cases g1
    rw [List.append_nil] at g2
    exact ⟨l'', g2, g3⟩

/-- When the first file holds a saved TSDF layer, the integrator is given just that layer and an empty ESDF layer of the same configuration, and if it
succeeds the program ends well and the second file (which may be the first) holds its result; no other file changes.

Partial: the claim is also that a program which ends well has converted the whole map of the first file; that fails, see `C130_truncated_violated`. -/
theorem C130_converts_partial {l : FLayer (TsdfVoxel Word)} (hl : Storable (tsdfType mT iT) (fun _ => True) l) {file rest : List Byte}
    (hf : saveLayer (tsdfType mT iT) l = .ok file) {name input output w lo hi dflt : String} {s : Settings}
    (hs : GivenBy number w lo hi dflt s) {d : Disk} (hin : input ≠ "") (hd : d.files input = some (file ++ rest)) (hout : output ≠ "")
    (hw : d.writable output = true) :
    ∃ l', IsRestriction (fun _ => True) l l' ∧ ∀ e, batch s l' { voxelSize := l.voxelSize, vps := l.vps, blocks := [] } = .ok e →
      Storable (esdfType mE iE) Kept e →
      ∃ d', main (tsdfType mT iT) (esdfType mE iE) number batch [name, input, output, w, lo, hi, dflt] d = .ok (.done, d') ∧
        (∀ p, p ≠ output → d'.files p = d.files p) ∧
        ∀ multi, ∃ e', loadLayerAt (esdfType mE iE) multi output d' = .ok (true, some e') ∧ IsRestriction (fun _ => True) e e' := by
  obtain ⟨file', l', h1, h2, h3⟩ := C17_save_load (tsdfType_ok mT iT) hl false rest
  rw [hf] at h1
  cases h1
  refine ⟨l', h3, fun e hb he => ?_⟩
  have hload : loadLayerAt (tsdfType mT iT) false input d = .ok (true, some l') := by rw [loadLayerAt_file _ _ hin hd, h2]
  rw [← h3.1, ← h3.2.1] at hb
  obtain ⟨bytes, g1, g2⟩ := save_done he hout hw (d := d)
  refine ⟨d.put output bytes, ?_, ?_, ?_⟩
  · unfold main
    dsimp only
    rw [hs.eq]
    dsimp only
    rw [work_some hload hb, g1]
  · intro p hp
    show (if _ then _ else _) = _
    rw [if_neg hp]
  · intro multi
    obtain ⟨e', k1, k2⟩ := g2 multi
    refine ⟨e', ?_, k2⟩
    rw [loadLayerAt_file _ _ hout (file := bytes) (by show (if _ then _ else _) = _; rw [if_pos rfl]), k1]

/-- Wrong arguments are refused, and when the second file cannot be written the program says so; nothing is changed then. -/
theorem C130_refused (args : List String) (d : Disk) :
    (args.length ≠ 7 → main (tsdfType mT iT) (esdfType mE iE) number batch args d = .ok (.threw, d)) ∧
    (∀ (name input output w lo hi dflt t : String), args = [name, input, output, w, lo, hi, dflt] → t ∈ [w, lo, hi, dflt] → number t = none →
      main (tsdfType mT iT) (esdfType mE iE) number batch args d = .ok (.threw, d)) ∧
    (∀ (name input output w lo hi dflt : String), args = [name, input, output, w, lo, hi, dflt] → output ≠ "" → d.writable output = false →
      ∀ x d', main (tsdfType mT iT) (esdfType mE iE) number batch args d = .ok (x, d') → x = .threw ∧ d' = d) := by
  refine ⟨fun h => ?_, ?_, ?_⟩
  · unfold main
    split
    · exact absurd rfl h
    · rfl
  · rintro name input output w lo hi dflt t rfl ht hn
    have hs : settings number w lo hi dflt = none := by
      unfold settings
      simp only [List.mem_cons, List.not_mem_nil, or_false] at ht
      rcases ht with rfl | rfl | rfl | rfl
      · rw [hn]; rfl
      · rw [hn]; cases number w <;> rfl
      · rw [hn]; cases number w <;> cases number lo <;> rfl
      · rw [hn]; cases number w <;> cases number lo <;> cases number hi <;> rfl
    unfold main
    dsimp only
    rw [hs]
  · rintro name input output w lo hi dflt rfl hout hw x d' h
    unfold main at h
    dsimp only at h
    split at h
    · unfold work at h
      rw [Outcome.bind_eq_ok] at h
      obtain ⟨loaded, -, h⟩ := h
      split at h
      · cases h
      · rw [Outcome.bind_eq_ok] at h
        obtain ⟨e, -, h⟩ := h
        unfold saveLayerTo at h
        rw [decide_eq_true hout, hw] at h
        cases h
        exact ⟨rfl, rfl⟩
    · cases h
      exact ⟨rfl, rfl⟩

/-- A file that is missing, or that holds another kind of layer, is not refused: the program uses a layer that is not there. -/
theorem C130_missing_violated {name input output w lo hi dflt : String} {s : Settings} (hs : GivenBy number w lo hi dflt s) {d : Disk}
    (hin : input ≠ "") (hd : d.files input = none ∨ ∃ l : FLayer (EsdfVoxel Word), Storable (esdfType mE iE) Kept l ∧
      ∃ file rest, saveLayer (esdfType mE iE) l = .ok file ∧ d.files input = some (file ++ rest)) :
    main (tsdfType mT iT) (esdfType mE iE) number batch [name, input, output, w, lo, hi, dflt] d = .ub := by
  have hload : loadLayerAt (tsdfType mT iT) false input d = .ok (false, none) := by
    rcases hd with hd | ⟨l, hl, file, rest, hf, hd⟩
    · unfold loadLayerAt
      rw [decide_eq_true hin, hd]
      rfl
    · rw [loadLayerAt_file _ _ hin hd]
      exact C19_single_only_first _ _ _ ⟨_, esdfType mE iE, Kept, l, [], true, esdfType_ok mE iE, hl, hf, (types_differ mT iT mE iE).symm⟩
  unfold main
  dsimp only
  rw [hs.eq]
  dsimp only
  unfold work
  rw [hload]
  rfl

example : (⟨fun _ => none, fun _ => true⟩ : Disk).files "map.vxblx" = none ∧ "map.vxblx" ≠ "" := ⟨rfl, by decide⟩

/-- The number in every word is 1. -/
def ones (_ : String) : Option Word := some 0x3f800000#32

/-- An integrator that makes a layer without blocks. -/
def nothing (_ : Settings) (_ : FLayer (TsdfVoxel Word)) (e : FLayer (EsdfVoxel Word)) : Outcome (FLayer (EsdfVoxel Word)) := .ok e

example : GivenBy ones "1" "1" "1" "1" ⟨0x3f800000#32, 0x3f800000#32, 0x3f800000#32, 0x3f800000#32⟩ ∧
    Storable (tsdfType (fun a _ => a) exactIdxOf) (fun _ => True) demoTsdf ∧ Storable (esdfType (fun a _ => a) exactIdxOf) Kept demoEsdf :=
  ⟨⟨rfl, rfl, rfl, rfl⟩, demoTsdf_storable, demoEsdf_storable⟩

/-- A file that was cut off is not refused either: whatever part of its blocks was read is converted, and the program ends as if all were well. -/
theorem C130_truncated {input output w lo hi dflt name : String} {s : Settings} (hs : GivenBy number w lo hi dflt s) {d : Disk}
    (hin : input ≠ "") (hout : output ≠ "") (hw : d.writable output = true) {part : List Byte} (hd : d.files input = some part)
    {l : FLayer (TsdfVoxel Word)} (hl : loadLayer (tsdfType mT iT) false part = .ok (false, some l)) {e : FLayer (EsdfVoxel Word)}
    (hb : batch s l { voxelSize := l.voxelSize, vps := l.vps, blocks := [] } = .ok e) (he : Storable (esdfType mE iE) Kept e) :
    ∃ d', main (tsdfType mT iT) (esdfType mE iE) number batch [name, input, output, w, lo, hi, dflt] d = .ok (.done, d') ∧
      ∃ e', loadLayerAt (esdfType mE iE) false output d' = .ok (true, some e') ∧ IsRestriction (fun _ => True) e e' := by
  have hload : loadLayerAt (tsdfType mT iT) false input d = .ok (false, some l) := by rw [loadLayerAt_file _ _ hin hd, hl]
  obtain ⟨bytes, g1, g2⟩ := save_done he hout hw (d := d)
  refine ⟨d.put output bytes, ?_, ?_⟩
  · unfold main
    dsimp only
    rw [hs.eq]
    dsimp only
    rw [work_some hload hb, g1]
  · obtain ⟨e', k1, k2⟩ := g2 false
    refine ⟨e', ?_, k2⟩
    rw [loadLayerAt_file _ _ hout (file := bytes) (by show (if _ then _ else _) = _; rw [if_pos rfl]), k1]

/-- A saved layer of two blocks, cut off behind the first. -/
theorem C130_truncated_violated : ∃ file part rest l, saveLayer tsdfEnv sampleLayer = .ok file ∧ part ++ rest = file ∧ rest ≠ [] ∧
    loadLayer (tsdfType (fun a _ => a) exactIdxOf) false part = .ok (false, some l) ∧ sampleLayer.blocks.length = 2 ∧ l.blocks.length = 1 ∧
    ∀ (d : Disk), d.files "in" = some part → d.writable "out" = true → ∃ d',
      main (tsdfType (fun a _ => a) exactIdxOf) (esdfType (fun a _ => a) exactIdxOf) ones nothing ["tsdf_to_esdf", "in", "out", "1", "1", "1", "1"] d =
        .ok (.done, d') := by
  have h : (match saveLayer tsdfEnv sampleLayer with
      | .ok file => match loadLayer (tsdfType (fun a _ => a) exactIdxOf) false (file.take 100) with
        | .ok (false, some l) => decide (file.drop 100 ≠ [] ∧ l.blocks.length = 1 ∧ l.voxelSize = 0x3f800000#32 ∧ l.vps = 1)
        | _ => false
      | _ => false) = true := by decide +kernel
  cases hf : saveLayer tsdfEnv sampleLayer with
  | fatal => rw [hf] at h; cases h
  | ub => rw [hf] at h; cases h
  | ok file =>
    rw [hf] at h
    dsimp only at h
    split at h
    · rename_i l hl
      obtain ⟨h1, h2, h3, h4⟩ := of_decide_eq_true h
      refine ⟨file, file.take 100, file.drop 100, l, rfl, List.take_append_drop _ _, h1, hl, rfl, h2, fun d hd hw => ?_⟩
      obtain ⟨d', g, -⟩ := C130_truncated (mE := fun a _ => a) (iE := exactIdxOf) (number := ones) (batch := nothing) (name := "tsdf_to_esdf")
        (w := "1") (lo := "1") (hi := "1") (dflt := "1") (s := ⟨0x3f800000#32, 0x3f800000#32, 0x3f800000#32, 0x3f800000#32⟩) ⟨rfl, rfl, rfl, rfl⟩ (by decide) (output := "out") (by decide) hw hd hl rfl
        (by rw [h3, h4]; exact smallEsdf_storable)
      exact ⟨d', g⟩
    · cases h

example : ∃ d : Disk, d.files "in" = some [1, 2, 3] ∧ d.writable "out" = true := ⟨⟨fun _ => some [1, 2, 3], fun _ => true⟩, rfl, rfl⟩

end Vox.TsdfToEsdf
