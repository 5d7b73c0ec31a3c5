/-
Property C101: saving and loading the maps of the TSDF and ESDF servers.
-/
import Verif.Lemmas.ServerIO
import Verif.Spec.ServerIO
import Verif.Spec.Serial
import Verif.Props.LayerIO

namespace Vox.ServerIO

open FloatBits Proto Serial Layer Vox.IO Spec

/-- The ESDF voxels that survive storage (C09). -/
abbrev Kept (v : EsdfVoxel Word) : Prop := InI8 v.parent ∧ ParentSurvives v.parent

theorem tsdfType_ok (merge idx) : EnvOk (tsdfType merge idx) fun _ => True :=
  ⟨tsdf_lawful, by show 0 < tsdfCodec.words; decide, by show kTsdf ≠ []; decide,
    by show kTsdf.length < 2 ^ 20; decide⟩

theorem esdfType_ok (merge idx) : EnvOk (esdfType merge idx) Kept :=
  ⟨esdf_lawful, by show 0 < esdfCodec.words; decide, by show kEsdf ≠ []; decide,
    by show kEsdf.length < 2 ^ 20; decide⟩

theorem types_differ (mT iT mE iE) : (tsdfType mT iT).typeName ≠ (esdfType mE iE).typeName := by
  show kTsdf ≠ kEsdf; decide

theorem replacedBy_of {V : Type} {l cur : FLayer V} {m : List (Idx × Block Word V)}
    (hk : (m.map (·.1)).Nodup) (hm : ∀ j, m.lookup j = match l.blocks.lookup j with
        | some b => some (flagged b)
        | none => cur.blocks.lookup j) : ReplacedBy l cur { cur with blocks := m } := by
  refine ⟨rfl, rfl, hk, fun i => ⟨fun b hb => ?_, fun hn => ?_⟩⟩
  · rw [hm i, hb]; rfl
  · rw [hm i, hn]

/-- The bytes of a TSDF map. -/
def tsdfBytes (mT : TsdfVoxel Word → TsdfVoxel Word → TsdfVoxel Word)
    (iT : Word → ℕ → Vec3 Word → Outcome Idx) (l : FLayer (TsdfVoxel Word)) : List Byte := section_ (tsdfType mT iT) l l.blocks

/-- The bytes of an ESDF map. -/
def esdfBytes (mE : EsdfVoxel Word → EsdfVoxel Word → EsdfVoxel Word)
    (iE : Word → ℕ → Vec3 Word → Outcome Idx) (l : FLayer (EsdfVoxel Word)) : List Byte := section_ (esdfType mE iE) l l.blocks

section
variable {mT : TsdfVoxel Word → TsdfVoxel Word → TsdfVoxel Word} {iT : Word → ℕ → Vec3 Word → Outcome Idx}
  {mE : EsdfVoxel Word → EsdfVoxel Word → EsdfVoxel Word} {iE : Word → ℕ → Vec3 Word → Outcome Idx}

theorem tsdfSave_run {l : FLayer (TsdfVoxel Word)} (hl : Storable (tsdfType mT iT) (fun _ => True) l)
    {path : String} (hp : path ≠ "") {d : Disk} (hw : d.writable path = true) :
    tsdfSave (tsdfType mT iT) l path d = .ok (true, d.put path (tsdfBytes mT iT l)) := by
  unfold tsdfSave saveLayerTo
  rw [save_section (tsdfType_ok mT iT) hl]
  simp [hp, hw, Outcome.check, fileAfterSave, tsdfBytes]

theorem put_put (d : Disk) (path : String) (a b : List Byte) :
    (d.put path a).put path b = d.put path b := by
  unfold Disk.put
  congr 1
  funext p
  by_cases h : p = path <;> simp [h]

theorem esdfSave_run {m : Maps} (hT : Storable (tsdfType mT iT) (fun _ => True) m.tsdf)
    (hE : Storable (esdfType mE iE) Kept m.esdf)
    {path : String} (hp : path ≠ "") {d : Disk} (hw : d.writable path = true) :
    esdfSave (tsdfType mT iT) (esdfType mE iE) m path d =
      .ok (true, d.put path (tsdfBytes mT iT m.tsdf ++ esdfBytes mE iE m.esdf)) := by
  unfold esdfSave
  rw [tsdfSave_run hT hp hw, Outcome.bind_ok]
  simp only [if_true]
  unfold saveLayerTo
  rw [save_section (esdfType_ok mE iE) hE]
  have hw' : (d.put path (tsdfBytes mT iT m.tsdf)).writable path = true := hw
  simp only [ne_eq, hp, not_false_eq_true, decide_true, Outcome.check, if_true, Outcome.bind_ok, hw',
    Outcome.pure_eq, fileAfterSave, Bool.false_eq_true, if_false, put_put, esdfBytes]
  simp [Disk.put]

theorem loadAt_run {V : Type} (env : Env V) (s : Strategy) (multi : Bool) (l : FLayer V) {path : String}
    (hp : path ≠ "") (d : Disk) (file : List Byte) :
    loadBlocksAt env s multi l path (d.put path file) =
      (loadBlocksFromFile env s multi l file).bind fun r => .ok (r.1, r.2.getD l) := by
  unfold loadBlocksAt
  have hf : (d.put path file).files path = some file := by simp [Disk.put]
  rw [hf]
  simp only [ne_eq, hp, not_false_eq_true, decide_true, Outcome.check, if_true, Outcome.bind_ok]
  rfl

theorem tsdfLoad_run {l cur : FLayer (TsdfVoxel Word)} (hl : Storable (tsdfType mT iT) (fun _ => True) l)
    (hc : SameConfig l cur) {path : String} (hp : path ≠ "") (d : Disk) (rest : List Byte) :
    ∃ l', tsdfLoad (tsdfType mT iT) cur path (d.put path (tsdfBytes mT iT l ++ rest)) = .ok (true, l') ∧
      ReplacedBy l cur l' := by
  obtain ⟨m, h1, h2, h3⟩ := load_replace (tsdfType_ok mT iT) hl true (some cur) cur hc.1 hc.2.1 hc.2.2
    (tsdfBytes mT iT l ++ rest).length rest
  refine ⟨{ cur with blocks := m }, ?_, replacedBy_of h2 h3⟩
  unfold tsdfLoad
  rw [loadAt_run _ _ _ _ hp]
  unfold loadBlocksFromFile
  rw [show tsdfBytes mT iT l ++ rest = section_ (tsdfType mT iT) l l.blocks ++ rest from rfl] at h1 ⊢
  rw [h1]
  rfl

/-! ## Where things can go -/

/-- A file that cannot be opened: nothing is written and failure is reported; a file that does not exist:
nothing changes and failure is reported; no file name: the process aborts. -/
theorem C101_no_file (m : Maps) (path : String) (d : Disk) :
    (path ≠ "" → d.writable path = false →
      esdfSave (tsdfType mT iT) (esdfType mE iE) m path d = .ok (false, d)) ∧
    (path ≠ "" → d.files path = none →
      esdfLoad (tsdfType mT iT) (esdfType mE iE) m path d = .ok (false, m)) ∧
    esdfSave (tsdfType mT iT) (esdfType mE iE) m "" d = .fatal ∧
    esdfLoad (tsdfType mT iT) (esdfType mE iE) m "" d = .fatal := by
  refine ⟨fun hp hw => ?_, fun hp hf => ?_, rfl, rfl⟩
  · simp [esdfSave, tsdfSave, saveLayerTo, hp, hw, Outcome.check]
  · simp [esdfLoad, tsdfLoad, loadBlocksAt, hp, hf, Outcome.check]

example : ∃ d : Disk, d.writable "map" = false ∧ d.files "map" = none := ⟨⟨fun _ => none, fun _ => false⟩, rfl, rfl⟩

/-! ## Round trips -/

/-- A TSDF server that saves its map, to a file with any previous content, touches no other file; a TSDF
server of the same configuration, whatever it contains, that loads the file then has every saved block in
place of its own and keeps its other blocks. -/
theorem C101_tsdf_server {l cur : FLayer (TsdfVoxel Word)}
    (hl : Storable (tsdfType mT iT) (fun _ => True) l) (hc : SameConfig l cur) (path : String)
    (hp : path ≠ "") (d : Disk) (hw : d.writable path = true) :
    ∃ d' l', tsdfSave (tsdfType mT iT) l path d = .ok (true, d') ∧
      (∀ p, p ≠ path → d'.files p = d.files p) ∧
      tsdfLoad (tsdfType mT iT) cur path d' = .ok (true, l') ∧ ReplacedBy l cur l' := by
  obtain ⟨l', h1, h2⟩ := tsdfLoad_run hl hc hp d []
  rw [List.append_nil] at h1
  exact ⟨_, l', tsdfSave_run hl hp hw, fun p hpp => by simp [Disk.put, hpp], h1, h2⟩

/-- The same for an ESDF server with both maps.

Partial: the full claim has no condition on the size of the stored ESDF map; it needs four bytes per ESDF
voxel to come to at least 8191 bytes (one block of the default side 16 is enough, see the next theorem), and
fails without it (`C101_small_file_violated`). -/
theorem C101_esdf_server_partial {m cur : Maps}
    (hT : Storable (tsdfType mT iT) (fun _ => True) m.tsdf) (hE : Storable (esdfType mE iE) Kept m.esdf)
    (hcT : SameConfig m.tsdf cur.tsdf) (hcE : SameConfig m.esdf cur.esdf) (path : String)
    (hp : path ≠ "") (d : Disk) (hw : d.writable path = true)
    (hsize : 8191 ≤ 4 * (m.esdf.blocks.length * (m.esdf.vps * m.esdf.vps * m.esdf.vps))) :
    ∃ d' m', esdfSave (tsdfType mT iT) (esdfType mE iE) m path d = .ok (true, d') ∧
      (∀ p, p ≠ path → d'.files p = d.files p) ∧
      esdfLoad (tsdfType mT iT) (esdfType mE iE) cur path d' = .ok (true, m') ∧
      ReplacedBy m.tsdf cur.tsdf m'.tsdf ∧ ReplacedBy m.esdf cur.esdf m'.esdf := by
  obtain ⟨t, ht, hrT⟩ := tsdfLoad_run hT hcT hp d (esdfBytes mE iE m.esdf)
  have hlen : chunk - 1 ≤ (esdfBytes mE iE m.esdf).length := by
    have h := section_length_ge (esdfType_ok mE iE) hE
    have hn : m.esdf.blocks.length * (2 * (numVoxels m.esdf.vps * (esdfType mE iE).codec.words)) =
        4 * (m.esdf.blocks.length * (m.esdf.vps * m.esdf.vps * m.esdf.vps)) := by
      show m.esdf.blocks.length * (2 * (m.esdf.vps * m.esdf.vps * m.esdf.vps * 2)) = _
      ring
    rw [hn] at h
    exact le_trans hsize h
  have hpos := section_ne_nil (tsdfType mT iT) m.tsdf m.tsdf.blocks
  obtain ⟨k, hk⟩ : ∃ k, (tsdfBytes mT iT m.tsdf ++ esdfBytes mE iE m.esdf).length + 1 = (k + 1) + 1 :=
    ⟨(tsdfBytes mT iT m.tsdf ++ esdfBytes mE iE m.esdf).length - 1, by
      rw [List.length_append]; unfold tsdfBytes; omega⟩
  have hskip := skip_section (tsdfType_ok mT iT) hT m.tsdf.blocks hT.blocks hT.count (esdfType mE iE)
    (some cur.esdf) .replace (judgeInto (esdfType mE iE) cur.esdf)
    (judgeInto_other hT _ _ (Or.inl (types_differ mT iT mE iE))) (k + 1) (esdfBytes mE iE m.esdf) hlen
  obtain ⟨bs, h1, h2, h3⟩ := load_replace (esdfType_ok mE iE) hE true (some cur.esdf) cur.esdf hcE.1 hcE.2.1
    hcE.2.2 k []
  rw [List.append_nil] at h1
  refine ⟨_, ⟨t, { cur.esdf with blocks := bs }⟩, esdfSave_run hT hE hp hw,
    fun p hpp => by simp [Disk.put, hpp], ?_, hrT, replacedBy_of h2 h3⟩
  unfold esdfLoad
  rw [ht, Outcome.bind_ok]
  simp only [if_true]
  rw [loadAt_run _ _ _ _ hp]
  unfold loadBlocksFromFile
  rw [hk]
  have e : tsdfBytes mT iT m.tsdf ++ esdfBytes mE iE m.esdf =
    section_ (tsdfType mT iT) m.tsdf m.tsdf.blocks ++ esdfBytes mE iE m.esdf := rfl
  rw [e, hskip]
  rw [show esdfBytes mE iE m.esdf = section_ (esdfType mE iE) m.esdf m.esdf.blocks from rfl, h1]
  rfl

/-- With blocks of at least 16 voxels per side (the default), one ESDF block is enough. -/
theorem C101_default_side_partial {m cur : Maps}
    (hT : Storable (tsdfType mT iT) (fun _ => True) m.tsdf) (hE : Storable (esdfType mE iE) Kept m.esdf)
    (hcT : SameConfig m.tsdf cur.tsdf) (hcE : SameConfig m.esdf cur.esdf) (path : String)
    (hp : path ≠ "") (d : Disk) (hw : d.writable path = true)
    (hside : 16 ≤ m.esdf.vps) (hne : m.esdf.blocks ≠ []) :
    ∃ d' m', esdfSave (tsdfType mT iT) (esdfType mE iE) m path d = .ok (true, d') ∧
      (∀ p, p ≠ path → d'.files p = d.files p) ∧
      esdfLoad (tsdfType mT iT) (esdfType mE iE) cur path d' = .ok (true, m') ∧
      ReplacedBy m.tsdf cur.tsdf m'.tsdf ∧ ReplacedBy m.esdf cur.esdf m'.esdf := by
  refine C101_esdf_server_partial hT hE hcT hcE path hp d hw ?_
  have h1 : 16 * 16 * 16 ≤ m.esdf.vps * m.esdf.vps * m.esdf.vps :=
    Nat.mul_le_mul (Nat.mul_le_mul hside hside) hside
  have h2 : 1 * (16 * 16 * 16) ≤ m.esdf.blocks.length * (m.esdf.vps * m.esdf.vps * m.esdf.vps) :=
    Nat.mul_le_mul (List.length_pos_iff.2 hne) h1
  omega

/-! ## Servers of different kinds -/

/-- A TSDF server can load what an ESDF server of the same configuration saved, whatever its size. -/
theorem C101_tsdf_reads_esdf_file {m : Maps} {cur : FLayer (TsdfVoxel Word)}
    (hT : Storable (tsdfType mT iT) (fun _ => True) m.tsdf) (hE : Storable (esdfType mE iE) Kept m.esdf)
    (hcT : SameConfig m.tsdf cur) (path : String) (hp : path ≠ "") (d : Disk) (hw : d.writable path = true) :
    ∃ d' l', esdfSave (tsdfType mT iT) (esdfType mE iE) m path d = .ok (true, d') ∧
      tsdfLoad (tsdfType mT iT) cur path d' = .ok (true, l') ∧ ReplacedBy m.tsdf cur l' := by
  obtain ⟨t, ht, hrT⟩ := tsdfLoad_run hT hcT hp d (esdfBytes mE iE m.esdf)
  exact ⟨_, t, esdfSave_run hT hE hp hw, ht, hrT⟩

/-- An ESDF server that loads what a TSDF server saved reports failure, but its TSDF map has been replaced;
its ESDF map is untouched. -/
theorem C101_esdf_reads_tsdf_file {l : FLayer (TsdfVoxel Word)} {cur : Maps}
    (hl : Storable (tsdfType mT iT) (fun _ => True) l) (hc : SameConfig l cur.tsdf) (path : String)
    (hp : path ≠ "") (d : Disk) (hw : d.writable path = true) :
    ∃ d' m', tsdfSave (tsdfType mT iT) l path d = .ok (true, d') ∧
      esdfLoad (tsdfType mT iT) (esdfType mE iE) cur path d' = .ok (false, m') ∧
      ReplacedBy l cur.tsdf m'.tsdf ∧ m'.esdf = cur.esdf := by
  obtain ⟨t, ht, hrT⟩ := tsdfLoad_run hl hc hp d []
  rw [List.append_nil] at ht
  refine ⟨_, ⟨t, cur.esdf⟩, tsdfSave_run hl hp hw, ?_, hrT, rfl⟩
  unfold esdfLoad
  rw [ht, Outcome.bind_ok]
  simp only [if_true]
  rw [loadAt_run _ _ _ _ hp]
  unfold loadBlocksFromFile
  have h := (skip_any (tsdfType_ok mT iT) hl (esdfType mE iE) (some cur.esdf) .replace
    (judgeInto (esdfType mE iE) cur.esdf)
    (judgeInto_other hl _ _ (Or.inl (types_differ mT iT mE iE))) (tsdfBytes mT iT l).length []).1
  rw [List.append_nil, loadLoop_nil, or_self] at h
  rw [show section_ (tsdfType mT iT) l l.blocks = tsdfBytes mT iT l from rfl] at h
  rw [h]
  rfl

/-! ## What goes wrong -/

/-- The claim fails for all small maps: when the file written by an ESDF server has less than 8192 bytes, an
ESDF server of the same configuration that loads it reports failure; its TSDF map has then already been
replaced, while its ESDF map is untouched. -/
theorem C101_small_file_violated {m cur : Maps}
    (hT : Storable (tsdfType mT iT) (fun _ => True) m.tsdf) (hE : Storable (esdfType mE iE) Kept m.esdf)
    (hcT : SameConfig m.tsdf cur.tsdf) (path : String)
    (hp : path ≠ "") (d d' : Disk) (hw : d.writable path = true) (file : List Byte)
    (hsave : esdfSave (tsdfType mT iT) (esdfType mE iE) m path d = .ok (true, d'))
    (hfile : d'.files path = some file) (hsmall : file.length < 8192) :
    ∃ m', esdfLoad (tsdfType mT iT) (esdfType mE iE) cur path d' = .ok (false, m') ∧
      ReplacedBy m.tsdf cur.tsdf m'.tsdf ∧ m'.esdf = cur.esdf := by
  rw [esdfSave_run hT hE hp hw] at hsave
  have hd : d.put path (tsdfBytes mT iT m.tsdf ++ esdfBytes mE iE m.esdf) = d' := by
    have h := Outcome.ok.inj hsave
    exact (Prod.mk.inj h).2
  subst hd
  have hfile' : tsdfBytes mT iT m.tsdf ++ esdfBytes mE iE m.esdf = file := by
    have : (d.put path (tsdfBytes mT iT m.tsdf ++ esdfBytes mE iE m.esdf)).files path =
      some (tsdfBytes mT iT m.tsdf ++ esdfBytes mE iE m.esdf) := by simp [Disk.put]
    rw [this] at hfile
    exact Option.some.inj hfile
  obtain ⟨t, ht, hrT⟩ := tsdfLoad_run hT hcT hp d (esdfBytes mE iE m.esdf)
  refine ⟨⟨t, cur.esdf⟩, ?_, hrT, rfl⟩
  unfold esdfLoad
  rw [ht, Outcome.bind_ok]
  simp only [if_true]
  rw [loadAt_run _ _ _ _ hp]
  unfold loadBlocksFromFile
  have h := (skip_any (tsdfType_ok mT iT) hT (esdfType mE iE) (some cur.esdf) .replace
    (judgeInto (esdfType mE iE) cur.esdf)
    (judgeInto_other hT _ _ (Or.inl (types_differ mT iT mE iE)))
    (tsdfBytes mT iT m.tsdf ++ esdfBytes mE iE m.esdf).length (esdfBytes mE iE m.esdf)).2 (by
      rw [show section_ (tsdfType mT iT) m.tsdf m.tsdf.blocks ++ esdfBytes mE iE m.esdf = file from hfile']
      exact hsmall)
  rw [show section_ (tsdfType mT iT) m.tsdf m.tsdf.blocks = tsdfBytes mT iT m.tsdf from rfl] at h
  rw [h]
  rfl

/-- The claim also fails for large maps: it depends on the number of bytes of the last TSDF block in the file.
If the ESDF map, with all its bytes, fits into what is left of the 8192-byte chunk (counted from the start of
that block) in which the block ends, loading reports failure with the TSDF map replaced and the ESDF map
untouched. -/
theorem C101_last_block_violated {m cur : Maps}
    (hT : Storable (tsdfType mT iT) (fun _ => True) m.tsdf) (hE : Storable (esdfType mE iE) Kept m.esdf)
    (hcT : SameConfig m.tsdf cur.tsdf) (path : String)
    (hp : path ≠ "") (d : Disk) (hw : d.writable path = true)
    (bs : List (Idx × Block Word (TsdfVoxel Word))) (e : Idx × Block Word (TsdfVoxel Word))
    (hlast : m.tsdf.blocks = bs ++ [e]) (proto : BlockProto) (esdf : List Byte)
    (hproto : blockProto (tsdfType mT iT) e.2 = .ok proto) (hesdf : saveLayer (esdfType mE iE) m.esdf = .ok esdf)
    (hfits : (writeMsg proto.fields).length + esdf.length <
      8192 * (((writeMsg proto.fields).length + 8191) / 8192)) :
    ∃ d' m', esdfSave (tsdfType mT iT) (esdfType mE iE) m path d = .ok (true, d') ∧
      esdfLoad (tsdfType mT iT) (esdfType mE iE) cur path d' = .ok (false, m') ∧
      ReplacedBy m.tsdf cur.tsdf m'.tsdf ∧ m'.esdf = cur.esdf := by
  rw [blockProto_ok (tsdfType_ok mT iT)] at hproto
  have hproto' := Outcome.ok.inj hproto
  subst hproto'
  rw [save_section (esdfType_ok mE iE) hE] at hesdf
  have hesdf' := Outcome.ok.inj hesdf
  subst hesdf'
  obtain ⟨t, ht, hrT⟩ := tsdfLoad_run hT hcT hp d (esdfBytes mE iE m.esdf)
  refine ⟨_, ⟨t, cur.esdf⟩, esdfSave_run hT hE hp hw, ?_, hrT, rfl⟩
  unfold esdfLoad
  rw [ht, Outcome.bind_ok]
  simp only [if_true]
  rw [loadAt_run _ _ _ _ hp]
  unfold loadBlocksFromFile
  have h := skip_last (tsdfType_ok mT iT) hT (esdfType mE iE) (some cur.esdf) .replace
    (judgeInto (esdfType mE iE) cur.esdf)
    (judgeInto_other hT _ _ (Or.inl (types_differ mT iT mE iE)))
    (tsdfBytes mT iT m.tsdf ++ esdfBytes mE iE m.esdf).length (esdfBytes mE iE m.esdf) bs e hlast hfits
  rw [show section_ (tsdfType mT iT) m.tsdf m.tsdf.blocks = tsdfBytes mT iT m.tsdf from rfl] at h
  rw [h]
  rfl

/-- A file whose TSDF map has another side or another voxel size changes nothing, and failure is reported. -/
theorem C101_other_configuration {m cur : Maps}
    (hT : Storable (tsdfType mT iT) (fun _ => True) m.tsdf) (hE : Storable (esdfType mE iE) Kept m.esdf)
    (hother : m.tsdf.vps ≠ cur.tsdf.vps ∨
      closeVoxelSize (widen m.tsdf.voxelSize) cur.tsdf.voxelSize = false) (path : String)
    (hp : path ≠ "") (d : Disk) (hw : d.writable path = true) :
    ∃ d', esdfSave (tsdfType mT iT) (esdfType mE iE) m path d = .ok (true, d') ∧
      esdfLoad (tsdfType mT iT) (esdfType mE iE) cur path d' = .ok (false, cur) := by
  refine ⟨_, esdfSave_run hT hE hp hw, ?_⟩
  have hload : tsdfLoad (tsdfType mT iT) cur.tsdf path
      (d.put path (tsdfBytes mT iT m.tsdf ++ esdfBytes mE iE m.esdf)) = .ok (false, cur.tsdf) := by
    unfold tsdfLoad
    rw [loadAt_run _ _ _ _ hp]
    unfold loadBlocksFromFile
    obtain ⟨k, hk⟩ : ∃ k, (tsdfBytes mT iT m.tsdf ++ esdfBytes mE iE m.esdf).length = k + 1 := by
      have hpos := section_ne_nil (tsdfType mT iT) m.tsdf m.tsdf.blocks
      exact ⟨(tsdfBytes mT iT m.tsdf ++ esdfBytes mE iE m.esdf).length - 1, by
        rw [List.length_append]; unfold tsdfBytes; omega⟩
    have h1 := (skip_any (tsdfType_ok mT iT) hT (tsdfType mT iT) (some cur.tsdf) .replace
      (judgeInto (tsdfType mT iT) cur.tsdf) (judgeInto_other hT _ _ (Or.inr hother))
      (k + 1) (esdfBytes mE iE m.esdf)).1
    have h2 := (skip_any (esdfType_ok mE iE) hE (tsdfType mT iT) (some cur.tsdf) .replace
      (judgeInto (tsdfType mT iT) cur.tsdf)
      (judgeInto_other hE _ _ (Or.inl (types_differ mT iT mE iE).symm)) k []).1
    rw [List.append_nil, loadLoop_nil, or_self] at h2
    rw [show esdfBytes mE iE m.esdf = section_ (esdfType mE iE) m.esdf m.esdf.blocks from rfl, h2, or_self] at h1
    rw [hk, show tsdfBytes mT iT m.tsdf ++ esdfBytes mE iE m.esdf =
      section_ (tsdfType mT iT) m.tsdf m.tsdf.blocks ++ section_ (esdfType mE iE) m.esdf m.esdf.blocks from rfl,
      h1]
    rfl
  unfold esdfLoad
  rw [hload]
  rfl

/-- A file that lost its end is never loaded successfully by an ESDF server, wherever it was cut. -/
theorem C101_truncated {m cur : Maps}
    (hT : Storable (tsdfType mT iT) (fun _ => True) m.tsdf) (hE : Storable (esdfType mE iE) Kept m.esdf)
    (path : String) (hp : path ≠ "") (d d' : Disk) (hw : d.writable path = true) (p q : List Byte)
    (hsave : esdfSave (tsdfType mT iT) (esdfType mE iE) m path d = .ok (true, d'))
    (hfile : d'.files path = some (p ++ q)) (hq : q ≠ []) (m' : Maps) :
    esdfLoad (tsdfType mT iT) (esdfType mE iE) cur path (d'.put path p) ≠ .ok (true, m') := by
  rw [esdfSave_run hT hE hp hw] at hsave
  have hd : d.put path (tsdfBytes mT iT m.tsdf ++ esdfBytes mE iE m.esdf) = d' := by
    have h := Outcome.ok.inj hsave
    exact (Prod.mk.inj h).2
  subst hd
  have hfile' : tsdfBytes mT iT m.tsdf ++ esdfBytes mE iE m.esdf = p ++ q := by
    have : (d.put path (tsdfBytes mT iT m.tsdf ++ esdfBytes mE iE m.esdf)).files path =
      some (tsdfBytes mT iT m.tsdf ++ esdfBytes mE iE m.esdf) := by simp [Disk.put]
    rw [this] at hfile
    exact Option.some.inj hfile
  intro h
  unfold esdfLoad at h
  obtain ⟨⟨ok, t⟩, ht, h⟩ := Outcome.bind_eq_ok.1 h
  cases ok with
  | false => simp at h
  | true =>
    simp only [if_true] at h
    obtain ⟨⟨ok, e⟩, hle, h⟩ := Outcome.bind_eq_ok.1 h
    simp only [Outcome.pure_eq, Outcome.ok.injEq, Prod.mk.injEq] at h
    obtain ⟨rfl, -⟩ := h
    unfold tsdfLoad at ht
    rw [loadAt_run _ _ _ _ hp] at ht hle
    obtain ⟨⟨okT, rT⟩, hT', ht⟩ := Outcome.bind_eq_ok.1 ht
    obtain ⟨⟨okE, rE⟩, hE', hle⟩ := Outcome.bind_eq_ok.1 hle
    simp only [Outcome.ok.injEq, Prod.mk.injEq] at ht hle
    obtain ⟨rfl, -⟩ := ht
    obtain ⟨rfl, -⟩ := hle
    have hcut : ∀ c, c ≠ [] → tsdfBytes mT iT m.tsdf = p ++ c → False := fun c hc hpc =>
      Props.C20_truncated_load_into (tsdfType_ok mT iT) hT [] true true _ p c
        (save_section (tsdfType_ok mT iT) hT) hpc.symm hc .replace cur.tsdf rT hT'
    rcases List.append_eq_append_iff.1 hfile' with ⟨c, e1, e2⟩ | ⟨c, e1, e2⟩
    · -- the cut is in the ESDF map
      unfold loadBlocksFromFile at hE'
      rw [e1] at hE'
      have hs := (skip_any (tsdfType_ok mT iT) hT (esdfType mE iE) (some cur.esdf) .replace
        (judgeInto (esdfType mE iE) cur.esdf)
        (judgeInto_other hT _ _ (Or.inl (types_differ mT iT mE iE)))
        (tsdfBytes mT iT m.tsdf ++ c).length c).1
      rw [show section_ (tsdfType mT iT) m.tsdf m.tsdf.blocks = tsdfBytes mT iT m.tsdf from rfl] at hs
      rcases hs with hs | hs
      · rw [hs] at hE'; simp at hE'
      · rw [hs] at hE'
        exact load_prefix (esdfType_ok mE iE) hE m.esdf.blocks hE.blocks hE.count true (some cur.esdf) .replace
          (judgeInto (esdfType mE iE) cur.esdf) (judgeInto_load cur.esdf) _ c q e2.symm hq rE hE'
    · by_cases hc : c = []
      · -- the cut is exactly between the maps
        subst hc
        rw [List.append_nil] at e1
        unfold loadBlocksFromFile at hE'
        rw [← e1] at hE'
        have hs := (skip_any (tsdfType_ok mT iT) hT (esdfType mE iE) (some cur.esdf) .replace
          (judgeInto (esdfType mE iE) cur.esdf)
          (judgeInto_other hT _ _ (Or.inl (types_differ mT iT mE iE)))
          (tsdfBytes mT iT m.tsdf).length []).1
        rw [List.append_nil, loadLoop_nil, or_self] at hs
        rw [show section_ (tsdfType mT iT) m.tsdf m.tsdf.blocks = tsdfBytes mT iT m.tsdf from rfl] at hs
        rw [hs] at hE'
        simp at hE'
      · exact hcut c hc e1

end

/-! ## The hypotheses on concrete servers -/

/-- A disk on which everything can be written. -/
def demoDisk : Disk := ⟨fun _ => none, fun _ => true⟩

/-- A TSDF map with one block of side 16 (voxel size 1). -/
def demoTsdf : FLayer (TsdfVoxel Word) :=
  { voxelSize := 0x3f800000#32, vps := 16, blocks := [(⟨0, 0, 0⟩,
      { vps := 16, voxelSize := 0x3f800000#32, origin := ⟨0#32, 0#32, 0#32⟩, hasData := true,
        updated := Flags.ofBool false,
        voxels := List.replicate 4096 ⟨0x3f000000#32, 0x40000000#32, ⟨1, 2, 3, 4⟩⟩ })] }

/-- An ESDF map with one block of side 16. -/
def demoEsdf : FLayer (EsdfVoxel Word) :=
  { voxelSize := 0x3f800000#32, vps := 16, blocks := [(⟨0, 0, 0⟩,
      { vps := 16, voxelSize := 0x3f800000#32, origin := ⟨0#32, 0#32, 0#32⟩, hasData := true,
        updated := Flags.ofBool false,
        voxels := List.replicate 4096 ⟨0x3f000000#32, true, false, false, true, ⟨1, 1, 0⟩⟩ })] }

theorem demoTsdf_storable :
    Storable (tsdfType (fun a _ => a) Props.exactIdxOf) (fun _ => True) demoTsdf where
  size := ⟨1, Props.sampleLayer_size, by norm_num⟩
  vps := by decide
  side := by decide
  words := by decide
  keys := by decide
  count := by decide
  blocks := by
    intro e he
    simp only [demoTsdf, List.mem_cons, List.not_mem_nil, or_false] at he
    subst he
    exact ⟨rfl, rfl, List.length_replicate, fun _ _ => trivial, by decide, by decide, by decide,
      by decide +kernel⟩

theorem demoEsdf_storable : Storable (esdfType (fun a _ => a) Props.exactIdxOf) Kept demoEsdf where
  size := ⟨1, Props.sampleLayer_size, by norm_num⟩
  vps := by decide
  side := by decide
  words := by decide
  keys := by decide
  count := by decide
  blocks := by
    intro e he
    simp only [demoEsdf, List.mem_cons, List.not_mem_nil, or_false] at he
    subst he
    refine ⟨rfl, rfl, List.length_replicate, fun v hv => ?_, by decide, by decide, by decide,
      by decide +kernel⟩
    rw [List.eq_of_mem_replicate hv]
    decide

/-- The hypotheses of the round trips: a server with both maps, loaded into an empty one. -/
example : Storable (tsdfType (fun a _ => a) Props.exactIdxOf) (fun _ => True) demoTsdf ∧
    Storable (esdfType (fun a _ => a) Props.exactIdxOf) Kept demoEsdf ∧
    SameConfig demoTsdf { demoTsdf with blocks := [] } ∧ SameConfig demoEsdf { demoEsdf with blocks := [] } ∧
    demoDisk.writable "map" = true ∧ 16 ≤ demoEsdf.vps ∧ demoEsdf.blocks ≠ [] ∧
    8191 ≤ 4 * (demoEsdf.blocks.length * (demoEsdf.vps * demoEsdf.vps * demoEsdf.vps)) :=
  ⟨demoTsdf_storable, demoEsdf_storable, ⟨rfl, rfl, List.nodup_nil⟩, ⟨rfl, rfl, List.nodup_nil⟩, rfl,
    by decide, List.cons_ne_nil _ _, by decide⟩

/-- Another configuration: a server of side 8. -/
example : demoTsdf.vps ≠ 8 := by decide

/-- The last block of `demoTsdf` takes 69675 bytes. -/
theorem demoTsdf_last : ∃ proto, blockProto (tsdfType (fun a _ => a) Props.exactIdxOf)
      { vps := 16, voxelSize := 0x3f800000#32, origin := ⟨0#32, 0#32, 0#32⟩, hasData := true,
        updated := Flags.ofBool false,
        voxels := List.replicate 4096 (⟨0x3f000000#32, 0x40000000#32, ⟨1, 2, 3, 4⟩⟩ : TsdfVoxel Word) } =
      .ok proto ∧ (writeMsg proto.fields).length = 69675 := by
  refine ⟨_, blockProto_ok (tsdfType_ok _ _) _, ?_⟩
  have h := replicate_length tsdfCodec ⟨0x3f000000#32, 0x40000000#32, ⟨1, 2, 3, 4⟩⟩ 4096
  have h17 : (encFields ((tsdfCodec.enc (⟨0x3f000000#32, 0x40000000#32, ⟨1, 2, 3, 4⟩⟩ : TsdfVoxel Word)).map
    fun w => ((7, .varint w.toNat) : Field))).length = 17 := by decide +kernel
  rw [h17] at h
  have hf : ∀ (p : BlockProto) n, (encFields (p.voxelData.map fun w => ((7, .varint w.toNat) : Field))).length = n →
      (encFields p.fields).length = (encFields ({ p with voxelData := [] } : BlockProto).fields).length + n := by
    intro p n hn
    unfold BlockProto.fields
    unfold encFields at hn ⊢
    rw [List.flatMap_append, List.length_append, hn, List.flatMap_append, List.length_append]
    simp
  have hl := hf (protoOf (tsdfType (fun a _ => a) Props.exactIdxOf)
      { vps := 16, voxelSize := 0x3f800000#32, origin := ⟨0#32, 0#32, 0#32⟩, hasData := true,
        updated := Flags.ofBool false,
        voxels := List.replicate 4096 (⟨0x3f000000#32, 0x40000000#32, ⟨1, 2, 3, 4⟩⟩ : TsdfVoxel Word) }) _ h
  have h0 : (encFields ({ (protoOf (tsdfType (fun a _ => a) Props.exactIdxOf)
      { vps := 16, voxelSize := 0x3f800000#32, origin := ⟨0#32, 0#32, 0#32⟩, hasData := true,
        updated := Flags.ofBool false,
        voxels := List.replicate 4096 (⟨0x3f000000#32, 0x40000000#32, ⟨1, 2, 3, 4⟩⟩ : TsdfVoxel Word) }) with
        voxelData := [] } : BlockProto).fields).length = 40 := by
    show (encFields (⟨wrap32 16, widen 0x3f800000#32, widen 0#32, widen 0#32, widen 0#32, true, []⟩ : BlockProto).fields).length = 40
    decide +kernel
  rw [h0] at hl
  unfold writeMsg
  rw [List.length_append, hl]
  decide +kernel

/-- A server of the default side whose TSDF map has a block and whose ESDF map has not been computed yet
meets the hypotheses of the violation. -/
example : ∃ proto esdf, demoTsdf.blocks = [] ++ [(⟨0, 0, 0⟩,
      { vps := 16, voxelSize := 0x3f800000#32, origin := ⟨0#32, 0#32, 0#32⟩, hasData := true,
        updated := Flags.ofBool false,
        voxels := List.replicate 4096 ⟨0x3f000000#32, 0x40000000#32, ⟨1, 2, 3, 4⟩⟩ })] ∧
    blockProto (tsdfType (fun a _ => a) Props.exactIdxOf)
      { vps := 16, voxelSize := 0x3f800000#32, origin := ⟨0#32, 0#32, 0#32⟩, hasData := true,
        updated := Flags.ofBool false,
        voxels := List.replicate 4096 (⟨0x3f000000#32, 0x40000000#32, ⟨1, 2, 3, 4⟩⟩ : TsdfVoxel Word) } = .ok proto ∧
    saveLayer (esdfType (fun a _ => a) Props.exactIdxOf) { demoEsdf with blocks := [] } = .ok esdf ∧
    (writeMsg proto.fields).length + esdf.length < 8192 * (((writeMsg proto.fields).length + 8191) / 8192) := by
  obtain ⟨proto, h1, h2⟩ := demoTsdf_last
  have hE : Storable (esdfType (fun a _ => a) Props.exactIdxOf) Kept { demoEsdf with blocks := [] } :=
    ⟨⟨1, Props.sampleLayer_size, by norm_num⟩, by decide, by decide, by decide, by decide, by decide, by simp⟩
  refine ⟨proto, _, rfl, h1, save_section (esdfType_ok _ _) hE, ?_⟩
  rw [h2]
  decide +kernel

/-- A server with two TSDF blocks and no ESDF block yet; its configuration has one voxel per block. -/
def smallMaps : Maps := ⟨Props.sampleLayer, { voxelSize := 0x3f800000#32, vps := 1, blocks := [] }⟩

theorem smallTsdf_storable :
    Storable (tsdfType (fun a _ => a) Props.exactIdxOf) (fun _ => True) smallMaps.tsdf :=
  Props.sampleLayer_storable

theorem smallEsdf_storable : Storable (esdfType (fun a _ => a) Props.exactIdxOf) Kept smallMaps.esdf where
  size := ⟨1, Props.sampleLayer_size, by norm_num⟩
  vps := by decide
  side := by decide
  words := by decide
  keys := by decide
  count := by decide
  blocks := by simp [smallMaps]

/-- The hypotheses of the violation (and of the truncation) are met: two TSDF blocks, saved to a new file of
fewer than 8192 bytes. -/
example : ∃ d' file, Storable (tsdfType (fun a _ => a) Props.exactIdxOf) (fun _ => True) smallMaps.tsdf ∧
    Storable (esdfType (fun a _ => a) Props.exactIdxOf) Kept smallMaps.esdf ∧
    esdfSave (tsdfType (fun a _ => a) Props.exactIdxOf) (esdfType (fun a _ => a) Props.exactIdxOf) smallMaps
      "map" demoDisk = .ok (true, d') ∧ d'.files "map" = some file ∧ file.length < 8192 ∧ file ≠ [] := by
  refine ⟨_, tsdfBytes (fun a _ => a) Props.exactIdxOf smallMaps.tsdf ++
      esdfBytes (fun a _ => a) Props.exactIdxOf smallMaps.esdf, smallTsdf_storable, smallEsdf_storable,
    esdfSave_run smallTsdf_storable smallEsdf_storable (by decide) rfl, ?_, ?_, ?_⟩
  · simp [Disk.put]
  · decide +kernel
  · decide +kernel

/-- A failed load is not undone: from a file that lost the end of its second TSDF block, an empty server reports failure but keeps the first block. -/
theorem C101_partly_loaded_violated : ∃ d' p q m',
    esdfSave (tsdfType (fun a _ => a) Props.exactIdxOf) (esdfType (fun a _ => a) Props.exactIdxOf) smallMaps "map" demoDisk = .ok (true, d') ∧
    d'.files "map" = some (p ++ q) ∧ q ≠ [] ∧
    esdfLoad (tsdfType (fun a _ => a) Props.exactIdxOf) (esdfType (fun a _ => a) Props.exactIdxOf)
      ⟨{ smallMaps.tsdf with blocks := [] }, smallMaps.esdf⟩ "map" (d'.put "map" p) = .ok (false, m') ∧ m'.tsdf.blocks.length = 1 := by
  have h : (match esdfLoad (tsdfType (fun a _ => a) Props.exactIdxOf) (esdfType (fun a _ => a) Props.exactIdxOf)
      ⟨{ smallMaps.tsdf with blocks := [] }, smallMaps.esdf⟩ "map" (demoDisk.put "map"
        ((tsdfBytes (fun a _ => a) Props.exactIdxOf smallMaps.tsdf).take
          ((tsdfBytes (fun a _ => a) Props.exactIdxOf smallMaps.tsdf).length - 1))) with
      | .ok (ok, m) => !ok && m.tsdf.blocks.length == 1
      | _ => false) = true := by decide +kernel
  split at h
  · rename_i ok m' e
    simp only [Bool.and_eq_true, Bool.not_eq_true', beq_iff_eq] at h
    obtain ⟨rfl, h⟩ := h
    refine ⟨_, (tsdfBytes (fun a _ => a) Props.exactIdxOf smallMaps.tsdf).take
        ((tsdfBytes (fun a _ => a) Props.exactIdxOf smallMaps.tsdf).length - 1),
      (tsdfBytes (fun a _ => a) Props.exactIdxOf smallMaps.tsdf).drop
        ((tsdfBytes (fun a _ => a) Props.exactIdxOf smallMaps.tsdf).length - 1) ++
        esdfBytes (fun a _ => a) Props.exactIdxOf smallMaps.esdf, m',
      esdfSave_run smallTsdf_storable smallEsdf_storable (by decide) rfl, ?_, ?_, ?_, h⟩
    · rw [← List.append_assoc, List.take_append_drop]
      simp [Disk.put]
    · decide +kernel
    · rw [put_put]
      exact e
  · cases h

/-- A server that has just been started and saves its empty maps gets a file that no ESDF server can load. -/
theorem C101_new_server_violated :
    ∃ d', esdfSave (tsdfType (fun a _ => a) Props.exactIdxOf) (esdfType (fun a _ => a) Props.exactIdxOf)
        ⟨{ demoTsdf with blocks := [] }, { demoEsdf with blocks := [] }⟩ "map" demoDisk = .ok (true, d') ∧
      ∀ cur : Maps, ∀ m', esdfLoad (tsdfType (fun a _ => a) Props.exactIdxOf)
        (esdfType (fun a _ => a) Props.exactIdxOf) cur "map" d' ≠ .ok (true, m') := by
  have hT : Storable (tsdfType (fun a _ => a) Props.exactIdxOf) (fun _ => True)
      { demoTsdf with blocks := [] } :=
    ⟨⟨1, Props.sampleLayer_size, by norm_num⟩, by decide, by decide, by decide, by decide, by decide, by simp⟩
  have hE : Storable (esdfType (fun a _ => a) Props.exactIdxOf) Kept { demoEsdf with blocks := [] } :=
    ⟨⟨1, Props.sampleLayer_size, by norm_num⟩, by decide, by decide, by decide, by decide, by decide, by simp⟩
  refine ⟨_, esdfSave_run (m := ⟨_, _⟩) hT hE (by decide) rfl, fun cur m' h => ?_⟩
  unfold esdfLoad at h
  obtain ⟨⟨ok, t⟩, -, h⟩ := Outcome.bind_eq_ok.1 h
  cases ok with
  | false => simp at h
  | true =>
    simp only [if_true] at h
    obtain ⟨⟨ok, e⟩, hle, h⟩ := Outcome.bind_eq_ok.1 h
    simp only [Outcome.pure_eq, Outcome.ok.injEq, Prod.mk.injEq] at h
    obtain ⟨rfl, -⟩ := h
    rw [loadAt_run _ _ _ _ (by decide)] at hle
    obtain ⟨⟨okE, rE⟩, hE', hle⟩ := Outcome.bind_eq_ok.1 hle
    simp only [Outcome.ok.injEq, Prod.mk.injEq] at hle
    obtain ⟨rfl, -⟩ := hle
    unfold loadBlocksFromFile at hE'
    have hs := (skip_any (tsdfType_ok (fun a _ => a) Props.exactIdxOf) hT
      (esdfType (fun a _ => a) Props.exactIdxOf) (some cur.esdf) .replace
      (judgeInto (esdfType (fun a _ => a) Props.exactIdxOf) cur.esdf)
      (judgeInto_other hT _ _ (Or.inl (types_differ _ _ _ _)))
      (tsdfBytes (fun a _ => a) Props.exactIdxOf { demoTsdf with blocks := [] } ++
        esdfBytes (fun a _ => a) Props.exactIdxOf { demoEsdf with blocks := [] }).length
      (esdfBytes (fun a _ => a) Props.exactIdxOf { demoEsdf with blocks := [] })).2 (by decide +kernel)
    rw [show section_ (tsdfType (fun a _ => a) Props.exactIdxOf) { demoTsdf with blocks := [] } _ =
      tsdfBytes (fun a _ => a) Props.exactIdxOf { demoTsdf with blocks := [] } from rfl] at hs
    rw [hs] at hE'
    simp at hE'

end Vox.ServerIO
