/-
Properties C08-C11: integer serialization of blocks.
-/
import Verif.Lemmas.Serial

namespace Vox.Props
open Vox Vox.Spec Vox.Serial

/-! ## C08 TSDF blocks -/

/-- Every TSDF block, with arbitrary bit patterns of distance and weight, is restored exactly. -/
theorem C08_tsdf_roundtrip (voxels : List (TsdfVoxel Word)) :
    ∃ ws, serialize tsdfCodec voxels = .ok ws ∧ deserialize tsdfCodec voxels.length ws = .ok voxels :=
  roundtrip_of_lawful tsdf_lawful voxels fun _ _ => trivial

/-- Distance NaN (0x7fc00000), weight 2.0, colour with non-zero alpha. -/
example : serialize tsdfCodec [⟨0x7fc00000#32, 0x40000000#32, ⟨1, 2, 3, 255⟩⟩] =
    .ok [0x7fc00000#32, 0x40000000#32, 0x010203ff#32] := by decide

/-! ## C09 ESDF blocks -/

/-- ESDF blocks are restored if all parent directions survive. The full claim (all directions in the
signed-byte range) is false: `C09_parent_violated`. -/
theorem C09_esdf_roundtrip_partial (voxels : List (EsdfVoxel Word))
    (h : ∀ v ∈ voxels, InI8 v.parent ∧ ParentSurvives v.parent) :
    ∃ ws, serialize esdfCodec voxels = .ok ws ∧ deserialize esdfCodec voxels.length ws = .ok voxels :=
  roundtrip_of_lawful esdf_lawful voxels h

example : InI8 ⟨1, 1, 0⟩ ∧ ParentSurvives ⟨1, 1, 0⟩ ∧ InI8 ⟨-1, -1, 5⟩ ∧ ParentSurvives ⟨-1, -1, 5⟩ := by
  decide

/-- Exactly which parts of an ESDF voxel survive, for every voxel with parent in the signed-byte range:
distance and the four flags always, the parent iff `ParentSurvives`. -/
theorem C09_what_survives (v : EsdfVoxel Word) (h8 : InI8 v.parent) :
    ∃ ws v', serialize esdfCodec [v] = .ok ws ∧ deserialize esdfCodec 1 ws = .ok [v'] ∧
      v'.distance = v.distance ∧ v'.observed = v.observed ∧ v'.hallucinated = v.hallucinated ∧
      v'.inQueue = v.inQueue ∧ v'.fixed = v.fixed ∧ (v'.parent = v.parent ↔ ParentSurvives v.parent) := by
  obtain ⟨_, _, _, hf⟩ := direction_bytes (clampI8 v.parent.x) (clampI8 v.parent.y)
    (clampI8 v.parent.z) (flagByte v)
  obtain ⟨f1, f2, f3, f4⟩ := flags_eq v _ hf
  have hd := deser_ser v.parent (flagByte v) h8
  refine ⟨_, _, serialize_ok esdfCodec (fun v => rfl) [v], rfl, rfl, f1, f2, f3, f4, ?_⟩
  have e : deserializeDirection (serializeDirection v.parent |||
      ((flagByte v).setWidth 32 &&& 0x000000FF#32)) = v.parent ↔ ParentSurvives v.parent := by
    rw [hd, Vec3.ext_iff]
    unfold ParentSurvives
    simp only [and_true]
    constructor
    · rintro ⟨a, b⟩
      refine ⟨fun hz => ?_, fun hyz => ?_⟩
      · rw [if_pos hz] at b; exact b.symm
      · rw [if_pos hyz] at a; exact a.symm
    · rintro ⟨a, b⟩
      refine ⟨?_, ?_⟩
      · split
        · rename_i h; exact (b h).symm
        · rfl
      · split
        · rename_i h; exact (a h).symm
        · rfl
  exact e

example : InI8 ⟨3, -2, 0⟩ := by decide

/-- The claim is false: a voxel whose parent lies in direction (1,-1,0), as the ESDF integrator writes
it, comes back with parent (-1,-1,0). -/
theorem C09_parent_violated :
    ∃ (v v' : EsdfVoxel Word) (ws : List Word), InI8 v.parent ∧ serialize esdfCodec [v] = .ok ws ∧
      deserialize esdfCodec 1 ws = .ok [v'] ∧ v' ≠ v :=
  ⟨⟨0x3f800000#32, true, false, false, false, ⟨1, -1, 0⟩⟩,
   ⟨0x3f800000#32, true, false, false, false, ⟨-1, -1, 0⟩⟩, [0x3f800000#32, 0xffff0001#32],
   by decide, by decide, by decide, by decide⟩

/-! ## C10 occupancy and intensity blocks -/

theorem C10_occupancy_roundtrip (voxels : List (OccVoxel Word)) :
    ∃ ws, serialize occCodec voxels = .ok ws ∧ deserialize occCodec voxels.length ws = .ok voxels :=
  roundtrip_of_lawful occ_lawful voxels fun _ _ => trivial

theorem C10_intensity_roundtrip (voxels : List (IntensityVoxel Word)) :
    ∃ ws, serialize intensityCodec voxels = .ok ws ∧
      deserialize intensityCodec voxels.length ws = .ok voxels :=
  roundtrip_of_lawful intensity_lawful voxels fun _ _ => trivial

example : serialize occCodec [⟨0xbf800000#32, true⟩, ⟨0#32, false⟩] =
    .ok [0xbf800000#32, 1#32, 0#32, 0#32] := by decide

/-! ## C11 payload of the wrong length -/

theorem C11_wrong_length_refused {V : Type} (c : Codec V) (n : ℕ) (data : List Word)
    (h : data.length ≠ n * c.words) : deserialize c n data = .fatal := by
  have : (n * c.words == data.length) = false := by
    simpa using fun e => h e.symm
  simp [deserialize, Outcome.check, this]

example : ([0#32, 1#32, 2#32, 3#32] : List Word).length ≠ 1 * tsdfCodec.words := by decide

/-- A payload of the right length is decoded without abort and without reading outside the payload, for
each of the four voxel types. -/
theorem C11_right_length_accepted (n : ℕ) (data : List Word) :
    (data.length = n * tsdfCodec.words → ∃ r, deserialize tsdfCodec n data = .ok r ∧ r.length = n) ∧
    (data.length = n * esdfCodec.words → ∃ r, deserialize esdfCodec n data = .ok r ∧ r.length = n) ∧
    (data.length = n * occCodec.words → ∃ r, deserialize occCodec n data = .ok r ∧ r.length = n) ∧
    (data.length = n * intensityCodec.words →
      ∃ r, deserialize intensityCodec n data = .ok r ∧ r.length = n) := by
  refine ⟨deserialize_total ?_ n data, deserialize_total ?_ n data, deserialize_total ?_ n data,
    deserialize_total ?_ n data⟩
  · intro get hget
    obtain ⟨w0, h0⟩ := hget 0 (by decide)
    obtain ⟨w1, h1⟩ := hget 1 (by decide)
    obtain ⟨w2, h2⟩ := hget 2 (by decide)
    exact ⟨_, by simp only [tsdfCodec, h0, h1, h2, Outcome.bind_ok]; rfl⟩
  · intro get hget
    obtain ⟨w0, h0⟩ := hget 0 (by decide)
    obtain ⟨w1, h1⟩ := hget 1 (by decide)
    exact ⟨_, by simp only [esdfCodec, h0, h1, Outcome.bind_ok]; rfl⟩
  · intro get hget
    obtain ⟨w0, h0⟩ := hget 0 (by decide)
    obtain ⟨w1, h1⟩ := hget 1 (by decide)
    exact ⟨_, by simp only [occCodec, h0, h1, Outcome.bind_ok]; rfl⟩
  · intro get hget
    obtain ⟨w0, h0⟩ := hget 0 (by decide)
    obtain ⟨w1, h1⟩ := hget 1 (by decide)
    exact ⟨_, by simp only [intensityCodec, h0, h1, Outcome.bind_ok]; rfl⟩

example : ([0#32, 1#32, 2#32] : List Word).length = 1 * tsdfCodec.words := by decide

/-- All voxel types need at least two words, so no block with voxels accepts an empty payload. -/
theorem C11_empty_payload {V : Type} (c : Codec V) (n : ℕ) (hn : 0 < n) (hc : 0 < c.words) :
    deserialize c n [] = .fatal :=
  C11_wrong_length_refused c n [] (by simp; omega)

example : 0 < 4096 ∧ 0 < esdfCodec.words := by decide

end Vox.Props
