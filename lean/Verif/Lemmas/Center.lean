/-
Centering the blocks of a layer.
-/
import Verif.Lemmas.LayerUtils
import Verif.Lemmas.Layer
import Mathlib.Tactic.FieldSimp

namespace Vox.LayerUtils

open Layer Grid Spec

variable {V : Type}

/-- The entry of the temporary map for a block. -/
def moved (s : Idx) (o : Pt) (e : Idx × Block ℚ V) : Idx × Block ℚ V := (e.1 - s, { e.2 with origin := e.2.origin - o })

theorem sub_idx_inj {s i j : Idx} (h : i - s = j - s) : i = j := by
  have hx := congrArg Vec3.x h
  have hy := congrArg Vec3.y h
  have hz := congrArg Vec3.z h
  simp only [Vec3.sub_x, Vec3.sub_y, Vec3.sub_z] at hx hy hz
  exact Vec3.ext (by omega) (by omega) (by omega)

theorem moved_keys (s : Idx) (o : Pt) (es : List (Idx × Block ℚ V)) : (es.map (moved s o)).map (·.1) = (es.map (·.1)).map (· - s) := by
  simp only [List.map_map]
  rfl

theorem moved_nodup {s : Idx} {o : Pt} {es : List (Idx × Block ℚ V)} (h : (es.map (·.1)).Nodup) : ((es.map (moved s o)).map (·.1)).Nodup := by
  rw [moved_keys]
  exact h.map fun _ _ e => sub_idx_inj e

theorem sumOrigins_ok {l : VLayer V} (wf : WellFormed l) (is : List Idx) (h : ∀ i ∈ is, i ∈ l.blocks.map (·.1)) :
    sumOrigins l is = .ok ⟨(is.map fun i => (i.x : ℚ)).sum * l.cfg.blockSize, (is.map fun i => (i.y : ℚ)).sum * l.cfg.blockSize,
      (is.map fun i => (i.z : ℚ)).sum * l.cfg.blockSize⟩ := by
  induction is with
  | nil =>
    simp only [sumOrigins, List.map_nil, List.sum_nil, zero_mul]
    rfl
  | cons i is ih =>
    obtain ⟨b, h1, h2⟩ := blockByIndex_ok (h i (by simp))
    unfold sumOrigins
    rw [h1, ih fun j hj => h j (by simp [hj])]
    simp only [Outcome.bind_ok, Outcome.pure_eq, (wf.block _ _ h2).2.2.1, List.map_cons, List.sum_cons]
    congr 1
    refine Vec3.ext ?_ ?_ ?_ <;> simp only [Vec3.add_x, Vec3.add_y, Vec3.add_z, Cfg.blockSize] <;> ring

theorem truncZ_bounds (q : ℚ) : -3 / 2 < q - 1 / 2 - truncZ q ∧ q - 1 / 2 - truncZ q ≤ 1 / 2 ∧ (0 ≤ q → -1 / 2 ≤ q - 1 / 2 - truncZ q) := by
  unfold truncZ
  split_ifs with h
  · have h1 := Int.floor_le q
    have h2 := Int.lt_floor_add_one q
    exact ⟨by linarith, by linarith, fun _ => by linarith⟩
  · have h1 := Int.le_ceil q
    have h2 := Int.ceil_lt_add_one q
    exact ⟨by linarith, by linarith, fun h' => absurd h' h⟩

theorem truncZ_range {q : ℚ} {n : ℤ} (h1 : -(n : ℚ) - 1 < q) (h2 : q < n + 1) : -n ≤ truncZ q ∧ truncZ q ≤ n := by
  unfold truncZ
  split_ifs with h
  · have h0 : 0 ≤ ⌊q⌋ := Int.floor_nonneg.2 h
    have h3 : ⌊q⌋ < n + 1 := Int.floor_lt.2 (by push_cast; exact h2)
    omega
  · have h0 : ⌈q⌉ ≤ 0 := Int.ceil_le.2 (by push_cast; linarith)
    have h3 : -n - 1 < ⌈q⌉ := Int.lt_ceil.2 (by push_cast; exact h1)
    omega

theorem shiftBlocks_ok {l : VLayer V} (hn : (l.blocks.map (·.1)).Nodup) (s : Idx) (o : Pt) (es m : List (Idx × Block ℚ V))
    (hes : ∀ e ∈ es, e ∈ l.blocks) (hr : ∀ e ∈ es, (e.1 - s).All IsI32) (hd : ((es.map (moved s o) ++ m).map (·.1)).Nodup) :
    shiftBlocks l s o (es.map (·.1)) m = .ok ((es.map (moved s o)).reverse ++ m) := by
  induction es generalizing m with
  | nil => rfl
  | cons e es ih =>
    have hb : block? l e.1 = some e.2 := (lookup_mem_iff hn).2 (hes e (by simp))
    simp only [List.map_cons]
    unfold shiftBlocks
    have hj : shiftIndex s e.1 = .ok (e.1 - s) := by
      unfold shiftIndex toIdx32
      rw [if_pos (hr e (by simp))]
    have hm : e.1 - s ∉ m.map (·.1) := by
      intro hc
      rw [List.map_append, List.map_cons, List.map_cons, List.cons_append, List.nodup_cons] at hd
      exact hd.1 (List.mem_append_right _ hc)
    simp only [derefBlock, hb, Outcome.bind_ok, hj]
    rw [if_neg hm]
    rw [show ((e.1 - s, ({ e.2 with origin := e.2.origin - o } : Block ℚ V)) : Idx × Block ℚ V) = moved s o e from rfl]
    rw [ih (moved s o e :: m) (fun e' h => hes e' (by simp [h])) (fun e' h => hr e' (by simp [h])) ?_]
    · simp
    · refine (List.Perm.nodup_iff ?_).1 hd
      refine List.Perm.map _ ?_
      simp only [List.map_cons, List.cons_append]
      exact List.perm_middle.symm

theorem insertAll_eq (es m : List (Idx × Block ℚ V)) (hd : ((es ++ m).map (·.1)).Nodup) : insertAll m es = es.reverse ++ m := by
  induction es generalizing m with
  | nil => rfl
  | cons e es ih =>
    unfold insertAll
    have hm : e.1 ∉ m.map (·.1) := by
      intro hc
      rw [List.cons_append, List.map_cons, List.nodup_cons, List.map_append] at hd
      exact hd.1 (List.mem_append_right _ hc)
    rw [if_neg hm, ih]
    · simp
    · refine (List.Perm.nodup_iff ?_).1 hd
      exact List.Perm.map _ List.perm_middle.symm

theorem sum_bounds {es : List (Idx × Block ℚ V)} {f : Idx → ℤ} {n : ℤ} (h : ∀ e ∈ es, |f e.1| ≤ n) :
    -((n : ℚ) * es.length) ≤ (es.map fun e => (f e.1 : ℚ)).sum ∧ (es.map fun e => (f e.1 : ℚ)).sum ≤ n * es.length := by
  induction es with
  | nil => simp
  | cons e es ih =>
    obtain ⟨h1, h2⟩ := ih fun e' he => h e' (by simp [he])
    have h3 := abs_le.1 (h e (by simp))
    have h4 : (-n : ℚ) ≤ f e.1 := by exact_mod_cast h3.1
    have h5 : (f e.1 : ℚ) ≤ n := by exact_mod_cast h3.2
    simp only [List.map_cons, List.sum_cons, List.length_cons]
    push_cast
    constructor <;> linarith

theorem mean_bounds {l : VLayer V} {f : Idx → ℤ} {n : ℤ} (h0 : l.blocks ≠ []) (h : ∀ e ∈ l.blocks, |f e.1| ≤ n) :
    -(n : ℚ) ≤ meanIndex f l ∧ meanIndex f l ≤ n := by
  obtain ⟨h1, h2⟩ := sum_bounds h
  have hp : (0 : ℚ) < l.blocks.length := by exact_mod_cast List.length_pos_iff.2 h0
  unfold meanIndex
  rw [le_div_iff₀ hp, div_le_iff₀ hp]
  exact ⟨by linarith, h2⟩

/-- The shift and the resulting list of blocks. -/
theorem center_ok {l : VLayer V} (wf : WellFormed l) (hn : (l.blocks.map (·.1)).Nodup) (h0 : l.blocks ≠ [])
    (hr : ∀ i, Allocated l i → i.All fun c => |c| < 2 ^ 30)
    (order : List (Idx × Block ℚ V) → List (Idx × Block ℚ V)) (ho : ∀ m, (order m).Perm m) :
    ∃ l' s, centerBlocksOfLayer order l = .ok (l', originPoint s l.cfg.blockSize) ∧ l'.cfg = l.cfg ∧
      s = ⟨truncZ (meanIndex Vec3.x l + 1 / 2), truncZ (meanIndex Vec3.y l + 1 / 2), truncZ (meanIndex Vec3.z l + 1 / 2)⟩ ∧
      l'.blocks.Perm (l.blocks.map (moved s (originPoint s l.cfg.blockSize))) := by
  have hmem : ∀ e ∈ l.blocks, Allocated l e.1 := fun e he => allocated_iff_mem.2 (List.mem_map_of_mem he)
  have hlen : l.blocks.length ≠ 0 := by simpa using h0
  have hl0 : (l.blocks.length : ℚ) ≠ 0 := by exact_mod_cast hlen
  have hbs : l.cfg.blockSize ≠ 0 := by
    have h1 := wf.size_pos
    have h2 : (0 : ℚ) < l.cfg.vps := by exact_mod_cast wf.side_pos
    unfold Cfg.blockSize
    positivity
  have rx : ∀ e ∈ l.blocks, |e.1.x| ≤ (2 ^ 30 - 1 : ℤ) := fun e he => Int.le_sub_one_of_lt (hr _ (hmem e he)).1
  have ry : ∀ e ∈ l.blocks, |e.1.y| ≤ (2 ^ 30 - 1 : ℤ) := fun e he => Int.le_sub_one_of_lt (hr _ (hmem e he)).2.1
  have rz : ∀ e ∈ l.blocks, |e.1.z| ≤ (2 ^ 30 - 1 : ℤ) := fun e he => Int.le_sub_one_of_lt (hr _ (hmem e he)).2.2
  have tr : ∀ f : Idx → ℤ, (∀ e ∈ l.blocks, |f e.1| ≤ (2 ^ 30 - 1 : ℤ)) →
      -(2 ^ 30 - 1) ≤ truncZ (meanIndex f l + 1 / 2) ∧ truncZ (meanIndex f l + 1 / 2) ≤ 2 ^ 30 - 1 := by
    intro f hf
    obtain ⟨h1, h2⟩ := mean_bounds h0 hf
    push_cast at h1 h2
    exact truncZ_range (n := 2 ^ 30 - 1) (by push_cast; linarith) (by push_cast; linarith)
  obtain ⟨x1, x2⟩ := tr _ rx
  obtain ⟨y1, y2⟩ := tr _ ry
  obtain ⟨z1, z2⟩ := tr _ rz
  set s : Idx := ⟨truncZ (meanIndex Vec3.x l + 1 / 2), truncZ (meanIndex Vec3.y l + 1 / 2), truncZ (meanIndex Vec3.z l + 1 / 2)⟩ with hs
  have hc : indexCentroid l = .ok s := by
    unfold indexCentroid
    rw [sumOrigins_ok wf _ fun i hi => hi]
    simp only [Outcome.bind_ok]
    rw [if_neg hlen]
    have e : ∀ f : Idx → ℤ, ((l.blocks.map (·.1)).map fun i => (f i : ℚ)).sum * l.cfg.blockSize / l.blocks.length / l.cfg.blockSize = meanIndex f l := by
      intro f
      unfold meanIndex
      rw [List.map_map]
      show (l.blocks.map fun e => (f e.1 : ℚ)).sum * _ / _ / _ = _
      field_simp
    unfold toIdx32
    have e' : (⟨((l.blocks.map (·.1)).map fun i => (i.x : ℚ)).sum * l.cfg.blockSize, ((l.blocks.map (·.1)).map fun i => (i.y : ℚ)).sum * l.cfg.blockSize,
        ((l.blocks.map (·.1)).map fun i => (i.z : ℚ)).sum * l.cfg.blockSize⟩ : Pt).map
        (fun c => truncZ (c / l.blocks.length / l.cfg.blockSize + 1 / 2)) = s := by
      rw [hs]
      refine Vec3.ext ?_ ?_ ?_
      · simp only [Vec3.map_x, e]
      · simp only [Vec3.map_y, e]
      · simp only [Vec3.map_z, e]
    rw [e']
    refine if_pos ⟨⟨?_, ?_⟩, ⟨?_, ?_⟩, ?_, ?_⟩ <;> simp only [hs] <;> omega
  have hsub : ∀ e ∈ l.blocks, (e.1 - s).All IsI32 := by
    intro e he
    have a1 := abs_le.1 (rx e he)
    have a2 := abs_le.1 (ry e he)
    have a3 := abs_le.1 (rz e he)
    refine ⟨⟨?_, ?_⟩, ⟨?_, ?_⟩, ?_, ?_⟩ <;> simp only [hs, Vec3.sub_x, Vec3.sub_y, Vec3.sub_z] <;> omega
  set o := originPoint s l.cfg.blockSize with hoo
  have hnd := moved_nodup (s := s) (o := o) hn
  have hsh := shiftBlocks_ok hn s o l.blocks [] (fun _ h => h) hsub (by simpa using hnd)
  rw [List.append_nil] at hsh
  have hp : (order (l.blocks.map (moved s o)).reverse).Perm (l.blocks.map (moved s o)) := (ho _).trans (List.reverse_perm _)
  have hin := insertAll_eq (order (l.blocks.map (moved s o)).reverse) [] (by
    rw [List.append_nil]
    exact (List.Perm.nodup_iff (hp.map _)).2 hnd)
  rw [List.append_nil] at hin
  have hp2 : (order (l.blocks.map (moved s o)).reverse).reverse.Perm (l.blocks.map (moved s o)) := (List.reverse_perm _).trans hp
  refine ⟨⟨l.cfg, (order (l.blocks.map (moved s o)).reverse).reverse⟩, s, ?_, rfl, rfl, hp2⟩
  unfold centerBlocksOfLayer
  rw [hc]
  simp only [Outcome.bind_ok, ← hoo, hsh, hin]
  have : (order (l.blocks.map (moved s o)).reverse).reverse.length = l.blocks.length := by
    rw [hp2.length_eq, List.length_map]
  rw [this]
  simp [Outcome.check]

theorem moved_lookup {l l' : VLayer V} (hn : (l.blocks.map (·.1)).Nodup) {s : Idx} {o : Pt} (hp : l'.blocks.Perm (l.blocks.map (moved s o))) (i : Idx) :
    l'.blocks.lookup (i - s) = (l.blocks.lookup i).map fun b => { b with origin := b.origin - o } := by
  have hn' : (l'.blocks.map (·.1)).Nodup := (List.Perm.nodup_iff (hp.map _)).2 (moved_nodup hn)
  have key : ∀ b, l'.blocks.lookup (i - s) = some b ↔ ∃ c, l.blocks.lookup i = some c ∧ b = { c with origin := c.origin - o } := by
    intro b
    rw [lookup_mem_iff hn', hp.mem_iff, List.mem_map]
    constructor
    · rintro ⟨e, he, h⟩
      have h1 : e.1 = i := sub_idx_inj (s := s) (congrArg Prod.fst h)
      have h2 : ({ e.2 with origin := e.2.origin - o } : Block ℚ V) = b := congrArg Prod.snd h
      exact ⟨e.2, (lookup_mem_iff hn).2 (by rw [← h1]; exact he), h2.symm⟩
    · rintro ⟨c, hc, rfl⟩
      exact ⟨(i, c), (lookup_mem_iff hn).1 hc, rfl⟩
  cases h : l.blocks.lookup i with
  | none =>
    cases h' : l'.blocks.lookup (i - s) with
    | none => rfl
    | some b =>
      obtain ⟨c, hc, _⟩ := (key b).1 h'
      rw [h] at hc
      cases hc
  | some c => exact (key _).2 ⟨c, h, rfl⟩

end Vox.LayerUtils
