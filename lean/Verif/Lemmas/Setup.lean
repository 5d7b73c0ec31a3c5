/-
Lemmas about the construction of the servers.
-/
import Verif.Spec.Setup
import Verif.Lemmas.Ieee
import Verif.Lemmas.Index
import Verif.Lemmas.MeshColorMsg

namespace Vox.Setup

open Ieee MeshMsg Spec

/-! ### Floats -/

theorem toFloat_rnd (q : ℚ) : toFloat (float32.rnd q) = float32.rnd q := by
  cases h : float32.rnd q with
  | fin r => exact float32_faithful.idem _ _ h
  | nan => rfl
  | ninf => rfl
  | pinf => rfl

theorem toFloat_idem (x : Fl) : toFloat (toFloat x) = toFloat x := by
  cases x with
  | fin q => exact toFloat_rnd q
  | nan => rfl
  | ninf => rfl
  | pinf => rfl

theorem toFloat_inf (q : ℚ) : toFloat (Fl.infOfSign q) = Fl.infOfSign q := by
  unfold Fl.infOfSign
  split_ifs <;> rfl

theorem toFloat_mul (a b : Fl) : toFloat (float32.mul a b) = float32.mul a b := by
  cases a <;> cases b <;> first | rfl | exact toFloat_rnd _ | exact toFloat_inf _

/-- A value of type `float`. -/
theorem float_form {x : Fl} {q : ℚ} (h : toFloat x = .fin q) :
    ∃ k e : ℤ, |k| ≤ 2 ^ 24 ∧ -149 ≤ e ∧ q = k * pow2 e ∧ |q| < 2 ^ 128 := by
  cases x with
  | fin r =>
    obtain ⟨rfl, h1, h2⟩ := overflow_fin (show overflow (2 ^ 128) (rnd32 r) = .fin q from h)
    obtain ⟨k, e, hk, he, hr⟩ := rne_form (p := 24) (qmin := -149) r
    exact ⟨k, e, hk, he, hr, abs_lt.2 ⟨h2, h1⟩⟩
  | nan => exact absurd h (by simp [toFloat])
  | ninf => exact absurd h (by simp [toFloat])
  | pinf => exact absurd h (by simp [toFloat])

/-- Scaling a float by a power of two is exact up to overflow. -/
theorem rnd32_scale {k e : ℤ} (hk : |k| ≤ 2 ^ 24) (he : -149 ≤ e) (j : ℕ) : rnd32 (k * pow2 e * 2 ^ j) = k * pow2 e * 2 ^ j := by
  have e1 : (k : ℚ) * pow2 e * 2 ^ j = k * pow2 (e + j) := by
    rw [pow2_add, pow2_nat]
    push_cast
    ring
  rw [e1]
  exact rne_exact (by norm_num) hk (by omega)

theorem rnd32_pow (j : ℕ) : rnd32 (2 ^ j) = 2 ^ j := by
  have := rnd32_scale (k := 1) (e := 0) (by norm_num) (by norm_num) j
  simpa [pow2] using this

theorem mul_pow {x : Fl} {q : ℚ} (h : toFloat x = .fin q) {j : ℕ} (hj : j < 128) :
    float32.mul (.fin q) (float32.rnd (2 ^ j)) = overflow (2 ^ 128) (q * 2 ^ j) := by
  obtain ⟨k, e, hk, he, rfl, -⟩ := float_form h
  have h2 : float32.rnd (2 ^ j) = .fin (2 ^ j) := by
    show overflow (2 ^ 128) (rnd32 (2 ^ j)) = _
    rw [rnd32_pow]
    refine overflow_of_lt ?_
    rw [abs_of_pos (by positivity)]
    exact pow_lt_pow_right₀ (by norm_num) hj
  rw [h2]
  show overflow (2 ^ 128) (rnd32 _) = _
  rw [rnd32_scale hk he]

theorem double_of_float {x : Fl} {q : ℚ} (h : toFloat x = .fin q) : float64.rnd q = .fin q := by
  obtain ⟨k, e, hk, he, rfl, hb⟩ := float_form h
  show overflow (2 ^ 1024) (rnd64 _) = _
  have e1 : rnd64 ((k : ℚ) * pow2 e) = k * pow2 e :=
    rne_exact (by norm_num) (hk.trans (by norm_num)) (by omega)
  rw [e1]
  exact overflow_of_lt (hb.trans_le (pow_le_pow_right₀ (by norm_num) (by norm_num)))

theorem le_add_margin {x : Fl} {q : ℚ} (h : toFloat x = .fin q) {m : ℚ} (hm : 0 ≤ m) :
    Fl.le (.fin q) (float64.rnd (q + m)) = true ∧ Fl.le (float64.rnd (q - m)) (.fin q) = true := by
  rw [← double_of_float h]
  exact ⟨float64_faithful.mono _ _ (by linarith), float64_faithful.mono _ _ (by linarith)⟩

theorem margin_fin : ∃ m : ℚ, 0 ≤ m ∧ float64.rnd (1 / 1000000) = .fin m := by
  refine ⟨rnd64 (1 / 1000000), rne_nonneg (by norm_num), ?_⟩
  decide +kernel

/-- A layer passes the comparison with one of the same voxel size. -/
theorem checkNear_self {x : Fl} (h : toFloat x ≠ .nan) : checkNear (toFloat x) (toFloat x) = .ok () := by
  obtain ⟨m, hm, em⟩ := margin_fin
  unfold checkNear
  rw [em]
  cases hx : toFloat x with
  | nan => exact absurd hx h
  | ninf => rfl
  | pinf => rfl
  | fin q =>
    obtain ⟨h1, h2⟩ := le_add_margin hx hm
    have e1 : float64.add (.fin q) (.fin m) = float64.rnd (q + m) := rfl
    have e2 : float64.sub (.fin q) (.fin m) = float64.rnd (q - m) := by
      show float64.rnd (q + -m) = _
      rw [sub_eq_add_neg]
    rw [e1, e2, h1, h2]
    rfl

/-! ### The side of the blocks -/

theorem negative_not_pow {v : ℤ} (h0 : v < 0) (h1 : -2 ^ 31 < v) : isPowerOfTwo v = .ok false := by
  unfold isPowerOfTwo
  rw [if_neg (by omega)]
  congr 1
  rw [beq_eq_false_iff_ne]
  intro hc
  have hm := congrArg BitVec.msb hc
  rw [BitVec.msb_and, BitVec.msb_eq_toInt, BitVec.msb_eq_toInt, BitVec.toInt_ofInt, BitVec.toInt_ofInt] at hm
  have a : (v.bmod (2 ^ 32)) = v := by
    rw [Int.bmod_eq_of_le] <;> omega
  have b : ((v - 1).bmod (2 ^ 32)) = v - 1 := by
    rw [Int.bmod_eq_of_le] <;> omega
  rw [a, b] at hm
  have h2 : v - 1 < 0 := by omega
  simp [h0, h2] at hm

/-- The side a server uses, given the parameter. -/
def sideOf (p : Option ℤ) : ℕ :=
  match p with
  | none => 16
  | some v => if v = 0 then 0 else if ∃ k < 31, v = 2 ^ k then v.toNat else 16

theorem sizeT_nat {n : ℕ} (h : n < 2 ^ 64) : sizeT n = n := by
  unfold sizeT
  omega

theorem side_ok {P : Params} (hf : IntsFit P) (h : P.int "tsdf_voxels_per_side" ≠ some (-2 ^ 31)) :
    ∃ ok, isPowerOfTwo (P.getInt "tsdf_voxels_per_side" 16) = .ok ok ∧
      sizeT (if ok then P.getInt "tsdf_voxels_per_side" 16 else 16) = sideOf (P.int "tsdf_voxels_per_side") := by
  unfold Params.getInt
  cases hp : P.int "tsdf_voxels_per_side" with
  | none => exact ⟨true, by decide +kernel, by decide +kernel⟩
  | some v =>
    obtain ⟨l1, l2⟩ := hf _ _ hp
    have l3 : v ≠ -2 ^ 31 := fun e => h (by rw [hp, e])
    simp only [Option.getD_some]
    unfold sideOf
    dsimp only
    rcases lt_trichotomy v 0 with hv | hv | hv
    · refine ⟨false, negative_not_pow hv (by omega), ?_⟩
      have hn : ¬ ∃ k < 31, v = 2 ^ k := by
        rintro ⟨k, -, rfl⟩
        have : (0 : ℤ) < 2 ^ k := by positivity
        omega
      have hz : ¬ v = 0 := by omega
      rw [if_neg hz, if_neg hn]
      exact sizeT_nat (n := 16) (by norm_num)
    · subst hv
      exact ⟨true, by decide +kernel, by decide +kernel⟩
    · obtain ⟨n, rfl⟩ : ∃ n : ℕ, v = n := ⟨v.toNat, by omega⟩
      have hi := isPowerOfTwo_iff (x := n) (by omega) (by omega)
      have hiff : (∃ k < 31, (n : ℤ) = 2 ^ k) ↔ ∃ k, k < 31 ∧ n = 2 ^ k := by
        constructor
        · rintro ⟨k, hk, e⟩
          exact ⟨k, hk, by exact_mod_cast e⟩
        · rintro ⟨k, hk, e⟩
          exact ⟨k, hk, by exact_mod_cast e⟩
      rw [if_neg (by omega)]
      by_cases hk : ∃ k, k < 31 ∧ n = 2 ^ k
      · refine ⟨true, by rw [hi, decide_eq_true hk], ?_⟩
        rw [if_pos (hiff.2 hk)]
        exact sizeT_nat (by omega)
      · refine ⟨false, by rw [hi, decide_eq_false hk], ?_⟩
        rw [if_neg (fun c => hk (hiff.1 c))]
        exact sizeT_nat (n := 16) (by norm_num)

/-- The voxel size a server uses. -/
def sizeOf_ (P : Params) : Fl := toFloat (P.getDouble "tsdf_voxel_size" (float32.rnd (1 / 5)))

theorem map_eq {P : Params} (hf : IntsFit P) (h : P.int "tsdf_voxels_per_side" ≠ some (-2 ^ 31)) :
    tsdfMapConfig P = .ok ⟨sizeOf_ P, sideOf (P.int "tsdf_voxels_per_side")⟩ := by
  obtain ⟨ok, h1, h2⟩ := side_ok hf h
  unfold tsdfMapConfig
  dsimp only [MapConfig.default]
  rw [show ((16 : ℕ) : ℤ) = 16 from rfl, h1, ← h2]
  rfl

theorem map_ub {P : Params} (h : P.int "tsdf_voxels_per_side" = some (-2 ^ 31)) : tsdfMapConfig P = .ub := by
  unfold tsdfMapConfig
  dsimp only
  unfold Params.getInt
  rw [h]
  rfl

theorem sideOf_pow (p : Option ℤ) : sideOf p = 0 ∧ p = some 0 ∨ ∃ k < 31, sideOf p = 2 ^ k := by
  cases p with
  | none => exact .inr ⟨4, by norm_num, rfl⟩
  | some v =>
    unfold sideOf
    dsimp only
    by_cases h0 : v = 0
    · rw [if_pos h0]; exact .inl ⟨rfl, by rw [h0]⟩
    · rw [if_neg h0]
      by_cases h1 : ∃ k < 31, v = 2 ^ k
      · rw [if_pos h1]
        obtain ⟨k, hk, rfl⟩ := h1
        refine .inr ⟨k, hk, ?_⟩
        have : ((2 : ℤ) ^ k) = ((2 ^ k : ℕ) : ℤ) := by push_cast; rfl
        rw [this, Int.toNat_natCast]
      · rw [if_neg h1]; exact .inr ⟨4, by norm_num, rfl⟩

/-! ### Layers -/

/-- The size of a block of `2 ^ k` voxels per side. -/
theorem blockSize_eq {x : Fl} (hx : Fl.lt (.fin 0) (toFloat x) = true) {k : ℕ} (hk : k < 31) :
    blockSizeFl (toFloat x) (2 ^ k) = match toFloat x with
      | .fin q => overflow (2 ^ 128) (q * 2 ^ k)
      | y => y := by
  unfold blockSizeFl
  rw [show (((2 ^ k : ℕ) : ℚ)) = 2 ^ k by push_cast; rfl]
  cases h : toFloat x with
  | fin q => exact mul_pow h (by omega)
  | nan => rw [h] at hx; exact absurd hx (by decide)
  | ninf => rw [h] at hx; exact absurd hx (by decide)
  | pinf =>
    have h2 : float32.rnd (2 ^ k) = .fin (2 ^ k) := by
      show overflow (2 ^ 128) (rnd32 (2 ^ k)) = _
      rw [rnd32_pow]
      refine overflow_of_lt ?_
      rw [abs_of_pos (by positivity)]
      exact pow_lt_pow_right₀ (by norm_num) (by omega)
    rw [h2]
    show Fl.infOfSign _ = _
    unfold Fl.infOfSign
    rw [if_pos (by positivity)]

theorem blockSize_pos {x : Fl} (hx : Fl.lt (.fin 0) (toFloat x) = true) {k : ℕ} (hk : k < 31) :
    Fl.lt (.fin 0) (blockSizeFl (toFloat x) (2 ^ k)) = true := by
  rw [blockSize_eq hx hk]
  cases h : toFloat x with
  | fin q =>
    rw [h] at hx
    have hq : 0 < q := by simpa [Fl.lt] using hx
    dsimp only
    have hp : 0 < q * 2 ^ k := by positivity
    unfold overflow
    split_ifs with h1 h2
    · rfl
    · exfalso; have : (0 : ℚ) < 2 ^ 128 := by norm_num
      linarith
    · simpa [Fl.lt] using hp
  | nan => rw [h] at hx; exact absurd hx (by decide)
  | ninf => rw [h] at hx; exact absurd hx (by decide)
  | pinf => rfl

/-- The layer of a configuration. -/
def geometryOf (s : Fl) (n : ℕ) : Geometry := ⟨s, n, inverseFl s, blockSizeFl s n, inverseFl (blockSizeFl s n)⟩

theorem makeLayer_ok {x : Fl} (hx : Fl.lt (.fin 0) (toFloat x) = true) {k : ℕ} (hk : k < 31) :
    makeLayer ⟨toFloat x, 2 ^ k⟩ = .ok (geometryOf (toFloat x) (2 ^ k)) := by
  unfold makeLayer
  dsimp only
  rw [hx, blockSize_pos hx hk, decide_eq_true (show 0 < 2 ^ k by positivity)]
  rfl

theorem makeLayer_inv {c : MapConfig} {g : Geometry} (h : makeLayer c = .ok g) :
    Fl.lt (.fin 0) c.voxelSize = true ∧ 0 < c.side ∧ g = geometryOf c.voxelSize c.side := by
  unfold makeLayer at h
  obtain ⟨u1, h1, h⟩ := Outcome.bind_eq_ok.1 h
  obtain ⟨u2, h2, h⟩ := Outcome.bind_eq_ok.1 h
  obtain ⟨u3, h3, h⟩ := Outcome.bind_eq_ok.1 h
  refine ⟨?_, ?_, (Outcome.ok.inj h).symm⟩
  · unfold Outcome.check at h1
    split at h1
    · assumption
    · cases h1
  · unfold Outcome.check at h3
    split at h3
    · rename_i e; exact of_decide_eq_true e
    · cases h3

theorem makeLayer_fatal {c : MapConfig} (h : Fl.lt (.fin 0) c.voxelSize = false ∨ c.side = 0) : makeLayer c = .fatal := by
  unfold makeLayer
  rcases h with h | h
  · rw [h]; rfl
  · rw [h]
    cases Fl.lt (.fin 0) c.voxelSize <;> cases Fl.lt (.fin 0) (blockSizeFl c.voxelSize 0) <;> rfl

/-! ### Construction -/

/-- What a constructed TSDF server consists of. -/
theorem tsdf_inv {hw : ℕ} {P : Params} {b : TsdfSetup} (h : tsdfServer hw P = .ok b) :
    ∃ m tr g, tsdfMapConfig P = .ok m ∧ makeTransformer P = .ok tr ∧ makeLayer m = .ok g ∧
      b = tsdfMembers P tr g (tsdfConfigOf hw P m) (meshConfig hw P) := by
  unfold tsdfServer at h
  obtain ⟨m, hm, h⟩ := Outcome.bind_eq_ok.1 h
  obtain ⟨tc, htc, h⟩ := Outcome.bind_eq_ok.1 h
  unfold tsdfConfig at htc
  rw [hm] at htc
  obtain rfl := Outcome.ok.inj htc
  unfold tsdfServerWith at h
  obtain ⟨tr, htr, h⟩ := Outcome.bind_eq_ok.1 h
  obtain ⟨g, hg, h⟩ := Outcome.bind_eq_ok.1 h
  exact ⟨m, tr, g, hm, htr, hg, (Outcome.ok.inj h).symm⟩

/-- What a constructed ESDF server consists of. -/
theorem esdf_inv {hw : ℕ} {P : Params} {s : EsdfSetup} (h : esdfServer hw P = .ok s) :
    ∃ m tr g, tsdfMapConfig P = .ok m ∧ makeTransformer P = .ok tr ∧ makeLayer m = .ok g ∧
      tsdfServer hw P = .ok (tsdfMembers P tr g (tsdfConfigOf hw P m) (meshConfig hw P)) ∧
      s = esdfMembers P (tsdfMembers P tr g (tsdfConfigOf hw P m) (meshConfig hw P)) g (esdfConfigOf P (tsdfConfigOf hw P m)) := by
  unfold esdfServer at h
  obtain ⟨em, hem, h⟩ := Outcome.bind_eq_ok.1 h
  obtain ⟨ec, hec, h⟩ := Outcome.bind_eq_ok.1 h
  obtain ⟨b, hb, h⟩ := Outcome.bind_eq_ok.1 h
  obtain ⟨g', hg', h⟩ := Outcome.bind_eq_ok.1 h
  obtain ⟨u, hu, hfin⟩ := Outcome.bind_eq_ok.1 h
  clear h
  obtain ⟨m, tr, g, hm, htr, hg, rfl⟩ := tsdf_inv hb
  unfold esdfMapConfig at hem
  rw [hm] at hem
  obtain rfl := Outcome.ok.inj hem
  have eg : g' = g := Outcome.ok.inj (hg'.symm.trans hg)
  subst eg
  unfold esdfConfig tsdfConfig at hec
  rw [hm] at hec
  obtain rfl := Outcome.ok.inj hec
  exact ⟨m, tr, g', hm, htr, hg, hb, (Outcome.ok.inj hfin).symm⟩

/-- The voxel size of a configuration is a float. -/
theorem map_float {P : Params} {m : MapConfig} (h : tsdfMapConfig P = .ok m) : m.voxelSize = sizeOf_ P := by
  unfold tsdfMapConfig at h
  obtain ⟨ok, -, h⟩ := Outcome.bind_eq_ok.1 h
  rw [← Outcome.ok.inj h]
  rfl

/-- The comparison of the layers never fails. -/
theorem esdf_of_tsdf {hw : ℕ} {P : Params} {b : TsdfSetup} (h : tsdfServer hw P = .ok b) : ∃ s, esdfServer hw P = .ok s ∧ s.base = b := by
  obtain ⟨m, tr, g, hm, htr, hg, rfl⟩ := tsdf_inv h
  obtain ⟨hp, -, rfl⟩ := makeLayer_inv hg
  refine ⟨esdfMembers P _ (geometryOf m.voxelSize m.side) (esdfConfigOf P (tsdfConfigOf hw P m)), ?_, rfl⟩
  have hn : toFloat (P.getDouble "tsdf_voxel_size" (float32.rnd (1 / 5))) ≠ .nan := by
    intro c
    rw [map_float hm] at hp
    unfold sizeOf_ at hp
    rw [c] at hp
    exact absurd hp (by decide)
  have hc : checkLayers (geometryOf m.voxelSize m.side) (geometryOf m.voxelSize m.side) = .ok () := by
    unfold checkLayers
    have : checkNear m.voxelSize m.voxelSize = .ok () := by
      rw [map_float hm]
      exact checkNear_self hn
    rw [decide_eq_true rfl]
    exact this
  unfold esdfServer esdfMapConfig esdfConfig tsdfConfig
  rw [hm, h]
  simp only [Outcome.bind_ok, Outcome.pure_eq]
  rw [show (⟨m.voxelSize, m.side⟩ : MapConfig) = m from rfl, hg]
  simp only [Outcome.bind_ok]
  rw [show (tsdfMembers P tr (geometryOf m.voxelSize m.side) (tsdfConfigOf hw P m) (meshConfig hw P)).geometry =
    geometryOf m.voxelSize m.side from rfl, hc]
  rfl

theorem toInt64_fits {q : ℚ} (h : |q| ≤ 9000000000000000000) : ∃ ns, toInt64 (.fin q) = .ok ns := by
  obtain ⟨h1, h2⟩ := abs_le.1 h
  unfold toInt64
  dsimp only
  by_cases h0 : 0 ≤ q
  · rw [if_pos h0]
    refine ⟨⌊q⌋, if_pos ?_⟩
    have a : 0 ≤ ⌊q⌋ := Int.floor_nonneg.2 h0
    have b : ⌊q⌋ ≤ 9000000000000000000 := by
      have : (⌊q⌋ : ℚ) ≤ 9000000000000000000 := (Int.floor_le q).trans h2
      exact_mod_cast this
    unfold IsI64
    omega
  · rw [if_neg h0]
    refine ⟨⌈q⌉, if_pos ?_⟩
    have a : ⌈q⌉ ≤ 0 := Int.ceil_le.2 (by push_cast; linarith)
    have b : -9000000000000000000 ≤ ⌈q⌉ := by
      have : (-9000000000000000000 : ℚ) ≤ ⌈q⌉ := h1.trans (Int.le_ceil q)
      exact_mod_cast this
    unfold IsI64
    omega

theorem rnd64_bound {q : ℚ} (h : |q| ≤ 9000000000000000000) : ∃ r, float64.rnd q = .fin r ∧ |r| ≤ 9000000000000000000 := by
  obtain ⟨h1, h2⟩ := abs_le.1 h
  have e : rnd64 9000000000000000000 = 9000000000000000000 := by decide +kernel
  have b1 : rnd64 q ≤ 9000000000000000000 := by
    rw [← e]; exact rne_mono (by norm_num) h2
  have b2 : -9000000000000000000 ≤ rnd64 q := by
    have : rnd64 (-9000000000000000000) ≤ rnd64 q := rne_mono (by norm_num) h1
    have e2 : rnd64 (-9000000000000000000) = -rnd64 9000000000000000000 := rne_neg _
    rwa [e2, e] at this
  refine ⟨rnd64 q, overflow_of_lt ?_, abs_le.2 ⟨b2, b1⟩⟩
  have : (9000000000000000000 : ℚ) < 2 ^ 1024 :=
    lt_of_lt_of_le (by norm_num : (9000000000000000000 : ℚ) < 2 ^ 64) (pow_le_pow_right₀ (by norm_num) (by norm_num))
  exact (abs_le.2 ⟨b2, b1⟩).trans_lt this

theorem transformer_ok {P : Params} (h : ToleranceFits P) : ∃ tr, makeTransformer P = .ok tr := by
  unfold makeTransformer
  dsimp only
  have : ∃ ns, toInt64 (float64.mul (P.getDouble "timestamp_tolerance_sec" (float64.div (.fin 1000000) (.fin 1000000000))) (.fin 1000000000)) = .ok ns := by
    unfold Params.getDouble
    cases ht : P.double "timestamp_tolerance_sec" with
    | none => exact ⟨1000000, by decide +kernel⟩
    | some t =>
      obtain ⟨q, rfl, hq⟩ := h _ ht
      have hb : |q * 1000000000| ≤ 9000000000000000000 := by
        rw [abs_mul, abs_of_pos (by norm_num : (0 : ℚ) < 1000000000)]
        linarith
      obtain ⟨r, hr, hb⟩ := rnd64_bound hb
      obtain ⟨ns, hns⟩ := toInt64_fits hb
      refine ⟨ns, ?_⟩
      show toInt64 (float64.rnd (q * 1000000000)) = _
      rw [hr, hns]
  obtain ⟨ns, hns⟩ := this
  rw [hns]
  exact ⟨_, rfl⟩

theorem esdf_ub (hw : ℕ) {P : Params} (h : P.int "tsdf_voxels_per_side" = some (-2 ^ 31)) : esdfServer hw P = .ub := by
  unfold esdfServer esdfMapConfig
  rw [map_ub h]
  rfl

theorem esdf_fatal (hw : ℕ) {P : Params} (hf : IntsFit P) (ht : ToleranceFits P) (h3 : P.int "tsdf_voxels_per_side" ≠ some (-2 ^ 31))
    (h : Fl.lt (.fin 0) (sizeOf_ P) = false ∨ P.int "tsdf_voxels_per_side" = some 0) : esdfServer hw P = .fatal := by
  obtain ⟨tr, htr⟩ := transformer_ok ht
  have hm := map_eq hf h3
  have hg : makeLayer ⟨sizeOf_ P, sideOf (P.int "tsdf_voxels_per_side")⟩ = .fatal := by
    refine makeLayer_fatal (h.imp id fun e => ?_)
    show sideOf _ = 0
    rw [e]
    rfl
  unfold esdfServer esdfMapConfig esdfConfig tsdfConfig tsdfServer tsdfConfig tsdfServerWith
  rw [hm]
  simp only [Outcome.bind_ok, Outcome.pure_eq]
  rw [htr, hg]
  rfl

end Vox.Setup
