/-
Property C125: voxel sizes and origins read from files and messages are the nearest floats.
-/
import Verif.Lemmas.Narrow
import Verif.Lemmas.LayerIO
import Verif.Props.LayerIO
import Verif.Spec.Narrow

namespace Vox.C125

open FloatBits Ieee NarrowSpec _root_.Vox.IO Proto Serial Layer Props

/-- Every `float` is an integer up to 2^24 times a power of two. -/
theorem fl32_form {w : Word} {z : ℚ} (h : fl32 w = .fin z) : ∃ k e : ℤ, |k| ≤ 2 ^ 24 ∧ -149 ≤ e ∧ z = k * pow2 e := by
  obtain ⟨hs, he, hm⟩ := fields32_lt w
  unfold fl32 at h
  generalize (fields32 w).1 = s at *
  generalize (fields32 w).2.1 = e at *
  generalize (fields32 w).2.2 = m at *
  dsimp only at h
  by_cases h255 : e = 255
  · rw [if_pos h255] at h
    split_ifs at h
  rw [if_neg h255] at h
  by_cases h0 : e = 0
  · rw [if_pos h0] at h
    refine ⟨if s = 0 then m else -m, -149, ?_, le_rfl, ?_⟩
    · have : |(m : ℤ)| ≤ 2 ^ 24 := by rw [abs_of_nonneg (by omega)]; omega
      split_ifs
      · exact this
      · rwa [abs_neg]
    · rw [← Fl.fin.inj h, pow2_eq, zpow_neg]
      split_ifs <;> push_cast <;> ring
  · rw [if_neg h0] at h
    refine ⟨if s = 0 then (2 ^ 23 + m : ℕ) else -(2 ^ 23 + m : ℕ), (e : ℤ) - 150, ?_, by omega, ?_⟩
    · have : |((2 ^ 23 + m : ℕ) : ℤ)| ≤ 2 ^ 24 := by rw [abs_of_nonneg (by omega)]; push_cast; omega
      split_ifs
      · exact this
      · rwa [abs_neg]
    · rw [← Fl.fin.inj h, show ((150 : ℤ)) = ((150 : ℕ) : ℤ) from rfl, ← pow2_frac]
      split_ifs <;> push_cast <;> ring

/-- **C125.** Converting any of the 2^64 patterns of a `double` to `float` yields the pattern of the IEEE rounding of the number: to
nearest, ties to even, with infinities and NaN kept. -/
theorem C125_value (w : Word64) : fl32 (narrow w) = rounded (fl64 w) := by
  rw [fl32_narrow]
  cases fl64 w <;> rfl

theorem largest : rnd32 tooLarge = 2 ^ 128 ∧ ∀ x, |x| < tooLarge → |rnd32 x| < 2 ^ 128 := by
  have h0 : rnd32 tooLarge = 2 ^ 128 := by decide +kernel
  refine ⟨h0, fun x hx => ?_⟩
  have key : ∀ y, y < tooLarge → rnd32 y < 2 ^ 128 := by
    intro y hy
    by_contra hcon
    push Not at hcon
    have hn := rne_nearest (p := 24) (qmin := -149) (by norm_num) y (k := 2 ^ 24 - 1) (e := 104) (by norm_num) (by norm_num)
    have e1 : (((2 ^ 24 - 1 : ℤ)) : ℚ) * pow2 104 = 2 ^ 128 - 2 ^ 104 := by
      rw [show (104 : ℤ) = ((104 : ℕ) : ℤ) from rfl, pow2_nat]
      norm_num
    rw [e1] at hn
    have hn' : |rnd32 y - y| ≤ |2 ^ 128 - 2 ^ 104 - y| := hn
    have hT : tooLarge = 2 ^ 128 - 2 ^ 103 := rfl
    rw [hT] at hy
    have e2 : (2 : ℚ) ^ 104 = 2 * 2 ^ 103 := by norm_num
    have e3 : (2 : ℚ) ^ 103 < 2 ^ 128 := by norm_num
    have e4 : (0 : ℚ) < 2 ^ 103 := by norm_num
    rw [e2] at hn'
    generalize (2 : ℚ) ^ 103 = a at *
    generalize (2 : ℚ) ^ 128 = b at *
    have h1 : b - y ≤ |rnd32 y - y| := by
      refine le_trans ?_ (le_abs_self _)
      linarith
    rcases abs_cases (b - 2 * a - y) with ⟨h, -⟩ | ⟨h, -⟩ <;> rw [h] at hn' <;> linarith
  obtain ⟨x1, x2⟩ := abs_lt.1 hx
  rw [abs_lt]
  refine ⟨?_, key x x2⟩
  have := key (-x) (by linarith)
  rw [show rnd32 (-x) = -rnd32 x from rne_neg x] at this
  linarith

/-- **C125.** A number below the threshold becomes a `float` to which no other one is nearer; beyond the threshold it becomes infinite. -/
theorem C125_nearest (w : Word64) {x : ℚ} (hx : fl64 w = .fin x) :
    (|x| < tooLarge → ∃ y, fl32 (narrow w) = .fin y ∧ Nearest x y) ∧
      (tooLarge ≤ x → fl32 (narrow w) = .pinf) ∧ (x ≤ -tooLarge → fl32 (narrow w) = .ninf) := by
  have hv := C125_value w
  rw [hx] at hv
  have hv' : fl32 (narrow w) = overflow (2 ^ 128) (rnd32 x) := hv
  refine ⟨fun h => ?_, fun h => ?_, fun h => ?_⟩
  · rw [overflow_of_lt (largest.2 x h)] at hv'
    refine ⟨_, hv', ⟨_, hv'⟩, fun v z hz => ?_⟩
    obtain ⟨k, e, hk, he, rfl⟩ := fl32_form hz
    exact rne_nearest (by norm_num) x hk he
  · have h1 : rnd32 tooLarge ≤ rnd32 x := rne_mono (by norm_num) h
    rw [largest.1] at h1
    rw [hv', overflow, if_pos h1]
  · have h1 : rnd32 x ≤ rnd32 (-tooLarge) := rne_mono (by norm_num) h
    rw [show rnd32 (-tooLarge) = -rnd32 tooLarge from rne_neg _, largest.1] at h1
    have h2 : ¬ (2 : ℚ) ^ 128 ≤ rnd32 x := by
      rw [not_le]
      refine lt_of_le_of_lt h1 (by norm_num)
    rw [hv', overflow, if_neg h2, if_pos h1]

/- 0.1 as a `double` is not a `float`; a `double` beyond the range of `float`. -/
example : fl64 0x3fb999999999999a#64 = .fin (3602879701896397 / 2 ^ 55) ∧ |(3602879701896397 / 2 ^ 55 : ℚ)| < tooLarge ∧
    fl32 (narrow 0x3fb999999999999a#64) ≠ fl64 0x3fb999999999999a#64 ∧
    fl64 0x47f0000000000000#64 = .fin (2 ^ 128) ∧ tooLarge ≤ 2 ^ 128 := by decide +kernel

/-! ### Layers and blocks from files -/

theorem rnd32_pos_iff {x : ℚ} : 0 < rnd32 x ↔ 1 / 2 ^ 150 < x := by
  constructor
  · intro h
    by_contra hcon
    push Not at hcon
    have h1 : rnd32 x ≤ rnd32 (1 / 2 ^ 150) := rne_mono (by norm_num) hcon
    have h2 : rnd32 (1 / 2 ^ 150) = 0 := by decide +kernel
    rw [h2] at h1
    linarith
  · intro h
    by_contra hcon
    push Not at hcon
    have hx : 0 < x := lt_trans (by norm_num) h
    have hn := rne_nearest (p := 24) (qmin := -149) (by norm_num) x (k := 1) (e := -149) (by norm_num) (by norm_num)
    have e1 : ((1 : ℤ) : ℚ) * pow2 (-149) = 2 * (1 / 2 ^ 150) := by
      rw [Int.cast_one, one_mul, show (-149 : ℤ) = -((149 : ℕ) : ℤ) from rfl, IndexF.pow2_neg 149]
      norm_num
    rw [e1] at hn
    have h1 : x ≤ |rnd32 x - x| := by
      rw [abs_sub_comm]
      refine le_trans ?_ (le_abs_self _)
      linarith
    have h2 : x ≤ |2 * (1 / 2 ^ 150) - x| := h1.trans hn
    have hpos : (0 : ℚ) < 1 / 2 ^ 150 := by norm_num
    generalize (1 / 2 ^ 150 : ℚ) = a at *
    rcases abs_cases (2 * a - x) with ⟨h3, -⟩ | ⟨h3, -⟩ <;> rw [h3] at h2 <;> linarith

/-- The headers from which a layer is made. -/
def Accepted (type : List Byte) (p : LayerProto) : Prop :=
  type = p.type ∧ 0 < p.vps ∧ (fl64 p.voxelSize = .pinf ∨ ∃ x, fl64 p.voxelSize = .fin x ∧ 1 / 2 ^ 150 < x)

variable {V : Type}

/-- **C125.** A layer is made from exactly those headers that name its type, have a positive side and a voxel size above 2^-150 — all
others abort, also those whose positive voxel size vanishes in `float`. The voxel size of the layer is the IEEE rounding of the one in the
header. -/
theorem C125_layer (env : Env V) (p : LayerProto) :
    (Accepted env.typeName p → ∃ l, layerFromProto env p = .ok l ∧ l.vps = p.vps ∧ l.blocks = [] ∧
      fl32 l.voxelSize = rounded (fl64 p.voxelSize)) ∧
    (¬ Accepted env.typeName p → layerFromProto env p = .fatal) := by
  have hv := C125_value p.voxelSize
  have size : (Fl.lt (.fin 0) (fl64 p.voxelSize) = true ∧ Fl.lt (.fin 0) (fl32 (narrow p.voxelSize)) = true) ↔
      (fl64 p.voxelSize = .pinf ∨ ∃ x, fl64 p.voxelSize = .fin x ∧ 1 / 2 ^ 150 < x) := by
    rw [hv]
    cases hx : fl64 p.voxelSize with
    | nan => simp [rounded, Fl.lt]
    | ninf => simp [rounded, Fl.lt]
    | pinf => simp [rounded, Fl.lt]
    | fin x =>
      have e : rounded (.fin x) = overflow (2 ^ 128) (rnd32 x) := rfl
      have hlt : Fl.lt (.fin 0) (overflow (2 ^ 128) (rnd32 x)) = true ↔ 0 < rnd32 x := by
        have hL : (0 : ℚ) < 2 ^ 128 := by norm_num
        unfold overflow
        generalize (2 : ℚ) ^ 128 = L at *
        split_ifs with h1 h2
        · simp only [Fl.lt, true_iff]; linarith
        · simp only [Fl.lt, Bool.false_eq_true, false_iff]; linarith
        · simp only [Fl.lt, decide_eq_true_eq]
      rw [e, hlt, rnd32_pos_iff]
      constructor
      · rintro ⟨-, h⟩
        exact .inr ⟨x, rfl, h⟩
      · rintro (h | ⟨y, hy, h⟩)
        · cases h
        · cases hy
          refine ⟨?_, h⟩
          simp only [Fl.lt, decide_eq_true_eq]
          exact lt_trans (by norm_num) h
  constructor
  · rintro ⟨h1, h2, h3⟩
    obtain ⟨s1, s2⟩ := size.2 h3
    refine ⟨⟨narrow p.voxelSize, p.vps, []⟩, ?_, rfl, rfl, hv⟩
    simp only [layerFromProto, Outcome.check, h1, h2, s1, s2, decide_true, Bool.and_self, if_true]
    rfl
  · intro h
    by_cases h1 : env.typeName = p.type
    · by_cases s1 : Fl.lt (.fin 0) (fl64 p.voxelSize) = true
      · by_cases s2 : Fl.lt (.fin 0) (fl32 (narrow p.voxelSize)) = true
        · have h2 : ¬ 0 < p.vps := fun h2 => h ⟨h1, h2, size.1 ⟨s1, s2⟩⟩
          simp only [layerFromProto, Outcome.check, h1, h2, s1, s2, decide_true, decide_false, Bool.and_false, if_true]
          rfl
        · simp only [layerFromProto, Outcome.check, h1, s1, Bool.not_eq_true _ ▸ s2, decide_true, Bool.false_and, if_true]
          rfl
      · simp only [layerFromProto, Outcome.check, h1, Bool.not_eq_true _ ▸ s1, decide_true, if_true]
        rfl
    · simp only [layerFromProto, Outcome.check, h1, decide_false]
      rfl

example : Accepted tsdfEnv.typeName ⟨0x3fb999999999999a#64, 16, tsdfEnv.typeName⟩ ∧
    ¬ Accepted tsdfEnv.typeName ⟨0x3690000000000000#64, 16, tsdfEnv.typeName⟩ := by
  have e1 : fl64 0x3fb999999999999a#64 = .fin (3602879701896397 / 2 ^ 55) := by decide +kernel
  have e2 : fl64 0x3690000000000000#64 = .fin (1 / 2 ^ 150) := by decide +kernel
  refine ⟨⟨rfl, by norm_num, .inr ⟨_, e1, by norm_num⟩⟩, ?_⟩
  rintro ⟨-, -, h | ⟨x, h, h2⟩⟩
  · rw [e2] at h; cases h
  · rw [e2] at h; cases h; exact lt_irrefl _ h2

/-- **C125.** The voxel size and the origin of a block made from a message are the IEEE roundings of the numbers in the message, whatever
they are. -/
theorem C125_block (env : Env V) (p : BlockProto) {b : Block Word V} (h : blockFromProto env p = .ok b) :
    fl32 b.voxelSize = rounded (fl64 p.voxelSize) ∧ fl32 b.origin.x = rounded (fl64 p.originX) ∧
      fl32 b.origin.y = rounded (fl64 p.originY) ∧ fl32 b.origin.z = rounded (fl64 p.originZ) := by
  unfold blockFromProto at h
  obtain ⟨-, -, h⟩ := Outcome.bind_eq_ok.1 h
  obtain ⟨v, -, h⟩ := Outcome.bind_eq_ok.1 h
  cases h
  exact ⟨C125_value _, C125_value _, C125_value _, C125_value _⟩

example : ∃ b, blockFromProto tsdfEnv (protoOf tsdfEnv (sampleBlock 0x40000000#32 0xbf800000#32 true 0x3f000000#32)) = .ok b :=
  ⟨sampleBlock 0x40000000#32 0xbf800000#32 true 0x3f000000#32, by decide +kernel⟩

/-- **C125.** A layer made from a header with a voxel size below 2 m is compatible with that header. The full statement, without the bound
on the size, is refuted by `C125_self_violated`. -/
theorem C125_self_compatible_partial (env : Env V) (p : LayerProto) {l : FLayer V} {x : ℚ} (h : layerFromProto env p = .ok l)
    (hx : fl64 p.voxelSize = .fin x) (h2 : x < 2) : isCompatibleLayer env l p = true := by
  have hacc : Accepted env.typeName p := by
    by_contra hn
    rw [(C125_layer env p).2 hn] at h
    cases h
  obtain ⟨l', hl', e1, -, e3⟩ := (C125_layer env p).1 hacc
  rw [h] at hl'
  cases hl'
  obtain ⟨ht, -, hs⟩ := hacc
  have hpos : 0 < x := by
    rcases hs with hs | ⟨y, hy, hlt⟩
    · rw [hx] at hs; cases hs
    · rw [hx] at hy
      cases hy
      exact lt_trans (by norm_num) hlt
  rw [hx] at e3
  have herr : |rnd32 x - x| < 1 / 2 ^ 23 := by
    have h1 := rne_error (p := 24) (qmin := -149) x
    have hl2 : ilog2 x < 1 := by
      obtain ⟨s1, -⟩ := ilog2_spec hpos.ne'
      rw [abs_of_pos hpos] at s1
      have h3 : pow2 (ilog2 x) < pow2 1 := lt_of_le_of_lt s1 (by norm_num [pow2]; exact h2)
      exact pow2_lt_iff.1 h3
    have h4 : pow2 (lastDigit 24 (-149) x) ≤ pow2 (-23) := pow2_le (by unfold lastDigit; push_cast; omega)
    have h5 : pow2 (-23) = 1 / 2 ^ 23 := IndexF.pow2_neg 23
    rw [h5] at h4
    have h6 : (0 : ℚ) < 1 / 2 ^ 23 := by norm_num
    have h1' : |rnd32 x - x| ≤ pow2 (lastDigit 24 (-149) x) / 2 := h1
    linarith
  have hfin : fl32 l.voxelSize = .fin (rnd32 x) := by
    rw [e3]
    refine overflow_of_lt ?_
    have := abs_lt.1 herr
    rw [abs_lt]
    constructor
    · have h6 : (1 : ℚ) / 2 ^ 23 < 2 ^ 128 := by norm_num
      linarith [this.1]
    · have h6 : (1 : ℚ) / 2 ^ 23 + 2 < 2 ^ 128 := by norm_num
      linarith [this.2]
  have hclose : closeVoxelSize p.voxelSize l.voxelSize = true := by
    simp only [closeVoxelSize, hx, hfin, decide_eq_true_eq]
    rwa [abs_sub_comm]
  simp only [isCompatibleLayer, hclose, e1, ht, decide_true, Bool.and_self]

example : ∃ l, layerFromProto tsdfEnv ⟨0x3fb999999999999a#64, 16, tsdfEnv.typeName⟩ = .ok l ∧
    fl64 0x3fb999999999999a#64 = .fin (3602879701896397 / 2 ^ 55) ∧ (3602879701896397 / 2 ^ 55 : ℚ) < 2 :=
  ⟨⟨narrow 0x3fb999999999999a#64, 16, []⟩, by decide +kernel, by decide +kernel, by norm_num⟩

/-- **C125, large voxels.** A header with the voxel size 2 + 2^-23, written by a program that works in `double`, makes a layer that is not
compatible with that same header. -/
theorem C125_self_violated : ∃ l, layerFromProto tsdfEnv ⟨0x4000000010000000#64, 16, tsdfEnv.typeName⟩ = .ok l ∧
    isCompatibleLayer tsdfEnv l ⟨0x4000000010000000#64, 16, tsdfEnv.typeName⟩ = false ∧
    fl64 0x4000000010000000#64 = .fin (2 + 1 / 2 ^ 23) :=
  ⟨⟨narrow 0x4000000010000000#64, 16, []⟩, by decide +kernel, by decide +kernel, by decide +kernel⟩

/-- **C125, infinite voxels.** A finite voxel size beyond the range of `float` passes all checks and makes a layer of infinite voxels. -/
theorem C125_infinite_violated : ∃ l, layerFromProto tsdfEnv ⟨0x47f0000000000000#64, 16, tsdfEnv.typeName⟩ = .ok l ∧
    fl64 0x47f0000000000000#64 = .fin (2 ^ 128) ∧ fl32 l.voxelSize = .pinf :=
  ⟨⟨narrow 0x47f0000000000000#64, 16, []⟩, by decide +kernel, by decide +kernel, by decide +kernel⟩

end Vox.C125
