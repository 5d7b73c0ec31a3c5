/-
Channels and normals of markers.
-/
import Verif.Model.MeshMarker
import Verif.Spec.MeshMarker
import Verif.Lemmas.MeshColorMsg
import Verif.Lemmas.MeshConnect

namespace Vox.MeshMsg

open MC MeshInt Spec Ieee

/-! ### Channels -/

set_option maxRecDepth 100000 in
theorem near_table : ∀ c : Fin 256,
    (match channelToMsg (BitVec.ofFin c) with | .fin q => decide (|q - (c.val : ℚ) / 255| ≤ 1 / 2 ^ 25) | _ => false) = true := by
  decide +kernel

theorem channel_near (c : BitVec 8) : FloatNear (channelToMsg c) ((c.toNat : ℚ) / 255) (1 / 2 ^ 25) := by
  have h := near_table c.toFin
  have e : (BitVec.ofFin c.toFin : BitVec 8) = c := rfl
  rw [e] at h
  cases hc : channelToMsg c with
  | fin q => rw [hc] at h; exact ⟨q, rfl, of_decide_eq_true h⟩
  | _ => rw [hc] at h; cases h

theorem ambient_least : ∃ q, float32.rnd (2 / 10) = .fin q ∧ 1 / 5 ≤ q ∧ rnd32 q = q ∧ q ≤ 1 := by
  have h : (match float32.rnd (2 / 10) with | .fin q => decide (1 / 5 ≤ q ∧ rnd32 q = q ∧ q ≤ 1) | _ => false) = true := by decide +kernel
  split at h
  · next q e => exact ⟨q, e, of_decide_eq_true h⟩
  · cases h

/-- A channel of shaded colour is at least the ambient light. -/
theorem lit_least {f1 f2 c : ℚ} (h1 : 0 ≤ f1) (g1 : f1 ≤ 60) (h2 : 0 ≤ f2) (g2 : f2 ≤ 60) (c0 : 0 ≤ c) (c1 : c ≤ 1) :
    Channel (1 / 5) ((fun x => if Fl.lt (.fin 1) x then .fin 1 else x)
      (float32.add (float32.add (float32.mul (.fin f1) (.fin c)) (float32.mul (.fin f2) (.fin c))) (float32.rnd (2 / 10)))) := by
  obtain ⟨amb, ea, a0, ai, a1⟩ := ambient_least
  have bf : ∀ {f : ℚ}, 0 ≤ f → f ≤ 60 → Bounded 60 (.fin f) := fun h g => ⟨_, rfl, by rw [abs_of_nonneg h]; exact g⟩
  have bc : Bounded 1 (.fin c) := ⟨_, rfl, by rw [abs_of_nonneg c0]; exact c1⟩
  have m1 := bounded_mul (by norm_num) (bf h1 g1) bc (by norm_num)
  have m2 := bounded_mul (by norm_num) (bf h2 g2) bc (by norm_num)
  have ba : Bounded 1 (float32.rnd (2 / 10)) := ⟨amb, ea, by rw [abs_of_nonneg (by linarith)]; exact a1⟩
  obtain ⟨q, e, -⟩ := bounded_add (bounded_add m1 m2 (by norm_num)) ba (by norm_num)
  have hq : 1 / 5 ≤ q := by
    obtain ⟨s, t, hs, ht, rfl⟩ := add_fin e
    obtain ⟨s1, s2, hs1, hs2, rfl⟩ := add_fin hs
    have k1 : 0 ≤ s1 := by rw [rnd_fin hs1]; exact rne_nonneg (mul_nonneg h1 c0)
    have k2 : 0 ≤ s2 := by rw [rnd_fin hs2]; exact rne_nonneg (mul_nonneg h2 c0)
    have k3 : 0 ≤ rnd32 (s1 + s2) := rne_nonneg (add_nonneg k1 k2)
    obtain rfl := Fl.fin.inj (ea.symm.trans ht)
    have := rnd32_mono (show amb ≤ rnd32 (s1 + s2) + amb by linarith)
    rw [ai] at this
    linarith
  rw [e]
  by_cases hc : 1 < q
  · exact ⟨1, by simp [Fl.lt, hc], by norm_num, le_rfl⟩
  · exact ⟨q, by simp [Fl.lt, hc], hq, by linarith⟩

theorem lambert_channels (c : Color) {n : Vec3 Fl} (hn : GoodNormal n) :
    Channel (1 / 5) (lambertColor c n).x ∧ Channel (1 / 5) (lambertColor c n).y ∧ Channel (1 / 5) (lambertColor c n).z := by
  obtain ⟨f1, e1, a1, b1⟩ := shade hn (d := lightDir) (by simp)
  obtain ⟨f2, e2, a2, b2⟩ := shade hn (d := lightDir2) (by simp)
  obtain ⟨cr, er, r0, r1⟩ := channel_unit c.r
  obtain ⟨cg, eg, g0, g1⟩ := channel_unit c.g
  obtain ⟨cb, eb, b0, b1'⟩ := channel_unit c.b
  have hr := lit_least a1 b1 a2 b2 r0 r1
  have hg := lit_least a1 b1 a2 b2 g0 g1
  have hb := lit_least a1 b1 a2 b2 b0 b1'
  have k : lambertColor c n = ⟨(fun x => if Fl.lt (.fin 1) x then .fin 1 else x)
      (float32.add (float32.add (float32.mul (.fin f1) (.fin cr)) (float32.mul (.fin f2) (.fin cr))) (float32.rnd (2 / 10))),
      (fun x => if Fl.lt (.fin 1) x then .fin 1 else x)
      (float32.add (float32.add (float32.mul (.fin f1) (.fin cg)) (float32.mul (.fin f2) (.fin cg))) (float32.rnd (2 / 10))),
      (fun x => if Fl.lt (.fin 1) x then .fin 1 else x)
      (float32.add (float32.add (float32.mul (.fin f1) (.fin cb)) (float32.mul (.fin f2) (.fin cb))) (float32.rnd (2 / 10)))⟩ := by
    unfold lambertColor lambertShading
    dsimp only
    rw [e1, e2]
    unfold colorToMsg
    rw [er, eg, eb]
    rfl
  rw [k]
  exact ⟨hr, hg, hb⟩

theorem rnd64_small {x : ℚ} (h : |x| ≤ 300) : |rnd64 x - x| ≤ 1 / 2 ^ 40 := by
  rcases eq_or_ne x 0 with rfl | hx
  · unfold rnd64; rw [rne_zero]; simp
  have herr := rne_error (p := 53) (qmin := -1074) x
  have h1 := (ilog2_spec hx).1
  have h2 : ilog2 x < 9 := pow2_lt_iff.1 (lt_of_le_of_lt (h1.trans h) (by have := IndexF.pow2_pos_nat 9; push_cast at this; rw [this]; norm_num))
  have hl : lastDigit 53 (-1074) x ≤ -40 := by unfold lastDigit; push_cast; omega
  have e := pow2_le hl
  have e' := IndexF.pow2_neg 40
  push_cast at e'
  rw [e'] at e
  unfold rnd64
  have : (0 : ℚ) < 1 / 2 ^ 40 := by positivity
  linarith

theorem rnd64_ok {x : ℚ} (h : |x| ≤ 300) : float64.rnd x = .fin (rnd64 x) := by
  have e := abs_le.1 (rnd64_small h)
  have e' := abs_le.1 h
  have k : (1 : ℚ) / 2 ^ 40 ≤ 1 := by norm_num
  have h301 : |rnd64 x| ≤ 301 := abs_le.2 ⟨by linarith, by linarith⟩
  refine overflow_of_lt (lt_of_le_of_lt h301 ?_)
  calc (301 : ℚ) < 2 ^ 10 := by norm_num
    _ ≤ 2 ^ 1024 := pow_le_pow_right₀ (by norm_num) (by norm_num)

/-- One channel of a normal. -/
theorem normal_channel {x : ℚ} (h : |x| ≤ 257 / 256) :
    FloatNear (toFloat (float64.add (float64.mul (.fin x) (.fin (1 / 2))) (.fin (1 / 2)))) (x / 2 + 1 / 2) (1 / 2 ^ 23) := by
  have hx := abs_le.1 h
  have k : (1 : ℚ) / 2 ^ 40 ≤ 1 / 1000000000000 := by norm_num
  have b1 : |x * (1 / 2)| ≤ 300 := abs_le.2 ⟨by linarith, by linarith⟩
  have m1 : float64.mul (.fin x) (.fin (1 / 2)) = .fin (rnd64 (x * (1 / 2))) := rnd64_ok b1
  have e1 := abs_le.1 (rnd64_small b1)
  have b2 : |rnd64 (x * (1 / 2)) + 1 / 2| ≤ 300 := abs_le.2 ⟨by linarith, by linarith⟩
  have m2 : float64.add (.fin (rnd64 (x * (1 / 2)))) (.fin (1 / 2)) = .fin (rnd64 (rnd64 (x * (1 / 2)) + 1 / 2)) := rnd64_ok b2
  have e2 := abs_le.1 (rnd64_small b2)
  rw [m1, m2]
  generalize rnd64 (rnd64 (x * (1 / 2)) + 1 / 2) = z at e2
  generalize rnd64 (x * (1 / 2)) = y at e1 e2
  have bz : |z| ≤ 101 / 100 := abs_le.2 ⟨by linarith, by linarith⟩
  have er := IndexF.rnd32_err z
  have hu : IndexF.u * |z| ≤ 1 / 2 ^ 24 * (101 / 100) := mul_le_mul_of_nonneg_left bz (by unfold IndexF.u; positivity)
  have heta := eta_small
  have er' := abs_le.1 (er.trans (show _ ≤ (1 : ℚ) / 2 ^ 24 * (101 / 100) + 1 / 16777216 / 10000000 / 2 ^ 60 by linarith))
  refine ⟨rnd32 z, rnd_of_lt ?_, ?_⟩
  · have : |rnd32 z| ≤ 2 := by
      have := abs_le.1 bz
      refine abs_le.2 ⟨?_, ?_⟩ <;> · norm_num at er' ⊢; linarith
    exact lt_of_le_of_lt this (by norm_num)
  · refine abs_le.2 ⟨?_, ?_⟩ <;> · norm_num at er' k ⊢; norm_num at e1 e2; linarith

/-- A channel converts to a byte. -/
theorem fromMsg_defined {q : ℚ} (h0 : -(1 / 300) ≤ q) (h1 : q ≤ 1 + 1 / 300) : ∃ c, channelFromMsg (.fin q) = .ok c := by
  have b : |q * 255| ≤ 300 := abs_le.2 ⟨by linarith, by linarith⟩
  have e := abs_le.1 (rnd64_small b)
  have m : float64.mul (.fin q) (.fin 255) = .fin (rnd64 (q * 255)) := rnd64_ok b
  have k : (1 : ℚ) / 2 ^ 40 ≤ 1 / 1000 := by norm_num
  unfold channelFromMsg
  rw [m]
  unfold toByte ColorMap.toByte
  dsimp only
  rw [if_pos ⟨by linarith, by linarith⟩]
  exact ⟨_, rfl⟩

/-- All three channels convert. -/
def Converts (c : ColorMsg) : Prop :=
  (∃ b, channelFromMsg c.x = .ok b) ∧ (∃ b, channelFromMsg c.y = .ok b) ∧ ∃ b, channelFromMsg c.z = .ok b

theorem converts_channel {lo : ℚ} (h0 : 0 ≤ lo) {x : Fl} (h : Channel lo x) : ∃ b, channelFromMsg x = .ok b := by
  obtain ⟨q, rfl, h1, h2⟩ := h
  exact fromMsg_defined (by linarith) (by linarith)

theorem converts_near {x : Fl} {v : ℚ} (h : FloatNear x v (1 / 2 ^ 23)) (h0 : -(1 / 500) ≤ v) (h1 : v ≤ 1 + 1 / 500) :
    ∃ b, channelFromMsg x = .ok b := by
  obtain ⟨q, rfl, h⟩ := h
  have := abs_le.1 h
  norm_num at this
  exact fromMsg_defined (by linarith) (by linarith)

theorem good_of_near {n : Vec3 Fl} (h : NearUnit n) : GoodNormal n := by
  obtain ⟨w, rfl, h1, h2, h3⟩ := h
  exact ⟨⟨_, rfl, by linarith⟩, ⟨_, rfl, by linarith⟩, ⟨_, rfl, by linarith⟩⟩

theorem heightColor_channels (z : ℚ) : ∃ c : Color, heightColor (.fin z) = .ok (colorToMsg c) := by
  obtain ⟨c, hc, -⟩ := heightColor_bytes z
  have h := hc
  unfold heightColor at h
  dsimp only at h
  split at h
  · obtain ⟨o, -, h⟩ := Outcome.bind_eq_ok.1 h
    exact ⟨o, hc.trans (by rw [← Outcome.ok.inj h])⟩
  · cases h

theorem unit_channel (c : BitVec 8) : Channel 0 (channelToMsg c) := channel_unit c

theorem alpha_255 : channelToMsg 255 = .fin 1 := by decide +kernel

end Vox.MeshMsg
