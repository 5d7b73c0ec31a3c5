/-
The traversal in `float` without a condition on the end point: everything but the last tolerances of the segment is covered.
-/
import Verif.Lemmas.RayFloat

namespace Vox.Ray

open Fl Spec Ieee IndexF

open RoundErr (u_eq eta_eq rnd32_nonneg rnd32_mono rnd_fin)

/-- The end of the segment lies in the cell reached after `g i` steps along axis `i`, up to the tolerance. -/
def EndNear (R W : Fin 3 → ℚ) (η : ℚ) (g : Fin 3 → ℕ) : Prop := ∀ i, R i ≤ W i + g i + η

theorem emit_cover {R W : Fin 3 → ℚ} {sg : Fin 3 → ℤ} {S : Idx} {tol η : ℚ} {g : Fin 3 → ℕ} {L : ℕ} (hz : Sizes R W tol) (hη : tol ≤ η)
    (hL : L ≤ 2 ^ 11) (hE : u * errB L ≤ η) (he : EndNear R W η g) (hg : g 0 + g 1 + g 2 = L) (m : ℕ) :
    ∀ (b : Body) (q : Fin 3 → ℚ) (n : Fin 3 → ℕ) (T : ℚ), InvF R W sg S b q n → PosF R W η q n T → n 0 + n 1 + n 2 + m = L →
      ∀ t, T ≤ t → (∀ i, 2 * η ≤ R i * (1 - t)) →
        ∃ c ∈ emit float32 (m + 1) b, ∃ n' : Fin 3 → ℕ, (∀ i, at3 c i = at3 S i + sg i * n' i) ∧ InF R W η n' t := by
  have hno : ∀ n : Fin 3 → ℕ, n 0 + n 1 + n 2 ≤ L → ∀ i, n i ≤ L := by
    intro n hn i
    have hi : i = 0 ∨ i = 1 ∨ i = 2 := by omega
    rcases hi with rfl | rfl | rfl <;> omega
  induction m with
  | zero =>
    intro b q n T hI hp hs t ht hend
    have hEn : ∀ i, u * errB (n i) ≤ η := fun i =>
      (mul_le_mul_of_nonneg_left (errB_mono (hno n (by omega) i)) (by rw [u_eq]; norm_num)).trans hE
    have hin := posF_in hz hI hη hEn hp
    refine ⟨b.curr, by simp [emit], n, hI.cur, ?_⟩
    by_cases hover : ∃ i, g i + 1 ≤ n i
    · obtain ⟨i, hi⟩ := hover
      have hR0 : 0 < R i := lt_of_lt_of_le (by norm_num) (hz.low i)
      have h1 := hp.low i
      have h2 := he i
      have h3 := hend i
      have h4 : (g i : ℚ) + 1 ≤ n i := by exact_mod_cast hi
      have h5 : R i * t ≤ R i * T := by linarith
      have h6 : t = T := le_antisymm (le_of_mul_le_mul_left h5 hR0) ht
      rw [h6]
      exact hin
    · push Not at hover
      have heq : ∀ i, n i = g i := by
        have a0 := hover 0
        have a1 := hover 1
        have a2 := hover 2
        intro i
        have hi : i = 0 ∨ i = 1 ∨ i = 2 := by omega
        rcases hi with rfl | rfl | rfl <;> omega
      intro i
      have hR0 : 0 < R i := lt_of_lt_of_le (by norm_num) (hz.low i)
      have h1 := mul_le_mul_of_nonneg_left ht hR0.le
      have h2 := hend i
      have h3 := (hin i).1
      have h4 := he i
      have h5 : (n i : ℚ) = g i := by rw [heq i]
      have h6 := hEn i
      have h7 : 0 ≤ u * errB (n i) := mul_nonneg (by rw [u_eq]; norm_num) (by unfold errB; positivity)
      exact ⟨by linarith, by linarith⟩
  | succ m ih =>
    intro b q n T hI hp hs t ht hend
    have hEn : ∀ i, u * errB (n i) ≤ η := fun i =>
      (mul_le_mul_of_nonneg_left (errB_mono (hno n (by omega) i)) (by rw [u_eq]; norm_num)).trans hE
    have hin := posF_in hz hI hη hEn hp
    have hmin := minCoeffIdx_min hI.t
    obtain ⟨q', hI', hq1, hq2⟩ := invF_advance hz hI (by
      have hi3 : minCoeffIdx b.t = 0 ∨ minCoeffIdx b.t = 1 ∨ minCoeffIdx b.t = 2 := by omega
      rcases hi3 with h | h | h <;> rw [h] <;> omega)
    generalize hi : minCoeffIdx b.t = i at *
    have hT'le : ∀ k, max T (q i) ≤ max (q k) 0 := fun k => max_le (hp.le k) ((hmin k).trans (le_max_left _ _))
    have hp' : PosF R W η q' (Function.update n i (n i + 1)) (max T (q i)) := by
      refine ⟨hp.nonneg.trans (le_max_left _ _), ?_, ?_⟩
      · intro k
        by_cases hk : k = i
        · subst hk
          exact (hT'le k).trans (max_le_max hq1 le_rfl)
        · rw [hq2 k hk]
          exact hT'le k
      · intro k
        have hR0 : 0 < R k := lt_of_lt_of_le (by norm_num) (hz.low k)
        by_cases hk : k = i
        · subst hk
          rw [Function.update_self]
          push_cast
          have h1 := (abs_le.1 (hI.err k)).1
          have h2 := mul_le_mul_of_nonneg_left (le_max_right T (q k)) hR0.le
          have h3 := hEn k
          linarith
        · rw [Function.update_of_ne hk]
          have h2 := mul_le_mul_of_nonneg_left (le_max_left T (q i)) hR0.le
          have := hp.low k
          linarith
    have hs' : Function.update n i (n i + 1) 0 + Function.update n i (n i + 1) 1 + Function.update n i (n i + 1) 2 + m = L := by
      have hi3 : i = 0 ∨ i = 1 ∨ i = 2 := by omega
      rcases hi3 with rfl | rfl | rfl <;> simp [Function.update] <;> omega
    have hcons : emit float32 (m + 1 + 1) b = b.curr :: emit float32 (m + 1) (advance float32 b) := rfl
    rw [hcons]
    rcases le_total t (max T (q i)) with h2 | h2
    · refine ⟨b.curr, by simp, n, hI.cur, fun k => ?_⟩
      have hR0 : 0 < R k := lt_of_lt_of_le (by norm_num) (hz.low k)
      have h3 := mul_le_mul_of_nonneg_left ht hR0.le
      exact ⟨by linarith [hp.low k], below_next hz hI hη (hEn k) (h2.trans (hT'le k))⟩
    · obtain ⟨c, hc1, hc2⟩ := ih _ q' _ _ hI' hp' hs' t h2 hend
      exact ⟨c, by simp [hc1], hc2⟩

theorem end_near {s e : Pt} {X η : ℚ} (he : CoordsWithin X e) (hX : X ≤ 2 ^ 20) (hr : ApartBy (1 / 2 ^ 60) s e) (hη : tolG X ≤ η) :
    EndNear (axR s e) (axW s e) η (fun i => (rayIdx (at3 e i) - rayIdx (at3 s i)).natAbs) := by
  intro i
  have hend := end_axis hr i
  obtain ⟨-, h1, h2, -⟩ := grid_axis (coords_at he i) hX
  have hne : at3 e i - at3 s i ≠ 0 := by
    intro h
    have := apart_at hr i
    rw [h] at this
    norm_num at this
  simp only
  generalize (rayIdx (at3 e i) - rayIdx (at3 s i)).natAbs = g at *
  have hcast : (rayIdx (at3 e i) : ℚ) = rayIdx (at3 s i) + (axS s e i : ℚ) * (g : ℚ) := by exact_mod_cast hend
  unfold axS signum at hcast
  unfold axR axW w0
  rcases lt_or_gt_of_ne hne with h | h
  · have hs : (if at3 e i - at3 s i = 0 then (0 : ℤ) else if at3 e i - at3 s i < 0 then -1 else 1) = -1 := by
      rw [if_neg hne, if_pos h]
    rw [abs_of_neg h, if_neg (by linarith)]
    simp only [hs] at hcast
    push_cast at hcast
    linarith
  · have hs : (if at3 e i - at3 s i = 0 then (0 : ℤ) else if at3 e i - at3 s i < 0 then -1 else 1) = 1 := by
      rw [if_neg hne, if_neg (by linarith)]
    rw [abs_of_pos h, if_pos h]
    simp only [hs] at hcast
    push_cast at hcast
    linarith

/-- The whole traversal, whatever the end point. -/
theorem cast_cover {s e : Pt} {X : ℚ} {N : ℕ} (hs : CoordsWithin X s) (he : CoordsWithin X e) (hX : X ≤ 2 ^ 20)
    (hr : ApartBy (1 / 2 ^ 60) s e) (hN : l1length s e + 4 ≤ N) (hN2 : N ≤ 2 ^ 11) :
    ∃ l, (∀ n, N + 2 ≤ n → castRay float32 (s.map .fin) (e.map .fin) n = .ok (some l)) ∧ castAll float32 (s.map .fin) (e.map .fin) = .ok l ∧
      l.length ≤ N + 1 ∧
      ∀ t, 0 ≤ t → (∀ i, 2 * rayTol X N ≤ |at3 e i - at3 s i| * (1 - t)) → ∃ c ∈ l, NearUnitCell (rayTol X N) c (segPoint s e t) := by
  have hX0 : 0 ≤ X := (abs_nonneg _).trans hs.1
  obtain ⟨tol1, tol2⟩ := rayTol_ge hX0 N
  have hend := end_near he hX hr tol1
  have hL := steps_le hs he hX hN
  have hz := sizes_float hs he hX hr
  obtain ⟨b, q, hset, hb0, hcur, hI⟩ := setup_float hs he hX hr (by omega)
  have hpos : PosF (axR s e) (axW s e) (rayTol X N) q (fun _ => 0) 0 := by
    refine ⟨le_rfl, fun i => le_max_right _ _, fun i => ?_⟩
    have := hz.whigh i
    simp only [Nat.cast_zero, mul_zero]
    linarith
  have hE2 : u * errB (l1dist (s.map rayIdx) (e.map rayIdx)) ≤ rayTol X N :=
    (mul_le_mul_of_nonneg_left (errB_mono hL) (by rw [u_eq]; norm_num)).trans tol2
  have hcov := emit_cover (L := l1dist (s.map rayIdx) (e.map rayIdx)) hz tol1 (by omega) hE2 hend rfl
    (l1dist (s.map rayIdx) (e.map rayIdx)) b q (fun _ => 0) 0 hI hpos (by simp)
  have hloop : ∀ n, l1dist (s.map rayIdx) (e.map rayIdx) + 2 ≤ n → castLoop float32 n
      { len := l1dist (s.map rayIdx) (e.map rayIdx), body := some b } =
      .ok (some (emit float32 (l1dist (s.map rayIdx) (e.map rayIdx) + 1) b)) :=
    fun n hn => castLoop_emit float32 _ (by omega) _ n b (by omega) (by omega)
  refine ⟨emit float32 (l1dist (s.map rayIdx) (e.map rayIdx) + 1) b, ?_, ?_, by rw [emit_length]; omega, ?_⟩
  · intro n hn
    unfold castRay
    rw [hset]
    exact hloop n (by omega)
  · unfold castAll
    rw [hset, Outcome.bind_ok]
    show (castLoop float32 (l1dist (s.map rayIdx) (e.map rayIdx) + 2) _ >>= _) = _
    rw [hloop _ le_rfl]
    rfl
  · intro t h0 h1
    obtain ⟨c', hc', n', h2, h3⟩ := hcov t h0 h1
    exact ⟨c', hc', near_of_axis (in_axis hr h3 h2)⟩

end Vox.Ray
