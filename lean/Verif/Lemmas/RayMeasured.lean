/-
The ray through a measured point in `float` visits the voxel of the point.
-/
import Verif.Lemmas.RayEnds

namespace Vox.RayEnds

open Fl Spec Ieee Ray
open IndexF (u eta rnd32_err)
open RoundErr (u_eq eta_eq)

theorem inside_unique {η : ℚ} {c v : Idx} {q : Pt} (h : NearUnitCell η c q) (hv : InsideBy η v q) : c = v := by
  obtain ⟨⟨x1, x2⟩, ⟨y1, y2⟩, ⟨z1, z2⟩⟩ := h
  obtain ⟨⟨x3, x4⟩, ⟨y3, y4⟩, ⟨z3, z4⟩⟩ := hv
  have key : ∀ (a b : ℤ) (q m : ℚ), (a : ℚ) - m ≤ q → q ≤ a + 1 + m → (b : ℚ) + m < q → q < b + 1 - m → a = b := by
    intro a b q m h1 h2 h3 h4
    have h5 : (b : ℚ) < a + 1 := by linarith
    have h6 : (a : ℚ) < b + 1 := by linarith
    have h5' : b < a + 1 := by exact_mod_cast h5
    have h6' : a < b + 1 := by exact_mod_cast h6
    omega
  exact Vec3.ext (key _ _ _ _ x1 x2 x3 x4) (key _ _ _ _ y1 y2 y3 y4) (key _ _ _ _ z1 z2 z3 z4)

/-- A traversal between points close to `A` and `B` visits the voxel of a point of the segment from `A` to `B`. -/
theorem cover_point {a b : Pt} {A B : Fin 3 → ℚ} {X ε t : ℚ} {N : ℕ} {v : Idx} {p : Pt} (ha : CoordsWithin X a) (hb : CoordsWithin X b) (hX : X ≤ 2 ^ 20)
    (hN : l1length a b + 4 ≤ N) (hN2 : N ≤ 2 ^ 11) (hε : 0 ≤ ε) (hA : ∀ i, |at3 a i - A i| ≤ ε) (hB : ∀ i, |at3 b i - B i| ≤ ε)
    (ht0 : 0 ≤ t) (ht1 : t ≤ 1) (hp : ∀ i, at3 p i = A i + t * (B i - A i)) (hv : InsideBy (rayTol X N + ε) v p)
    (hd : ∀ i, 2 * (rayTol X N + ε) ≤ |B i - A i| * (1 - t)) :
    ∃ l, castAll float32 (a.map .fin) (b.map .fin) = .ok l ∧ l.length ≤ N + 1 ∧ v ∈ l := by
  have hX0 : 0 ≤ X := (abs_nonneg _).trans ha.1
  have htol : 1 / 2 ^ 20 ≤ rayTol X N + 1 / 2 ^ 22 := by
    unfold rayTol
    have : (0 : ℚ) ≤ (N : ℚ) ^ 2 := by positivity
    have h2 : (0 : ℚ) ≤ N := Nat.cast_nonneg N
    norm_num
    linarith
  have hba : ∀ i, |B i - A i| - 2 * ε ≤ |at3 b i - at3 a i| := by
    intro i
    have h1 := abs_add_three (B i - at3 b i) (at3 b i - at3 a i) (at3 a i - A i)
    have e : B i - at3 b i + (at3 b i - at3 a i) + (at3 a i - A i) = B i - A i := by ring
    rw [e, abs_sub_comm (B i) (at3 b i)] at h1
    have := hA i
    have := hB i
    linarith
  have hd' : ∀ i, 2 * rayTol X N ≤ |at3 b i - at3 a i| * (1 - t) := by
    intro i
    have h1 := mul_le_mul_of_nonneg_right (hba i) (sub_nonneg.2 ht1)
    have h2 : 2 * ε * (1 - t) ≤ 2 * ε := by nlinarith
    have h3 := hd i
    have e : (|B i - A i| - 2 * ε) * (1 - t) = |B i - A i| * (1 - t) - 2 * ε * (1 - t) := by ring
    linarith
  have hap : ∀ i, 1 / 2 ^ 60 ≤ |at3 b i - at3 a i| := by
    intro i
    have h1 := hd' i
    have h2 : |at3 b i - at3 a i| * (1 - t) ≤ |at3 b i - at3 a i| * 1 := mul_le_mul_of_nonneg_left (by linarith) (abs_nonneg _)
    norm_num at *
    linarith
  obtain ⟨l, -, h2, h3, h4⟩ := cast_cover ha hb hX ⟨hap 0, hap 1, hap 2⟩ hN hN2
  refine ⟨l, h2, h3, ?_⟩
  obtain ⟨c, hc, hcn⟩ := h4 t ht0 hd'
  have hseg : ∀ i, |at3 a i + t * (at3 b i - at3 a i) - at3 p i| ≤ ε := by
    intro i
    rw [hp i]
    have e : at3 a i + t * (at3 b i - at3 a i) - (A i + t * (B i - A i)) = (1 - t) * (at3 a i - A i) + t * (at3 b i - B i) := by ring
    rw [e]
    have h1 := abs_add_le ((1 - t) * (at3 a i - A i)) (t * (at3 b i - B i))
    rw [abs_mul, abs_mul, abs_of_nonneg ht0, abs_of_nonneg (sub_nonneg.2 ht1)] at h1
    have h5 := mul_le_mul_of_nonneg_left (hA i) (sub_nonneg.2 ht1)
    have h6 := mul_le_mul_of_nonneg_left (hB i) ht0
    linarith
  have hin : InsideBy (rayTol X N) v (segPoint a b t) := by
    obtain ⟨⟨x3, x4⟩, ⟨y3, y4⟩, ⟨z3, z4⟩⟩ := hv
    obtain ⟨sx1, sx2⟩ := abs_le.1 (hseg 0)
    obtain ⟨sy1, sy2⟩ := abs_le.1 (hseg 1)
    obtain ⟨sz1, sz2⟩ := abs_le.1 (hseg 2)
    simp only [at3] at sx1 sx2 sy1 sy2 sz1 sz2
    refine ⟨⟨?_, ?_⟩, ⟨?_, ?_⟩, ⟨?_, ?_⟩⟩ <;> simp only [segPoint] <;> linarith
  rwa [← inside_unique hcn hin]

theorem at3_map (p : Pt) (f : ℚ → ℚ) (i : Fin 3) : at3 (p.map f) i = f (at3 p i) := by
  match i with
  | 0 => rfl
  | 1 => rfl
  | 2 => rfl

theorem within_of_at {X : ℚ} {p : Pt} (h : ∀ i, |at3 p i| ≤ X) : CoordsWithin X p := ⟨h 0, h 1, h 2⟩

theorem l1length_le {a b : Pt} {f : Fin 3 → ℚ} (h : ∀ i, |at3 b i - at3 a i| ≤ f i) : l1length a b ≤ f 0 + f 1 + f 2 := by
  have h0 := h 0
  have h1 := h 1
  have h2 := h 2
  simp only [at3] at h0 h1 h2
  unfold l1length
  linarith

theorem l1length_comm (a b : Pt) : l1length a b = l1length b a := by
  unfold l1length
  rw [abs_sub_comm b.x, abs_sub_comm b.y, abs_sub_comm b.z]

theorem measured_visited {P : TsdfScan.Params} {o p : Pt} {s T X : ℚ} {N : ℕ} (hT : P.tsdf.truncation = .fin T) (hT0 : 0 < T)
    (hs : 1 / 2 ^ 20 ≤ s) (hs2 : s ≤ 2 ^ 10) (hX1 : 2 ≤ X) (hX : X ≤ 2 ^ 20) (ho : CoordsWithin ((X - 1) * s) o)
    (hp : CoordsWithin ((X - 1) * s - 101 / 100 * T) p) (hN : rayReach P.carving T o p / s + 7 ≤ N) (hN2 : N ≤ 2 ^ 11)
    (hd1 : ApartBy (2 * fusedTol X N * s) o p) (hd2 : ApartBy (3 * fusedTol X N * s / T * l1length o p) o p) {v : Idx}
    (hv : InsideBy (fusedTol X N) v (p.map (· / s))) (fromOrigin : Bool) :
    ∃ l, TsdfScan.rayVoxels float32 P s (o.map .fin) (p.map .fin) false fromOrigin = .ok l ∧ l.length ≤ N + 1 ∧ v ∈ l := by
  have hs0 : 0 < s := lt_of_lt_of_le (by norm_num) hs
  have hm : fusedTol X N = rayTol X N + X / 2 ^ 21 := rfl
  have hm0 : 1 / 2 ^ 20 ≤ fusedTol X N := by
    unfold fusedTol rayTol
    have : (0 : ℚ) ≤ (N : ℚ) ^ 2 := by positivity
    have h2 : (0 : ℚ) ≤ N := Nat.cast_nonneg N
    norm_num
    linarith
  have hl : ApartBy (1 / 2 ^ 39) o p := by
    have h1 : 1 / 2 ^ 39 ≤ 2 * fusedTol X N * s := by
      have := mul_le_mul hm0 hs (by norm_num) (le_trans (by norm_num) hm0)
      norm_num at this ⊢
      linarith
    exact ⟨h1.trans hd1.1, h1.trans hd1.2.1, h1.trans hd1.2.2⟩
  obtain ⟨a, b, lam, l0, l1, l2, ea, eb, da, db⟩ := ends_float (X := X - 1) hT hT0 hs hs2 (by linarith) (by linarith) ho hp hl
  have hL0 : 0 < l1length o p := by
    have := apart_at hl 0
    simp only [at3] at this
    unfold l1length
    have h2 := abs_nonneg (p.y - o.y)
    have h3 := abs_nonneg (p.z - o.z)
    have h4 : 0 < |p.x - o.x| := lt_of_lt_of_le (by norm_num) this
    linarith
  -- the step is longer than two tolerances along every axis
  have hstep : ∀ i, 2 * fusedTol X N ≤ |lam * (at3 p i - at3 o i) / s| := by
    intro i
    have h1 := apart_at hd2 i
    rw [abs_div, abs_of_pos hs0, le_div_iff₀ hs0, abs_mul, abs_of_pos l0]
    have h2 := mul_le_mul_of_nonneg_left h1 hT0.le
    have e : T * (3 * fusedTol X N * s / T * l1length o p) = 3 * (fusedTol X N * s) * l1length o p := by
      field_simp
    rw [e] at h2
    have h3 := mul_le_mul_of_nonneg_right l1 (abs_nonneg (at3 p i - at3 o i))
    have h4 : 3 * (fusedTol X N * s) * l1length o p ≤ 1001 / 1000 * (lam * |at3 p i - at3 o i|) * l1length o p := by linarith
    have h5 := le_of_mul_le_mul_right h4 hL0
    have h6 : 0 ≤ fusedTol X N * s := mul_nonneg (le_trans (by norm_num) hm0) hs0.le
    linarith
  have hlen : ∀ i, 2 * fusedTol X N ≤ |(at3 p i - at3 o i) / s| := by
    intro i
    have h1 := apart_at hd1 i
    rw [abs_div, abs_of_pos hs0, le_div_iff₀ hs0]
    exact h1
  have hε : 8 * u * (X - 1) ≤ X / 2 ^ 21 := by
    rw [u_eq]
    norm_num
    linarith
  have hε1 : X / 2 ^ 21 ≤ 1 / 2 := by
    norm_num at *
    linarith
  have da' := fun i => (da i).trans hε
  have db' := fun i => (db i).trans hε
  have hps : ∀ i, |(at3 p i + lam * (at3 p i - at3 o i)) / s| ≤ X - 1 ∧ |exactStart P.carving lam s (at3 o i) (at3 p i)| ≤ X - 1 := by
    intro i
    have h1 := coords_at hp i
    have h2 := coords_at ho i
    have h3 := l2 i
    constructor
    · rw [abs_div, abs_of_pos hs0, div_le_iff₀ hs0]
      refine (abs_add_le _ _).trans ?_
      linarith
    · unfold exactStart
      split_ifs
      · rw [abs_div, abs_of_pos hs0, div_le_iff₀ hs0]
        exact h2
      · rw [abs_div, abs_of_pos hs0, div_le_iff₀ hs0]
        refine (abs_sub _ _).trans ?_
        linarith
  have ha : CoordsWithin X a := within_of_at fun i => by
    have h1 := abs_add_le (at3 a i - exactStart P.carving lam s (at3 o i) (at3 p i)) (exactStart P.carving lam s (at3 o i) (at3 p i))
    rw [sub_add_cancel] at h1
    have := da' i
    have := (hps i).2
    linarith
  have hb : CoordsWithin X b := within_of_at fun i => by
    have h1 := abs_add_le (at3 b i - (at3 p i + lam * (at3 p i - at3 o i)) / s) ((at3 p i + lam * (at3 p i - at3 o i)) / s)
    rw [sub_add_cancel] at h1
    have := db' i
    have := (hps i).1
    linarith
  -- the parameter of the measured point
  obtain ⟨t, ht0, ht1, hpt, htd1, htd2, hBA⟩ : ∃ t : ℚ, 0 ≤ t ∧ t ≤ 1 ∧
      (∀ i, at3 p i / s = exactStart P.carving lam s (at3 o i) (at3 p i) + t * ((at3 p i + lam * (at3 p i - at3 o i)) / s - exactStart P.carving lam s (at3 o i) (at3 p i))) ∧
      (∀ i, 2 * fusedTol X N ≤ |(at3 p i + lam * (at3 p i - at3 o i)) / s - exactStart P.carving lam s (at3 o i) (at3 p i)| * (1 - t)) ∧
      (∀ i, 2 * fusedTol X N ≤ |(at3 p i + lam * (at3 p i - at3 o i)) / s - exactStart P.carving lam s (at3 o i) (at3 p i)| * t) ∧
      (∀ i, |(at3 p i + lam * (at3 p i - at3 o i)) / s - exactStart P.carving lam s (at3 o i) (at3 p i)| ≤
        (if P.carving then |at3 p i - at3 o i| + 101 / 100 * T else 202 / 100 * T) / s) := by
    cases P.carving with
    | true =>
      have hne : (1 + lam) ≠ 0 := by positivity
      have hpos : 0 < 1 + lam := by positivity
      refine ⟨1 / (1 + lam), by positivity, by rw [div_le_one hpos]; linarith, ?_, ?_, ?_, ?_⟩
      · intro i
        simp only [exactStart, if_true]
        field_simp
        ring
      · intro i
        refine (hstep i).trans (le_of_eq ?_)
        simp only [exactStart, if_true]
        have e : 1 - 1 / (1 + lam) = lam / (1 + lam) := by
          field_simp
          ring
        rw [e]
        conv_rhs => rw [← abs_of_pos (div_pos l0 hpos), ← abs_mul]
        congr 1
        field_simp
        ring
      · intro i
        refine (hlen i).trans (le_of_eq ?_)
        simp only [exactStart, if_true]
        have hq : 0 < 1 / (1 + lam) := by positivity
        conv_rhs => rw [← abs_of_pos hq, ← abs_mul]
        congr 1
        field_simp
        ring
      · intro i
        simp only [exactStart, if_true]
        rw [← sub_div, abs_div, abs_of_pos hs0]
        refine div_le_div_of_nonneg_right ?_ hs0.le
        have e : at3 p i + lam * (at3 p i - at3 o i) - at3 o i = (at3 p i - at3 o i) + lam * (at3 p i - at3 o i) := by ring
        rw [e]
        exact (abs_add_le _ _).trans (add_le_add le_rfl (l2 i))
    | false =>
      refine ⟨1 / 2, by norm_num, by norm_num, ?_, ?_, ?_, ?_⟩
      · intro i
        simp only [exactStart, Bool.false_eq_true, if_false]
        field_simp
        ring
      · intro i
        refine (hstep i).trans (le_of_eq ?_)
        simp only [exactStart, Bool.false_eq_true, if_false]
        have e : (1 : ℚ) - 1 / 2 = |1 / 2| := by rw [abs_of_pos (by norm_num)]; norm_num
        rw [e, ← abs_mul]
        congr 1
        field_simp
        ring
      · intro i
        refine (hstep i).trans (le_of_eq ?_)
        simp only [exactStart, Bool.false_eq_true, if_false]
        have e : (1 : ℚ) / 2 = |1 / 2| := by rw [abs_of_pos (by norm_num)]
        conv_rhs => rw [e, ← abs_mul]
        congr 1
        field_simp
        ring
      · intro i
        simp only [exactStart, Bool.false_eq_true, if_false]
        rw [← sub_div, abs_div, abs_of_pos hs0]
        refine div_le_div_of_nonneg_right ?_ hs0.le
        have e : at3 p i + lam * (at3 p i - at3 o i) - (at3 p i - lam * (at3 p i - at3 o i)) = 2 * (lam * (at3 p i - at3 o i)) := by ring
        rw [e, abs_mul, abs_of_pos (by norm_num : (0 : ℚ) < 2)]
        have := l2 i
        linarith
  have hNab : l1length a b + 4 ≤ N := by
    have h1 : ∀ i, |at3 b i - at3 a i| ≤ (if P.carving then |at3 p i - at3 o i| + 101 / 100 * T else 202 / 100 * T) / s + 1 := by
      intro i
      have h2 := abs_add_three (at3 b i - (at3 p i + lam * (at3 p i - at3 o i)) / s)
        ((at3 p i + lam * (at3 p i - at3 o i)) / s - exactStart P.carving lam s (at3 o i) (at3 p i)) (exactStart P.carving lam s (at3 o i) (at3 p i) - at3 a i)
      have e : at3 b i - (at3 p i + lam * (at3 p i - at3 o i)) / s +
        ((at3 p i + lam * (at3 p i - at3 o i)) / s - exactStart P.carving lam s (at3 o i) (at3 p i)) + (exactStart P.carving lam s (at3 o i) (at3 p i) - at3 a i) =
          at3 b i - at3 a i := by ring
      rw [e, abs_sub_comm (exactStart _ _ _ _ _)] at h2
      have := da' i
      have := db' i
      have := hBA i
      linarith
    have h2 := l1length_le h1
    refine le_trans ?_ hN
    have hTs : 0 < T / s := div_pos hT0 hs0
    unfold rayReach
    cases hc : P.carving with
    | true =>
      rw [hc] at h2
      simp only [if_true, at3] at h2 ⊢
      unfold l1length at *
      have e : (|p.x - o.x| + |p.y - o.y| + |p.z - o.z| + 4 * T) / s = |p.x - o.x| / s + |p.y - o.y| / s + |p.z - o.z| / s + 4 * (T / s) := by ring
      have e2 : ∀ x : ℚ, (x + 101 / 100 * T) / s = x / s + 101 / 100 * (T / s) := fun x => by ring
      rw [e2, e2, e2] at h2
      rw [e]
      linarith
    | false =>
      rw [hc] at h2
      simp only [Bool.false_eq_true, if_false] at h2 ⊢
      have e : 7 * T / s = 7 * (T / s) := by ring
      have e2 : 202 / 100 * T / s = 202 / 100 * (T / s) := by ring
      rw [e2] at h2
      rw [e]
      linarith
  have hε0 : 0 ≤ X / 2 ^ 21 := by positivity
  have hpe : ∀ i, at3 (p.map (· / s)) i = at3 p i / s := fun i => at3_map p _ i
  unfold TsdfScan.rayVoxels
  simp only
  rw [ea, eb]
  cases fromOrigin with
  | true =>
    exact cover_point ha hb hX hNab hN2 hε0 da' db' ht0 ht1 (fun i => by rw [hpe i]; exact hpt i) hv htd1
  | false =>
    refine cover_point (t := 1 - t) hb ha hX (by rw [l1length_comm]; exact hNab) hN2 hε0 db' da' (by linarith) (by linarith) (fun i => ?_) hv (fun i => ?_)
    · rw [hpe i, hpt i]
      ring
    · rw [abs_sub_comm, sub_sub_cancel]
      exact htd2 i

end Vox.RayEnds
